import Verif.Lemmas.Stable

/-!
# `receiveData` as one equation
-/

namespace Libsnmp
open Spec

/-- `receiveData` before the `except` clause of v2.py:184-190 (the other classes re-raise). -/
def receiveRaw (env : Env) : (k : Kind) → User k → Val → M k Unit
  | .v1 => v1ReceiveData env
  | .v2 => v2ReceiveBody env
  | .sm => smReceiveData env

/-- Invoke the callback of the pending request `n`, then remove it if the callback returned normally (KeyError if the
callback itself saw to its removal). -/
def deliver {k : Kind} (user : User k) (cb : Nat) (m : Msg) (n : Int) (s : Mgr k) : Except Exc Unit × Mgr k :=
  match invoke user cb (some m) s with
  | (.error e, s') => (.error e, s')
  | (.ok (), s') =>
    match s'.callbacks.at n with
    | none => (.error .keyError, s')
    | some _ => (.ok (), { s' with callbacks := s'.callbacks.erase n })

theorem deliver_eq {k : Kind} {user : User k} (hu : KeepsNumeric user) {s : Mgr k} (hs : s.callbacks.Numeric)
    (m : Msg) (n : Int) (key : Val) (hk : keyNum key = some n) :
    (do let cb ← getCallback key
        invoke user cb (some m)
        delCallback key : M k Unit) s =
      match s.callbacks.at n with
      | none => (.error .keyError, s)
      | some cb => deliver user cb m n s := by
  simp only [M.bind_def, getCallback]
  rw [Dict.get_num hs hk]
  cases hat : s.callbacks.at n with
  | none => rfl
  | some cb =>
    simp only [deliver]
    cases hr : invoke user cb (some m) s with
    | mk r s' =>
      have hs' : s'.callbacks.Numeric := by
        have := invoke_numeric hu cb (some m) hs
        rwa [hr] at this
      cases r with
      | error e => rfl
      | ok u =>
        simp only [delCallback]
        rw [Dict.del_num hs' hk]
        cases s'.callbacks.at n <;> rfl

/-- What happens with a message of an accepted version. -/
def dispatched (env : Env) {k : Kind} (user : User k) (m : Msg) (s : Mgr k) : Except Exc Unit × Mgr k :=
  match answers k m with
  | some n => match s.callbacks.at n with
    | none => (.error .keyError, s)
    | some cb => deliver user cb m n s
  | none =>
    if isTrap k m then match env.trapCallback with
      | none => (.error .typeError, s)
      | some cb => invoke user cb (some m) s
    else if k = .sm ∧ versionNo m = some 1 then (.error .attributeError, s)
    else (.ok (), s)

theorem answers_none {k : Kind} {m : Msg} (h : m.data.isInstance (.seq (answerCls k m)) = false) : answers k m = none := by
  unfold answers
  split
  · next c ci n rest he =>
    rw [he] at h
    simp only [Val.isInstance, Val.cls?] at h
    simp [h]
  · rfl

theorem invokeTrap_eq {k : Kind} (env : Env) (user : User k) (m : Msg) (s : Mgr k) :
    invokeTrap env user m s = match env.trapCallback with
      | none => (.error .typeError, s)
      | some cb => invoke user cb (some m) s := by
  unfold invokeTrap
  cases env.trapCallback <;> rfl

theorem v1Dispatch_eq {k : Kind} (hk : k = .v1 ∨ k = .v2) (env : Env) {user : User k} (hu : KeepsNumeric user) {s : Mgr k}
    (hs : s.callbacks.Numeric) (data : Val) (m : Msg) (hm : msgDecode env.reg (msgCls k) data = .ok m) :
    v1Dispatch env user m s = dispatched env user m s := by
  have hksm : ¬ (k = .sm ∧ versionNo m = some 1) := by rcases hk with rfl | rfl <;> simp
  have hac : answerCls k m = .pdu := by rcases hk with rfl | rfl <;> rfl
  unfold v1Dispatch dispatched
  by_cases hp : m.data.isInstance (.seq .pdu) = true
  · obtain ⟨pc, ci, n, rest, he, hsub⟩ := decoded_pdu hm hp
    have ha : answers k m = some n := answers_of_pdu he (by rw [hac]; exact hp)
    rw [if_pos hp, ha, M.bind_def, M.lift_def, he]
    simp only [pduRequestID]
    rw [M.bind_def, M.lift_def]
    simp only [Val.toInt]
    exact deliver_eq hu hs m n (.int n) rfl
  · have ha : answers k m = none := answers_none (by rw [hac]; simpa using hp)
    rw [if_neg hp, ha]
    simp only [isTrap, hksm, not_false_eq_true, and_true, if_false]
    by_cases ht : m.data.isInstance (.seq .trapPDU) = true
    · rw [if_pos ht, if_pos ht]; exact invokeTrap_eq env user m s
    · rw [if_neg ht, if_neg ht]; rfl

/-- `receiveData`, as one equation. -/
theorem receive_eq (env : Env) : (k : Kind) → (user : User k) → KeepsNumeric user → (data : Val) → (s : Mgr k) →
    s.callbacks.Numeric → receiveRaw env k user data s =
      match msgDecode env.reg (msgCls k) data with
      | .error e => (.error e, s)
      | .ok m => if accepts k m then dispatched env user m s else (.error (unknownVersion m.version), s)
  | .v1, user, hu, data, s, hs => by
    simp only [receiveRaw, v1ReceiveData, M.bind_def, M.lift_def, msgCls]
    cases hm : msgDecode env.reg .message data with
    | error e => rfl
    | ok m =>
      simp only [versionIs_eq]
      have : accepts .v1 m ↔ versionNo m = some 0 := by simp [accepts]
      by_cases h0 : versionNo m = some 0
      · simp only [h0, decide_true, if_true, this]
        exact v1Dispatch_eq (.inl rfl) env hu hs data m hm
      · simp [h0, this, M.throw_def]
  | .v2, user, hu, data, s, hs => by
    simp only [receiveRaw, v2ReceiveBody, M.bind_def, M.lift_def, msgCls]
    cases hm : msgDecode env.reg .message2 data with
    | error e => rfl
    | ok m =>
      simp only [versionIs_eq]
      have : accepts .v2 m ↔ versionNo m = some 0 ∨ versionNo m = some 1 := by simp [accepts]
      by_cases h0 : versionNo m = some 0
      · simp only [h0, decide_true, if_true, this, true_or]
        exact v1Dispatch_eq (.inr rfl) env hu hs data m hm
      · by_cases h1 : versionNo m = some 1
        · have h01 : (some (1 : Int) = some 0) = False := by simp
          simp only [h1, h01, decide_false, Bool.false_eq_true, if_false, decide_true, if_true, this, or_true, M.bind_def,
            M.lift_def, versionIs_eq]
          exact v1Dispatch_eq (.inr rfl) env hu hs data m hm
        · simp [h0, h1, this, M.throw_def, M.bind_def, M.lift_def, versionIs_eq]
  | .sm, user, hu, data, s, hs => by
    simp only [receiveRaw, smReceiveData, M.bind_def, M.lift_def, msgCls]
    cases hm : msgDecode env.reg .message2 data with
    | error e => rfl
    | ok m =>
      simp only [versionIs_eq]
      have : accepts .sm m ↔ versionNo m = some 0 ∨ versionNo m = some 1 := by simp [accepts]
      by_cases h0 : versionNo m = some 0
      · simp only [h0, decide_true, if_true, this, true_or]
        have hac : answerCls .sm m = .pdu := by simp [answerCls, h0]
        have h01 : ¬ (some (0 : Int) = some 1) := by simp
        unfold smHandleV1Message dispatched
        by_cases hp : m.data.isInstance (.seq .pdu) = true
        · obtain ⟨pc, ci, n, rest, he, hsub⟩ := decoded_pdu hm hp
          have ha : answers .sm m = some n := answers_of_pdu he (by rw [hac]; exact hp)
          rw [if_pos hp, ha, M.bind_def, M.lift_def, he]
          simp only [pduRequestID]
          exact deliver_eq hu hs m n (.integer ci n) rfl
        · have ha : answers .sm m = none := answers_none (by rw [hac]; simpa using hp)
          rw [if_neg hp, ha]
          simp only [isTrap, h0, h01, and_false, not_false_eq_true, and_true, if_false]
          by_cases ht : m.data.isInstance (.seq .trapPDU) = true
          · rw [if_pos ht, if_pos ht]; exact invokeTrap_eq env user m s
          · rw [if_neg ht, if_neg ht]; rfl
      · by_cases h1 : versionNo m = some 1
        · have h01 : (some (1 : Int) = some 0) = False := by simp
          simp only [h1, h01, decide_false, Bool.false_eq_true, if_false, decide_true, if_true, this, or_true, M.bind_def,
            M.lift_def, versionIs_eq]
          have hac : answerCls .sm m = .pdu2 := by simp [answerCls, h1]
          unfold smHandleV2Message dispatched
          by_cases hp : m.data.isInstance (.seq .pdu2) = true
          · obtain ⟨pc, ci, n, rest, he, hsub⟩ := decoded_pdu hm (pdu2_is_pdu hp)
            have ha : answers .sm m = some n := answers_of_pdu he (by rw [hac]; exact hp)
            rw [if_pos hp, ha, M.bind_def, M.lift_def, he]
            simp only [pduRequestID]
            exact deliver_eq hu hs m n (.integer ci n) rfl
          · have ha : answers .sm m = none := answers_none (by rw [hac]; simpa using hp)
            rw [if_neg hp, ha]
            simp [isTrap, h1, M.throw_def]
        · simp [h0, h1, this, M.throw_def, M.bind_def, M.lift_def, versionIs_eq]

/-- `receiveData` is `receiveRaw`, except that the SNMPv2 class swallows exceptions. -/
theorem receive_raw (env : Env) (k : Kind) (user : User k) (data : Val) (s : Mgr k) :
    receiveData env k user data s = match k, receiveRaw env k user data s with
      | .v2, (.error e, s') => if e.isException then (.ok (), s') else (.error e, s')
      | _, q => q := by
  cases k with
  | v1 => rfl
  | sm => rfl
  | v2 =>
    simp only [receiveData, v2ReceiveData, receiveRaw]
    cases v2ReceiveBody env user data s with
    | mk r s' => cases r <;> rfl

end Libsnmp
