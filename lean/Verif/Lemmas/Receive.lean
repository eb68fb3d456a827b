import Verif.Lemmas.Manager
import Verif.Props.Decoding

/-!
# Effects of `receiveData` and of the main loop
-/

namespace Libsnmp
open Spec

/-- The class of the Message object that decodes (v1.py:178, v2.py:156, snmpmanager.py:268). -/
def msgCls : Kind → SeqCls
  | .v1 => .message
  | _ => .message2

theorem msgDecode_parts {reg : Reg} {c : SeqCls} {data : Val} {m : Msg} (h : msgDecode reg c data = .ok m) :
    ∃ s o, data = .str s ∧ decode reg (.str s) = .ok [o] ∧ o.getItem 0 = .ok m.version ∧ o.getItem 1 = .ok m.community ∧
      o.getItem 2 = .ok m.data ∧ m.cls = c := by
  cases data with
  | str s =>
    unfold msgDecode at h
    obtain ⟨l, hl, h2⟩ := bind_ok h
    match l, h2, hl with
    | [], h3, _ => simp at h3
    | _ :: _ :: _, h3, _ => simp at h3
    | [o], h3, hl =>
      simp only at h3
      obtain ⟨n, hn, h4⟩ := bind_ok h3
      split at h4
      · simp at h4
      · obtain ⟨a, ha, h5⟩ := bind_ok h4
        obtain ⟨b, hb, h6⟩ := bind_ok h5
        obtain ⟨d, hd, h7⟩ := bind_ok h6
        cases h7
        exact ⟨s, o, rfl, hl, ha, hb, hd, rfl⟩
  | _ =>
    unfold msgDecode at h
    obtain ⟨l, hl, h2⟩ := bind_ok h
    simp [decode] at hl

theorem isInstance_seq {v : Val} {d : SeqCls} (h : v.isInstance (.seq d) = true) :
    ∃ c items, v = .seq c items ∧ (Cls.seq c).isSubclass (.seq d) = true := by
  unfold Val.isInstance at h
  cases v with
  | seq c items => exact ⟨c, items, rfl, h⟩
  | integer c n => exfalso; revert h; simp only [Val.cls?]; cases c <;> cases d <;> decide
  | octets c n => exfalso; revert h; simp only [Val.cls?]; cases c <;> cases d <;> decide
  | raw c n => exfalso; revert h; simp only [Val.cls?]; cases c <;> cases d <;> decide
  | oid v => exfalso; revert h; simp only [Val.cls?]; cases d <;> decide
  | null c => exfalso; revert h; simp only [Val.cls?]; cases c <;> cases d <;> decide
  | _ => simp [Val.cls?] at h

/-- A PDU found in a decoded message has an Integer as its request ID. -/
theorem decoded_pdu {reg : Reg} {c : SeqCls} {data : Val} {m : Msg} (h : msgDecode reg c data = .ok m)
    (hp : m.data.isInstance (.seq .pdu) = true) :
    ∃ pc ci n rest, m.data = .seq pc (.integer ci n :: rest) ∧ (Cls.seq pc).isSubclass (.seq .pdu) = true := by
  obtain ⟨s, o, rfl, hd, h0, h1, h2, _⟩ := msgDecode_parts h
  obtain ⟨pc, items, he, hs⟩ := isInstance_seq hp
  rw [he] at h2
  cases o with
  | seq co oitems =>
    have hmem : Val.seq pc items ∈ oitems := by
      simp only [Val.getItem] at h2
      split at h2
      · next x hx => cases h2; exact List.mem_of_getElem? hx
      · simp at h2
    have hw := (C28_decoded_pdus_wellformed reg s _ hd _ (List.mem_singleton.mpr rfl) _
      (.step hmem (.refl _)) pc rfl).1 ((pdu_classes_iff pc).mpr (.inl hs))
    obtain ⟨r, e, i, vbs, ⟨c1, c2, c3, cl, _, hw⟩, _⟩ := hw
    rw [hw] at he
    exact ⟨pc, c1, r, _, he, hs⟩
  | oid v =>
    cases v with
    | none => simp [Val.getItem] at h2
    | some ids =>
      simp only [Val.getItem] at h2
      split at h2 <;> cases h2
  | str v =>
    simp only [Val.getItem] at h2
    split at h2 <;> cases h2
  | bytes v =>
    simp only [Val.getItem] at h2
    split at h2 <;> cases h2
  | _ => simp [Val.getItem] at h2

theorem pdu_not_trap {v : Val} (h : v.isInstance (.seq .trapPDU) = true) : v.isInstance (.seq .pdu) = false := by
  obtain ⟨c, items, rfl, hc⟩ := isInstance_seq h
  simp only [Val.isInstance, Val.cls?]
  cases c <;> revert hc <;> decide

theorem pdu2_is_pdu {v : Val} (h : v.isInstance (.seq .pdu2) = true) : v.isInstance (.seq .pdu) = true := by
  obtain ⟨c, items, rfl, hc⟩ := isInstance_seq h
  simp only [Val.isInstance, Val.cls?]
  cases c <;> revert hc <;> decide

theorem answers_trap (k : Kind) (m : Msg) (h : m.data.isInstance (.seq .trapPDU) = true) : answers k m = none := by
  obtain ⟨c, items, he, hc⟩ := isInstance_seq h
  have hc' : c = .trapPDU := (trap_class_iff c).mpr hc
  subst hc'
  have e : (Cls.seq .trapPDU).isSubclass (.seq (answerCls k m)) = false := by
    unfold answerCls; split <;> decide
  unfold answers
  rw [he]
  split
  · next h => cases h; rw [e]; rfl
  · rfl

theorem answers_of_pdu {k : Kind} {m : Msg} {pc : SeqCls} {ci : IntCls} {n : Int} {rest : List Val}
    (he : m.data = .seq pc (.integer ci n :: rest)) (hc : m.data.isInstance (.seq (answerCls k m)) = true) :
    answers k m = some n := by
  unfold answers
  rw [he] at hc ⊢
  simp only [Val.isInstance, Val.cls?] at hc
  simp [hc]

theorem pyEq_versionNo {m : Msg} {n : Int} (h : versionIs m.version n = .ok true) : versionNo m = some n := by
  unfold versionIs at h
  rw [pyEq] at h
  unfold versionNo
  cases hv : m.version with
  | none => rw [hv] at h; simp [Val.cls?, builtinEq] at h
  | str s => rw [hv] at h; simp [Val.cls?, builtinEq] at h
  | bytes s => rw [hv] at h; simp [Val.cls?, builtinEq] at h
  | int m => rw [hv] at h; simpa [Val.cls?, builtinEq] using h
  | integer c m => rw [hv] at h; simpa [Val.cls?, eqMethod, integerEq, Val.toInt] using h
  | _ => rw [hv] at h; simp [Val.cls?, eqMethod] at h

theorem versionIs_eq (m : Msg) (n : Int) : versionIs m.version n = .ok (decide (versionNo m = some n)) := by
  unfold versionIs versionNo
  rw [pyEq]
  cases m.version with
  | none => simp [Val.cls?, builtinEq]
  | str s => simp [Val.cls?, builtinEq]
  | bytes s => simp [Val.cls?, builtinEq]
  | int m => simp [Val.cls?, builtinEq]
  | integer c m => simp [Val.cls?, eqMethod, integerEq, Val.toInt]
  | _ => simp [Val.cls?, eqMethod]

/-- What receiving can do to the manager: nothing; run the trap callback; run a pending callback, which raises (it stays
registered) or returns (it is removed). -/
inductive RecvEffect (env : Env) {k : Kind} (user : User k) (data : Val) (s : Mgr k) : Mgr k → Prop
  | nothing : RecvEffect env user data s s
  | trap (cb : Nat) (m : Msg) (ht : env.trapCallback = some cb) (hm : msgDecode env.reg (msgCls k) data = .ok m)
      (hd : m.data.isInstance (.seq .trapPDU) = true) : RecvEffect env user data s (invoke user cb (some m) s).2
  | raised (cb : Nat) (m : Msg) (n : Int) (e : Exc) (hm : msgDecode env.reg (msgCls k) data = .ok m)
      (hn : answers k m = some n) (hat : s.callbacks.at n = some cb)
      (hr : (invoke user cb (some m) s).1 = .error e) : RecvEffect env user data s (invoke user cb (some m) s).2
  | returned (cb : Nat) (m : Msg) (n : Int) (hm : msgDecode env.reg (msgCls k) data = .ok m)
      (hn : answers k m = some n) (hat : s.callbacks.at n = some cb)
      (hr : (invoke user cb (some m) s).1 = .ok ()) :
      RecvEffect env user data s { (invoke user cb (some m) s).2 with
        callbacks := (invoke user cb (some m) s).2.callbacks.erase n }

/-- User code keeps the dictionary numeric. -/
def KeepsNumeric {k : Kind} (user : User k) : Prop :=
  ∀ cb m (s : Mgr k), s.callbacks.Numeric → (user cb m s).2.callbacks.Numeric

theorem invoke_numeric {k : Kind} {user : User k} (hu : KeepsNumeric user) (cb : Nat) (m : Option Msg) {s : Mgr k}
    (hs : s.callbacks.Numeric) : (invoke user cb m s).2.callbacks.Numeric := by
  have := hu cb m (s.note (.entered cb m)) hs
  exact this

/-- The common part: look up, invoke, remove. -/
theorem dispatch_effect {k : Kind} (env : Env) {user : User k} (hu : KeepsNumeric user) {s : Mgr k}
    (hs : s.callbacks.Numeric) (data : Val) (m : Msg) (n : Int) (key : Val)
    (hm : msgDecode env.reg (msgCls k) data = .ok m) (hn : answers k m = some n) (hk : keyNum key = some n) :
    RecvEffect env user data s
      ((do let cb ← getCallback key
           invoke user cb (some m)
           delCallback key : M k Unit) s).2 := by
  simp only [M.bind_def, getCallback]
  rw [Dict.get_num hs hk]
  cases hat : s.callbacks.at n with
  | none => exact .nothing
  | some cb =>
    simp only
    cases hr : invoke user cb (some m) s with
    | mk r s' =>
      have hs' : s'.callbacks.Numeric := by
        have := invoke_numeric hu cb (some m) hs
        rwa [hr] at this
      cases r with
      | error e =>
        have := RecvEffect.raised (user := user) cb m n e hm hn hat (by rw [hr])
        rwa [hr] at this
      | ok u =>
        have := RecvEffect.returned (user := user) cb m n hm hn hat (by rw [hr])
        rw [hr] at this
        simp only [delCallback]
        rw [Dict.del_num hs' hk]
        cases hat' : s'.callbacks.at n with
        | none => rw [Dict.erase_absent hat'] at this; exact this
        | some _ => exact this

theorem trap_effect {k : Kind} (env : Env) {user : User k} {s : Mgr k} (data : Val) (m : Msg)
    (hm : msgDecode env.reg (msgCls k) data = .ok m) (hd : m.data.isInstance (.seq .trapPDU) = true) :
    RecvEffect env user data s (invokeTrap env user m s).2 := by
  unfold invokeTrap
  cases ht : env.trapCallback with
  | none => exact .nothing
  | some cb => exact .trap cb m ht hm hd

theorem v1Dispatch_effect {k : Kind} (env : Env) {user : User k} (hu : KeepsNumeric user) {s : Mgr k}
    (hs : s.callbacks.Numeric) (data : Val) (m : Msg) (hm : msgDecode env.reg (msgCls k) data = .ok m)
    (hk : k = .v1 ∨ k = .v2) : RecvEffect env user data s (v1Dispatch env user m s).2 := by
  unfold v1Dispatch
  split
  · next hp =>
    obtain ⟨pc, ci, n, rest, he, hsub⟩ := decoded_pdu hm hp
    rw [M.bind_def, M.lift_def, he]
    simp only [pduRequestID]
    rw [M.bind_def, M.lift_def]
    simp only [Val.toInt]
    refine dispatch_effect env hu hs data m n (.int n) hm ?_ rfl
    refine answers_of_pdu he ?_
    have : answerCls k m = .pdu := by rcases hk with rfl | rfl <;> rfl
    rw [this]; exact hp
  · split
    · next h => exact trap_effect env data m hm h
    · exact .nothing

/-- `receiveData` has one of the four effects. -/
theorem receive_effect (env : Env) : (k : Kind) → (user : User k) → KeepsNumeric user → (data : Val) → (s : Mgr k) →
    s.callbacks.Numeric → RecvEffect env user data s (receiveData env k user data s).2
  | .v1, user, hu, data, s, hs => by
    simp only [receiveData, v1ReceiveData, M.bind_def, M.lift_def]
    cases hm : msgDecode env.reg .message data with
    | error e => exact .nothing
    | ok m =>
      simp only
      cases h0 : versionIs m.version 0 with
      | error e => exact .nothing
      | ok b =>
        cases b with
        | true =>
          simp only [if_true]
          exact v1Dispatch_effect env hu hs data m hm (.inl rfl)
        | false => exact .nothing
  | .v2, user, hu, data, s, hs => by
    have key : RecvEffect env user data s (v2ReceiveBody env user data s).2 := by
      simp only [v2ReceiveBody, M.bind_def, M.lift_def]
      cases hm : msgDecode env.reg .message2 data with
      | error e => exact .nothing
      | ok m =>
        simp only
        cases h0 : versionIs m.version 0 with
        | error e => exact .nothing
        | ok b =>
          cases b with
          | true => exact v1Dispatch_effect env hu hs data m hm (.inr rfl)
          | false =>
            simp only [Bool.false_eq_true, if_false, M.bind_def, M.lift_def]
            cases h1 : versionIs m.version 1 with
            | error e => exact .nothing
            | ok b =>
              cases b with
              | true => exact v1Dispatch_effect env hu hs data m hm (.inr rfl)
              | false => exact .nothing
    simp only [receiveData, v2ReceiveData]
    cases hb : v2ReceiveBody env user data s with
    | mk r s' =>
      rw [hb] at key
      cases r with
      | ok u => exact key
      | error e =>
        simp only
        split <;> exact key
  | .sm, user, hu, data, s, hs => by
    simp only [receiveData, smReceiveData, M.bind_def, M.lift_def]
    cases hm : msgDecode env.reg .message2 data with
    | error e => exact .nothing
    | ok m =>
      simp only
      cases h0 : versionIs m.version 0 with
      | error e => exact .nothing
      | ok b =>
        cases b with
        | true =>
          simp only [if_true, smHandleV1Message]
          split
          · next hp =>
            obtain ⟨pc, ci, n, rest, he, hsub⟩ := decoded_pdu hm hp
            rw [M.bind_def, M.lift_def, he]
            simp only [pduRequestID]
            refine dispatch_effect env hu hs data m n (.integer ci n) hm ?_ rfl
            refine answers_of_pdu he ?_
            have : answerCls .sm m = .pdu := by simp [answerCls, pyEq_versionNo h0]
            rw [this]; exact hp
          · split
            · next h => exact trap_effect env data m hm h
            · exact .nothing
        | false =>
          simp only [Bool.false_eq_true, if_false, M.bind_def, M.lift_def]
          cases h1 : versionIs m.version 1 with
          | error e => exact .nothing
          | ok b =>
            cases b with
            | false => exact .nothing
            | true =>
              simp only [if_true, smHandleV2Message]
              split
              · next hp =>
                obtain ⟨pc, ci, n, rest, he, hsub⟩ := decoded_pdu hm (pdu2_is_pdu hp)
                rw [M.bind_def, M.lift_def, he]
                simp only [pduRequestID]
                refine dispatch_effect env hu hs data m n (.integer ci n) hm ?_ rfl
                refine answers_of_pdu he ?_
                have : answerCls .sm m = .pdu2 := by simp [answerCls, pyEq_versionNo h1]
                rw [this]; exact hp
              · exact .nothing

end Libsnmp
