import Verif.Lemmas.Manager

/-!
# When exactly a request call succeeds
-/

namespace Libsnmp
open Spec

/-- Outcome `q` of a call whose arguments are acceptable if `P`, with IDs up to `b`. -/
def Outcome (P : Prop) (b : Nat) (id : Nat) {k : Kind} (q : Except Exc Val × Mgr k) : Prop :=
  (P → id ≤ b → ∃ v, q.1 = .ok v) ∧ (P → b < id → q.1 = .error .valueError) ∧ (¬ P → ∃ e, q.1 = .error e)

theorem Outcome.bad {P : Prop} {b id : Nat} {k : Kind} {q : Except Exc Val × Mgr k} (h : ¬ P) {e : Exc}
    (he : q.1 = .error e) : Outcome P b id q := ⟨fun p => absurd p h, fun p => absurd p h, fun _ => ⟨e, he⟩⟩

theorem Outcome.fine {P : Prop} {b id : Nat} {k : Kind} {q : Except Exc Val × Mgr k} (h : P) (hb : id ≤ b) {v : Val}
    (he : q.1 = .ok v) : Outcome P b id q := ⟨fun _ _ => ⟨v, he⟩, fun _ h' => by omega, fun n => absurd h n⟩

theorem Outcome.over {P : Prop} {b id : Nat} {k : Kind} {q : Except Exc Val × Mgr k} (h : P) (hb : ¬ id ≤ b)
    (he : q.1 = .error .valueError) : Outcome P b id q := ⟨fun _ h' => by omega, fun _ _ => he, fun n => absurd h n⟩

theorem allVarBinds_iff (vbs : List Val) : allVarBinds vbs = true ↔ ∀ vb ∈ vbs, vb.isInstance (.seq .varBind) = true := by
  unfold allVarBinds; simp

theorem v1Enqueue_ok {k : Kind} (m : Msg) (remote cb : Nat) (s : Mgr k) (c : SeqCls) (ci : IntCls) (id : Int)
    (rest : List Val) (hm : m.data = .seq c (.integer ci id :: rest)) :
    (v1Enqueue m remote cb s).1 = .ok (.integer ci id) := by
  obtain ⟨d', _, h⟩ := v1Enqueue_def m remote cb s c ci id rest hm
  rw [h]

theorem smEnqueue_ok (m : Msg) (remote cb : Nat) (s : Mgr .sm) (c : SeqCls) (ci : IntCls) (id : Int)
    (rest : List Val) (hm : m.data = .seq c (.integer ci id :: rest)) :
    (smEnqueue (some m) remote cb s).1 = .ok (.integer ci id) := by
  obtain ⟨d', _, h⟩ := smEnqueue_def m remote cb s c ci id rest hm
  rw [h]

theorem v1Pdu_outcome (env : Env) (vbs : List Val) (remote cb : Nat) (com : Str) (s : Mgr .v1) (P : Prop)
    (hP : P ↔ allVarBinds vbs = true) :
    Outcome P 2147483647 s.nextRequestID ((do
      let reqID ← assignRequestID
      let pdu ← M.lift (mkPDU .getNext reqID 0 0 vbs)
      let msg ← M.lift (mkMessage .message 0 com pdu)
      v1Enqueue msg remote cb : M .v1 Val) s) := by
  simp only [M.bind_def, M.lift_def, assign_def, mkPDU_v1 .getNext (.inr (.inl rfl))]
  by_cases ha : allVarBinds vbs = true
  · by_cases hid : s.nextRequestID ≤ 2147483647
    · simp only [hid, ha, and_self, if_true, mkMessage_01 _ 0 (.inl rfl)]
      exact .fine (hP.mpr ha) hid (v1Enqueue_ok _ _ _ _ _ _ _ _ rfl)
    · simp only [hid, false_and, if_false]
      exact .over (hP.mpr ha) hid rfl
  · simp only [ha, Bool.false_eq_true, and_false, if_false]
    exact .bad (fun h => ha (hP.mp h)) rfl

theorem v1Get_outcome (env : Env) (oid : Arg) (remote cb : Nat) (com : Str) (s : Mgr .v1) :
    Outcome (∃ v, mkOid oid = .ok v) 2147483647 s.nextRequestID (v1SnmpGet oid remote cb com s) := by
  unfold v1SnmpGet v1CreateGetRequestMessage v1CreateGetRequestPDU
  simp only [M.bind_def, M.lift_def]
  cases h : mkOid oid with
  | error e => exact .bad (by simp) rfl
  | ok v =>
    have hall : allVarBinds [.seq .varBind [.oid v, .null .null]] = true := by
      simp [allVarBinds, vb_instance .varBind (.inl rfl)]
    simp only [mkVarBind_query _ _ _ null_instance, mkVarBindList1, hall, if_true, Val.iter, assign_def,
      mkPDU_v1 .get (.inl rfl), and_true]
    by_cases hid : s.nextRequestID ≤ 2147483647
    · simp only [hid, if_true, mkMessage_01 _ 0 (.inl rfl)]
      exact .fine ⟨v, rfl⟩ hid (v1Enqueue_ok _ _ _ _ _ _ _ _ rfl)
    · simp only [hid, if_false]
      exact .over ⟨v, rfl⟩ hid rfl

theorem v2Varbinds_iff (oids : List Arg) :
    ((∃ vbs, v2Varbinds oids = .ok vbs) ↔ ∀ oid ∈ oids, ∃ v, mkOid oid = .ok v) ∧
    ∀ vbs, v2Varbinds oids = .ok vbs → vbs.length = oids.length := by
  induction oids with
  | nil => simp [v2Varbinds]
  | cons o os ih =>
    simp only [v2Varbinds, List.forall_mem_cons]
    cases h : mkOid o with
    | error e => simp [bind, Except.bind]
    | ok v =>
      simp only [bind, Except.bind, mkVarBind_query _ _ _ null_instance]
      cases h2 : v2Varbinds os with
      | error e =>
        rw [h2] at ih
        simpa using ih.1
      | ok vbs =>
        rw [h2] at ih
        have := ih.1.mp ⟨vbs, rfl⟩
        have h3 := ih.2 vbs rfl
        refine ⟨⟨fun _ => ⟨⟨v, rfl⟩, this⟩, fun _ => ⟨_, rfl⟩⟩, ?_⟩
        intro l hl
        cases hl
        simp [h3]

theorem v2Get_outcome (env : Env) (oids : List Arg) (remote cb : Nat) (com : Str) (s : Mgr .v2) :
    Outcome ((∀ oid ∈ oids, ∃ v, mkOid oid = .ok v) ∧ oids.length ≤ 2147483647) 2147483648 s.nextRequestID
      (v2SnmpGet oids remote cb com s) := by
  obtain ⟨h1, h2⟩ := v2Varbinds_iff oids
  unfold v2SnmpGet v2CreateGetRequestMessage v2CreateGetRequestPDU
  simp only [M.bind_def, M.lift_def]
  cases h : v2Varbinds oids with
  | error e =>
    refine .bad (fun hP => ?_) rfl
    obtain ⟨vbs, hv⟩ := h1.mpr hP.1
    rw [h] at hv; cases hv
  | ok vbs =>
    obtain ⟨hq, hall⟩ := v2Varbinds_ok h
    have hlen := h2 vbs h
    have hok := h1.mp ⟨vbs, h⟩
    simp only [mkVarBindList2', hall, and_true]
    by_cases hl : vbs.length ≤ 2147483647
    · simp only [hl, if_true, Val.iter, assign_def, mkPDU_v2 .get2 (.inl rfl), hall, and_true]
      by_cases hid : s.nextRequestID ≤ 2147483648
      · simp only [hid, if_true, mkMessage_01 _ 1 (.inr rfl)]
        exact .fine ⟨hok, by omega⟩ hid (v1Enqueue_ok _ _ _ _ _ _ _ _ rfl)
      · simp only [hid, if_false]
        exact .over ⟨hok, by omega⟩ hid rfl
    · simp only [hl, if_false]
      exact .bad (fun hP => hl (by omega)) rfl

theorem smGet_outcome (env : Env) (oid : Arg) (remote cb : Nat) (com : Str) (version : Int) (s : Mgr .sm) :
    Outcome ((version = 1 ∨ version = 2) ∧ ∃ v, mkOid oid = .ok v)
      (if version = 2 then 2147483648 else 2147483647) s.nextRequestID (smSnmpGet oid remote cb com version s) := by
  unfold smSnmpGet smCreateGetRequestMessage
  rw [M.bind_def]
  have h21 : ¬ (2 : Int) = 1 := by decide
  have h12 : ¬ (1 : Int) = 2 := by decide
  by_cases h1 : version = 1
  · subst h1
    simp only [if_true, h12, if_false, M.bind_def, M.lift_def, smCreatePDU]
    cases h : mkOid oid with
    | error e => exact .bad (by simp) rfl
    | ok v =>
      have hall : allVarBinds [.seq .varBind [.oid v, .null .null]] = true := by
        simp [allVarBinds, vb_instance .varBind (.inl rfl)]
      simp only [mkVarBind_query _ _ _ null_instance, mkVarBindList1, hall, if_true, Val.iter, assign_def,
        mkPDU_v1 .get (.inl rfl), and_true, M.lift_def]
      by_cases hid : s.nextRequestID ≤ 2147483647
      · simp only [hid, if_true, mkMessage_01 _ 0 (.inl rfl)]
        exact .fine ⟨.inl trivial, v, rfl⟩ hid (smEnqueue_ok _ _ _ _ _ _ _ _ rfl)
      · simp only [hid, if_false]
        exact .over ⟨.inl trivial, v, rfl⟩ hid rfl
  · by_cases h2 : version = 2
    · subst h2
      simp only [h1, if_false, if_true, M.bind_def, M.lift_def, smCreatePDU]
      cases h : mkOid oid with
      | error e => exact .bad (by simp) rfl
      | ok v =>
        have hall : allVarBinds [.seq .varBind2 [.oid v, .null .null]] = true := by
          simp [allVarBinds, vb_instance .varBind2 (.inr rfl)]
        have hlen : [Val.seq .varBind2 [.oid v, .null .null]].length ≤ 2147483647 := by simp
        simp only [mkVarBind_query _ _ _ null_instance, mkVarBindList2', hall, hlen, and_self, if_true, Val.iter, assign_def,
          mkPDU_v2 .get2 (.inl rfl), and_true, M.lift_def, h1, if_false]
        by_cases hid : s.nextRequestID ≤ 2147483648
        · simp only [hid, if_true, mkMessage_01 _ 1 (.inr rfl)]
          exact .fine ⟨.inr trivial, v, rfl⟩ hid (smEnqueue_ok _ _ _ _ _ _ _ _ rfl)
        · simp only [hid, if_false]
          exact .over ⟨.inr trivial, v, rfl⟩ hid rfl
    · simp only [h1, h2, if_false]
      exact .bad (by simp [h1, h2]) rfl

theorem smGetNext_outcome (env : Env) (vbs : List Val) (remote cb : Nat) (com : Str) (version : Int) (s : Mgr .sm) :
    Outcome ((version = 1 ∨ version = 2 ∧ vbs.length ≤ 2147483647) ∧ ∀ vb ∈ vbs, vb.isInstance (.seq .varBind) = true)
      (if version = 2 then 2147483648 else 2147483647) s.nextRequestID (smSnmpGetNext vbs remote cb com version s) := by
  rw [← allVarBinds_iff]
  have h12 : ¬ (1 : Int) = 2 := by decide
  unfold smSnmpGetNext smCreateGetNextRequestMessage smCreatePDU
  simp only [M.bind_def, assign_def]
  by_cases h1 : version = 1
  · subst h1
    simp only [if_true, h12, if_false, M.lift_def, M.bind_def, mkPDU_v1 .getNext (.inr (.inl rfl))]
    by_cases ha : allVarBinds vbs = true
    · by_cases hid : s.nextRequestID ≤ 2147483647
      · simp only [hid, ha, and_self, if_true, mkMessage_01 _ 0 (.inl rfl), M.pure_def]
        exact .fine ⟨.inl trivial, trivial⟩ hid (smEnqueue_ok _ _ _ _ _ _ _ _ rfl)
      · simp only [hid, false_and, if_false]
        exact .over ⟨.inl trivial, ha⟩ hid rfl
    · simp only [ha, Bool.false_eq_true, and_false, if_false]
      exact .bad (by simp) rfl
  · by_cases h2 : version = 2
    · subst h2
      simp only [h1, if_false, if_true, M.lift_def, M.bind_def, mkPDU_v2 .getNext2 (.inr (.inl rfl))]
      by_cases ha : vbs.length ≤ 2147483647 ∧ allVarBinds vbs = true
      · by_cases hid : s.nextRequestID ≤ 2147483648
        · simp only [hid, ha, and_self, if_true, mkMessage_01 _ 1 (.inr rfl), M.pure_def]
          exact .fine ⟨.inr trivial, trivial⟩ hid (smEnqueue_ok _ _ _ _ _ _ _ _ rfl)
        · simp only [hid, false_and, if_false]
          exact .over ⟨.inr ⟨trivial, ha.1⟩, ha.2⟩ hid rfl
      · simp only [ha, and_false, if_false]
        exact .bad (by simpa using ha) rfl
    · simp only [h1, h2, if_false, M.throw_def]
      exact .bad (by simp) rfl

theorem smSet_outcome (env : Env) (oid : Arg) (valtype : Int) (value : Arg) (remote cb : Nat) (com : Str) (version : Int)
    (s : Mgr .sm) :
    Outcome ((version = 1 ∨ version = 2) ∧ (∃ v, mkOid oid = .ok v) ∧ ∃ x, constructTag env.reg valtype value = .ok x)
      2147483647 s.nextRequestID (smSnmpSet env.reg oid valtype value remote cb com version s) := by
  unfold smSnmpSet smCreateSetRequestMessage
  rw [M.bind_def]
  by_cases h1 : version = 1
  · subst h1
    simp only [if_true, M.bind_def, M.lift_def, smCreatePDU]
    cases h : mkOid oid with
    | error e => exact .bad (by simp) rfl
    | ok v =>
      cases hx : constructTag env.reg valtype value with
      | error e => exact .bad (by simp) rfl
      | ok x =>
        have hall : allVarBinds [.seq .varBind [.oid v, x]] = true := by
          simp [allVarBinds, vb_instance .varBind (.inl rfl)]
        simp only [mkVarBind_query _ _ _ (constructTag_instance hx), mkVarBindList1, hall, if_true, Val.iter, assign_def,
          mkPDU_v1 .set (.inr (.inr rfl)), and_true, M.lift_def]
        by_cases hid : s.nextRequestID ≤ 2147483647
        · simp only [hid, if_true, mkMessage_01 _ 0 (.inl rfl)]
          exact .fine ⟨.inl trivial, ⟨v, rfl⟩, x, rfl⟩ hid (smEnqueue_ok _ _ _ _ _ _ _ _ rfl)
        · simp only [hid, if_false]
          exact .over ⟨.inl trivial, ⟨v, rfl⟩, x, rfl⟩ hid rfl
  · by_cases h2 : version = 2
    · subst h2
      simp only [h1, if_false, if_true, M.bind_def, M.lift_def, smCreatePDU]
      cases h : mkOid oid with
      | error e => exact .bad (by simp) rfl
      | ok v =>
        cases hx : constructTag env.reg valtype value with
        | error e => exact .bad (by simp) rfl
        | ok x =>
          have hall : allVarBinds [.seq .varBind2 [.oid v, x]] = true := by
            simp [allVarBinds, vb_instance .varBind2 (.inr rfl)]
          have hlen : [Val.seq .varBind2 [.oid v, x]].length ≤ 2147483647 := by simp
          simp only [mkVarBind_query _ _ _ (constructTag_instance hx), mkVarBindList2', hall, hlen, and_self, if_true,
            Val.iter, assign_def, mkPDU_v1 .set (.inr (.inr rfl)), and_true, M.lift_def]
          by_cases hid : s.nextRequestID ≤ 2147483647
          · simp only [hid, if_true, mkMessage_01 _ 1 (.inr rfl)]
            exact .fine ⟨.inr trivial, ⟨v, rfl⟩, x, rfl⟩ hid (smEnqueue_ok _ _ _ _ _ _ _ _ rfl)
          · simp only [hid, if_false]
            exact .over ⟨.inr trivial, ⟨v, rfl⟩, x, rfl⟩ hid rfl
    · simp only [h1, h2, if_false]
      exact .bad (by simp [h1, h2]) rfl

theorem call_outcome (env : Env) : (k : Kind) → (c : k.Call) → callbackOf c ≠ none → (s : Mgr k) →
    Outcome (CallOk env c) (lastID c) s.nextRequestID (callBody env k c s)
  | .v1, .get oid remote cb com, _, s => v1Get_outcome env oid remote cb com s
  | .v1, .getNext vbs remote cb com, _, s => by
    have := v1Pdu_outcome env vbs remote cb com s _ (allVarBinds_iff vbs).symm
    simp only [M.bind_def, assign_def, M.lift_def] at this
    simp only [CallOk, lastID, callBody, v1SnmpGetNext, v1CreateGetNextRequestMessage, v1CreateGetNextRequestPDU,
      M.bind_def, assign_def, M.lift_def]
    revert this
    cases mkPDU .getNext s.nextRequestID 0 0 vbs with
    | error e => exact id
    | ok pdu => exact id
  | .v1, .set vbs remote cb com, _, s => v1Pdu_outcome env vbs remote cb com s _ (allVarBinds_iff vbs).symm
  | .v1, .trap _ _ _, h, _ => absurd rfl h
  | .v2, .get oids remote cb com, _, s => v2Get_outcome env oids remote cb com s
  | .v2, .getNext _ _ _ _, _, s => .bad (fun h => h) rfl
  | .v2, .set _ _ _ _, _, s => .bad (fun h => h) rfl
  | .v2, .trap _ _ _, h, _ => absurd rfl h
  | .sm, .get oid remote cb com version, _, s => smGet_outcome env oid remote cb com version s
  | .sm, .getNext vbs remote cb com version, _, s => smGetNext_outcome env vbs remote cb com version s
  | .sm, .set oid valtype value remote cb com version, _, s => smSet_outcome env oid valtype value remote cb com version s
  | .sm, .trap _ _ _ _, h, _ => absurd rfl h

end Libsnmp
