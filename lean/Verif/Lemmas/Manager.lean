import Verif.Spec.Manager
import Verif.Lemmas.Dict
import Verif.Lemmas.Decode

/-!
# Effects of the request methods and of `receiveData`, case by case
-/

namespace Libsnmp
open Spec

/-! ## The monad -/

theorem M.bind_def {k : Kind} {α β : Type} (x : M k α) (f : α → M k β) (s : Mgr k) :
    (x >>= f) s = match x s with
      | (.ok a, s') => f a s'
      | (.error e, s') => (.error e, s') := rfl

theorem M.pure_def {k : Kind} {α : Type} (a : α) (s : Mgr k) : (pure a : M k α) s = (.ok a, s) := rfl

theorem M.lift_def {k : Kind} {α : Type} (x : Except Exc α) (s : Mgr k) : (M.lift x : M k α) s = (x, s) := rfl

theorem M.throw_def {k : Kind} {α : Type} (e : Exc) (s : Mgr k) : (M.throw e : M k α) s = (.error e, s) := rfl

theorem assign_def {k : Kind} (s : Mgr k) :
    (assignRequestID : M k Nat) s = (.ok s.nextRequestID, { s with nextRequestID := s.nextRequestID + 1 }) := rfl

/-! ## Constructors with the arguments the managers use -/

theorem mkVarBind_query (c : SeqCls) (v : Option (List Int)) (x : Val) (hx : x.isInstance .asn1Object = true) :
    mkVarBind c (.oid v) x = .ok (.seq c [.oid v, x]) := by
  unfold mkVarBind
  have h1 : (Val.oid v).isInstance .oid = true := by simp only [Val.isInstance, Val.cls?]; decide
  simp [h1, hx]

theorem null_instance : (Val.null .null).isInstance .asn1Object = true := by decide

/-- Every element is a VarBind. -/
def allVarBinds (vbs : List Val) : Bool := vbs.all (·.isInstance (.seq .varBind))

theorem vb_instance (c : SeqCls) (hc : c = .varBind ∨ c = .varBind2) (items : List Val) :
    (Val.seq c items).isInstance (.seq .varBind) = true := by
  simp only [Val.isInstance, Val.cls?]; rcases hc with rfl | rfl <;> decide

theorem mkVarBindList1 (vbs : List Val) :
    mkVarBindList .varBindList vbs = if allVarBinds vbs then .ok (.seq .varBindList vbs) else .error .valueError := by
  unfold mkVarBindList allVarBinds
  have : (Cls.seq .varBindList).isSubclass (.seq .varBindList2) = false := by decide
  rw [this]
  simp

theorem mkVarBindList2' (vbs : List Val) :
    mkVarBindList .varBindList2 vbs =
      if vbs.length ≤ 2147483647 ∧ allVarBinds vbs = true then .ok (.seq .varBindList2 vbs) else .error .valueError := by
  unfold mkVarBindList allVarBinds
  have : (Cls.seq .varBindList2).isSubclass (.seq .varBindList2) = true := by decide
  rw [this]
  by_cases h : 2147483647 < vbs.length
  · have : ¬ vbs.length ≤ 2147483647 := by omega
    simp [h, this]
  · have : vbs.length ≤ 2147483647 := by omega
    simp [h, this]

theorem mkPDU_v1 (c : SeqCls) (hc : c = .get ∨ c = .getNext ∨ c = .set) (id : Nat) (vbs : List Val) :
    mkPDU c id 0 0 vbs = if id ≤ 2147483647 ∧ allVarBinds vbs = true then
      .ok (.seq c [.integer .integer id, .integer .errorStatus 0, .integer .integer 0, .seq .varBindList vbs])
    else .error .valueError := by
  have h1 : (Cls.seq c).isSubclass (.seq .pdu2) = false := by rcases hc with rfl | rfl | rfl <;> decide
  have h2 : (Cls.seq c).isSubclass (.seq .bulkPDU) = false := by rcases hc with rfl | rfl | rfl <;> decide
  have h0 : mkInteger .errorStatus 0 = .ok (.integer .errorStatus 0) := rfl
  have h0' : mkInteger .integer 0 = .ok (.integer .integer 0) := rfl
  have hi : mkInteger .integer (id : Int) = if id ≤ 2147483647 then .ok (.integer .integer id) else .error .valueError := by
    unfold mkInteger
    have hmin : IntCls.integer.minVal = -2147483648 := rfl
    have hmax : IntCls.integer.maxVal = 2147483647 := rfl
    rw [hmin, hmax]
    by_cases h : id ≤ 2147483647
    · rw [if_pos h, if_pos (by omega)]
    · rw [if_neg h, if_neg (by omega)]
  unfold mkPDU
  rw [h1, h2]
  simp only [Bool.false_eq_true, if_false]
  unfold mkPDU1
  rw [hi, h0, h0', mkVarBindList1]
  by_cases h : id ≤ 2147483647 <;> by_cases h' : allVarBinds vbs = true <;>
    simp [h, h', bind, Except.bind]

theorem mkPDU_v2 (c : SeqCls) (hc : c = .get2 ∨ c = .getNext2 ∨ c = .set2) (id : Nat) (vbs : List Val) :
    mkPDU c id 0 0 vbs = if id ≤ 2147483648 ∧ vbs.length ≤ 2147483647 ∧ allVarBinds vbs = true then
      .ok (.seq c [.integer .integer32 id, .integer .errorStatus2 0, .integer .integer 0, .seq .varBindList2 vbs])
    else .error .valueError := by
  have h1 : (Cls.seq c).isSubclass (.seq .pdu2) = true := by rcases hc with rfl | rfl | rfl <;> decide
  have h0 : mkInteger .errorStatus2 0 = .ok (.integer .errorStatus2 0) := rfl
  have h0' : mkInteger .integer 0 = .ok (.integer .integer 0) := rfl
  have hi : mkInteger .integer32 (id : Int) =
      if id ≤ 2147483648 then .ok (.integer .integer32 id) else .error .valueError := by
    unfold mkInteger
    have hmin : IntCls.integer32.minVal = -2147483648 := rfl
    have hmax : IntCls.integer32.maxVal = 2147483648 := rfl
    rw [hmin, hmax]
    by_cases h : id ≤ 2147483648
    · rw [if_pos h, if_pos (by omega)]
    · rw [if_neg h, if_neg (by omega)]
  unfold mkPDU
  rw [h1]
  simp only [if_true]
  unfold mkPDU2
  rw [hi, h0, h0', mkVarBindList2']
  by_cases h : id ≤ 2147483648 <;> by_cases h' : vbs.length ≤ 2147483647 ∧ allVarBinds vbs = true <;>
    simp [h, h', bind, Except.bind]

theorem mkMessage_01 (c : SeqCls) (v : Int) (hv : v = 0 ∨ v = 1) (com : Str) (x : Val) :
    mkMessage c v com x = .ok (wrap c v com x) := by
  rcases hv with rfl | rfl <;> rfl

theorem put_ok (d : Dict) {k : Val} {n : Int} (hk : keyNum k = some n) (v : Nat) : ∃ d', d.put k v = .ok d' := by
  unfold Dict.put
  rw [objHash_num hk]
  exact ⟨_, rfl⟩

theorem v1Enqueue_def {k : Kind} (m : Msg) (remote cb : Nat) (s : Mgr k) (c : SeqCls) (ci : IntCls) (id : Int)
    (rest : List Val) (hm : m.data = .seq c (.integer ci id :: rest)) :
    ∃ d', s.callbacks.put (.int id) cb = .ok d' ∧
      v1Enqueue m remote cb s =
        (.ok (.integer ci id), { s with outbound := s.outbound ++ [(some m, remote)], callbacks := d' }) := by
  obtain ⟨d', hd'⟩ := put_ok s.callbacks (k := .int id) rfl cb
  refine ⟨d', hd', ?_⟩
  simp only [v1Enqueue, M.bind_def, putOutbound, M.lift_def, hm, pduRequestID, Val.toInt, setCallback, hd', M.pure_def]

theorem smEnqueue_def (m : Msg) (remote cb : Nat) (s : Mgr .sm) (c : SeqCls) (ci : IntCls) (id : Int)
    (rest : List Val) (hm : m.data = .seq c (.integer ci id :: rest)) :
    ∃ d', s.callbacks.put (.integer ci id) cb = .ok d' ∧
      smEnqueue (some m) remote cb s =
        (.ok (.integer ci id), { s with outbound := s.outbound ++ [(some m, remote)], callbacks := d' }) := by
  obtain ⟨d', hd'⟩ := put_ok s.callbacks (k := .integer ci id) rfl cb
  refine ⟨d', hd', ?_⟩
  simp only [smEnqueue, M.bind_def, putOutbound, M.lift_def, hm, pduRequestID, setCallback, hd', M.pure_def]

/-- What a call can do: fail (the ID counter may have advanced, nothing else changed); make a request; queue a trap. -/
inductive Effect (env : Env) {k : Kind} (c : k.Call) (s : Mgr k) : Except Exc Val × Mgr k → Prop
  | failed (e : Exc) (j : Nat) (hj : j = 0 ∨ j = 1) :
      Effect env c s (.error e, { s with nextRequestID := s.nextRequestID + j })
  | request (ci : IntCls) (cb : Nat) (m : Msg) (key : Val) (d' : Dict) (hcb : callbackOf c = some cb)
      (hm : Sends env c s.nextRequestID (some m)) (hk : keyNum key = some (s.nextRequestID : Int))
      (hd : s.callbacks.put key cb = .ok d') :
      Effect env c s (.ok (.integer ci s.nextRequestID),
        { s with nextRequestID := s.nextRequestID + 1, outbound := s.outbound ++ [(some m, remoteOf c)], callbacks := d' })
  | trap (m : Option Msg) (hcb : callbackOf c = none) (hm : ∀ id, Sends env c id m) :
      Effect env c s (.ok .none, { s with outbound := s.outbound ++ [(m, remoteOf c)] })

theorem Effect.failed0 {env : Env} {k : Kind} {c : k.Call} {s : Mgr k} (e : Exc) : Effect env c s (.error e, s) :=
  .failed e 0 (.inl rfl)

theorem v1Get_effect (env : Env) (oid : Arg) (remote cb : Nat) (com : Str) (s : Mgr .v1) :
    Effect env (k := .v1) (.get oid remote cb com) s (v1SnmpGet oid remote cb com s) := by
  unfold v1SnmpGet v1CreateGetRequestMessage v1CreateGetRequestPDU
  simp only [M.bind_def, M.lift_def]
  cases h : mkOid oid with
  | error e => exact .failed0 e
  | ok v =>
    have hall : allVarBinds [.seq .varBind [.oid v, .null .null]] = true := by
      simp [allVarBinds, vb_instance .varBind (.inl rfl)]
    simp only [mkVarBind_query _ _ _ null_instance, mkVarBindList1, hall, if_true, Val.iter, assign_def,
      mkPDU_v1 .get (.inl rfl), and_true]
    by_cases hid : s.nextRequestID ≤ 2147483647
    · simp only [hid, if_true, mkMessage_01 _ 0 (.inl rfl)]
      obtain ⟨d', hd', he⟩ := v1Enqueue_def (k := .v1) (wrap .message 0 com (.seq .get [.integer .integer s.nextRequestID,
        .integer .errorStatus 0, .integer .integer 0, .seq .varBindList [.seq .varBind [.oid v, .null .null]]]))
        remote cb { s with nextRequestID := s.nextRequestID + 1 } _ _ _ _ rfl
      rw [he]
      exact .request _ cb _ (.int s.nextRequestID) d' rfl ⟨_, ⟨v, h, rfl⟩, rfl⟩ rfl hd'
    · simp only [hid, if_false]
      exact .failed _ 1 (.inr rfl)

theorem v1GetNext_effect (env : Env) (vbs : List Val) (remote cb : Nat) (com : Str) (s : Mgr .v1) :
    Effect env (k := .v1) (.getNext vbs remote cb com) s (v1SnmpGetNext vbs remote cb com s) := by
  unfold v1SnmpGetNext v1CreateGetNextRequestMessage v1CreateGetNextRequestPDU
  simp only [M.bind_def, M.lift_def, assign_def, mkPDU_v1 .getNext (.inr (.inl rfl))]
  by_cases hid : s.nextRequestID ≤ 2147483647 ∧ allVarBinds vbs = true
  · simp only [hid, and_self, if_true, mkMessage_01 _ 0 (.inl rfl)]
    obtain ⟨d', hd', he⟩ := v1Enqueue_def (k := .v1) (wrap .message 0 com (.seq .getNext [.integer .integer s.nextRequestID,
      .integer .errorStatus 0, .integer .integer 0, .seq .varBindList vbs]))
      remote cb { s with nextRequestID := s.nextRequestID + 1 } _ _ _ _ rfl
    rw [he]
    exact .request _ cb _ (.int s.nextRequestID) d' rfl rfl rfl hd'
  · simp only [hid, if_false]
    exact .failed _ 1 (.inr rfl)

theorem v1Set_effect (env : Env) (vbs : List Val) (remote cb : Nat) (com : Str) (s : Mgr .v1) :
    Effect env (k := .v1) (.set vbs remote cb com) s (v1SnmpSet vbs remote cb com s) := by
  unfold v1SnmpSet
  simp only [M.bind_def, M.lift_def, assign_def, mkPDU_v1 .getNext (.inr (.inl rfl))]
  by_cases hid : s.nextRequestID ≤ 2147483647 ∧ allVarBinds vbs = true
  · simp only [hid, and_self, if_true, mkMessage_01 _ 0 (.inl rfl)]
    obtain ⟨d', hd', he⟩ := v1Enqueue_def (k := .v1) (wrap .message 0 com (.seq .getNext [.integer .integer s.nextRequestID,
      .integer .errorStatus 0, .integer .integer 0, .seq .varBindList vbs]))
      remote cb { s with nextRequestID := s.nextRequestID + 1 } _ _ _ _ rfl
    rw [he]
    exact .request _ cb _ (.int s.nextRequestID) d' rfl rfl rfl hd'
  · simp only [hid, if_false]
    exact .failed _ 1 (.inr rfl)

theorem v2Varbinds_ok {oids : List Arg} {vbs : List Val} (h : v2Varbinds oids = .ok vbs) :
    List.Forall₂ (Query .varBind) oids vbs ∧ allVarBinds vbs = true := by
  induction oids generalizing vbs with
  | nil =>
    simp only [v2Varbinds, Except.ok.injEq] at h
    subst h; exact ⟨.nil, rfl⟩
  | cons o os ih =>
    rw [v2Varbinds] at h
    obtain ⟨v, hv, h⟩ := bind_ok h
    obtain ⟨vb, hvb, h⟩ := bind_ok h
    obtain ⟨rest, hr, h⟩ := bind_ok h
    rw [mkVarBind_query _ _ _ null_instance] at hvb
    simp only [Except.ok.injEq] at hvb h
    subst hvb; subst h
    obtain ⟨h1, h2⟩ := ih hr
    refine ⟨.cons ⟨v, hv, rfl⟩ h1, ?_⟩
    unfold allVarBinds at *
    simp [h2, vb_instance .varBind (.inl rfl)]

theorem v2Get_effect (env : Env) (oids : List Arg) (remote cb : Nat) (com : Str) (s : Mgr .v2) :
    Effect env (k := .v2) (.get oids remote cb com) s (v2SnmpGet oids remote cb com s) := by
  unfold v2SnmpGet v2CreateGetRequestMessage v2CreateGetRequestPDU
  simp only [M.bind_def, M.lift_def]
  cases h : v2Varbinds oids with
  | error e => exact .failed0 e
  | ok vbs =>
    obtain ⟨hq, hall⟩ := v2Varbinds_ok h
    simp only [mkVarBindList2', hall, and_true]
    by_cases hl : vbs.length ≤ 2147483647
    · simp only [hl, if_true, Val.iter, assign_def, mkPDU_v2 .get2 (.inl rfl), hall, and_true]
      by_cases hid : s.nextRequestID ≤ 2147483648
      · simp only [hid, if_true, mkMessage_01 _ 1 (.inr rfl)]
        obtain ⟨d', hd', he⟩ := v1Enqueue_def (k := .v2) (wrap .message2 1 com (.seq .get2
          [.integer .integer32 s.nextRequestID, .integer .errorStatus2 0, .integer .integer 0, .seq .varBindList2 vbs]))
          remote cb { s with nextRequestID := s.nextRequestID + 1 } _ _ _ _ rfl
        rw [he]
        exact .request _ cb _ (.int s.nextRequestID) d' rfl ⟨vbs, hq, rfl⟩ rfl hd'
      · simp only [hid, if_false]
        exact .failed _ 1 (.inr rfl)
    · simp only [hl, if_false]
      exact .failed0 _

theorem smGet_effect (env : Env) (oid : Arg) (remote cb : Nat) (com : Str) (version : Int) (s : Mgr .sm) :
    Effect env (k := .sm) (.get oid remote cb com version) s (smSnmpGet oid remote cb com version s) := by
  unfold smSnmpGet smCreateGetRequestMessage
  rw [M.bind_def]
  by_cases h1 : version = 1
  · subst h1
    simp only [if_true, M.bind_def, M.lift_def, smCreatePDU]
    cases h : mkOid oid with
    | error e => exact .failed0 e
    | ok v =>
      have hall : allVarBinds [.seq .varBind [.oid v, .null .null]] = true := by
        simp [allVarBinds, vb_instance .varBind (.inl rfl)]
      simp only [mkVarBind_query _ _ _ null_instance, mkVarBindList1, hall, if_true, Val.iter, assign_def,
        mkPDU_v1 .get (.inl rfl), and_true, M.lift_def]
      by_cases hid : s.nextRequestID ≤ 2147483647
      · simp only [hid, if_true, mkMessage_01 _ 0 (.inl rfl)]
        obtain ⟨d', hd', he⟩ := smEnqueue_def (wrap .message 0 com (.seq .get [.integer .integer s.nextRequestID,
          .integer .errorStatus 0, .integer .integer 0, .seq .varBindList [.seq .varBind [.oid v, .null .null]]]))
          remote cb { s with nextRequestID := s.nextRequestID + 1 } _ _ _ _ rfl
        rw [he]
        exact .request _ cb _ _ d' rfl (.inl ⟨rfl, _, ⟨v, h, rfl⟩, rfl⟩) rfl hd'
      · simp only [hid, if_false]
        exact .failed _ 1 (.inr rfl)
  · by_cases h2 : version = 2
    · subst h2
      simp only [h1, if_false, if_true, M.bind_def, M.lift_def, smCreatePDU]
      cases h : mkOid oid with
      | error e => exact .failed0 e
      | ok v =>
        have hall : allVarBinds [.seq .varBind2 [.oid v, .null .null]] = true := by
          simp [allVarBinds, vb_instance .varBind2 (.inr rfl)]
        have hlen : [Val.seq .varBind2 [.oid v, .null .null]].length ≤ 2147483647 := by simp
        simp only [mkVarBind_query _ _ _ null_instance, mkVarBindList2', hall, hlen, and_self, if_true, Val.iter, assign_def,
          mkPDU_v2 .get2 (.inl rfl), and_true, M.lift_def, h1, if_false]
        by_cases hid : s.nextRequestID ≤ 2147483648
        · simp only [hid, if_true, mkMessage_01 _ 1 (.inr rfl)]
          obtain ⟨d', hd', he⟩ := smEnqueue_def (wrap .message2 1 com (.seq .get2 [.integer .integer32 s.nextRequestID,
            .integer .errorStatus2 0, .integer .integer 0, .seq .varBindList2 [.seq .varBind2 [.oid v, .null .null]]]))
            remote cb { s with nextRequestID := s.nextRequestID + 1 } _ _ _ _ rfl
          rw [he]
          exact .request _ cb _ _ d' rfl (.inr ⟨rfl, _, ⟨v, h, rfl⟩, rfl⟩) rfl hd'
        · simp only [hid, if_false]
          exact .failed _ 1 (.inr rfl)
    · simp only [h1, h2, if_false]
      exact .failed0 _

theorem smGetNext_effect (env : Env) (vbs : List Val) (remote cb : Nat) (com : Str) (version : Int) (s : Mgr .sm) :
    Effect env (k := .sm) (.getNext vbs remote cb com version) s (smSnmpGetNext vbs remote cb com version s) := by
  unfold smSnmpGetNext smCreateGetNextRequestMessage smCreatePDU
  simp only [M.bind_def, assign_def]
  by_cases h1 : version = 1
  · subst h1
    simp only [if_true, M.lift_def, M.bind_def, mkPDU_v1 .getNext (.inr (.inl rfl))]
    by_cases hid : s.nextRequestID ≤ 2147483647 ∧ allVarBinds vbs = true
    · simp only [hid, and_self, if_true, mkMessage_01 _ 0 (.inl rfl), M.pure_def]
      obtain ⟨d', hd', he⟩ := smEnqueue_def (wrap .message 0 com (.seq .getNext [.integer .integer s.nextRequestID,
        .integer .errorStatus 0, .integer .integer 0, .seq .varBindList vbs]))
        remote cb { s with nextRequestID := s.nextRequestID + 1 } _ _ _ _ rfl
      rw [he]
      exact .request _ cb _ _ d' rfl (.inl ⟨rfl, rfl⟩) rfl hd'
    · simp only [hid, if_false]
      exact .failed _ 1 (.inr rfl)
  · by_cases h2 : version = 2
    · subst h2
      simp only [h1, if_false, if_true, M.lift_def, M.bind_def, mkPDU_v2 .getNext2 (.inr (.inl rfl))]
      by_cases hid : s.nextRequestID ≤ 2147483648 ∧ vbs.length ≤ 2147483647 ∧ allVarBinds vbs = true
      · simp only [hid, and_self, if_true, mkMessage_01 _ 1 (.inr rfl), M.pure_def]
        obtain ⟨d', hd', he⟩ := smEnqueue_def (wrap .message2 1 com (.seq .getNext2 [.integer .integer32 s.nextRequestID,
          .integer .errorStatus2 0, .integer .integer 0, .seq .varBindList2 vbs]))
          remote cb { s with nextRequestID := s.nextRequestID + 1 } _ _ _ _ rfl
        rw [he]
        exact .request _ cb _ _ d' rfl (.inr ⟨rfl, rfl⟩) rfl hd'
      · simp only [hid, if_false]
        exact .failed _ 1 (.inr rfl)
    · simp only [h1, h2, if_false, M.throw_def]
      exact .failed _ 1 (.inr rfl)

theorem asn1_of_cls {x : Val} {c : Cls} (h : x.cls? = some c) : x.isInstance .asn1Object = true := by
  have : ∀ c : Cls, c.isSubclass .asn1Object = true := by
    intro c
    rcases c with _ | c | c | _ | c | c <;> (try cases c) <;> decide
  simp only [Val.isInstance, h, this]

theorem mkInteger_cls {c : IntCls} {n : Int} {x : Val} (h : mkInteger c n = .ok x) : x.cls? = some (.int c) := by
  obtain ⟨rfl, _⟩ := mkInteger_ok h
  rfl

theorem construct_cls {cls : Cls} {value : Arg} {x : Val} (h : construct cls value = .ok x) : ∃ c, x.cls? = some c := by
  unfold construct at h
  cases cls with
  | asn1Object => simp at h
  | int c =>
    simp only [mkIntegerArg] at h
    split at h
    · exact ⟨_, mkInteger_cls h⟩
    · simp at h
  | oct c =>
    simp only at h
    split at h
    · unfold mkIPAddress at h
      split at h
      · simp only at h
        split at h
        · simp at h
        · split at h
          · simp at h
          · simp only [Except.ok.injEq] at h; subst h; exact ⟨_, rfl⟩
      · split at h
        · simp at h
        · simp only [Except.ok.injEq] at h; subst h; exact ⟨_, rfl⟩
      · simp only [Except.ok.injEq] at h; subst h; exact ⟨_, rfl⟩
    · unfold mkOctetStringArg at h
      split at h
      · split at h
        · simp at h
        · split at h <;> simp at h
      · split at h <;> simp only [Except.ok.injEq, reduceCtorEq] at h <;> subst h <;> exact ⟨_, rfl⟩
  | oid =>
    simp only at h
    split at h
    · simp at h
    · simp only [Except.ok.injEq] at h; subst h; exact ⟨_, rfl⟩
  | null c => simp at h
  | seq c =>
    simp only at h
    split at h
    · split at h
      · obtain ⟨c1, c2, cl, rfl, _⟩ := mkPDU_ok h
        exact ⟨_, rfl⟩
      · simp at h
    · split at h
      · split at h <;> simp only [Except.ok.injEq, reduceCtorEq] at h <;> subst h <;> exact ⟨_, rfl⟩
      · split at h <;> simp only [Except.ok.injEq, reduceCtorEq] at h <;> subst h <;> exact ⟨_, rfl⟩

theorem constructTag_instance {reg : Reg} {valtype : Int} {value : Arg} {x : Val}
    (h : constructTag reg valtype value = .ok x) : x.isInstance .asn1Object = true := by
  unfold constructTag at h
  split at h
  · simp at h
  · split at h
    · simp at h
    · obtain ⟨c, hc⟩ := construct_cls h
      exact asn1_of_cls hc

theorem smSet_effect (env : Env) (oid : Arg) (valtype : Int) (value : Arg) (remote cb : Nat) (com : Str) (version : Int)
    (s : Mgr .sm) : Effect env (k := .sm) (.set oid valtype value remote cb com version) s
      (smSnmpSet env.reg oid valtype value remote cb com version s) := by
  unfold smSnmpSet smCreateSetRequestMessage
  rw [M.bind_def]
  by_cases h1 : version = 1
  · subst h1
    simp only [if_true, M.bind_def, M.lift_def, smCreatePDU]
    cases h : mkOid oid with
    | error e => exact .failed0 e
    | ok v =>
      cases hx : constructTag env.reg valtype value with
      | error e => exact .failed0 e
      | ok x =>
        have hall : allVarBinds [.seq .varBind [.oid v, x]] = true := by
          simp [allVarBinds, vb_instance .varBind (.inl rfl)]
        simp only [mkVarBind_query _ _ _ (constructTag_instance hx), mkVarBindList1, hall, if_true, Val.iter, assign_def,
          mkPDU_v1 .set (.inr (.inr rfl)), and_true, M.lift_def]
        by_cases hid : s.nextRequestID ≤ 2147483647
        · simp only [hid, if_true, mkMessage_01 _ 0 (.inl rfl)]
          obtain ⟨d', hd', he⟩ := smEnqueue_def (wrap .message 0 com (.seq .set [.integer .integer s.nextRequestID,
            .integer .errorStatus 0, .integer .integer 0, .seq .varBindList [.seq .varBind [.oid v, x]]]))
            remote cb { s with nextRequestID := s.nextRequestID + 1 } _ _ _ _ rfl
          rw [he]
          exact .request _ cb _ _ d' rfl ⟨v, x, h, hx, .inl ⟨rfl, rfl⟩⟩ rfl hd'
        · simp only [hid, if_false]
          exact .failed _ 1 (.inr rfl)
  · by_cases h2 : version = 2
    · subst h2
      simp only [h1, if_false, if_true, M.bind_def, M.lift_def, smCreatePDU]
      cases h : mkOid oid with
      | error e => exact .failed0 e
      | ok v =>
        cases hx : constructTag env.reg valtype value with
        | error e => exact .failed0 e
        | ok x =>
          have hall : allVarBinds [.seq .varBind2 [.oid v, x]] = true := by
            simp [allVarBinds, vb_instance .varBind2 (.inr rfl)]
          have hlen : [Val.seq .varBind2 [.oid v, x]].length ≤ 2147483647 := by simp
          simp only [mkVarBind_query _ _ _ (constructTag_instance hx), mkVarBindList2', hall, hlen, and_self, if_true,
            Val.iter, assign_def, mkPDU_v1 .set (.inr (.inr rfl)), and_true, M.lift_def]
          by_cases hid : s.nextRequestID ≤ 2147483647
          · simp only [hid, if_true, mkMessage_01 _ 1 (.inr rfl)]
            obtain ⟨d', hd', he⟩ := smEnqueue_def (wrap .message2 1 com (.seq .set [.integer .integer s.nextRequestID,
              .integer .errorStatus 0, .integer .integer 0, .seq .varBindList [.seq .varBind2 [.oid v, x]]]))
              remote cb { s with nextRequestID := s.nextRequestID + 1 } _ _ _ _ rfl
            rw [he]
            exact .request _ cb _ _ d' rfl ⟨v, x, h, hx, .inr ⟨rfl, rfl⟩⟩ rfl hd'
          · simp only [hid, if_false]
            exact .failed _ 1 (.inr rfl)
    · simp only [h1, h2, if_false]
      exact .failed0 _

theorem call_effect (env : Env) : (k : Kind) → (c : k.Call) → (s : Mgr k) → Effect env c s (callBody env k c s)
  | .v1, .get oid remote cb com, s => v1Get_effect env oid remote cb com s
  | .v1, .getNext vbs remote cb com, s => v1GetNext_effect env vbs remote cb com s
  | .v1, .set vbs remote cb com, s => v1Set_effect env vbs remote cb com s
  | .v1, .trap remote pdu com, s => by
    simp only [callBody, v1SnmpTrap, M.bind_def, M.lift_def, mkMessage_01 _ 0 (.inl rfl), putOutbound, M.pure_def]
    exact @Effect.trap env .v1 (V1Call.trap remote pdu com) s _ rfl fun _ => rfl
  | .v2, .get oids remote cb com, s => v2Get_effect env oids remote cb com s
  | .v2, .getNext vbs remote cb com, s => by
    simp only [callBody, v2SnmpGetNext, v2CreateGetNextRequestMessage, M.bind_def, M.throw_def]
    exact .failed0 _
  | .v2, .set vbs remote cb com, s => by
    simp only [callBody, v2SnmpSet, M.bind_def, assign_def, M.throw_def]
    exact .failed _ 1 (.inr rfl)
  | .v2, .trap remote pdu com, s => by
    simp only [callBody, v2SnmpTrap, M.bind_def, M.lift_def, mkMessage_01 _ 1 (.inr rfl), putOutbound, M.pure_def]
    exact @Effect.trap env .v2 (V2Call.trap remote pdu com) s _ rfl fun _ => rfl
  | .sm, .get oid remote cb com version, s => smGet_effect env oid remote cb com version s
  | .sm, .getNext vbs remote cb com version, s => smGetNext_effect env vbs remote cb com version s
  | .sm, .set oid valtype value remote cb com version, s => smSet_effect env oid valtype value remote cb com version s
  | .sm, .trap remote pdu com version, s => by
    simp only [callBody, smSnmpTrap, smCreateTrapMessage, M.bind_def]
    by_cases h1 : version = 1
    · simp only [h1, if_true, M.throw_def]
      exact .failed0 _
    · by_cases h2 : version = 2
      · have : (2 : Int) ≠ 1 := by decide
        simp only [h2, this, if_true, if_false, M.throw_def]
        exact .failed0 _
      · simp only [h1, h2, if_false, M.pure_def, putOutbound]
        exact @Effect.trap env .sm (SmCall.trap remote pdu com version) s _ rfl fun _ => ⟨h1, h2, rfl⟩

end Libsnmp
