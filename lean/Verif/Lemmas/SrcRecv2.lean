import Verif.Lemmas.SrcRecv

/-!
# Running `receiveData`
-/

namespace Libsnmp.Src
open Libsnmp

variable {cfg : Cfg} {nm : Names} {env : Libsnmp.Env} {k : Libsnmp.Kind}

/-! ## What decoding finds -/

theorem msgDecode311_ok {reg : Reg} {D : Nat} {c : SeqCls} {data : Val} {m : Msg} (h : msgDecode311 reg D c data = .ok m) :
    msgDecode reg c data = .ok m := by
  rcases msgDecode311_or reg D c data with h1 | h1
  · rw [h1] at h; cases h
  · rw [← h1]; exact h

theorem decoded_oid (reg : Reg) (s : Str) (items : List Val) (h : decodeAll reg s = .ok items) :
    ∀ v ∈ items, ∀ n ids, v = .oid (some (n :: ids)) → 0 ≤ n ∧ n < 128 := by
  refine (decodeAll_inv reg (fun v => ∀ n ids, v = .oid (some (n :: ids)) → 0 ≤ n ∧ n < 128) (fun _ => True) trivial trivial ?_ s).1 items h
  intro cls t data _ ih
  refine ⟨fun v hv n ids hn => ?_, fun _ _ => trivial⟩
  subst hn
  cases cls with
  | asn1Object => rw [decodeContents_asn1] at hv; simp at hv
  | int c => rw [decodeContents_int] at hv; split at hv <;> cases hv
  | oct c => rw [decodeContents_oct] at hv; cases hv
  | oid =>
    rw [decodeContents_oid] at hv
    cases hd : oidDecode data with
    | error e => rw [hd] at hv; cases hv
    | ok l =>
      rw [hd] at hv
      cases hv
      unfold oidDecode at hd
      split at hd
      · cases hd
      · split at hd
        · split at hd
          · cases hd
          · cases hd; omega
        · cases hd
  | null c => rw [decodeContents_null] at hv; split at hv <;> cases hv
  | seq c =>
    rw [decodeContents_seq] at hv
    split at hv
    · cases hv
    · have := finishSeq_isObj (fun x _ => ?_) hv
      · rcases finishSeq_ok hv with ⟨h, _⟩ | ⟨_, _, _, _, _, _, _, _, _, _, _, _, _, _, _, _, _, _, h⟩ | h
        · cases h
        · obtain ⟨_, _, _, h, _⟩ := mkPDU_ok h
          cases h
        · obtain ⟨_, _, _, _, _, _, _, _, _, _, _, _, _, _, _, _, _, h⟩ := h
          cases h
      · next hi hx => exact decodeAll_isObj reg data _ hi x hx

theorem decoded_version (hc : Limits cfg) {reg : Reg} {c : SeqCls} {data : Val} {m : Msg} (h : msgDecode reg c data = .ok m) :
    SmallVersion cfg m.version := by
  obtain ⟨s, o, rfl, hd, h0, -, -, -⟩ := msgDecode_parts h
  have ho := decodeAll_isObj reg s _ hd o List.mem_cons_self
  have hoid := decoded_oid reg s _ hd o List.mem_cons_self
  cases o with
  | seq co items =>
    have hmem : m.version ∈ items := by
      simp only [Val.getItem] at h0
      split at h0
      · next x hx => cases h0; exact List.mem_of_getElem? hx
      · cases h0
    have hv := (ho.2 co items rfl _ hmem).1
    constructor
    · intro s e; rw [e] at hv; cases hv
    · intro n e; rw [e] at hv; cases hv
  | oid v =>
    cases v with
    | none => simp [Val.getItem] at h0
    | some ids =>
      cases ids with
      | nil => simp [Val.getItem] at h0
      | cons n ids =>
        simp only [Val.getItem, List.getElem?_cons_zero, Except.ok.injEq] at h0
        have hn := hoid n ids rfl
        rw [← h0]
        refine ⟨nofun, fun n' e => ?_⟩
        cases e
        refine hc.short ?_
        have : (10 : Nat) ^ 3 ≤ 10 ^ 640 := Nat.pow_le_pow_right (by decide) (by decide)
        omega
  | str v => cases ho.1
  | bytes v => cases ho.1
  | _ => simp [Val.getItem] at h0

theorem hasID_of_pdu {pc : SeqCls} (h : (Cls.seq pc).isSubclass (.seq .pdu) = true) : HasID pc := by
  cases pc <;> first | exact ⟨_, rfl⟩ | exact absurd h (by decide)

/-! ## The message object -/

theorem RepMsg.low {lo lo' : Nat} (hlo : lo' ≤ lo) {h : Heap} {m : Msg} {b : Nat} (r : RepMsg lo h m b) : RepMsg lo' h m b := by
  obtain ⟨attrs, b, l, x, y, z, h1, h2, h3, h4, h5, h6, h7, h8, h9, h10, r1, r2, r3⟩ := r
  have f : ∀ {v x}, Rep lo h v x → Rep lo' h v x := fun r => Rep.congr hlo (fun _ _ _ h => h) _ _ r
  exact ⟨attrs, b, l, x, y, z, by omega, h2, h3, h4, by omega, h6, h7, h8, h9, h10, f r1, f r2, f r3⟩

theorem run_msgVersion {lo : Nat} {h : Heap} {m : Msg} {b : Nat} (r : RepMsg lo h m b) :
    ∃ x, getattr program h (.ref b) "version" = some x ∧ Rep lo h m.version x := by
  obtain ⟨attrs, b, l, x, y, z, h1, h2, h3, h4, h5, h6, h7, h8, h9, h10, r1, r2, r3⟩ := r
  exact ⟨x, by simp only [getattr, h2, h8], r1⟩

theorem run_msgId {n : Nat} (h9 : 9 ≤ n) {h : Heap} {m : Msg} {b : Nat} (r : RepMsg n h m b) {c : SeqCls} (hc : HasID c) {c1 : IntCls}
    {i : Int} {rest : List Val} (hm : m.data = .seq c (.integer c1 i :: rest)) :
    ∃ z y, getattr program h (.ref b) "data" = some z ∧ getattr program h z "requestID" = some y ∧ Rep 9 h (.integer c1 i) y := by
  obtain ⟨z, hz, rz⟩ := run_msgData (r.low h9)
  rw [hm] at rz
  obtain ⟨y, hy, ry⟩ := run_requestID hc rz
  exact ⟨z, y, hz _ fun _ _ _ _ h => h, hy _ fun _ _ _ _ h => h, ry⟩

/-! ## Statements -/

theorem bindS_nil (o : S) (m0 : Module) : (bindS o fun env h => block program cfg m0 env [] h) = o := by
  rcases o with _ | ⟨h, E, f⟩
  · rfl
  · cases f <;> runs [bindS]

theorem block_if {m0 : Module} {E : Env} {c : Expr} {A B : List Stmt} {h : Heap} {t : Bool}
    (he : eval program cfg m0 E c h = okR (.bool t) h) :
    block program cfg m0 E [.ifS c A B] h = block program cfg m0 E (if t then A else B) h := by
  have : block program cfg m0 E [.ifS c A B] h =
      bindS (block program cfg m0 E (if t then A else B) h) fun env h => block program cfg m0 env [] h := by
    cases t <;> runs [↓he]
  rw [this, bindS_nil]

theorem block_first {m0 : Module} {E : Env} {s : Stmt} {l : List Stmt} {h h' : Heap}
    (he : block program cfg m0 E [s] h = some (h', E, .next)) :
    block program cfg m0 E (s :: l) h = block program cfg m0 E l h' := by
  have h1 : ∀ l, block program cfg m0 E (s :: l) h = bindS (exec program cfg m0 E s h) fun env h => block program cfg m0 env l h := by
    intro l; rw [block]
  rw [h1, bindS_nil] at he
  rw [h1, he]; rfl

theorem block_stop {m0 : Module} {E : Env} {s : Stmt} {l : List Stmt} {h h' : Heap} {x : V}
    (he : block program cfg m0 E [s] h = some (h', E, .exc x)) :
    block program cfg m0 E (s :: l) h = some (h', E, .exc x) := by
  have h1 : ∀ l, block program cfg m0 E (s :: l) h = bindS (exec program cfg m0 E s h) fun env h => block program cfg m0 env l h := by
    intro l; rw [block]
  rw [h1, bindS_nil] at he
  rw [h1, he]; rfl

/-- `msg.version == n`. -/
theorem eval_version {lo : Nat} {h : Heap} {m : Msg} {b : Nat} (r : RepMsg lo h m b) (m0 : Module) {E : Env}
    (e2 : E.get "msg" = some (.ref b)) (n : Int) :
    eval program cfg m0 E (.cmp .eq (.attr (.loc "msg") "version") (.int n)) h = okR (.bool (decide (Spec.versionNo m = some n))) h := by
  obtain ⟨x, hx, rx⟩ := run_msgVersion r
  have := run_version (cfg := cfg) rx n
  runs [↓e2, ↓hx, ↓this]

/-- `isinstance(msg.data, c)`. -/
theorem eval_isinst {h : Heap} {m : Msg} {b : Nat} (r : RepMsg 9 h m b) {m0 : Module}
    (h0 : m0 = .v1 ∨ m0 = .v2 ∨ m0 = .snmpmanager) {E : Env} (e2 : E.get "msg" = some (.ref b)) {c : Cls} {ce : Expr}
    (hce : eval program cfg m0 E ce h = okR (.cls (cid c)) h) :
    eval program cfg m0 E (.call (.glob "isinstance") [.attr (.loc "msg") "data", ce]) h = okR (.bool (m.data.isInstance c)) h := by
  obtain ⟨z, hz, rz⟩ := run_msgData r
  have hz := hz h fun _ _ _ _ h => h
  have := run_isInst rz c
  rcases h0 with rfl | rfl | rfl <;> runs [↓e2, ↓hz, ↓hce, ↓this]

/-! ## v1.py:178-202, v2.py:156-183 -/

def intKey : Expr := .call (.glob "int") [.attr (.attr (.loc "msg") "data") "requestID"]

theorem eval_intKey {n : Nat} (h9 : 9 ≤ n) {m : Msg} {b : Nat} {c : SeqCls} (hc : HasID c) {c1 : IntCls} {i : Int} {rest : List Val}
    (hm : m.data = .seq c (.integer c1 i :: rest)) {m0 : Module} (h0 : m0 = .v1 ∨ m0 = .v2) {E : Env} (e2 : E.get "msg" = some (.ref b))
    (hk : k ≠ .sm) (h : Heap) (r : RepMsg n h m b) :
    ∃ y, eval program cfg m0 E intKey h = okR y h ∧ KeyAt k h (.int i) y := by
  obtain ⟨z, y, hz, hy, ry⟩ := run_msgId h9 r hc hm
  have hint := run_toInt (cfg := cfg) ry (by simp)
  refine ⟨.int i, ?_, ?_⟩
  · rcases h0 with rfl | rfl <;> runs [intKey, ↓e2, ↓hz, ↓hy, ↓hint, Val.toInt, outR]
  · cases k with
    | v1 => exact ⟨i, rfl, rfl⟩
    | v2 => exact ⟨i, rfl, rfl⟩
    | sm => exact absurd rfl hk

theorem v1Dispatch_pdu {user : User k} {m : Msg} {c : SeqCls} {c1 : IntCls} {i : Int} {rest : List Val}
    (hm : m.data = .seq c (.integer c1 i :: rest)) (hp : m.data.isInstance (.seq .pdu) = true) :
    v1Dispatch env user m = deliver user m (.int i) := by
  unfold v1Dispatch deliver
  rw [if_pos hp, hm]
  rfl

theorem v1Dispatch_trap {user : User k} {m : Msg} (hp : m.data.isInstance (.seq .pdu) = false)
    (ht : m.data.isInstance (.seq .trapPDU) = true) : v1Dispatch env user m = invokeTrap env user m := by
  unfold v1Dispatch
  rw [if_neg (by simp [hp]), if_pos ht]

theorem v1Dispatch_other {user : User k} {m : Msg} (hp : m.data.isInstance (.seq .pdu) = false)
    (ht : m.data.isInstance (.seq .trapPDU) = false) : v1Dispatch env user m = pure () := by
  unfold v1Dispatch
  rw [if_neg (by simp [hp]), if_neg (by simp [ht])]

/-- Where and under what hypotheses the statements run. -/
structure Scene (cfg : Cfg) (nm : Names) (env : Libsnmp.Env) (U : Nat → Prop) (n a q d b : Nat) (h : Heap) (user : User k) (m : Msg) (s : Mgr k)
    (attrs : List (String × V)) (E : Env) : Prop where
  user : Obeys cfg nm env U n a user
  h9 : 9 ≤ n
  hn : n ≤ h.length
  base : Base h
  mgr : MgrAt nm env h a s attrs q d
  ha : a < n
  hq : q < n
  hd : d < n
  msg : RepMsg n h m b
  self : E.get "self" = some (.ref a)
  emsg : E.get "msg" = some (.ref b)
  small : SmallVersion cfg m.version
  pdu : m.data.isInstance (.seq .pdu) = true →
    ∃ pc ci i rest, m.data = .seq pc (.integer ci i :: rest) ∧ (Cls.seq pc).isSubclass (.seq .pdu) = true

section
variable {U : Nat → Prop} {n a q d b : Nat} {h : Heap} {user : User k} {m : Msg} {s : Mgr k} {attrs : List (String × V)} {E : Env}

theorem Scene.idle (sc : Scene cfg nm env U n a q d b h user m s attrs E) {o : S} (ho : o = some (h, E, .next)) :
    Goes nm env U a q d E h o (.ok (), s) := ⟨h, attrs, Leaves.refl sc.base, sc.mgr, ho⟩

theorem Scene.unknown (sc : Scene cfg nm env U n a q d b h user m s attrs E) {m0 : Module} (h0 : m0 = .v1 ∨ m0 = .v2 ∨ m0 = .snmpmanager) :
    ∃ y, block program cfg m0 E unknownS h = some (h, E, .exc y) ∧ Raised h (unknownVersion m.version) y := by
  obtain ⟨x, hx, rx⟩ := run_msgVersion sc.msg
  exact run_unknown' rx sc.small h0 hx sc.emsg

theorem unknown_ne (v : Val) : unknownVersion v ≠ .diverges := by unfold unknownVersion; split <;> simp

/-- The `if` on the class of the PDU; `A` and `B` are the classes, `T` and `F` the statements for traps and for others. -/
theorem Scene.dispatch (sc : Scene cfg nm env U n a q d b h user m s attrs E) (hk : k ≠ .sm) {m0 : Module} (h0 : m0 = .v1 ∨ m0 = .v2)
    {A B : Expr} {T F : List Stmt} (hA : eval program cfg m0 E A h = okR (.cls (cid (.seq .pdu))) h)
    (hB : eval program cfg m0 E B h = okR (.cls (cid (.seq .trapPDU))) h)
    (hT : block program cfg m0 E T h =
      block program cfg m0 E [.expr (.call (.attr (.loc "self") "trapCallback") [.loc "self", .loc "msg"])] h)
    (hF : block program cfg m0 E F h = some (h, E, .next)) :
    Goes nm env U a q d E h
      (block program cfg m0 E [.ifS (.call (.glob "isinstance") [.attr (.loc "msg") "data", A]) (deliverS intKey)
        [.ifS (.call (.glob "isinstance") [.attr (.loc "msg") "data", B]) T F]] h) (v1Dispatch env user m s) := by
  have h0' : m0 = .v1 ∨ m0 = .v2 ∨ m0 = .snmpmanager := by rcases h0 with h | h <;> simp [h]
  rw [block_if (eval_isinst (sc.msg.low sc.h9) h0' sc.emsg hA)]
  cases hp : m.data.isInstance (.seq .pdu) with
  | true =>
    obtain ⟨pc, ci, i, rest, hm, hs⟩ := sc.pdu hp
    rw [v1Dispatch_pdu hm hp]
    exact run_deliver sc.user sc.h9 sc.hn sc.base sc.mgr sc.ha sc.hq sc.hd sc.msg sc.self sc.emsg
      (eval_intKey sc.h9 (hasID_of_pdu hs) hm h0 sc.emsg hk)
  | false =>
    rw [if_neg (by simp), block_if (eval_isinst (sc.msg.low sc.h9) h0' sc.emsg hB)]
    cases ht : m.data.isInstance (.seq .trapPDU) with
    | true =>
      rw [if_pos rfl, hT, v1Dispatch_trap hp ht]
      exact run_trap sc.user sc.hn sc.base sc.mgr sc.msg sc.self sc.emsg
    | false =>
      rw [if_neg (by simp), v1Dispatch_other hp ht]
      exact sc.idle hF

end

/-- The statements of the `try` after the message is decoded. -/
def tryRest (f : Fn) : List Stmt :=
  match f.body with
  | [_, _, _, .tryAs (_ :: rest) _ _ _ _] => rest
  | _ => []

theorem run_v1Rest {U : Nat → Prop} {n a q d b : Nat} {h : Heap} {user : User .v1} {m : Msg} {s : Mgr .v1} {attrs : List (String × V)} {E : Env}
    (sc : Scene cfg nm env U n a q d b h user m s attrs E) :
    Goes nm env U a q d E h (block program cfg .v1 E (tryRest v1_163) h)
      ((do let is0 ← M.lift (versionIs m.version 0)
           if is0 then v1Dispatch env user m else M.throw (unknownVersion m.version) : M .v1 Unit) s) := by
  have hv := eval_version (cfg := cfg) sc.msg .v1 sc.emsg 0
  rw [M.at_ok (x := M.lift (versionIs m.version 0)) (s' := s) (by rw [versionIs_eq]; rfl)]
  have hd := sc.dispatch (m0 := .v1) (by simp) (.inl rfl) (A := .glob "PDU") (B := .glob "TrapPDU")
    (T := [.ifS (.glob "__debug__") [.expr (.call (.attr (.glob "log") "debug") [.str (lit "Detected an inbound Trap")])] [],
      .expr (.call (.attr (.loc "self") "trapCallback") [.loc "self", .loc "msg"])])
    (F := [.ifS (.glob "__debug__") [.expr (.call (.attr (.glob "log") "debug") [.str (lit "Unknown message type")])] []])
    (by runs; rfl) (by runs; rfl) (block_first (by cases hdb : cfg.debug <;> runs [hdb])) (by cases hdb : cfg.debug <;> runs [hdb])
  have hrest : tryRest v1_163 = [
      .ifS (.cmp .eq (.attr (.loc "msg") "version") (.int 0))
        [.ifS (.glob "__debug__") [.expr (.call (.attr (.glob "log") "debug") [.str (lit "Detected SNMPv1 message")])] []]
        unknownS, _] := rfl
  rw [hrest]
  cases h0 : decide (Spec.versionNo m = some 0) with
  | true =>
    rw [h0] at hv
    rw [block_first (h' := h) (by rw [block_if hv]; cases hdb : cfg.debug <;> runs [hdb])]
    exact hd
  | false =>
    rw [h0] at hv
    obtain ⟨y, hy, ry⟩ := sc.unknown (m0 := .v1) (.inl rfl)
    exact ⟨h, attrs, Leaves.refl sc.base, sc.mgr, unknown_ne _, y, block_stop (by rw [block_if hv]; exact hy), ry⟩

theorem run_v2Rest {U : Nat → Prop} {n a q d b : Nat} {h : Heap} {user : User .v2} {m : Msg} {s : Mgr .v2} {attrs : List (String × V)} {E : Env}
    (sc : Scene cfg nm env U n a q d b h user m s attrs E) :
    Goes nm env U a q d E h (block program cfg .v2 E (tryRest v2_141) h)
      ((do let is0 ← M.lift (versionIs m.version 0)
           if is0 then v1Dispatch env user m
           else do
             let is1 ← M.lift (versionIs m.version 1)
             if is1 then v1Dispatch env user m
             else M.throw (unknownVersion m.version) : M .v2 Unit) s) := by
  have hv := eval_version (cfg := cfg) sc.msg .v2 sc.emsg 0
  have hv' := eval_version (cfg := cfg) sc.msg .v2 sc.emsg 1
  rw [M.at_ok (x := M.lift (versionIs m.version 0)) (s' := s) (by rw [versionIs_eq]; rfl)]
  have hd := sc.dispatch (m0 := .v2) (by simp) (.inr rfl) (A := .attr (.glob "rfc1157") "PDU") (B := .attr (.glob "rfc1157") "TrapPDU")
    (T := [.ifS (.glob "__debug__") [.expr (.call (.attr (.glob "log") "debug") [.str (lit "Detected an inbound Trap")])] [],
      .expr (.call (.attr (.loc "self") "trapCallback") [.loc "self", .loc "msg"])])
    (F := [.expr (.call (.attr (.glob "log") "debug") [.str (lit "Unknown message type")])])
    (by runs; rfl) (by runs; rfl) (block_first (by cases hdb : cfg.debug <;> runs [hdb])) (by runs)
  have hrest : tryRest v2_141 = [
      .ifS (.cmp .eq (.attr (.loc "msg") "version") (.int 0))
        [.ifS (.glob "__debug__") [.expr (.call (.attr (.glob "log") "debug") [.str (lit "Detected SNMPv1 message")])] []]
        [.ifS (.cmp .eq (.attr (.loc "msg") "version") (.int 1))
          [.ifS (.glob "__debug__") [.expr (.call (.attr (.glob "log") "debug") [.str (lit "Detected SNMPv2 message")])] []]
          unknownS], _] := rfl
  rw [hrest]
  cases h0 : decide (Spec.versionNo m = some 0) with
  | true =>
    rw [h0] at hv
    rw [block_first (h' := h) (by rw [block_if hv]; cases hdb : cfg.debug <;> runs [hdb])]
    exact hd
  | false =>
    rw [h0] at hv
    rw [if_neg (by simp), M.at_ok (x := M.lift (versionIs m.version 1)) (s' := s) (by rw [versionIs_eq]; rfl)]
    cases h1 : decide (Spec.versionNo m = some 1) with
    | true =>
      rw [h1] at hv'
      rw [block_first (h' := h) (by
        rw [block_if hv, if_neg (by simp), block_if hv']; cases hdb : cfg.debug <;> runs [hdb])]
      exact hd
    | false =>
      rw [h1] at hv'
      obtain ⟨y, hy, ry⟩ := sc.unknown (m0 := .v2) (.inr (.inl rfl))
      exact ⟨h, attrs, Leaves.refl sc.base, sc.mgr, unknown_ne _, y,
        block_stop (by rw [block_if hv, if_neg (by simp), block_if hv']; exact hy), ry⟩

/-! ## snmpmanager.py:268-314 -/

def objKey : Expr := .attr (.attr (.loc "msg") "data") "requestID"

theorem eval_objKey {n : Nat} (h9 : 9 ≤ n) {m : Msg} {b : Nat} {c : SeqCls} (hc : HasID c) {c1 : IntCls} {i : Int} {rest : List Val}
    (hm : m.data = .seq c (.integer c1 i :: rest)) {m0 : Module} {E : Env} (e2 : E.get "msg" = some (.ref b))
    (h : Heap) (r : RepMsg n h m b) :
    ∃ y, eval program cfg m0 E objKey h = okR y h ∧ KeyAt .sm h (.integer c1 i) y := by
  obtain ⟨z, y, hz, hy, ry⟩ := run_msgId h9 r hc hm
  refine ⟨y, ?_, ⟨_, _, rfl⟩, ry⟩
  runs [objKey, ↓e2, ↓hz, ↓hy]

section
variable {U : Nat → Prop} {n a q d b : Nat} {h : Heap} {user : User .sm} {m : Msg} {s : Mgr .sm} {attrs : List (String × V)} {E : Env}

theorem smV1_pdu {c : SeqCls} {c1 : IntCls} {i : Int} {rest : List Val}
    (hm : m.data = .seq c (.integer c1 i :: rest)) (hp : m.data.isInstance (.seq .pdu) = true) :
    smHandleV1Message env user m = deliver user m (.integer c1 i) := by
  unfold smHandleV1Message deliver
  rw [if_pos hp, hm]
  rfl

theorem smV1_trap (hp : m.data.isInstance (.seq .pdu) = false) (ht : m.data.isInstance (.seq .trapPDU) = true) :
    smHandleV1Message env user m = invokeTrap env user m := by
  unfold smHandleV1Message
  rw [if_neg (by simp [hp]), if_pos ht]

theorem smV1_other (hp : m.data.isInstance (.seq .pdu) = false) (ht : m.data.isInstance (.seq .trapPDU) = false) :
    smHandleV1Message env user m = pure () := by
  unfold smHandleV1Message
  rw [if_neg (by simp [hp]), if_neg (by simp [ht])]

theorem smV2_pdu {c : SeqCls} {c1 : IntCls} {i : Int} {rest : List Val}
    (hm : m.data = .seq c (.integer c1 i :: rest)) (hp : m.data.isInstance (.seq .pdu2) = true) :
    smHandleV2Message env user m = deliver user m (.integer c1 i) := by
  unfold smHandleV2Message deliver
  rw [if_pos hp, hm]
  rfl

theorem smV2_other (hp : m.data.isInstance (.seq .pdu2) = false) : smHandleV2Message env user m = M.throw .attributeError := by
  unfold smHandleV2Message
  rw [if_neg (by simp [hp])]

/-- Another set of local variables. -/
theorem Scene.move (sc : Scene cfg nm env U n a q d b h user m s attrs E) {E' : Env} (e1 : E'.get "self" = some (.ref a))
    (e2 : E'.get "msg" = some (.ref b)) : Scene cfg nm env U n a q d b h user m s attrs E' :=
  { sc with self := e1, emsg := e2 }

theorem Goes.ends {m0 : Module} {st : Stmt} {r : Except Exc Unit × Mgr .sm} (g : Goes nm env U a q d E h (block program cfg m0 E [st] h) r) :
    ∃ h' attrs', Leaves U a q d h h' ∧ MgrAt nm env h' a r.2 attrs' q d ∧
      Ends h' (result (block program cfg m0 E [st, .pass] h)) r.1 := by
  obtain ⟨h', attrs', l, r', e⟩ := g
  refine ⟨h', attrs', l, r', ?_⟩
  rcases r with ⟨⟨⟩ | ⟨⟩, s'⟩
  · obtain ⟨hne, x, hx, hr⟩ := e
    exact ⟨hne, x, by rw [block_stop hx]; rfl, hr⟩
  · exact ⟨.none, by rw [block_first e]; runs⟩

/-- snmpmanager.py:284-298. -/
theorem run_sm_284 (sc : Scene cfg nm env U n a q d b h user m s attrs E) :
    ∃ h' attrs', Leaves U a q d h h' ∧ MgrAt nm env h' a (smHandleV1Message env user m s).2 attrs' q d ∧
      Ends h' (call program cfg (.func .snmpmanager 284) [.ref a, .ref b] h) (smHandleV1Message env user m s).1 := by
  replace sc := sc.move (E' := [("self", some (.ref a)), ("msg", some (.ref b))]) rfl rfl
  rw [call_snmpmanager_284]
  refine Goes.ends (E := [("self", some (.ref a)), ("msg", some (.ref b))]) ?_
  rw [block_if (eval_isinst (c := .seq .pdu) (sc.msg.low sc.h9) (.inr (.inr rfl)) sc.emsg (by runs; rfl))]
  cases hp : m.data.isInstance (.seq .pdu) with
  | true =>
    obtain ⟨pc, ci, i, rest, hm, hs⟩ := sc.pdu hp
    rw [smV1_pdu hm hp]
    exact run_deliver sc.user sc.h9 sc.hn sc.base sc.mgr sc.ha sc.hq sc.hd sc.msg sc.self sc.emsg
      (eval_objKey sc.h9 (hasID_of_pdu hs) hm sc.emsg)
  | false =>
    rw [if_neg (by simp), block_if (eval_isinst (c := .seq .trapPDU) (sc.msg.low sc.h9) (.inr (.inr rfl)) sc.emsg (by runs; rfl))]
    cases ht : m.data.isInstance (.seq .trapPDU) with
    | true =>
      rw [if_pos rfl, smV1_trap hp ht]
      exact run_trap sc.user sc.hn sc.base sc.mgr sc.msg sc.self sc.emsg
    | false =>
      rw [if_neg (by simp), smV1_other hp ht]
      exact sc.idle (by runs)

/-- snmpmanager.py:300-314. -/
theorem run_sm_300 (sc : Scene cfg nm env U n a q d b h user m s attrs E) :
    ∃ h' attrs', Leaves U a q d h h' ∧ MgrAt nm env h' a (smHandleV2Message env user m s).2 attrs' q d ∧
      Ends h' (call program cfg (.func .snmpmanager 300) [.ref a, .ref b] h) (smHandleV2Message env user m s).1 := by
  replace sc := sc.move (E' := [("self", some (.ref a)), ("msg", some (.ref b))]) rfl rfl
  rw [call_snmpmanager_300]
  refine Goes.ends (E := [("self", some (.ref a)), ("msg", some (.ref b))]) ?_
  rw [block_if (eval_isinst (c := .seq .pdu2) (sc.msg.low sc.h9) (.inr (.inr rfl)) sc.emsg (by runs; rfl))]
  cases hp : m.data.isInstance (.seq .pdu2) with
  | true =>
    have hp' : m.data.isInstance (.seq .pdu) = true := pdu2_is_pdu hp
    obtain ⟨pc, ci, i, rest, hm, hs⟩ := sc.pdu hp'
    rw [smV2_pdu hm hp]
    exact run_deliver sc.user sc.h9 sc.hn sc.base sc.mgr sc.ha sc.hq sc.hd sc.msg sc.self sc.emsg
      (eval_objKey sc.h9 (hasID_of_pdu hs) hm sc.emsg)
  | false =>
    rw [if_neg (by simp), smV2_other hp]
    obtain ⟨z, hz, rz⟩ := run_msgData (sc.msg.low sc.h9)
    have hz := hz h fun _ _ _ _ h => h
    have e2 := sc.emsg
    refine ⟨h, attrs, Leaves.refl sc.base, sc.mgr, by simp, .exc "AttributeError" [], ?_, _, rfl⟩
    have hg : program.globals .rfc1905 "TrapPDU" = none := rfl
    runs [↓e2, ↓hz, hg]
end

end Libsnmp.Src
