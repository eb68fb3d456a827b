import Verif.Lemmas.SrcRecv3
import Verif.Props.Source6
import Verif.Lemmas.Plain

/-!
# C98: `receiveData` on the source text
-/

namespace Libsnmp.Src
open Libsnmp Spec

variable {cfg : Cfg} {nm : Names} {env : Libsnmp.Env}

/-- C98. `v1.SNMP.receiveData`. -/
theorem C98_v1 (hc : Limits cfg) (hreg : Knows cfg env.reg) (hi : Imported env.reg) {h : Heap} (hb : Base h) {a : Nat} {s : Mgr .v1}
    (r : MgrRep nm env h a s) {U : Nat → Prop} {user : User .v1} (hu : Obeys cfg nm env U h.length a user)
    (t : Str) (ht : t.length < 10 ^ 640) (manager ctx src : V) :
    Receives nm env U h a
      (callMethod cfg (.ref a) "receiveData" [manager, ctx, .tuple [.str t, src], .tuple [.none, .none, .none]] h)
      (receiveData311 env cfg.limit .v1 user (.str t) s) := by
  obtain ⟨attrs, q, d, r⟩ := r
  obtain ⟨h', attrs', h1, h2, h3⟩ := run_v1_163 hc hreg hi hb hu r t ht manager ctx src
  rw [callMgr_eq r (m := .v1) (l := 163) rfl]
  exact ⟨h', attrs, attrs', q, d, r.cell, r.outbound, r.callbacks, h1, h2, h3⟩

/-- C98. `v2.SNMP.receiveData`; the standard library's `traceback.print_exc()` returns. -/
theorem C98_v2 (hc : Limits cfg) (hreg : Knows cfg env.reg) (hi : Imported env.reg) {h : Heap} (hb : Base h) {a : Nat} {s : Mgr .v2}
    (r : MgrRep nm env h a s) {U : Nat → Prop} {user : User .v2} (hu : Obeys cfg nm env U h.length a user)
    (hprint : ∀ h, cfg.ext "traceback.print_exc" [] h = okR .none h)
    (t : Str) (ht : t.length < 10 ^ 640) (manager ctx src : V) :
    Receives nm env U h a
      (callMethod cfg (.ref a) "receiveData" [manager, ctx, .tuple [.str t, src], .tuple [.none, .none, .none]] h)
      (receiveData311 env cfg.limit .v2 user (.str t) s) := by
  obtain ⟨attrs, q, d, r⟩ := r
  obtain ⟨h', attrs', h1, h2, h3⟩ := run_v2_141 hc hreg hi hb hprint hu r t ht manager ctx src
  rw [callMgr_eq r (m := .v2) (l := 141) rfl]
  exact ⟨h', attrs, attrs', q, d, r.cell, r.outbound, r.callbacks, h1, h2, h3⟩

/-- C98. `snmpManager.receiveData`. -/
theorem C98_snmpManager (hc : Limits cfg) (hreg : Knows cfg env.reg) (hi : Imported env.reg) {h : Heap} (hb : Base h) {a : Nat} {s : Mgr .sm}
    (r : MgrRep nm env h a s) {U : Nat → Prop} {user : User .sm} (hu : Obeys cfg nm env U h.length a user)
    (t : Str) (ht : t.length < 10 ^ 640) (manager ctx src : V) :
    Receives nm env U h a
      (callMethod cfg (.ref a) "receiveData" [manager, ctx, .tuple [.str t, src], .tuple [.none, .none, .none]] h)
      (receiveData311 env cfg.limit .sm user (.str t) s) := by
  obtain ⟨attrs, q, d, r⟩ := r
  obtain ⟨h', attrs', h1, h2, h3⟩ := run_sm_254 hc hreg hi hb hu r t ht manager ctx src
  rw [callMgr_eq r (m := .snmpmanager) (l := 254) rfl]
  exact ⟨h', attrs, attrs', q, d, r.cell, r.outbound, r.callbacks, h1, h2, h3⟩

/-! ## Callbacks that make requests -/

/-- The model's callbacks that make one request each: the callback `cb` makes the request `ask cb`. -/
def asking (env : Libsnmp.Env) {k : Libsnmp.Kind} (ask : Nat → k.Call) : User k := fun cb _ s =>
  match callBody env k (ask cb) s with
  | (.ok _, s') => (.ok (), s')
  | (.error e, s') => (.error e, s')

/-- C98. Callbacks that make a request of the manager they are given are described by the model's callbacks that make it. -/
theorem C98_asking {cfg' : Cfg} (hc : Limits cfg') (hreg : Registry cfg' env.reg) {k : Libsnmp.Kind} {a n : Nat} (ask : Nat → k.Call)
    (name : Nat → String) (args : Nat → List V)
    (hk : ∀ cb h, Ask nm cfg' env.reg h (name cb) (args cb) k (ask cb))
    (hf : ∀ cb x h, call program cfg (nm.fn cb) [.ref a, x] h = callMethod cfg' (.ref a) (name cb) (args cb) h) :
    Obeys cfg nm env (fun _ => False) n a (asking env ask) := by
  refine ⟨fun b hb => hb.elim, fun cb m s h x attrs q d hn hb r _ => ?_⟩
  obtain ⟨h', ho, ⟨attrs', q', d', r'⟩, h3⟩ := C97_call (cfg := cfg') hc hreg hb ⟨_, _, _, r⟩ (ask cb) (hk cb h)
  obtain ⟨l', c', w'⟩ := ho.wires _ _ r.cell
  rw [r'.cell] at c'
  injection c' with c'
  injection c' with _ c'
  subst c'
  have p1 := (r'.outbound.symm.trans (w' "outbound" (by decide))).trans r.outbound
  have p2 := (r'.callbacks.symm.trans (w' "callbacks" (by decide))).trans r.callbacks
  injection p1 with p1
  injection p1 with p1
  injection p2 with p2
  injection p2 with p2
  subst p1 p2
  refine ⟨h', attrs', ⟨ho.base, ho.len, fun b h9 hb e1 e2 e3 _ => ?_, ?_⟩, ?_, ?_⟩
  · rcases ho.same b h9 hb with h4 | h4 | ⟨c, l, h4, h5⟩
    · exact h4
    · exact absurd h4 e1
    · rw [r.cell] at h4; cases h4
      rcases h5 with h5 | h5
      · rw [r.outbound] at h5; cases h5; exact absurd rfl e2
      · rw [r.callbacks] at h5; cases h5; exact absurd rfl e3
  · exact ho.wires
  · unfold asking
    rcases hres : callBody env k (ask cb) s with ⟨e | v, s'⟩
    all_goals rw [hres] at r'; exact r'
  · rw [hf]
    unfold asking
    rcases hres : callBody env k (ask cb) s with ⟨e | v, s'⟩
    · rw [hres] at h3
      obtain ⟨y, h3, h4⟩ := h3
      refine ⟨?_, y, h3, h4⟩
      rintro rfl
      exact absurd (callBody_exok env k (ask cb) s _ (by rw [hres])) (by simp [Exc.isException])
    · rw [hres] at h3
      obtain ⟨y, h3, h4⟩ := h3
      exact ⟨y, h3⟩

/-! ## The hypotheses are met -/

/-- `def callback(manager, msg): manager.snmpGet('.1.3.6', address, callback)`, and `traceback.print_exc` returns. -/
def againCfg : Cfg :=
  let ext : String → List V → Heap → R V := fun n _ h => match n with
    | "again" => callMethod sampleCfg (.ref 10) "snmpGet" [.str (lit ".1.3.6"), .tuple [.str (lit "127.0.0.1"), .int (161 : Nat)], .ext "again"] h
    | _ => okR .none h
  { sampleCfg with ext := ext }

def againNames : Names := ⟨fun n => .tuple [.str (lit "127.0.0.1"), .int n], fun _ => .ext "again"⟩

/-- A manager that waits for the answer to the request 0. -/
def waiting : Heap := statics ++
  [.inst (mgrCid .v1) [("queueEmpty", .none), ("trapCallback", .none), ("outbound", .ref 11), ("callbacks", .ref 12), ("nextRequestID", .int 1)],
   .queue [], .dict [(.int 0, .ext "again")]]

def again : Nat → Libsnmp.Kind.v1.Call := fun _ => V1Call.get (.str (lit ".1.3.6")) 161 7 (lit "public")

/-- An answer arrives, and the callback makes the next request: the manager afterwards has it in the queue, and its callback under 1. -/
example : ∃ m : Except Exc Unit × Mgr .v1, m.1 = .ok () ∧ m.2.callbacks = [(.int 1, 7)] ∧ m.2.outbound.length = 1 ∧ m.2.nextRequestID = 2 ∧
    Receives againNames ⟨regFull, none, none⟩ (fun _ => False) waiting 10
      (callMethod againCfg (.ref 10) "receiveData" [.none, .none, .tuple [.str [48, 35, 2, 1, 0, 4, 6, 112, 117, 98, 108, 105, 99, 162, 22, 2, 1, 0,
        2, 1, 0, 2, 1, 0, 48, 11, 48, 9, 6, 5, 43, 6, 1, 2, 1, 5, 0], .none], .tuple [.none, .none, .none]] waiting) m := by
  refine ⟨_, ?_, ?_, ?_, ?_, C98_v1 (cfg := againCfg) (env := ⟨regFull, none, none⟩) (s := { nextRequestID := 1, callbacks := [(.int 0, 7)] }) (user := asking ⟨regFull, none, none⟩ again)
    sampleCfg_limits sampleCfg_knows imported_full (base_statics.congr fun b hb => List.getElem?_append_left (Nat.lt_of_lt_of_le hb (by decide))) ?_ ?_
    _ ?_ _ _ _⟩
  · decide +kernel
  · decide +kernel
  · decide +kernel
  · decide +kernel
  · exact ⟨[("queueEmpty", .none), ("trapCallback", .none), ("outbound", .ref 11), ("callbacks", .ref 12), ("nextRequestID", .int 1)], 11, 12,
      ⟨by decide, rfl, by simp [mgrNames], .inl rfl, rfl, by decide, ⟨_, rfl, .nil⟩, rfl, by decide, ⟨_, rfl, .cons ⟨by simp [Rep], rfl⟩ .nil⟩,
        by simp [GoodKey], by simp, rfl, rfl⟩⟩
  · refine C98_asking (cfg' := sampleCfg) sampleCfg_limits sampleCfg_registry again (fun _ => "snmpGet")
      (fun _ => [.str (lit ".1.3.6"), .tuple [.str (lit "127.0.0.1"), .int (161 : Nat)], .ext "again"]) ?_ ?_
    · intro cb h
      exact ⟨rfl, fun s hs => by injection hs with hs; subst hs; exact .inr (by decide +kernel), .str (lit ".1.3.6"), ⟨rfl, by simp⟩, .inr ⟨rfl, rfl⟩⟩
    · intro cb x h
      show call program againCfg (.ext "again") _ h = _
      rw [call]
      rfl
  · exact Nat.lt_of_lt_of_le (by decide : 37 < 10 ^ 2) (Nat.pow_le_pow_right (by decide) (by decide))

end Libsnmp.Src
