import Verif.Lemmas.SrcMgr6
import Verif.Props.Source5

/-!
# C97: the request methods of snmpManager, and histories of calls of any manager, on the source text
-/

namespace Libsnmp
open Spec Src

variable {cfg : Cfg} {nm : Names} {env : Env}

/-! ## C97 -/

/-- C97. A call of a request method of an snmpManager object, with any arguments: what the source text does is what the model's method
does.  It returns the model's result or raises the model's exception, the object is then the model's manager after the call, and no
other object has changed. -/
theorem C97_snmpManager (hc : Limits cfg) (hreg : Registry cfg env.reg) {h : Heap} (hb : Base h) {a : Nat} {s : Mgr .sm}
    (r : MgrRep nm env h a s) (c : SmCall) {name : String} {args : List V} (hk : AskSm nm cfg env.reg h name args c) :
    Does nm env h a (callMethod cfg (.ref a) name args h) (callBody env .sm c s) := by
  obtain ⟨attrs, q, d, r⟩ := r
  cases c with
  | get oid remote cb t v =>
    obtain ⟨rfl, hs, x, hx, rfl | ⟨rfl, rfl⟩ | ⟨rfl, rfl, rfl⟩⟩ := hk
    all_goals rw [callMgr_eq r (m := .snmpmanager) (l := 199) rfl]
    · exact (run_sm_199 hc hb r hx.1 hs t v remote cb).does r
    · rw [show V.ref a :: ([x, nm.addr remote, nm.fn cb] ++ [.str t]) = [.ref a, x, nm.addr remote, nm.fn cb, .str t] from rfl,
        call_snmpmanager_199_5, ← call_snmpmanager_199]
      exact (run_sm_199 hc hb r hx.1 hs t 2 remote cb).does r
    · rw [call_snmpmanager_199_4, ← call_snmpmanager_199]; exact (run_sm_199 hc hb r hx.1 hs _ 2 remote cb).does r
  | getNext vbs remote cb t v =>
    obtain ⟨rfl, x, hx, rfl | ⟨rfl, rfl⟩ | ⟨rfl, rfl, rfl⟩⟩ := hk
    all_goals rw [callMgr_eq r (m := .snmpmanager) (l := 215) rfl]
    · exact (run_sm_215 hc hb r hx t v remote cb).does r
    · rw [show V.ref a :: ([x, nm.addr remote, nm.fn cb] ++ [.str t]) = [.ref a, x, nm.addr remote, nm.fn cb, .str t] from rfl,
        call_snmpmanager_215_5, ← call_snmpmanager_215]
      exact (run_sm_215 hc hb r hx t 2 remote cb).does r
    · rw [call_snmpmanager_215_4, ← call_snmpmanager_215]; exact (run_sm_215 hc hb r hx _ 2 remote cb).does r
  | set oid valtype value remote cb t v =>
    obtain ⟨rfl, hs, hset, x, y, hx, hy, rfl | ⟨rfl, rfl⟩ | ⟨rfl, rfl, rfl⟩⟩ := hk
    all_goals rw [callMgr_eq r (m := .snmpmanager) (l := 230) rfl]
    · exact (run_sm_230 hc hb r hreg hx.1 hs hy hset t v remote cb).does r
    · rw [show V.ref a :: ([x, .int valtype, y, nm.addr remote, nm.fn cb] ++ [.str t]) =
          [.ref a, x, .int valtype, y, nm.addr remote, nm.fn cb, .str t] from rfl,
        call_snmpmanager_230_7, ← call_snmpmanager_230]
      exact (run_sm_230 hc hb r hreg hx.1 hs hy hset t 2 remote cb).does r
    · rw [call_snmpmanager_230_6, ← call_snmpmanager_230]; exact (run_sm_230 hc hb r hreg hx.1 hs hy hset _ 2 remote cb).does r
  | trap remote pdu t v =>
    obtain ⟨rfl, x, rfl | ⟨rfl, rfl⟩ | ⟨rfl, rfl, rfl⟩⟩ := hk
    all_goals rw [callMgr_eq r (m := .snmpmanager) (l := 247) rfl]
    · exact (run_sm_247 hb r pdu x t v remote).does r
    · rw [show V.ref a :: ([nm.addr remote, x] ++ [.str t]) = [.ref a, nm.addr remote, x, .str t] from rfl,
        call_snmpmanager_247_4, ← call_snmpmanager_247]
      exact (run_sm_247 hb r pdu x t 2 remote).does r
    · rw [call_snmpmanager_247_3, ← call_snmpmanager_247]; exact (run_sm_247 hb r pdu x _ 2 remote).does r

/-- C97. A call of a request method of any manager. -/
theorem C97_call (hc : Limits cfg) (hreg : Registry cfg env.reg) {h : Heap} (hb : Base h) {a : Nat} {k : Kind} {s : Mgr k}
    (r : MgrRep nm env h a s) (c : k.Call) {name : String} {args : List V} (hk : Ask nm cfg env.reg h name args k c) :
    Does nm env h a (callMethod cfg (.ref a) name args h) (callBody env k c s) := by
  cases k with
  | v1 => exact C96_v1 hc hb r c hk
  | v2 => exact C96_v2 hc hb r c hk
  | sm => exact C97_snmpManager hc hreg hb r c hk

/-- A call changes no cell of an ASN.1 object or a list. -/
theorem only_same {h h' : Heap} {a : Nat} {k : Kind} {s : Mgr k} (r : MgrRep nm env h a s) (ho : Only a h h') : Same h h' := by
  obtain ⟨attrs, q, d, r⟩ := r
  intro b c hb hc hcell
  rcases ho.same b hb (lt_of_get hcell) with h1 | rfl | ⟨c', attrs', h1, h2⟩
  · rw [h1, hcell]
  · rw [r.cell] at hcell
    cases hcell
    obtain ⟨k', hk⟩ := hc
    exact absurd hk (by cases k <;> cases k' <;> first | (intro h; cases h) | (rename_i x; cases x <;> (intro h; cases h)))
  · rw [r.cell] at h1
    cases h1
    rcases h2 with h2 | h2
    · rw [r.outbound] at h2
      cases h2
      obtain ⟨l, hl, -⟩ := r.queue
      rw [hl] at hcell
      cases hcell
      exact hc.elim
    · rw [r.callbacks] at h2
      cases h2
      obtain ⟨l, hl, -⟩ := r.dict
      rw [hl] at hcell
      cases hcell
      exact hc.elim

theorem argAt_same {h h' : Heap} (hs : Same h h') {arg : Arg} {x : V} (r : ArgAt h arg x) : ArgAt h' arg x :=
  ⟨RepArg.same hs r.2 r.1, r.2⟩

theorem repOids_same {h h' : Heap} (hs : Same h h') {args : List Arg} {x : V} (r : RepOids h args x) : RepOids h' args x := by
  rcases r with ⟨b, l, h1, h2, h3, h4⟩ | ⟨l, h1, h2⟩ | r
  · exact .inl ⟨b, l, h1, h2, hs _ (.list l) h2 trivial h3, h4.imp fun _ _ => argAt_same hs⟩
  · exact .inr (.inl ⟨l, h1, h2.imp fun _ _ => argAt_same hs⟩)
  · exact .inr (.inr r)

theorem ask_same {h h' : Heap} (hs : Same h h') {reg : Reg} {k : Kind} {c : k.Call} {name : String} {args : List V}
    (hk : Ask nm cfg reg h name args k c) : Ask nm cfg reg h' name args k c := by
  cases k with
  | v1 =>
    cases c with
    | get oid remote cb t => obtain ⟨h1, h2, x, h3, h4⟩ := hk; exact ⟨h1, h2, x, argAt_same hs h3, h4⟩
    | getNext vbs remote cb t => obtain ⟨h1, x, h3, h4⟩ := hk; exact ⟨h1, x, h3.same hs, h4⟩
    | set vbs remote cb t => obtain ⟨h1, x, h3, h4⟩ := hk; exact ⟨h1, x, h3.same hs, h4⟩
    | trap remote pdu t => obtain ⟨h1, x, h3, h4⟩ := hk; exact ⟨h1, x, h3.same hs, h4⟩
  | v2 =>
    cases c with
    | get oid remote cb t => obtain ⟨h1, h2, x, h3, h4⟩ := hk; exact ⟨h1, h2, x, repOids_same hs h3, h4⟩
    | getNext vbs remote cb t => exact hk
    | set vbs remote cb t => exact hk
    | trap remote pdu t => obtain ⟨h1, x, h3, h4⟩ := hk; exact ⟨h1, x, h3.same hs, h4⟩
  | sm =>
    cases c with
    | get oid remote cb t v => obtain ⟨h1, h2, x, h3, h4⟩ := hk; exact ⟨h1, h2, x, argAt_same hs h3, h4⟩
    | getNext vbs remote cb t v => obtain ⟨h1, x, h3, h4⟩ := hk; exact ⟨h1, x, h3.same hs, h4⟩
    | set oid valtype value remote cb t v =>
      obtain ⟨h1, h2, h3, x, y, h4, h5, h6⟩ := hk
      exact ⟨h1, h2, h3, x, y, argAt_same hs h4, argAt_same hs h5, h6⟩
    | trap remote pdu t v => exact hk

/-- C97. Any number of calls of request methods of a manager, one after another, whatever each returns or raises: each does what the
model's call does, in the model's state after the calls before it. -/
theorem C97_calls (hc : Limits cfg) (hreg : Registry cfg env.reg) {h : Heap} (hb : Base h) {a : Nat} {k : Kind} {s : Mgr k}
    (r : MgrRep nm env h a s) (cs : List (k.Call × String × List V)) (hk : ∀ c ∈ cs, Ask nm cfg env.reg h c.2.1 c.2.2 k c.1) :
    AllDo nm env cfg a h s cs := by
  induction cs generalizing h s with
  | nil => exact trivial
  | cons c cs ih =>
    obtain ⟨c, name, args⟩ := c
    obtain ⟨h', h1, h2, h3⟩ := C97_call hc hreg hb r c (hk _ List.mem_cons_self)
    have hs := only_same r h1
    exact ⟨h', h1, h2, h3, ih h1.base h2 fun c' hc' => ask_same hs (hk c' (List.mem_cons_of_mem _ hc'))⟩

/-! ## The hypotheses are met -/

theorem sampleCfg_registry : Registry sampleCfg regFull := fun _ => rfl

theorem fine_text {s : Str} (h : Short sampleCfg s) : FineArg sampleCfg (.str s) := fun t ht => by injection ht with ht; exact ht ▸ h

/-- `manager.snmpSet('.1.3.6', 4, 'x', address, callback, 'private', 1)`, of an snmpManager: the callback is kept under the Integer object. -/
example : Does (k := .sm) sampleNames ⟨regFull, none, none⟩ (sampleMgr .sm) 10
    (callMethod sampleCfg (.ref 10) "snmpSet" [.str (lit ".1.3.6"), .int 4, .str (lit "x"), .tuple [.str (lit "127.0.0.1"), .int (161 : Nat)],
      .func .util 7, .str (lit "private"), .int 1] (sampleMgr .sm))
    (.ok (.integer .integer 0), { nextRequestID := 1, callbacks := [(.integer .integer 0, 7)], outbound := [(some ⟨.message, .integer .integer 0,
      .octets .octetString (lit "private"), .seq .set [.integer .integer 0, .integer .errorStatus 0, .integer .integer 0,
        .seq .varBindList [.seq .varBind [.oid (some [1, 3, 6]), .octets .octetString (lit "x")]]]⟩, 161)] }) := by
  have h1 := C97_snmpManager (cfg := sampleCfg) (env := ⟨regFull, none, none⟩) sampleCfg_limits sampleCfg_registry (sampleMgr_base .sm)
    (sampleMgr_rep .sm) (.set (.str (lit ".1.3.6")) 4 (.str (lit "x")) 161 7 (lit "private") 1)
    ⟨rfl, fine_text (.inr (by decide +kernel)), fun cls hcls => by cases hcls; exact .inl ⟨.inl rfl, _, rfl⟩,
      .str (lit ".1.3.6"), .str (lit "x"), ⟨rfl, by simp⟩, ⟨rfl, by simp⟩, .inl rfl⟩
  rw [show callBody ⟨regFull, none, none⟩ Kind.sm (.set (.str (lit ".1.3.6")) 4 (.str (lit "x")) 161 7 (lit "private") 1) {} = (_, _) from rfl] at h1
  exact h1

/-- `manager.snmpTrap(address, pdu, 'private', 3)` puts None into the queue, and a `snmpGet` after it the first request. -/
example : AllDo (k := .sm) sampleNames ⟨regFull, none, none⟩ sampleCfg 10 (sampleMgr .sm) {}
    [(.trap 162 .none (lit "private") 3, "snmpTrap", [sampleNames.addr 162, .none, .str (lit "private"), .int 3]),
     (.get (.str (lit ".1.3.6")) 161 7 (lit "public") 2, "snmpGet", [.str (lit ".1.3.6"), sampleNames.addr 161, sampleNames.fn 7])] := by
  refine C97_calls sampleCfg_limits sampleCfg_registry (sampleMgr_base .sm) (sampleMgr_rep .sm) _ ?_
  intro c hc
  simp only [List.mem_cons, List.not_mem_nil, or_false] at hc
  rcases hc with rfl | rfl
  · exact ⟨rfl, .none, .inl rfl⟩
  · exact ⟨rfl, fine_text (.inr (by decide +kernel)), .str (lit ".1.3.6"), ⟨rfl, by simp⟩, .inr (.inr ⟨rfl, rfl, rfl⟩)⟩

end Libsnmp
