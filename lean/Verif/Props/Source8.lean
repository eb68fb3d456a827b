import Verif.Lemmas.SrcLoop
import Verif.Lemmas.SrcTurn4
import Verif.Props.Source7

/-!
# C99: one turn of `run()` on the source text
-/

namespace Libsnmp.Src
open Libsnmp Spec

variable {cfg inner : Cfg} {nm : Names} {env : Libsnmp.Env}

/-- C99. `v1.SNMP.run`: one turn. -/
theorem C99_v1 (hc : Limits cfg) (hci : Limits inner) (hreg : Knows inner env.reg) (hi : Imported env.reg) {h : Heap} (hb : Base h)
    {a q d g : Nat} {s : Mgr .v1} {attrs : List (String × V)} {t : V} {w : String} {size : Int} {U : Nat → Prop}
    {user : User .v1} (hu : Obeys inner nm env U h.length a user) (hh : Heeds cfg nm env U h.length a user)
    (r : MgrAt nm env h a s attrs q d) (hw : Wired .v1 a g t attrs) (hl : Line h g w size) (hU : ¬ U g)
    {datagram : Option Str} (hlen : ∀ x, datagram = some x → x.length < 10 ^ 640) (ar : Around cfg inner a w size t datagram)
    {socket : Except Exc Unit} (hs : SendsTo cfg nm w socket s.outbound) (hf : ∀ m n, (some m, n) ∈ s.outbound → Fine m) (x : Option V) :
    Turns cfg nm env U h a q d x (iterate311 env inner.limit .v1 user socket (datagram.map .str) s) :=
  run_v1Turn (by decide) hc hci hreg hi hb (fun hk => by cases hk) hu hh r hw hl hU ar hlen hs hf x

/-- C99. `v2.SNMP.run`, which is v1's: one turn; `traceback.print_exc()` returns. -/
theorem C99_v2 (hc : Limits cfg) (hci : Limits inner) (hreg : Knows inner env.reg) (hi : Imported env.reg) {h : Heap} (hb : Base h)
    (hprint : ∀ h, inner.ext "traceback.print_exc" [] h = okR .none h)
    {a q d g : Nat} {s : Mgr .v2} {attrs : List (String × V)} {t : V} {w : String} {size : Int} {U : Nat → Prop}
    {user : User .v2} (hu : Obeys inner nm env U h.length a user) (hh : Heeds cfg nm env U h.length a user)
    (r : MgrAt nm env h a s attrs q d) (hw : Wired .v2 a g t attrs) (hl : Line h g w size) (hU : ¬ U g)
    {datagram : Option Str} (hlen : ∀ x, datagram = some x → x.length < 10 ^ 640) (ar : Around cfg inner a w size t datagram)
    {socket : Except Exc Unit} (hs : SendsTo cfg nm w socket s.outbound) (hf : ∀ m n, (some m, n) ∈ s.outbound → Fine m) (x : Option V) :
    Turns cfg nm env U h a q d x (iterate311 env inner.limit .v2 user socket (datagram.map .str) s) :=
  run_v1Turn (by decide) hc hci hreg hi hb (fun _ => hprint) hu hh r hw hl hU ar hlen hs hf x

/-- C99. `snmpManager.run`: one turn.  What is sent is at the head of the queue after the datagram has been handled. -/
theorem C99_snmpManager (hc : Limits cfg) (hci : Limits inner) (hreg : Knows inner env.reg) (hi : Imported env.reg) {h : Heap} (hb : Base h)
    {a q d g : Nat} {s : Mgr .sm} {attrs : List (String × V)} {t : V} {w : String} {size : Int} {U : Nat → Prop}
    {user : User .sm} (hu : Obeys inner nm env U h.length a user) (hh : Heeds cfg nm env U h.length a user)
    (r : MgrAt nm env h a s attrs q d) (hw : Wired .sm a g t attrs) (hl : Line h g w size) (hU : ¬ U g)
    {datagram : Option Str} (hlen : ∀ x, datagram = some x → x.length < 10 ^ 640) (ar : Around cfg inner a w size t datagram)
    {socket : Except Exc Unit} (hs : SendsTo cfg nm w socket (poll311 env inner.limit .sm user (datagram.map .str) s).2.outbound)
    (hf : ∀ m n, (some m, n) ∈ (poll311 env inner.limit .sm user (datagram.map .str) s).2.outbound → Fine m) (x : Option V) :
    Turns cfg nm env U h a q d x (iterate311 env inner.limit .sm user socket (datagram.map .str) s) :=
  run_smTurn hc hci hreg hi hb hu hh r hw hl hU ar hlen hs hf x

/-! ## The loop -/

/-- C99. Calling `run()` is the loop from its beginning, with `request` not yet bound. -/
theorem C99_run {k : Libsnmp.Kind} {h : Heap} {a q d : Nat} {s : Mgr k} {attrs : List (String × V)} (r : MgrAt nm env h a s attrs q d) :
    callMethod cfg (.ref a) "run" [] h = looping cfg k a none h := by
  have hw : ∀ {m0 : Module} {c : Expr} {b : List Stmt} {E : Env}, block program cfg m0 E [.whileS c b] h = whileL program cfg m0 E c b h := by
    intro m0 c b E
    rw [block, exec, bindS_nil]
  cases k with
  | v1 => rw [callMgr_eq r (m := .v1) (l := 216) rfl, call_v1_216]; exact congrArg result hw
  | v2 => rw [callMgr_eq r (m := .v1) (l := 216) rfl, call_v1_216]; exact congrArg result hw
  | sm => rw [callMgr_eq r (m := .snmpmanager) (l := 322) rfl, call_snmpmanager_322]; exact congrArg result hw

/-- C99. A turn that comes to its end is followed by the next turn. -/
theorem C99_run_next {k : Libsnmp.Kind} {h h' : Heap} {a : Nat} {x x' : Option V}
    (ht : oneTurn cfg k a x h = some (h', runEnv a x', .next)) : looping cfg k a x h = looping cfg k a x' h' := by
  cases k with
  | v1 | v2 =>
    simp only [oneTurn] at ht
    simp only [looping]
    rw [whileL]
    runs [↓ht, bindLoop]
  | sm =>
    simp only [oneTurn] at ht
    simp only [looping]
    rw [whileL]
    runs [↓ht, bindLoop]

/-- C99. An exception that a turn raises ends `run()`. -/
theorem C99_run_raises {k : Libsnmp.Kind} {h h' : Heap} {a : Nat} {x : Option V} {E : Env} {y : V}
    (ht : oneTurn cfg k a x h = some (h', E, .exc y)) : looping cfg k a x h = excR y h' := by
  cases k with
  | v1 | v2 =>
    simp only [oneTurn] at ht
    simp only [looping]
    rw [whileL]
    runs [↓ht, bindLoop]
  | sm =>
    simp only [oneTurn] at ht
    simp only [looping]
    rw [whileL]
    runs [↓ht, bindLoop]

/-- C99. `run()` never returns, whatever the world and the callbacks do, turn after turn: it goes on for ever, or it raises (the third case
is code outside the interpreter's Python). -/
theorem C99_never_returns {k : Libsnmp.Kind} {h : Heap} {a q d : Nat} {s : Mgr k} {attrs : List (String × V)} (r : MgrAt nm env h a s attrs q d)
    (v : V) (h' : Heap) : callMethod cfg (.ref a) "run" [] h ≠ okR v h' := by
  rw [C99_run r]
  have key : ∀ x : S, Stays x → result x ≠ okR v h' := by
    intro x hx e
    match x, hx, e with
    | some (h1, E, fl), hx, e =>
      rcases hx _ _ _ rfl with ⟨y, rfl⟩ | rfl <;> cases e
  cases k with
  | v1 => exact key _ (while_stays program cfg _ _ _ _ _ (.bool true) (.inr ⟨rfl, rfl⟩) rfl)
  | v2 => exact key _ (while_stays program cfg _ _ _ _ _ (.bool true) (.inr ⟨rfl, rfl⟩) rfl)
  | sm => exact key _ (while_stays program cfg _ _ _ _ _ (.int 1) (.inl ⟨rfl, rfl⟩) rfl)

/-! ## Without the limit on numerals -/

theorem poll311_same {k : Libsnmp.Kind} (user : User k) (datagram : Option Str) (D : Nat) (s : Mgr k)
    (h : ∀ x, datagram = some x → decode311 env.reg D x = decode env.reg (.str x)) :
    poll311 env D k user (datagram.map .str) s = poll env k user (datagram.map .str) s := by
  cases datagram with
  | none => rfl
  | some x =>
    simp only [Option.map, poll311, poll, C86_manager_same env D k user x s (h x rfl)]
    rfl

/-- C99. For a datagram that decodes alike with and without the limit — any of up to 1785 octets (C86) — the turn is the one that the
properties of `Props/Run.lean` are about. -/
theorem C99_same {k : Libsnmp.Kind} (user : User k) (socket : Except Exc Unit) (datagram : Option Str) (D : Nat) (s : Mgr k)
    (h : ∀ x, datagram = some x → decode311 env.reg D x = decode env.reg (.str x)) :
    iterate311 env D k user socket (datagram.map .str) s = iterate env k user socket (datagram.map .str) s := by
  have hp : poll311 env D k user (datagram.map .str) = poll env k user (datagram.map .str) :=
    funext fun s => poll311_same user datagram D s h
  cases k <;> simp only [iterate311, iterate, v1Iterate311, v1Iterate, smIterate311, smIterate, hp] <;> rfl

/-! ## The hypotheses are met -/

/-- An answer to the request 0. -/
def answer : Str := [48, 35, 2, 1, 0, 4, 6, 112, 117, 98, 108, 105, 99, 162, 22, 2, 1, 0,
  2, 1, 0, 2, 1, 0, 48, 11, 48, 9, 6, 5, 43, 6, 1, 2, 1, 5, 0]

/-- While a datagram is read: as `againCfg`, and the socket has the datagram `answer`. -/
def readingCfg : Cfg :=
  let ext : String → List V → Heap → R V := fun n args h =>
    if n = "sock.recvfrom" then okR (.tuple [.str answer, .none]) h else againCfg.ext n args h
  { sampleCfg with ext := ext }

/-- The process in which `run()` runs: `asyncore.poll` finds the datagram. -/
def turnCfg : Cfg :=
  let ext : String → List V → Heap → R V := fun n _ h => if n = "asyncore.poll" then readEvent readingCfg 10 h else okR .none h
  { sampleCfg with ext := ext }

def turnAttrs : List (String × V) :=
  [("queueEmpty", .none), ("trapCallback", .none), ("outbound", .ref 11), ("callbacks", .ref 12), ("nextRequestID", .int 1),
   ("cb_fun", .meth (.ref 10) .v1 163), ("cb_ctx", .none), ("timeout", .int 0), ("manager", .ref 13)]

/-- A manager as `asynrole.Manager.__init__` wires it, that waits for the answer to the request 0. -/
def ready : Heap := statics ++
  [.inst (mgrCid .v1) turnAttrs, .queue [], .dict [(.int 0, .ext "again")],
   .inst (.role, 13) [("dest", .none), ("interface", .none), ("socket", .ext "sock"), ("socksize", .int 65536), ("request_id", .int 1)]]

/-- A turn of `run()` with an empty queue, in which the answer arrives and the callback makes the next request. -/
example : ∃ h' attrs' x', oneTurn turnCfg .v1 10 none ready = some (h', runEnv 10 x', .next) ∧
    ∃ s : Mgr .v1, MgrAt againNames ⟨regFull, none, none⟩ h' 10 s attrs' 11 12 ∧
      s.callbacks = [(.int 1, 7)] ∧ s.outbound.length = 1 ∧ s.nextRequestID = 2 := by
  have ht := C99_v1 (cfg := turnCfg) (inner := readingCfg) (nm := againNames) (env := ⟨regFull, none, none⟩) (h := ready) (a := 10) (q := 11)
    (d := 12) (g := 13) (s := { nextRequestID := 1, callbacks := [(.int 0, 7)] }) (attrs := turnAttrs) (t := .int 0) (w := "sock") (size := 65536)
    (U := fun _ => False) (user := asking ⟨regFull, none, none⟩ again) (datagram := some answer) (socket := .ok ())
    sampleCfg_limits sampleCfg_limits sampleCfg_knows imported_full
    (base_statics.congr fun b hb => List.getElem?_append_left (Nat.lt_of_lt_of_le hb (by decide))) ?_ (fun cb hcb => by cases hcb) ?_ ?_ ?_
    (fun h => h) ?_ ?_ ?_ (by simp) none
  · obtain ⟨h', attrs', x', _, r, e⟩ := ht
    rcases hm : iterate311 ⟨regFull, none, none⟩ readingCfg.limit .v1 (asking ⟨regFull, none, none⟩ again) (.ok ()) (some (.str answer))
      { nextRequestID := 1, callbacks := [(.int 0, 7)] } with ⟨o, s⟩
    have ho : o = .ok () ∧ s.callbacks = [(.int 1, 7)] ∧ s.outbound.length = 1 ∧ s.nextRequestID = 2 := by
      have h1 : o = _ := (congrArg Prod.fst hm).symm
      have h2 : s = _ := (congrArg Prod.snd hm).symm
      rw [h1, h2]
      decide +kernel
    obtain ⟨rfl, h2, h3, h4⟩ := ho
    simp only [Option.map, hm] at r e
    exact ⟨h', attrs', x', e, s, r, h2, h3, h4⟩
  · refine C98_asking (cfg' := sampleCfg) sampleCfg_limits sampleCfg_registry again (fun _ => "snmpGet")
      (fun _ => [.str (lit ".1.3.6"), .tuple [.str (lit "127.0.0.1"), .int (161 : Nat)], .ext "again"]) ?_ ?_
    · intro cb h
      exact ⟨rfl, fun s hs => by injection hs with hs; subst hs; exact .inr (by decide +kernel), .str (lit ".1.3.6"), ⟨rfl, by simp⟩, .inr ⟨rfl, rfl⟩⟩
    · intro cb x h
      show call program readingCfg (.ext "again") _ h = _
      rw [call]
      rfl
  · exact ⟨by decide, rfl, by decide, .inl rfl, rfl, by decide, ⟨_, rfl, .nil⟩, rfl, by decide, ⟨_, rfl, .cons ⟨by simp [Rep], rfl⟩ .nil⟩,
        by simp [GoodKey], by simp, rfl, rfl⟩
  · exact ⟨rfl, rfl, rfl, rfl⟩
  · exact ⟨by decide, _, rfl, by decide, rfl, rfl⟩
  · intro x hx
    cases hx
    exact Nat.lt_of_lt_of_le (by decide : 37 < 10 ^ 2) (Nat.pow_le_pow_right (by decide) (by decide))
  · refine ⟨fun h => absurd h (by simp), fun _ h => rfl, fun s hs => ?_, fun h => rfl⟩
    injection hs with hs
    subst hs
    exact ⟨.none, fun h => rfl⟩
  · intro m n rest o ho
    cases ho

end Libsnmp.Src
