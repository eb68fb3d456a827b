import Verif.Props.Source9
import Verif.Spec.SourceHistory
import Verif.Props.Requests

/-!
# C102: histories of a manager, on the source text
-/

namespace Libsnmp.Src
open Libsnmp Spec

variable {nm : Names} {env : Libsnmp.Env} {k : Libsnmp.Kind} {S : Site}

/-- What holds of a manager at every point of its history: it is the model's manager, wired as it was made. -/
structure Holds (nm : Names) (env : Libsnmp.Env) (S : Site) (h : Heap) (s : Mgr k) : Prop where
  base : Base h
  mgr : ∃ attrs q d, MgrAt nm env h S.a s attrs q d ∧ Wired k S.a S.g S.timeout attrs
  line : Line h S.g S.w S.size

theorem Registry.knows {cfg : Cfg} {reg : Reg} (h : Registry cfg reg) : Knows cfg reg := fun n => by
  rw [h n, if_neg (by omega), Int.toNat_natCast]

/-- The log is no part of the object. -/
theorem MgrAt.note {h : Heap} {a q d : Nat} {s : Mgr k} {attrs : List (String × V)} (r : MgrAt nm env h a s attrs q d) (o : Obs k) :
    MgrAt nm env h a (s.note o) attrs q d :=
  ⟨r.low, r.cell, r.names, r.next, r.outbound, r.qlow, r.queue, r.callbacks, r.dlow, r.dict, r.keys, r.once, r.trap, r.empty⟩

/-- After a call of a request method the queue, the dictionary and the wires are the same objects. -/
theorem Only.mgrAt {h h' : Heap} {a q d : Nat} {s s' : Mgr k} {attrs : List (String × V)} (ho : Only a h h') (r : MgrAt nm env h a s attrs q d)
    (r' : MgrRep nm env h' a s') : ∃ attrs', MgrAt nm env h' a s' attrs' q d ∧ Turned (fun _ => False) a q d h h' := by
  obtain ⟨attrs', q', d', r'⟩ := r'
  obtain ⟨l', c', w'⟩ := ho.wires _ _ r.cell
  rw [r'.cell] at c'
  injection c' with c'
  injection c' with _ c'
  subst c'
  have p1 := (r'.outbound.symm.trans (w' "outbound" (by decide))).trans r.outbound
  have p2 := (r'.callbacks.symm.trans (w' "callbacks" (by decide))).trans r.callbacks
  injection p1 with p1
  injection p1 with p1
  injection p2 with p2
  injection p2 with p2
  subst p1 p2
  refine ⟨attrs', r', ho.base, ho.len, fun b h9 hb e1 e2 e3 _ => .inl ?_, ho.wires⟩
  rcases ho.same b h9 hb with h4 | h4 | ⟨c, l, h4, h5⟩
  · exact h4
  · exact absurd h4 e1
  · rw [r.cell] at h4; cases h4
    rcases h5 with h5 | h5
    · rw [r.outbound] at h5; cases h5; exact absurd rfl e2
    · rw [r.callbacks] at h5; cases h5; exact absurd rfl e3

/-- One step. -/
theorem step_does (hi : Imported env.reg) (hU : ¬ S.U S.g) {h : Heap} {s : Mgr k} (r : Holds nm env S h s) {st : Step k}
    (hf : st.Fits nm env S h s) :
    ∃ h', Outcome (Rep 9) h' (st.run S.a h) (st.model env s).1 ∧ Holds nm env S h' (st.model env s).2 := by
  obtain ⟨hb, ⟨attrs, q, d, r, hw⟩, hl⟩ := r
  cases st with
  | ask cfg name args c =>
    obtain ⟨h1, h2, h3⟩ := hf
    obtain ⟨h', ho, r', e⟩ := C97_call h1 h2 hb ⟨_, _, _, r⟩ c h3
    obtain ⟨attrs', r', ht⟩ := ho.mgrAt r r'
    exact ⟨h', e, ho.base, ⟨attrs', q, d, r'.note _, ho.wires.wired r r' hw⟩, ht.line r (fun h => h) hl⟩
  | turn cfg inner x t socket user =>
    have hs := C99_same (fun cb m => (user cb m).exec env) socket t inner.limit s hf.digits
    have key : Turns cfg nm env S.U h S.a q d x (iterate env k (fun cb m => (user cb m).exec env) socket (t.map .str) s) := by
      rw [← hs]
      cases k with
      | v1 => exact C99_v1 hf.limits hf.limits' hf.registry.knows hi hb hf.obeys hf.heeds r hw hl hU hf.short hf.around hf.sends hf.fine x
      | v2 => exact C99_v2 hf.limits hf.limits' hf.registry.knows hi hb (hf.prints rfl) hf.obeys hf.heeds r hw hl hU hf.short hf.around hf.sends hf.fine x
      | sm =>
        have hp := poll311_same (fun cb m => (user cb m).exec env) t inner.limit s hf.digits
        refine C99_snmpManager hf.limits hf.limits' hf.registry.knows hi hb hf.obeys hf.heeds r hw hl hU hf.short hf.around ?_ ?_ x
        · rw [hp]; exact hf.sends
        · rw [hp]; exact hf.fine
    obtain ⟨h', attrs', x', ht, r', e⟩ := key
    refine ⟨h', ?_, ht.base, ⟨attrs', q, d, r', ht.wires.wired r r' hw⟩, ht.line r hU hl⟩
    simp only [Step.model, Step.run]
    rcases hm : (iterate env k (fun cb m => (user cb m).exec env) socket (t.map .str) s).1 with e' | u
    · rw [hm] at e
      obtain ⟨-, y, E, e1, e2⟩ := e
      rw [e1]
      exact ⟨y, rfl, e2⟩
    · rw [hm] at e
      dsimp only at e
      rw [e]
      exact ⟨.none, rfl, by simp [Rep]⟩

theorem JustMade.holds {h : Heap} (f : JustMade nm env k S h) : Holds nm env S h ({} : Mgr k) := ⟨f.base, f.mgr, f.line⟩

/-- The program of the model that makes the same steps. -/
def progOf : List (Step k) → Act k
  | [] => .ret
  | .ask _ _ _ c :: l => .call c fun _ => progOf l
  | .turn _ _ _ t socket user :: l => .loop socket (t.map .str) user fun _ => progOf l

theorem progOf_exec (l : List (Step k)) (s : Mgr k) : ((progOf l).exec env s).2 = l.foldl (fun s st => (st.model env s).2) s := by
  induction l generalizing s with
  | nil => rfl
  | cons st l ih => cases st <;> exact ih _

theorem History.state {h0 h : Heap} {l : List (Step k × Heap × Out V)} {s : Mgr k} (hh : History nm env S h0 l h s) :
    s = (l.map Prod.fst).foldl (fun s st => (st.model env s).2) {} := by
  induction hh with
  | new => rfl
  | step _ _ _ ih => rw [List.map_append, List.foldl_append, ← ih]; rfl

/-- C102. The constructors leave a manager whose history can begin. -/
theorem C102_fresh {h : Heap} {r : R V} {w : String} {interface timeout : V} (hb : Base h) (hn : NewManager nm env k h r w interface timeout)
    (U : Nat → Prop) (hU : ∀ b, U b → b < h.length) :
    ∃ h' g, r = okR (.ref h.length) h' ∧ JustMade nm env k ⟨h.length, g, w, 65536, timeout, U⟩ h' := by
  obtain ⟨h', attrs, q, d, g, e, hs, m, -, -, hg, hw, hl, -⟩ := hn
  refine ⟨h', g, e, hb.congr fun b hlt => hs b ?_, ⟨attrs, q, d, m, hw⟩, hl, fun hu => ?_⟩
  · have : 9 ≤ h.length := m.low
    omega
  · exact absurd (hU _ hu) (by dsimp only; omega)

/-- The object in the heap follows the model. -/
theorem history_holds (hi : Imported env.reg) {h0 h : Heap} (f : JustMade nm env k S h0) {l : List (Step k × Heap × Out V)} {s : Mgr k}
    (hh : History nm env S h0 l h s) : Holds nm env S h s := by
  induction hh with
  | new => exact f.holds
  | step hh hf e ih =>
    obtain ⟨h2, o2, r2⟩ := step_does hi f.own ih hf
    rw [e] at o2
    rename_i h1 s1 st o
    cases hm : (st.model env s1).1 with
    | ok v =>
      rw [hm] at o2
      obtain ⟨x, hx, -⟩ := o2
      cases hx
      exact r2
    | error e =>
      rw [hm] at o2
      obtain ⟨x, hx, -⟩ := o2
      cases hx
      exact r2

/-- C102. At every point of the history of a manager its object in the heap is in the state that a program of the model leads to.  So
everything that is proved of the reachable states of the model holds of it. -/
theorem C102_reachable (hi : Imported env.reg) {h0 h : Heap} (f : JustMade nm env k S h0) {l : List (Step k × Heap × Out V)} {s : Mgr k}
    (hh : History nm env S h0 l h s) : Reachable env s ∧ MgrRep nm env h S.a s := by
  obtain ⟨attrs, q, d, r, -⟩ := (history_holds hi f hh).mgr
  exact ⟨⟨progOf (l.map Prod.fst), (progOf_exec _ _).trans hh.state.symm⟩, attrs, q, d, r⟩

/-- C102. Every further step comes to an end: the source text returns or raises, and what it returns or raises is the model's. -/
theorem C102_progress (hi : Imported env.reg) {h0 h : Heap} (f : JustMade nm env k S h0) {l : List (Step k × Heap × Out V)} {s : Mgr k}
    (hh : History nm env S h0 l h s) {st : Step k} (hf : st.Fits nm env S h s) :
    ∃ h' o, Outcome (Rep 9) h' (st.run S.a h) (st.model env s).1 ∧ st.run S.a h = some (h', o) ∧
      History nm env S h0 (l ++ [(st, h', o)]) h' (st.model env s).2 := by
  obtain ⟨h', o, -⟩ := step_does hi f.own (history_holds hi f hh) hf
  cases hm : (st.model env s).1 with
  | ok v =>
    rw [hm] at o
    obtain ⟨x, hx, hr⟩ := o
    exact ⟨h', .ok x, ⟨x, hx, hr⟩, hx, hh.step hf hx⟩
  | error e =>
    rw [hm] at o
    obtain ⟨x, hx, hr⟩ := o
    exact ⟨h', .exc x, ⟨x, hx, hr⟩, hx, hh.step hf hx⟩

/-- The numbers that calls of request methods have returned, in order, are among those of the model's log, in order. -/
theorem ids_sublist (hi : Imported env.reg) {h0 h : Heap} (f : JustMade nm env k S h0) {l : List (Step k × Heap × Out V)} {s : Mgr k}
    (hh : History nm env S h0 l h s) : (l.filterMap idOf).Sublist ((issued s.log).map Prod.fst) := by
  induction hh with
  | new => exact List.Sublist.slnil
  | @step l h h' s st o hh hf e ih =>
    obtain ⟨h2, o2, -⟩ := step_does hi f.own (history_holds hi f hh) hf
    rw [e] at o2
    rw [List.filterMap_append]
    cases st with
    | ask cfg name args c =>
      have he := call_effect env k c s
      have hm : (Step.ask cfg name args c).model env s = ((callBody env k c s).1, (callBody env k c s).2.note (.called c (callBody env k c s).1)) := rfl
      rw [hm] at o2 ⊢
      generalize callBody env k c s = z at he o2 ⊢
      cases he with
      | failed x j hj =>
        obtain ⟨y, hy, -⟩ := o2
        cases hy
        simp only [Mgr.note, issued_append, List.map_append]
        exact ih.append (List.nil_sublist _)
      | request ci cb m key d' hcb hm hk hd =>
        obtain ⟨y, hy, hr⟩ := o2
        cases hy
        simp only [Rep] at hr
        obtain ⟨b, attrs, rfl, -, hc, -, hv⟩ := hr
        simp only [Mgr.note, issued_append, List.map_append]
        refine ih.append ?_
        simp [idOf, hc, hv, issued, hcb]
      | trap m hcb hm =>
        obtain ⟨y, hy, hr⟩ := o2
        cases hy
        simp only [Rep] at hr
        subst hr
        simp only [Mgr.note, issued_append, List.map_append]
        exact ih.append (List.nil_sublist _)
    | turn cfg inner x t socket user =>
      have hn : s.callbacks.Numeric := by
        obtain ⟨p, rfl⟩ := (C102_reachable hi f hh).1
        exact (exec_sane env p {} (by intro p hp; cases hp)).1
      obtain ⟨t', ht⟩ := (exec_sane env (.loop socket (t.map .str) user fun _ => .ret) s hn).2
      have hl : ((Step.turn cfg inner x t socket user).model env s).2.log = s.log ++ t' := ht.symm
      rw [hl, issued_append, List.map_append]
      exact ih.append (List.nil_sublist _)

/-- C102. The numbers that the calls of request methods return ascend strictly all along the history: no number is given out twice. -/
theorem C102_unique (hi : Imported env.reg) {h0 h : Heap} (f : JustMade nm env k S h0) {l : List (Step k × Heap × Out V)} {s : Mgr k}
    (hh : History nm env S h0 l h s) : (l.filterMap idOf).Pairwise (· < ·) := by
  refine List.Pairwise.sublist (ids_sublist hi f hh) ?_
  rw [List.pairwise_map]
  exact (C43_unique (C102_reachable hi f hh).1).1

/-! ## The hypotheses can be met -/

/-- While a datagram is read: the socket has the datagram `answer`, and every function that is called returns. -/
def storyInner : Cfg :=
  let ext : String → List V → Heap → R V := fun n _ h => if n = "sock.recvfrom" then okR (.tuple [.str answer, .none]) h else okR .none h
  { sampleCfg with ext := ext }

/-- The process in which `run()` runs: `asyncore.poll` finds the datagram. -/
def storyCfg : Cfg :=
  let ext : String → List V → Heap → R V := fun n _ h => if n = "asyncore.poll" then readEvent storyInner 10 h else okR .none h
  { sampleCfg with ext := ext }

/-- `manager.snmpGet('.1.3.6', ('127.0.0.1', 161), callback)`. -/
def storyAsk : Step .v1 :=
  .ask sampleCfg "snmpGet" [.str (lit ".1.3.6"), .tuple [.str (lit "127.0.0.1"), .int (161 : Nat)], .ext "again"]
    (V1Call.get (.str (lit ".1.3.6")) 161 7 (lit "public"))

/-- A turn: the request goes out if it is in the queue, and if nothing is there, the answer comes in. -/
def storyTurn : Step .v1 := .turn storyCfg storyInner none (some answer) (.ok ()) fun _ _ => .ret

theorem small {x : Except Exc Str} (h : (match x with | .ok s => decide (s.length < 100) | .error _ => true) = true) :
    ∀ s, x = .ok s → s.length < 10 ^ 640 := by
  rintro s rfl
  exact Nat.lt_of_lt_of_le (of_decide_eq_true h) (Nat.pow_le_pow_right (n := 10) (by decide) (by decide : 2 ≤ 640))

theorem smallLen {n : Nat} (h : n < 100) : n < 10 ^ 640 :=
  Nat.lt_of_lt_of_le h (Nat.pow_le_pow_right (n := 10) (by decide) (by decide : 2 ≤ 640))

/-- `v1.SNMP()`, a request, two turns of `run()`: the history exists, the request got the number 0, and when its callback has been called
it is no longer in the dictionary. -/
example : ∃ h0 S, call program openCfg (.cls (.v1, 19)) [] statics = okR (.ref 10) h0 ∧ ∃ l h s,
    History (k := .v1) againNames ⟨regFull, none, none⟩ S h0 l h s ∧ l.filterMap idOf = [0] ∧ s.callbacks = [] ∧
      ∃ m, Obs.entered 7 (some m) ∈ s.log := by
  have hn : NewManager againNames ⟨regFull, none, none⟩ .v1 statics (call program openCfg (.cls (.v1, 19)) [] statics)
      "sock" (.tuple [.str (lit "0.0.0.0"), .int 0]) (.quot 1 4) := by
    have := C100_defaults (cfg := openCfg) .v1 statics
    exact this ▸ C100_new (nm := againNames) (env := ⟨regFull, none, none⟩) (h := statics) .v1 (by decide) (openCfg_opens _ _)
  obtain ⟨h0, g, e0, f⟩ := C102_fresh base_statics hn (fun _ => False) (fun _ h => h.elim)
  obtain ⟨h1, o1, out1, e1, hh1⟩ := C102_progress imported_full f .new (st := storyAsk)
    ⟨sampleCfg_limits, sampleCfg_registry, rfl, fun s hs => by injection hs with hs; subst hs; exact .inr (by decide +kernel), .str (lit ".1.3.6"),
      ⟨rfl, by simp⟩, .inr ⟨rfl, rfl⟩⟩
  have hq : (storyAsk.model ⟨regFull, none, none⟩ {}).2.outbound = [(some ⟨.message, .integer .integer 0,
      .octets .octetString (lit "public"), .seq .get [.integer .integer 0, .integer .errorStatus 0, .integer .integer 0,
        .seq .varBindList [.seq .varBind [.oid (some [1, 3, 6]), .null .null]]]⟩, 161)] := rfl
  have fits : ∀ (h : Heap) (s : Mgr .v1), (∀ m n, (some m, n) ∈ s.outbound → Fine m) →
      storyTurn.Fits againNames ⟨regFull, none, none⟩ ⟨statics.length, g, "sock", 65536, .quot 1 4, fun _ => False⟩ h s := fun h s hs =>
    { limits := sampleCfg_limits, limits' := sampleCfg_limits, registry := sampleCfg_registry, prints := nofun
      obeys := ⟨nofun, fun cb m s h x attrs q d hn hb r _ => ⟨h, attrs, ⟨hb, Nat.le_refl _, fun _ _ _ _ _ _ _ => rfl, fun c l hc => ⟨l, hc, fun _ _ => rfl⟩⟩, r, .none, by
          show call program storyInner (.ext "again") _ h = _
          rw [call]
          rfl⟩⟩
      heeds := nofun
      around := ⟨nofun, fun _ _ => rfl, fun s hs => ⟨.none, fun h => by injection hs with hs; subst hs; rfl⟩, fun _ => rfl⟩
      short := fun x hx => by injection hx with hx; subst hx; exact smallLen (by decide)
      sends := fun m r rest o _ _ h => ⟨.none, rfl⟩
      fine := hs
      digits := fun x hx => by injection hx with hx; subst hx; exact C86_short _ _ (by decide) (by decide) }
  obtain ⟨h2, o2, out2, e2, hh2⟩ := C102_progress imported_full f hh1 (st := storyTurn) (fits _ _ (by
    intro m n hm
    rw [hq, List.mem_singleton] at hm
    injection hm with hm _
    injection hm with hm
    subst hm
    refine ⟨.inl rfl, ?_, small (by decide +kernel)⟩
    simp only [SaneAll, Sane, and_true]
    exact ⟨smallLen (by decide +kernel), smallLen (by decide +kernel), by decide, by decide, small (by decide +kernel),
      smallLen (by decide +kernel), smallLen (by decide +kernel), smallLen (by decide +kernel), by decide, by decide, small (by decide +kernel),
      by decide, by decide, small (by decide +kernel), small (by decide +kernel)⟩))
  have hq2 : (storyTurn.model ⟨regFull, none, none⟩ (storyAsk.model ⟨regFull, none, none⟩ {}).2).2.outbound.isEmpty = true := by decide +kernel
  obtain ⟨h3, o3, out3, e3, hh3⟩ := C102_progress imported_full f hh2 (st := storyTurn) (fits _ _ fun m n hm => by
    rw [List.isEmpty_iff.mp hq2] at hm; cases hm)
  refine ⟨h0, _, e0, _, h3, _, hh3, ?_, ?_, ?_⟩
  · have hm : (storyAsk.model ⟨regFull, none, none⟩ {}).1 = .ok (.integer .integer 0) := rfl
    rw [hm] at out1
    obtain ⟨x, hx, hr⟩ := out1
    rw [hx] at e1
    cases e1
    simp only [Rep] at hr
    obtain ⟨b, attrs, rfl, -, hc, -, hv⟩ := hr
    simp [idOf, hc, hv, storyAsk, storyTurn]
  · have : (storyTurn.model ⟨regFull, none, none⟩ (storyTurn.model ⟨regFull, none, none⟩ (storyAsk.model ⟨regFull, none, none⟩ {}).2).2).2.callbacks.isEmpty = true := by decide +kernel
    exact List.isEmpty_iff.mp this
  · have : ((storyTurn.model ⟨regFull, none, none⟩ (storyTurn.model ⟨regFull, none, none⟩ (storyAsk.model ⟨regFull, none, none⟩ {}).2).2).2.log.any fun
        | .entered 7 (some _) => true
        | _ => false) = true := by decide +kernel
    obtain ⟨o, ho, hb⟩ := List.any_eq_true.mp this
    split at hb
    · exact ⟨_, ho⟩
    · cases hb

end Libsnmp.Src
