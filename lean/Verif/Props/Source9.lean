import Verif.Lemmas.SrcInit
import Verif.Props.Source8

/-!
# C100: making a manager, on the source text
-/

namespace Libsnmp.Src
open Libsnmp Spec

variable {cfg : Cfg} {nm : Names} {env : Libsnmp.Env}

/-- The arguments of the constructors, in the order of each class. -/
def newArgs (k : Libsnmp.Kind) (interface onEmpty onTrap timeout : V) : List V :=
  match k with
  | .sm => [onEmpty, onTrap, interface, timeout]
  | _ => [interface, onEmpty, onTrap, timeout]

theorem run_newMgr (k : Libsnmp.Kind) (interface onEmpty onTrap timeout : V) (h : Heap) :
    call program cfg (.cls (mgrCid k)) (newArgs k interface onEmpty onTrap timeout) h =
      bindR (call program cfg (.func .asynrole 15) [.ref h.length, .tuple [.meth (.ref h.length) (recvFn k).1 (recvFn k).2, .none],
        .tuple [.none, .int 0], interface, timeout] (earlyHeap k h onEmpty onTrap)) fun _ h' => okR (.ref h.length) h' := by
  cases k with
  | v1 => exact run_v1_22 (by decide) interface onEmpty onTrap timeout h
  | v2 => exact run_v1_22 (by decide) interface onEmpty onTrap timeout h
  | sm => exact run_sm_40 interface onEmpty onTrap timeout h

theorem early_names (n : Nat) (onEmpty onTrap : V) : ∀ p ∈ earlyAttrs n onEmpty onTrap, p.1 ∈ mgrNames := by
  intro p hp
  simp only [earlyAttrs, List.mem_cons, List.not_mem_nil, or_false] at hp
  rcases hp with rfl | rfl | rfl | rfl <;> simp [mgrNames]

/-- C100. `v1.SNMP(...)`, `v2.SNMP(...)` and `snmpManager(...)` make a new manager. -/
theorem C100_new (k : Libsnmp.Kind) {h : Heap} (hb : 9 ≤ h.length) {w : String} {interface timeout : V} (ho : Opens cfg h.length w interface) :
    NewManager nm env k h
      (call program cfg (.cls (mgrCid k)) (newArgs k interface (nm.opt env.queueEmpty) (nm.opt env.trapCallback) timeout) h) w interface timeout := by
  obtain ⟨h', attrs', e1, hl, hs, hc, hg, hn, f1, f2, f3, f4, f5⟩ := run_asynInit (k := k) (timeout := timeout) (ctx := .none)
    (m := (recvFn k).1) (l := (recvFn k).2)
    (early_cell h (nm.opt env.queueEmpty) (nm.opt env.trapCallback)) (early_names _ _ _) ho (.tuple [.none, .int 0])
  have hel : (earlyHeap k h (nm.opt env.queueEmpty) (nm.opt env.trapCallback)).length = h.length + 3 := by
    simp [earlyHeap]
  rw [hel] at hg f4
  refine ⟨h', attrs', h.length + 1, h.length + 2, h.length + 3, ?_, fun b hlt => ?_, ⟨hb, hc, hn, .inr ⟨?_, rfl⟩, ?_, by omega, ⟨[], ?_, .nil⟩, ?_,
    by omega, ⟨[], ?_, .nil⟩, by simp, .nil, ?_, ?_⟩, by omega, by omega, by omega, ⟨f1, f2, f3, f4⟩, ⟨by omega, _, hg, ?_, rfl, rfl⟩, ?_⟩
  · rw [run_newMgr, e1]; rfl
  · rw [hs b (by rw [hel]; omega) (by omega)]
    exact List.getElem?_append_left hlt
  · rw [f5 _ (by decide)]; rfl
  · rw [f5 _ (by decide)]; rfl
  · rw [hs _ (by rw [hel]; omega) (by omega)]
    unfold earlyHeap
    rw [List.getElem?_append_right (by omega), Nat.add_sub_cancel_left]; rfl
  · rw [f5 _ (by decide)]; rfl
  · rw [hs _ (by rw [hel]; omega) (by omega)]
    unfold earlyHeap
    rw [List.getElem?_append_right (by omega), Nat.add_sub_cancel_left]; rfl
  · rw [f5 _ (by decide)]; rfl
  · rw [f5 _ (by decide)]; rfl
  · intro p hp
    simp only [lineAttrs, List.mem_cons, List.not_mem_nil, or_false] at hp
    rcases hp with rfl | rfl | rfl | rfl | rfl <;> simp
  · simp only [getattr, hg]; rfl

/-- C100. If the world refuses a socket, its address or its buffer, the constructor raises what the world raised, and nothing that was
there has changed. -/
theorem C100_refused (k : Libsnmp.Kind) {h : Heap} {interface timeout onEmpty onTrap y : V} (hr : Refuses cfg h.length interface y) :
    ∃ h', call program cfg (.cls (mgrCid k)) (newArgs k interface onEmpty onTrap timeout) h = excR y h' ∧ ∀ b, b < h.length → h'[b]? = h[b]? := by
  obtain ⟨h', e1, hs⟩ := run_asynFails (k := k) (timeout := timeout) (ctx := .none) (m := (recvFn k).1) (l := (recvFn k).2)
    (early_cell h onEmpty onTrap) (early_names _ _ _) hr (.tuple [.none, .int 0])
  have hel : (earlyHeap k h onEmpty onTrap).length = h.length + 3 := by simp [earlyHeap]
  refine ⟨h', ?_, fun b hlt => ?_⟩
  · rw [run_newMgr, e1]; rfl
  · rw [hs b (by rw [hel]; omega) (by omega)]
    exact List.getElem?_append_left hlt

/-- C100. Without arguments: every interface, no functions, a timeout of a quarter of a second. -/
theorem C100_defaults (k : Libsnmp.Kind) (h : Heap) :
    call program cfg (.cls (mgrCid k)) [] h =
      call program cfg (.cls (mgrCid k)) (newArgs k (.tuple [.str (lit "0.0.0.0"), .int 0]) .none .none (.quot 1 4)) h := by
  cases k with
  | v1 | v2 =>
    show call program cfg (.cls _) [] h = call program cfg (.cls _) [_, _, _, _] h
    rw [call, call]
    show bindR (call program cfg (.func .v1 22) [.ref h.length] _) _ = bindR (call program cfg (.func .v1 22) [.ref h.length, _, _, _, _] _) _
    rw [call, call]
    rfl
  | sm =>
    show call program cfg (.cls _) [] h = call program cfg (.cls _) [_, _, _, _] h
    rw [call, call]
    show bindR (call program cfg (.func .snmpmanager 40) [.ref h.length] _) _ = bindR (call program cfg (.func .snmpmanager 40) [.ref h.length, _, _, _, _] _) _
    rw [call, call]
    rfl

/-! ## The hypotheses are met -/

/-- A world in which sockets can be had, and `asyncore.dispatcher` sets an attribute. -/
def openCfg : Cfg :=
  let ext : String → List V → Heap → R V := fun n args h =>
    if n = "socket.socket" then okR (.ext "sock") h
    else if n = "asyncore.dispatcher.__init__" ∨ n = "asyncore.dispatcher.set_socket" then
      match args with
      | .ref a :: _ => match h[a]? with
        | some (.inst c attrs) => okR .none (h.set a (.inst c (setAssoc attrs "_fileno" (.int 5))))
        | _ => stuckR h
      | _ => stuckR h
    else okR .none h
  { sampleCfg with ext := ext }

theorem tunes_fileno {a : Nat} {f : Heap → R V}
    (hf : ∀ h c attrs, h[a]? = some (.inst c attrs) → f h = okR .none (h.set a (.inst c (setAssoc attrs "_fileno" (.int 5))))) : Tunes a f := by
  intro h c attrs hc
  refine ⟨_, hf h c attrs hc, fun p hp => ?_, fun name hn => lookup_setOther (by simp only [beq_eq_false_iff_ne]; rintro rfl; exact hn (by decide))⟩
  have : ∀ attrs : List (String × V), p ∈ setAssoc attrs "_fileno" (.int 5) → p.1 ∈ attrs.map Prod.fst ∨ p.1 ∈ chanNames := by
    intro attrs
    induction attrs with
    | nil => intro h; simp only [setAssoc, List.mem_singleton] at h; subst h; exact .inr (by decide)
    | cons x xs ih =>
      obtain ⟨n, y⟩ := x
      intro h
      simp only [setAssoc] at h
      split at h
      · rename_i hn
        rcases List.mem_cons.1 h with rfl | h
        · exact .inl List.mem_cons_self
        · exact .inl (List.mem_cons_of_mem _ (List.mem_map_of_mem h))
      · rcases List.mem_cons.1 h with rfl | h
        · exact .inl List.mem_cons_self
        · rcases ih h with h | h
          · exact .inl (List.mem_cons_of_mem _ h)
          · exact .inr h
  exact this attrs hp

theorem openCfg_opens (a : Nat) (interface : V) : Opens openCfg a "sock" interface where
  channel := tunes_fileno fun h c attrs hc => by
    show (match h[a]? with | some (.inst c attrs) => _ | _ => _) = _
    rw [hc]
  socket := fun _ => rfl
  bind := fun _ => rfl
  buffer := fun _ => rfl
  joins := tunes_fileno fun h c attrs hc => by
    show (match h[a]? with | some (.inst c attrs) => _ | _ => _) = _
    rw [hc]

/-- `snmpManager()`, and `v1.SNMP(trapCallback=f)` with the other arguments as they are by default. -/
example : NewManager againNames ⟨regFull, some 3, none⟩ .v1 statics
    (call program openCfg (.cls (.v1, 19)) [.tuple [.str (lit "0.0.0.0"), .int 0], .none, .ext "again", .quot 1 4] statics)
    "sock" (.tuple [.str (lit "0.0.0.0"), .int 0]) (.quot 1 4) :=
  C100_new (nm := againNames) (env := ⟨regFull, some 3, none⟩) (h := statics) .v1 (by decide) (openCfg_opens _ _)

example : NewManager againNames ⟨regFull, none, none⟩ .sm statics (call program openCfg (.cls (.snmpmanager, 37)) [] statics)
    "sock" (.tuple [.str (lit "0.0.0.0"), .int 0]) (.quot 1 4) := by
  have := C100_defaults (cfg := openCfg) .sm statics
  exact this ▸ C100_new (nm := againNames) (env := ⟨regFull, none, none⟩) (h := statics) .sm (by decide) (openCfg_opens _ _)

/-- The address is in use. -/
def refusingCfg : Cfg :=
  let ext : String → List V → Heap → R V := fun n args h => if n = "sock.bind" then excR (.exc "OSError" []) h else openCfg.ext n args h
  { sampleCfg with ext := ext }

example : ∃ h', call program refusingCfg (.cls (.v2, 24)) [.tuple [.str (lit "0.0.0.0"), .int 162], .none, .none, .quot 1 4] statics =
    excR (.exc "OSError" []) h' ∧ ∀ b, b < statics.length → h'[b]? = statics[b]? :=
  C100_refused .v2 (.bind "sock" (tunes_fileno fun h c attrs hc => by
    show (match h[statics.length]? with | some (.inst c attrs) => _ | _ => _) = _
    rw [hc]) (fun _ => rfl) fun _ => rfl)

end Libsnmp.Src
