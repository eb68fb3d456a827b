import Verif.Spec.Imports
import Verif.Spec.Represents

/-!
# C56: imports
-/

namespace Libsnmp
open Spec

theorem regs : reg1155 = decoder true false false false ∧ ∀ b c,
    addReg1157 (decoder true false c false) = decoder true true c false ∧
    addReg1902 (decoder true b false false) = decoder true b true false ∧
    addReg1905 (decoder true true true false) = decoder true true true true := by
  have split : ∀ (f g : Reg), (∀ t, t ∈ [0x02, 0x04, 0x05, 0x06, 0x30, 0x40, 0x41, 0x42, 0x43, 0x44, 0x46, 0x80, 0x81, 0x82,
      0xa0, 0xa1, 0xa2, 0xa3, 0xa4, 0xa5, 0xa6, 0xa7, 0xa8] → f t = g t) →
      (∀ t, t ∉ [0x02, 0x04, 0x05, 0x06, 0x30, 0x40, 0x41, 0x42, 0x43, 0x44, 0x46, 0x80, 0x81, 0x82,
      0xa0, 0xa1, 0xa2, 0xa3, 0xa4, 0xa5, 0xa6, 0xa7, 0xa8] → f t = g t) → f = g := by
    intro f g h1 h2
    funext t
    by_cases h : t ∈ [0x02, 0x04, 0x05, 0x06, 0x30, 0x40, 0x41, 0x42, 0x43, 0x44, 0x46, 0x80, 0x81, 0x82,
      0xa0, 0xa1, 0xa2, 0xa3, 0xa4, 0xa5, 0xa6, 0xa7, 0xa8]
    · exact h1 t h
    · exact h2 t h
  have hd : ∀ a b c d t, t ∉ [0x02, 0x04, 0x05, 0x06, 0x30, 0x40, 0x41, 0x42, 0x43, 0x44, 0x46, 0x80, 0x81, 0x82,
      0xa0, 0xa1, 0xa2, 0xa3, 0xa4, 0xa5, 0xa6, 0xa7, 0xa8] → decoder a b c d t = none := by
    intro a b c d t ht
    unfold decoder
    split
    · rfl
    · split <;> first | rfl | (exfalso; apply ht; simp)
  have h0 : ∀ t, t ∉ [0x02, 0x04, 0x05, 0x06, 0x30, 0x40, 0x41, 0x42, 0x43, 0x44, 0x46, 0x80, 0x81, 0x82,
      0xa0, 0xa1, 0xa2, 0xa3, 0xa4, 0xa5, 0xa6, 0xa7, 0xa8] → reg1155 t = none := by
    intro t ht
    unfold reg1155
    split <;> first | rfl | (exfalso; apply ht; simp)
  refine ⟨split _ _ (by decide) (fun t ht => by rw [h0 t ht, hd _ _ _ _ t ht]), fun b c => ⟨?_, ?_, ?_⟩⟩
  · refine split _ _ (by cases c <;> decide) fun t ht => ?_
    rw [hd _ _ _ _ t ht]
    simp only [List.mem_cons, not_or] at ht
    simp only [addReg1157, Reg.set, ht, if_false]
    exact hd _ _ _ _ t (by simpa using ht)
  · refine split _ _ (by cases b <;> decide) fun t ht => ?_
    rw [hd _ _ _ _ t ht]
    simp only [List.mem_cons, not_or] at ht
    simp only [addReg1902, Reg.set, ht, if_false]
    exact hd _ _ _ _ t (by simpa using ht)
  · refine split _ _ (by decide) fun t ht => ?_
    rw [hd _ _ _ _ t ht]
    simp only [List.mem_cons, not_or] at ht
    simp only [addReg1905, Reg.set, ht, if_false]
    exact hd _ _ _ _ t (by simpa using ht)

/-- What matters of a process: seven of its modules, and the registry. -/
structure Abs where
  a : Bool      -- rfc1155
  b : Bool      -- rfc1157
  c : Bool      -- rfc1902
  d : Bool      -- rfc1905
  v1 : Bool
  v2 : Bool
  sm : Bool
  reg : Reg

def Proc.abs (p : Proc) : Abs :=
  ⟨p.loaded .rfc1155, p.loaded .rfc1157, p.loaded .rfc1902, p.loaded .rfc1905, p.loaded .v1, p.loaded .v2,
    p.loaded .snmpmanager, p.reg⟩

def abs1155 (x : Abs) : Abs := if x.a then x else { x with a := true, reg := reg1155 }
def abs1157 (x : Abs) : Abs :=
  if x.b then x else let y := abs1155 { x with b := true }; { y with reg := addReg1157 y.reg }
def abs1902 (x : Abs) : Abs :=
  if x.c then x else let y := abs1155 { x with c := true }; { y with reg := addReg1902 y.reg }
def abs1905 (x : Abs) : Abs :=
  if x.d then x else let y := abs1902 (abs1157 { x with d := true }); { y with reg := addReg1905 y.reg }
def absV1 (x : Abs) : Abs := if x.v1 then x else abs1157 { x with v1 := true }
def absV2 (x : Abs) : Abs := if x.v2 then x else absV1 (abs1905 (abs1157 (abs1155 { x with v2 := true })))
def absManager (x : Abs) : Abs :=
  if x.sm then x else absV2 (absV1 (abs1905 (abs1157 { x with sm := true })))

theorem abs_other {m : Module} (hm : m ∈ [Module.util, .debug, .role, .asynrole]) {deps : Proc → Proc}
    (hd : ∀ p, (deps p).abs = p.abs) (p : Proc) : (load m deps id p).abs = p.abs := by
  unfold load
  split
  · rfl
  · simp only [id]
    rw [show ({ (deps { p with loaded := fun x => decide (x = m) || p.loaded x }) with
      reg := (deps { p with loaded := fun x => decide (x = m) || p.loaded x }).reg } : Proc) =
      deps { p with loaded := fun x => decide (x = m) || p.loaded x } from rfl, hd]
    simp only [List.mem_cons, List.not_mem_nil, or_false] at hm
    rcases hm with h | h | h | h <;> subst h <;> rfl

theorem abs_util (p : Proc) : (impUtil p).abs = p.abs := abs_other (by simp) (fun _ => rfl) p
theorem abs_debug (p : Proc) : (impDebug p).abs = p.abs := abs_other (by simp) (fun _ => rfl) p
theorem abs_role (p : Proc) : (impRole p).abs = p.abs := abs_other (by simp) (fun _ => rfl) p
theorem abs_asynrole (p : Proc) : (impAsynrole p).abs = p.abs := abs_other (by simp) abs_role p

/-- The body of a module, abstractly. -/
theorem abs_load {m : Module} {deps : Proc → Proc} {own : Reg → Reg} {f : Abs → Abs} (hd : ∀ p, (deps p).abs = f p.abs)
    (p : Proc) : (load m deps own p).abs = if p.loaded m then p.abs else
      let y := f ({ p with loaded := fun x => decide (x = m) || p.loaded x } : Proc).abs
      { y with reg := own y.reg } := by
  unfold load
  split
  · rfl
  · rw [← hd]; rfl

theorem abs_1155 (p : Proc) : (imp1155 p).abs = abs1155 p.abs := by
  unfold imp1155
  rw [abs_load (f := id) abs_util]
  rfl

theorem abs_1157 (p : Proc) : (imp1157 p).abs = abs1157 p.abs := by
  unfold imp1157
  rw [abs_load abs_1155]
  rfl

theorem abs_1902 (p : Proc) : (imp1902 p).abs = abs1902 p.abs := by
  unfold imp1902
  rw [abs_load abs_1155]
  rfl

theorem abs_1905 (p : Proc) : (imp1905 p).abs = abs1905 p.abs := by
  unfold imp1905
  rw [abs_load (f := fun x => abs1902 (abs1157 x)) (fun q => by rw [abs_1902, abs_1157])]
  rfl

theorem abs_v1 (p : Proc) : (impV1 p).abs = absV1 p.abs := by
  unfold impV1
  rw [abs_load (f := fun x => abs1157 x) (fun q => by rw [abs_1157, abs_asynrole])]
  rfl

theorem abs_v2 (p : Proc) : (impV2 p).abs = absV2 p.abs := by
  unfold impV2
  rw [abs_load (f := fun x => absV1 (abs1905 (abs1157 (abs1155 x)))) (fun q => by rw [abs_v1, abs_1905, abs_1157, abs_1155])]
  rfl

theorem abs_manager (p : Proc) : (impManager p).abs = absManager p.abs := by
  unfold impManager
  rw [abs_load (f := fun x => absV2 (absV1 (abs1905 (abs1157 x))))
    (fun q => by rw [abs_v2, abs_v1, abs_1905, abs_1157, abs_asynrole])]
  rfl

/-- A module is loaded only together with what it imports, and the registry agrees with the flags. -/
def Abs.Ok (x : Abs) : Prop :=
  ((x.b = true → x.a = true) ∧ (x.c = true → x.a = true) ∧ (x.d = true → x.b = true ∧ x.c = true) ∧ (x.v1 = true → x.b = true) ∧
    (x.v2 = true → x.d = true ∧ x.v1 = true) ∧ (x.sm = true → x.v2 = true)) ∧ x.reg = decoder x.a x.b x.c x.d

/-- The abstract import of a module. -/
def Module.impAbs : Module → Abs → Abs
  | .rfc1155 => abs1155
  | .rfc1157 => abs1157
  | .rfc1902 => abs1902
  | .rfc1905 => abs1905
  | .v1 => absV1
  | .v2 => absV2
  | .snmpmanager => absManager
  | _ => id

theorem abs_imp (m : Module) (p : Proc) : (m.imp p).abs = m.impAbs p.abs := by
  cases m
  · exact abs_util p
  · exact abs_debug p
  · exact abs_role p
  · exact abs_asynrole p
  · exact abs_1155 p
  · exact abs_1157 p
  · exact abs_1902 p
  · exact abs_1905 p
  · exact abs_v1 p
  · exact abs_v2 p
  · exact abs_manager p

theorem abs_step (m : Module) (x : Abs) (h : x.Ok) : (m.impAbs x).Ok ∧
    (m.impAbs x).a = (x.a || needs1155.contains m) ∧ (m.impAbs x).b = (x.b || needs1157.contains m) ∧
    (m.impAbs x).c = (x.c || needs1902.contains m) ∧ (m.impAbs x).d = (x.d || needs1905.contains m) := by
  obtain ⟨a, b, c, d, v1, v2, sm, reg⟩ := x
  obtain ⟨hc, hr⟩ := h
  simp only at hc hr
  subst hr
  obtain ⟨r0, r⟩ := regs
  have r1 := fun c => (r true c).1
  have r2 := fun b => (r b true).2.1
  have r3 := (r true true).2.2
  cases a <;> cases b <;> cases c <;> cases d <;> cases v1 <;> cases v2 <;> cases sm <;>
    first
    | (exfalso; revert hc; decide)
    | (cases m <;>
        simp [Module.impAbs, Abs.Ok, abs1155, abs1157, abs1902, abs1905, absV1, absV2, absManager, needs1155, needs1157,
          needs1902, needs1905, r0, r1, r2, r3])

theorem imports_abs (l : List Module) : (imports l).abs.Ok ∧ (imports l).abs.a = uses l needs1155 ∧
    (imports l).abs.b = uses l needs1157 ∧ (imports l).abs.c = uses l needs1902 ∧ (imports l).abs.d = uses l needs1905 := by
  have key : ∀ (l : List Module) (p : Proc), p.abs.Ok →
      (l.foldl (fun p m => m.imp p) p).abs.Ok ∧
      (l.foldl (fun p m => m.imp p) p).abs.a = (p.abs.a || uses l needs1155) ∧
      (l.foldl (fun p m => m.imp p) p).abs.b = (p.abs.b || uses l needs1157) ∧
      (l.foldl (fun p m => m.imp p) p).abs.c = (p.abs.c || uses l needs1902) ∧
      (l.foldl (fun p m => m.imp p) p).abs.d = (p.abs.d || uses l needs1905) := by
    intro l
    induction l with
    | nil => intro p hp; simp [uses, hp]
    | cons m l ih =>
      intro p hp
      obtain ⟨h1, h2, h3, h4, h5⟩ := abs_step m p.abs hp
      rw [← abs_imp] at h1 h2 h3 h4 h5
      obtain ⟨i1, i2, i3, i4, i5⟩ := ih (m.imp p) h1
      simp only [List.foldl_cons]
      refine ⟨i1, ?_, ?_, ?_, ?_⟩
      · rw [i2, h2]; simp [uses, Bool.or_assoc]
      · rw [i3, h3]; simp [uses, Bool.or_assoc]
      · rw [i4, h4]; simp [uses, Bool.or_assoc]
      · rw [i5, h5]; simp [uses, Bool.or_assoc]
  have := key l {} (by
    refine ⟨by decide, ?_⟩
    funext t
    simp [Proc.abs, decoder])
  simpa [Proc.abs, imports] using this

/-- C56: after any sequence of imports the registry is the one given by the set of modules used. -/
theorem C56_registry (l : List Module) : (imports l).reg = Spec.registry l := by
  obtain ⟨h1, h2, h3, h4, h5⟩ := imports_abs l
  have := h1.2
  rw [h2, h3, h4, h5] at this
  exact this

/-- C56: the order (and repetition) of imports does not matter. -/
theorem C56_order (l l' : List Module) (h : ∀ m, m ∈ l ↔ m ∈ l') : (imports l).reg = (imports l').reg := by
  rw [C56_registry, C56_registry]
  have : ∀ ms, uses l ms = uses l' ms := by
    intro ms
    rw [Bool.eq_iff_iff]
    simp only [uses, List.any_eq_true]
    constructor
    · rintro ⟨m, hm, hx⟩; exact ⟨m, (h m).mp hm, hx⟩
    · rintro ⟨m, hm, hx⟩; exact ⟨m, (h m).mpr hm, hx⟩
  unfold Spec.registry
  rw [this, this, this, this]

/-- C56: whatever was imported, an identifier is only ever decoded by a class to which the RFCs give that identifier. -/
theorem C56_matching (l : List Module) (t : Nat) (c : Cls) (h : (imports l).reg t = some c) : rfcTag c = some t := by
  rw [C56_registry] at h
  unfold Spec.registry at h
  generalize uses l needs1155 = a at h
  generalize uses l needs1157 = b at h
  generalize uses l needs1902 = c' at h
  generalize uses l needs1905 = d at h
  unfold decoder at h
  split at h
  · cases h
  · cases b <;> cases c' <;> cases d <;> (split at h <;> (simp at h; try (subst h; rfl)))

/-- C56: importing more never removes a decoder, and never changes the identifier's type family. -/
theorem C56_grows (l : List Module) (m : Module) (t : Nat) (c : Cls) (h : (imports l).reg t = some c) :
    ∃ c', (imports (l ++ [m])).reg t = some c' ∧ rfcTag c' = some t := by
  have key : ∀ a b c d a' b' c' d' : Bool, (a = true → a' = true) → (b = true → b' = true) → (c = true → c' = true) →
      (d = true → d' = true) → ∀ t x, decoder a b c d t = some x → ∃ y, decoder a' b' c' d' t = some y := by
    intro a b c d a' b' c' d' ha hb hc hd t x hx
    unfold decoder at hx ⊢
    split at hx
    · cases hx
    · next h0 =>
      have : a = true := by simpa using h0
      rw [if_neg (by simp [ha this])]
      cases b <;> cases c <;> cases d <;> simp at hb hc hd <;> (try subst hb) <;> (try subst hc) <;> (try subst hd) <;>
        (split at hx <;> first | (simp at hx; done) | (simp; done) | (split <;> simp))
  have mono : ∀ ms, uses l ms = true → uses (l ++ [m]) ms = true := by
    intro ms hu
    simp only [uses, List.any_append, Bool.or_eq_true]
    exact .inl hu
  rw [C56_registry] at h
  obtain ⟨y, hy⟩ := key _ _ _ _ (uses (l ++ [m]) needs1155) (uses (l ++ [m]) needs1157) (uses (l ++ [m]) needs1902)
    (uses (l ++ [m]) needs1905) (mono _) (mono _) (mono _) (mono _) t c h
  have : (imports (l ++ [m])).reg t = some y := by rw [C56_registry]; exact hy
  exact ⟨y, this, C56_matching _ t y this⟩

/-- The registries the other theorems speak of. -/
theorem C56_v1 : (imports [.v1]).reg = regV1 := by
  rw [C56_registry]
  obtain ⟨r0, r⟩ := regs
  show decoder true true false false = _
  rw [regV1, r0, (r true false).1]

theorem C56_full (l : List Module) (h : .v2 ∈ l ∨ .snmpmanager ∈ l ∨ .rfc1905 ∈ l) : (imports l).reg = regFull := by
  rw [C56_registry]
  obtain ⟨r0, r⟩ := regs
  have hu : uses l needs1905 = true := by
    simp only [uses, List.any_eq_true]
    rcases h with h | h | h
    · exact ⟨_, h, rfl⟩
    · exact ⟨_, h, rfl⟩
    · exact ⟨_, h, rfl⟩
  have hall : uses l needs1155 = true ∧ uses l needs1157 = true ∧ uses l needs1902 = true := by
    simp only [uses, List.any_eq_true] at hu ⊢
    obtain ⟨m, hm, hx⟩ := hu
    have : needs1155.contains m = true ∧ needs1157.contains m = true ∧ needs1902.contains m = true := by
      revert hx; cases m <;> decide
    exact ⟨⟨m, hm, this.1⟩, ⟨m, hm, this.2.1⟩, ⟨m, hm, this.2.2⟩⟩
  show decoder _ _ _ _ = _
  rw [hu, hall.1, hall.2.1, hall.2.2, regFull, r0, (r true false).1, (r true true).2.1, (r true true).2.2]

/-! ## Consequences used by the theorems on decoding -/

theorem imported_decoder {reg : Reg} (h : Imported reg) : ∃ b c d, reg = decoder true b c d := by
  obtain ⟨l, hl, rfl⟩ := h
  rw [C56_registry]
  exact ⟨_, _, _, by rw [Spec.registry, hl]⟩

theorem imported_v1 : Imported regV1 := ⟨[.v1], rfl, C56_v1.symm⟩
theorem imported_full : Imported regFull := ⟨[.v2], rfl, (C56_full _ (by simp)).symm⟩

theorem imported_no_base {reg : Reg} (h : Imported reg) (t : Nat) : reg t ≠ some .asn1Object := by
  obtain ⟨l, _, rfl⟩ := h
  intro ht
  have := C56_matching l t _ ht
  cases this

theorem imported_understands {reg : Reg} (h : Imported reg) : Understands1155 reg := by
  obtain ⟨b, c, d, rfl⟩ := imported_decoder h
  cases c
  · exact ⟨⟨.integer, rfl, by decide⟩, ⟨.counter, rfl, by decide⟩, ⟨.guage, rfl, by decide⟩, ⟨.timeTicks, rfl, by decide⟩,
      ⟨.octetString, rfl, by decide⟩, ⟨.ipAddress, rfl, by decide⟩, rfl, rfl, rfl⟩
  · exact ⟨⟨.integer32, rfl, by decide⟩, ⟨.counter32, rfl, by decide⟩, ⟨.guage32, rfl, by decide⟩, ⟨.timeTicks, rfl, by decide⟩,
      ⟨.octetString, rfl, by decide⟩, ⟨.ipAddress, rfl, by decide⟩, rfl, rfl, rfl⟩

example : (imports [.rfc1905, .v1]).reg 0xa2 = some (.seq .response2) ∧ (imports [.v1, .rfc1905]).reg 0xa2 =
    some (.seq .response2) ∧ (imports [.rfc1902, .v1]).reg 0xa2 = some (.seq .response) ∧
    (imports [.rfc1902, .v1]).reg 2 = some (.int .integer32) ∧ (imports [.util, .role]).reg 2 = none := by
  decide

end Libsnmp
