import Verif.Lemmas.NamesCls
import Verif.Props.Imports
import Verif.Model.Str

/-!
# C87: what the names of the package mean, whatever a program imports in whatever order
-/

namespace Libsnmp
open Names Spec.Py

/-- C87: no sequence of imports raises; afterwards exactly the imported modules and those they import have been executed, and
each of them has bound the same names and created the same classes as if it had been imported alone in a new process. -/
theorem C87_import_order (l : List Module) : ∃ p, Names.run l = some p ∧ (∀ m, Executed p m ↔ Needed l m) ∧
    ∀ m d, p.lookup m = some d → ∃ q, Names.run [m] = some q ∧ q.lookup m = some d := by
  obtain ⟨p, h1, h2, h3⟩ := run_good l
  refine ⟨p, h1, fun m => ?_, fun m d hd => ?_⟩
  · rw [executed_iff, h3, Needed]
    simp only [needed_closure]
  · obtain ⟨q, k1, k2, k3⟩ := run_good [m]
    refine ⟨q, k1, ?_⟩
    have hp : p.has m := executed_iff.1 ⟨d, hd⟩
    rw [k2.lookup ((k3 m).2 ⟨m, by simp, .inl rfl⟩), ← h2.lookup hp, hd]

/-- C87: among the classes that have been created, `issubclass` is what the model says, and different classes of the model are
different Python classes. -/
theorem C87_subclass (l : List Module) (p : Process) (hp : Names.run l = some p) (c d : Cls) (oc od : Obj) (hc : Denotes p c oc)
    (hd : Denotes p d od) : (IsSubclass p oc od ↔ c.isSubclass d = true) ∧ (oc = od ↔ c = d) := by
  obtain ⟨q, h1, h2, _⟩ := run_good l
  rw [hp] at h1
  cases h1
  rw [denotes_iff h2] at hc hd
  obtain ⟨hc, rfl⟩ := hc
  obtain ⟨hd, rfl⟩ := hd
  refine ⟨?_, ⟨pyObj_injective c d, fun h => by rw [h]⟩⟩
  rw [subclass_iff h2 hc, Cls.isSubclass, List.contains_iff_mem]
  constructor
  · rintro ⟨e, he, hh⟩
    rw [pyObj_injective _ _ hh]
    exact he
  · intro h
    exact ⟨d, h, rfl⟩

/-- C87: every class of the model is a class of the package, there as soon as its module has been imported. -/
theorem C87_classes (l : List Module) (p : Process) (hp : Names.run l = some p) (c : Cls) :
    (∃ o, Denotes p c o) ↔ Needed l (pyName c).1 := by
  obtain ⟨q, h1, h2, h3⟩ := run_good l
  rw [hp] at h1
  cases h1
  have := (h3 (pyName c).1)
  rw [Needed]
  simp only [needed_closure]
  rw [← this]
  constructor
  · rintro ⟨o, ho⟩
    exact ((denotes_iff h2 c o).1 ho).1
  · intro h
    exact ⟨pyObj c, (denotes_iff h2 c _).2 ⟨h, rfl⟩⟩

/-- The process of a successful run is good (for the proofs below). -/
theorem run_is_good {l : List Module} {p : Process} (hp : Names.run l = some p) : p.Good := by
  obtain ⟨q, h1, h2, _⟩ := run_good l
  rw [hp] at h1
  cases h1
  exact h2

theorem map_num_iff (o : Option Nat) (v : Obj) : o.map (fun k : Nat => Obj.num k) = some v ↔ ∃ k : Nat, o = some k ∧ v = .num k := by
  cases o with
  | none => simp
  | some k => simp [eq_comm]

theorem attr_map (n : String) {α : Type} (own : Cls → Option α) (f : α → Obj) (h : ∀ c, ownAttr n c = (own c).map f) (c : Cls) :
    c.mro.findSome? (ownAttr n) = (c.attr own).map f := by
  rw [Cls.attr]
  generalize c.mro = cs
  induction cs with
  | nil => rfl
  | cons d cs ih =>
    rw [List.findSome?_cons, List.findSome?_cons, h d]
    cases own d with
    | none => exact ih
    | some k => rfl

/-- C87: the tag class and the tag format of every class are what the model says. -/
theorem C87_tagClass (l : List Module) (p : Process) (hp : Names.run l = some p) (c : Cls) (o : Obj) (hc : Denotes p c o) (v : Obj) :
    (HasAttr p o "asnTagClass" v ↔ ∃ k : Nat, c.attr ownTagClass = some k ∧ v = .num k) ∧
    (HasAttr p o "asnTagFormat" v ↔ ∃ k : Nat, c.attr ownTagFormat = some k ∧ v = .num k) := by
  have hg := run_is_good hp
  obtain ⟨hm, rfl⟩ := (denotes_iff hg c o).1 hc
  have h1 : ∀ c ∈ allCls, ownAttr "asnTagClass" c = (ownTagClass c).map fun k : Nat => Obj.num k := by decide +kernel
  have h2 : ∀ c ∈ allCls, ownAttr "asnTagFormat" c = (ownTagFormat c).map fun k : Nat => Obj.num k := by decide +kernel
  rw [hasAttr_iff hg hm, hasAttr_iff hg hm, attr_map _ _ _ (forall_cls h1), attr_map _ _ _ (forall_cls h2), map_num_iff,
    map_num_iff]
  exact ⟨Iff.rfl, Iff.rfl⟩

/-- C87: so is the tag number; a class without one has the None of Asn1Object. -/
theorem C87_tagNumber (l : List Module) (p : Process) (hp : Names.run l = some p) (c : Cls) (o : Obj) (hc : Denotes p c o)
    (v : Obj) :
    HasAttr p o "asnTagNumber" v ↔
      (∃ k : Nat, c.attr ownTagNumber = some k ∧ v = .num k) ∨ c.attr ownTagNumber = none ∧ v = .data .rfc1155 0 := by
  have hg := run_is_good hp
  obtain ⟨hm, rfl⟩ := (denotes_iff hg c o).1 hc
  have h : ∀ c ∈ allCls, c.mro.findSome? (ownAttr "asnTagNumber") =
      some (match c.attr ownTagNumber with
        | some k => .num k
        | none => .data .rfc1155 0) := by decide +kernel
  rw [hasAttr_iff hg hm, forall_cls h c]
  cases c.attr ownTagNumber with
  | none => simp [eq_comm]
  | some k => simp [eq_comm]

/-- C87: and the bounds of every integer class. -/
theorem C87_bounds (l : List Module) (p : Process) (hp : Names.run l = some p) (c : IntCls) (o : Obj) (hc : Denotes p (.int c) o)
    (v : Obj) :
    (HasAttr p o "MINVAL" v ↔ v = .num c.minVal) ∧ (HasAttr p o "MAXVAL" v ↔ v = .num c.maxVal) := by
  have hg := run_is_good hp
  obtain ⟨hm, rfl⟩ := (denotes_iff hg _ o).1 hc
  rw [hasAttr_iff hg hm, hasAttr_iff hg hm]
  have : (Cls.int c).mro.findSome? (ownAttr "MINVAL") = some (.num c.minVal) ∧
      (Cls.int c).mro.findSome? (ownAttr "MAXVAL") = some (.num c.maxVal) := by cases c <;> decide +kernel
  rw [this.1, this.2]
  simp [eq_comm]

/-- C87: which method runs.  Calling a method on an object of class `c` runs the function that the class statement of
`definer` has, for each of the methods listed. -/
theorem C87_methods (l : List Module) (p : Process) (hp : Names.run l = some p) (c : Cls) (o : Obj) (hc : Denotes p c o)
    (n : String) (hn : n ∈ methods) (v : Obj) :
    HasAttr p o n v ↔ ∃ d od r m line, definer n c = some d ∧ Denotes p d od ∧ IsClass p od r ∧ r.members.lookup n = some v ∧
      v = .func m line := by
  have hg := run_is_good hp
  obtain ⟨hm, rfl⟩ := (denotes_iff hg c o).1 hc
  have h : ∀ n ∈ methods, ∀ c ∈ allCls, c.mro.findSome? (ownAttr n) = (definer n c).bind (ownAttr n) ∧
      (∀ d, definer n c = some d → (pyName d).1 = (pyName c).1 ∨ (pyName d).1 ∈ needed (pyName c).1) ∧
      ((match (definer n c).bind (ownAttr n) with
        | none => (definer n c).isNone
        | some (.func _ _) => true
        | some _ => false) = true) := by decide +kernel
  obtain ⟨h1, h2, h3⟩ := h n hn c (mem_allCls c)
  rw [hasAttr_iff hg hm, h1]
  cases hd : definer n c with
  | none => simp
  | some d =>
    have hdm : p.has (pyName d).1 := by
      rcases h2 d hd with e | e
      · rw [e]; exact hm
      · obtain ⟨x, hx⟩ := hm; exact (hg.1 _ x hx).2 _ e
    obtain ⟨_, r, _, k1, _, _⟩ := class_ok d
    rw [hd] at h3
    simp only [Option.bind_some] at h3 ⊢
    have hown : ownAttr n d = r.members.lookup n := by rw [ownAttr, k1]; rfl
    constructor
    · intro hv
      rw [hv] at h3
      cases v with
      | func m line =>
        exact ⟨d, pyObj d, r, m, line, rfl, (denotes_iff hg d _).2 ⟨hdm, rfl⟩, (isClass_py hg hdm).2 k1, by rw [← hown, hv], rfl⟩
      | _ => cases h3
    · rintro ⟨d', od, r', m, line, h4, h5, h6, h7, rfl⟩
      cases h4
      obtain ⟨_, rfl⟩ := (denotes_iff hg d od).1 h5
      rw [isClass_py hg hdm, k1] at h6
      cases h6
      rw [hown, h7]

/-- C87: the registry.  Whatever was imported in whatever order, the Python class entered in `tagDecodeDict` for a tag is the
one behind the class that the model's registry has. -/
theorem C87_registry (l : List Module) (p : Process) (hp : Names.run l = some p) (t : Nat) (o : Obj) :
    p.tag t = some o ↔ ∃ c, (imports l).reg t = some c ∧ Denotes p c o := by
  obtain ⟨q, h1, hg, h3⟩ := run_good l
  rw [hp] at h1
  cases h1
  have hhas : ∀ m ms, (∀ x, x ∈ ms ↔ (m = x ∨ m ∈ needed x)) → has? p m = Spec.uses l ms := by
    intro m ms hms
    rw [Bool.eq_iff_iff, has?_iff, h3, Spec.uses, List.any_eq_true]
    simp only [List.contains_iff_mem, hms]
  have e1 := hhas .rfc1155 Spec.needs1155 (by intro x; cases x <;> decide +kernel)
  have e2 := hhas .rfc1157 Spec.needs1157 (by intro x; cases x <;> decide +kernel)
  have e3 := hhas .rfc1902 Spec.needs1902 (by intro x; cases x <;> decide +kernel)
  have e4 := hhas .rfc1905 Spec.needs1905 (by intro x; cases x <;> decide +kernel)
  have ht := tag_good hg t
  have hr : (imports l).reg t = Spec.decoder (has? p .rfc1155) (has? p .rfc1157) (has? p .rfc1902) (has? p .rfc1905) t := by
    rw [C56_registry, Spec.registry, e1, e2, e3, e4]
  rw [ht, ← hr]
  have loaded : ∀ c, (imports l).reg t = some c → p.has (pyName c).1 := by
    intro c hc
    rw [hr] at hc
    have key : ∀ t < 256, ∀ a b c d : Bool,
        (match Spec.decoder a b c d t with
          | none => true
          | some x => match (pyName x).1 with
            | .rfc1155 => a
            | .rfc1157 => b
            | .rfc1902 => c
            | .rfc1905 => d
            | _ => false) = true := by decide +kernel
    have ht : t < 256 := by
      by_cases h : 256 ≤ t
      · rw [decoder_big _ _ _ _ t h] at hc; cases hc
      · omega
    have := key t ht (has? p .rfc1155) (has? p .rfc1157) (has? p .rfc1902) (has? p .rfc1905)
    rw [hc] at this
    simp only at this
    cases hx : (pyName c).1 <;> rw [hx] at this <;> first | exact has?_iff.1 this | cases this
  constructor
  · intro h
    cases hc : (imports l).reg t with
    | none => rw [hc] at h; cases h
    | some c =>
      rw [hc] at h
      cases h
      exact ⟨c, rfl, (denotes_iff hg c _).2 ⟨loaded c hc, rfl⟩⟩
  · rintro ⟨c, hc, ho⟩
    obtain ⟨_, rfl⟩ := (denotes_iff hg c o).1 ho
    rw [hc]
    rfl

/-- C87: which class a module has under which name.  A name of an executed module is a class of the hierarchy exactly if
`visible` says so: its own classes hide those it takes over (`OctetString` in rfc1902 and rfc1905 is the one of rfc1902;
`PDU`, `Get`, ... in rfc1905 are its own, and it has no `TrapPDU`). -/
theorem C87_visible (l : List Module) (p : Process) (hp : Names.run l = some p) (m : Module) (hm : Executed p m) (n : String)
    (c : Cls) (o : Obj) (hc : Denotes p c o) : Global p m n o ↔ (visible m).lookup n = some c := by
  have hg := run_is_good hp
  have hm' := executed_iff.1 hm
  obtain ⟨_, rfl⟩ := (denotes_iff hg c o).1 hc
  have hG : Global p m n (pyObj c) ↔ (final m).names.lookup n = some (pyObj c) := by
    constructor
    · rintro ⟨d, h1, h2⟩
      rw [hg.lookup hm'] at h1
      cases h1
      exact h2
    · intro h
      exact ⟨_, hg.lookup hm', h⟩
  rw [hG]
  have k1 : ∀ m, ∀ e ∈ (final m).names, (match (visible m).lookup e.1 with
      | some c => (final m).names.lookup e.1 == some (pyObj c)
      | none => allCls.all fun c => (final m).names.lookup e.1 != some (pyObj c)) = true := by
    intro m; cases m <;> decide +kernel
  have k2 : ∀ m, ∀ e ∈ visible m, ((final m).names.lookup e.1).isSome = true := by intro m; cases m <;> decide +kernel
  have mem : ∀ {α β : Type} [BEq α] [LawfulBEq α] (l : List (α × β)) (a : α) (b : β), l.lookup a = some b → (a, b) ∈ l := by
    intro α β _ _ l a b h
    induction l with
    | nil => cases h
    | cons e l ih =>
      obtain ⟨x, y⟩ := e
      rw [List.lookup_cons] at h
      cases hx : a == x with
      | true =>
        rw [hx] at h
        cases h
        rw [eq_of_beq hx]
        exact List.mem_cons_self
      | false =>
        rw [hx] at h
        exact List.mem_cons_of_mem _ (ih h)
  constructor
  · intro h
    have := k1 m (n, pyObj c) (mem _ _ _ h)
    simp only at this
    cases hv : (visible m).lookup n with
    | some d =>
      rw [hv] at this
      simp only [h, beq_iff_eq, Option.some.injEq] at this
      rw [pyObj_injective c d this]
    | none =>
      rw [hv] at this
      simp only [List.all_eq_true] at this
      have := this c (mem_allCls c)
      rw [h] at this
      simp at this
  · intro h
    have h2 := k2 m (n, c) (mem _ _ _ h)
    simp only at h2
    cases hx : (final m).names.lookup n with
    | none => rw [hx] at h2; cases h2
    | some o =>
      have := k1 m (n, o) (mem _ _ _ hx)
      simp only at this
      rw [h] at this
      simpa [hx] using this

/-- C87: every global name that a function of the package uses is there once its module has been imported, or is a built-in
name. -/
theorem C87_globals (l : List Module) (p : Process) (hp : Names.run l = some p) (m : Module) (hm : Executed p m) (line : Nat)
    (n : String) (hu : (line, n) ∈ globalUses m) : (∃ o, Global p m n o) ∨ n ∈ builtinNames := by
  have hg := run_is_good hp
  have hm' := executed_iff.1 hm
  have : ∀ m, ∀ u ∈ globalUses m, (((final m).names.lookup u.2).isSome || builtinNames.contains u.2) = true := by
    intro m; cases m <;> decide +kernel
  have := this m (line, n) hu
  rw [Bool.or_eq_true] at this
  rcases this with h | h
  · obtain ⟨o, ho⟩ := Option.isSome_iff_exists.1 h
    exact .inl ⟨o, _, hg.lookup hm', ho⟩
  · exact .inr (by simpa using h)

/-- C87: every `module.name` in a function refers to an executed module; it finds the name except in the four places listed,
where it is an AttributeError whatever has been imported. -/
theorem C87_missing (l : List Module) (p : Process) (hp : Names.run l = some p) (m : Module) (hm : Executed p m) (line : Nat)
    (x n : String) (hu : (line, x, n) ∈ moduleUses m) :
    ∃ m', Global p m x (.mod m') ∧ Executed p m' ∧ ((∃ o, Global p m' n o) ↔ (line, x, n) ∉ missingNames m) := by
  have hg := run_is_good hp
  have hm' := executed_iff.1 hm
  have : ∀ m, ∀ u ∈ moduleUses m, (match (final m).names.lookup u.2.1 with
      | some (.mod m') => decide (m' ∈ needed m) &&
          (((final m').names.lookup u.2.2).isSome == !(missingNames m).contains u)
      | _ => false) = true := by intro m; cases m <;> decide +kernel
  have := this m _ hu
  simp only at this
  split at this
  · next m' h1 =>
    rw [Bool.and_eq_true] at this
    obtain ⟨h2, h3⟩ := this
    have hx : p.has m' := by obtain ⟨d, hd⟩ := hm'; exact (hg.1 _ d hd).2 _ (by simpa using h2)
    refine ⟨m', ⟨_, hg.lookup hm', h1⟩, executed_iff.2 hx, ?_⟩
    rw [beq_iff_eq] at h3
    constructor
    · rintro ⟨o, d, k1, k2⟩
      rw [hg.lookup hx] at k1
      cases k1
      rw [k2] at h3
      simpa using h3.symm
    · intro hnot
      have : ((final m').names.lookup n).isSome = true := by rw [h3]; simpa using hnot
      obtain ⟨o, ho⟩ := Option.isSome_iff_exists.1 this
      exact ⟨o, _, hg.lookup hx, ho⟩
  · cases this

/-- C87: every attribute of `self` that a method uses is there for objects of its class, except in the places listed
(`getsockname` in createTrapPDU, `createGetNextRequest` in v2). -/
theorem C87_self (l : List Module) (p : Process) (hp : Names.run l = some p) (m : Module) (hm : Executed p m)
    (cls : Nat) (uses : List (Nat × String)) (sets : List String) (hc : (cls, uses, sets) ∈ selfUses m) (line : Nat) (n : String)
    (hu : (line, n) ∈ uses) : HasSelf p (.cls m cls) n ↔ (cls, line, n) ∉ missingSelf m := by
  have hg := run_is_good hp
  have hm' : Loaded p (.cls m cls) := executed_iff.1 hm
  have key : ∀ m, ∀ e ∈ selfUses m, (match chainOf 8 (.cls m e.1) with
      | none => false
      | some cs => e.2.1.all fun u =>
          (cs.any (fun o => ((recAt o).bind fun r => r.members.lookup u.2).isSome || (assigned o).contains u.2 ||
            (provided o).contains u.2) || u.2 == "__class__") == !(missingSelf m).contains (e.1, u.1, u.2)) = true := by
    intro m; cases m <;> decide +kernel
  have := key m _ hc
  simp only at this
  cases hch : chainOf 8 (.cls m cls) with
  | none => rw [hch] at this; cases this
  | some cs =>
    rw [hch] at this
    simp only [List.all_eq_true] at this
    have := this (line, n) hu
    rw [beq_iff_eq, Bool.eq_iff_iff] at this
    simp only [Bool.or_eq_true, List.any_eq_true, beq_iff_eq, Bool.not_eq_true', List.contains_iff_mem] at this
    have rhs : (missingSelf m).contains (cls, line, n) = false ↔ (cls, line, n) ∉ missingSelf m := by
      rw [← Bool.not_eq_true, List.contains_iff_mem]
    rw [← rhs, ← this]
    constructor
    · intro h
      cases h with
      | attr ha =>
        rw [chain_attr hg 8 _ cs hch hm'] at ha
        obtain ⟨o, ho, h2⟩ := List.exists_of_findSome?_eq_some ha
        exact .inl ⟨o, ho, .inl (.inl (by rw [h2]; rfl))⟩
      | assigned h1 h2 =>
        rw [chain_sub hg 8 _ cs hch hm'] at h1
        exact .inl ⟨_, h1, .inl (.inr h2)⟩
      | provided h1 h2 =>
        rw [chain_sub hg 8 _ cs hch hm'] at h1
        exact .inl ⟨_, h1, .inr h2⟩
      | object h => exact .inr h
    · rintro (⟨o, ho, (h | h) | h⟩ | h)
      · cases hf : cs.findSome? (fun o => (recAt o).bind fun r => r.members.lookup n) with
        | none =>
          rw [List.findSome?_eq_none_iff] at hf
          rw [hf o ho] at h
          cases h
        | some v => exact .attr ((chain_attr hg 8 _ cs hch hm' n v).2 hf)
      · exact .assigned ((chain_sub hg 8 _ cs hch hm' o).2 ho) h
      · exact .provided ((chain_sub hg 8 _ cs hch hm' o).2 ho) h
      · exact .object h

/-- C87: all modules that have a `tagDecodeDict` have the one of rfc1155; the logger `log` of rfc1157 is the one of rfc1155
(the import comes after the assignment), every other module has its own or none. -/
theorem C87_shared (l : List Module) (p : Process) (hp : Names.run l = some p) (m : Module) (hm : Executed p m) :
    (∀ o, Global p m "tagDecodeDict" o → Global p .rfc1155 "tagDecodeDict" o) ∧
    (m = .rfc1157 → ∀ o, Global p m "log" o ↔ Global p .rfc1155 "log" o) ∧
    (∀ o m', Global p m "log" o → Global p m' "log" o → m = m' ∨ (m = .rfc1155 ∨ m = .rfc1157) ∧ (m' = .rfc1155 ∨ m' = .rfc1157)) := by
  have hg := run_is_good hp
  have hG : ∀ x n o, Global p x n o ↔ p.has x ∧ (final x).names.lookup n = some o := by
    intro x n o
    constructor
    · rintro ⟨d, h1, h2⟩
      have hx : p.has x := executed_iff.1 ⟨d, h1⟩
      rw [hg.lookup hx] at h1
      cases h1
      exact ⟨hx, h2⟩
    · rintro ⟨hx, h⟩
      exact ⟨_, hg.lookup hx, h⟩
  have need : ∀ x, p.has x → ∀ y ∈ needed x, p.has y := fun x hx y hy => by
    obtain ⟨d, hd⟩ := hx; exact (hg.1 _ d hd).2 _ hy
  refine ⟨fun o ho => ?_, fun he o => ?_, fun o m' h1 h2 => ?_⟩
  · rw [hG] at ho ⊢
    have : ∀ m ∈ allModules, (match (final m).names.lookup "tagDecodeDict" with
        | some o => ((final .rfc1155).names.lookup "tagDecodeDict" == some o) && decide (m = .rfc1155 ∨ .rfc1155 ∈ needed m)
        | none => true) = true := by decide +kernel
    have := this m (mem_allModules m)
    rw [ho.2] at this
    simp only [Bool.and_eq_true, beq_iff_eq, decide_eq_true_eq] at this
    refine ⟨?_, this.1⟩
    rcases this.2 with rfl | h
    · exact ho.1
    · exact need m ho.1 _ h
  · subst he
    rw [hG, hG]
    have : (final .rfc1157).names.lookup "log" = (final .rfc1155).names.lookup "log" := by decide +kernel
    rw [this]
    constructor
    · rintro ⟨h1, h2⟩; exact ⟨need _ h1 _ (by decide +kernel), h2⟩
    · rintro ⟨_, h2⟩; exact ⟨executed_iff.1 hm, h2⟩
  · rw [hG] at h1 h2
    have : ∀ m ∈ allModules, ∀ m' ∈ allModules, (final m).names.lookup "log" = (final m').names.lookup "log" →
        ((final m).names.lookup "log").isSome = true →
        m = m' ∨ (m = .rfc1155 ∨ m = .rfc1157) ∧ (m' = .rfc1155 ∨ m' = .rfc1157) := by decide +kernel
    exact this m (mem_allModules m) m' (mem_allModules m') (by rw [h1.2, h2.2]) (by rw [h1.2]; rfl)

theorem lit_injective {s t : String} (h : lit s = lit t) : s = t := by
  unfold lit at h
  rw [← String.toList_inj]
  generalize s.toList = a at h
  generalize t.toList = b at h
  induction a generalizing b with
  | nil => cases b with
    | nil => rfl
    | cons y b => simp at h
  | cons x a ih => cases b with
    | nil => simp at h
    | cons y b =>
      simp only [List.map_cons, List.cons.injEq] at h
      rw [ih b h.2, Char.toNat_inj.1 h.1]

/-- C87: `typeSetter` in the model is the dictionary `typeValDict` of the source, for every text. -/
theorem C87_typeSetter (l : List Module) (p : Process) (hp : Names.run l = some p) (hm : Executed p .snmpmanager) (s : String) :
    ∃ line, Global p .snmpmanager "typeValDict" (.dict .snmpmanager line) ∧
      ∀ n, p.view.key (.snmpmanager, line) s = some n ↔ typeSetter (lit s) = .ok n := by
  have hg := run_is_good hp
  have hm' := executed_iff.1 hm
  refine ⟨24, ⟨_, hg.lookup hm', by decide +kernel⟩, fun n => ?_⟩
  have hall : ∀ m ∈ allModules, m ≠ .snmpmanager → ∀ e ∈ (final m).keys, e.1 ≠ (.snmpmanager, 24) := by decide +kernel
  have hown : (final .snmpmanager).keys.find? (fun x => x.1 == (.snmpmanager, 24) && x.2.1 == s) =
      ([("i", 2), ("s", 4), ("o", 6), ("t", 67), ("a", 64), ("c", 65), ("C", 70)] : List (String × Int)).findSome? fun e =>
        if e.1 == s then some ((.snmpmanager, 24), e) else none := by
    have : (final .snmpmanager).keys = ([("i", 2), ("s", 4), ("o", 6), ("t", 67), ("a", 64), ("c", 65), ("C", 70)] :
        List (String × Int)).map fun e => ((.snmpmanager, 24), e) := by decide +kernel
    rw [this]
    clear this hall hm' hm hg hp
    simp only [List.map_cons, List.map_nil, List.find?_cons, List.findSome?_cons, beq_self_eq_true, Bool.true_and, List.find?_nil,
      List.findSome?_nil]
    cases "i" == s <;> cases "s" == s <;> cases "o" == s <;> cases "t" == s <;> cases "a" == s <;> cases "c" == s <;>
      cases "C" == s <;> rfl
  have hkey : p.view.key (.snmpmanager, 24) s =
      ((final .snmpmanager).keys.find? (fun x => x.1 == (.snmpmanager, 24) && x.2.1 == s)).map (·.2.2) := by
    show p.findSome? _ = _
    have hs : ∀ e ∈ p, e.2 = final e.1 := fun e he => (hg.1 e.1 e.2 he).1
    obtain ⟨d, hd⟩ := hm'
    have none' : ∀ e ∈ p, e.1 ≠ .snmpmanager → (e.2.keys.find? fun x => x.1 == (.snmpmanager, 24) && x.2.1 == s) = none := by
      intro e he hne
      rw [List.find?_eq_none]
      intro x hx
      rw [hs e he] at hx
      have := hall e.1 (mem_allModules _) hne x hx
      simp [this]
    cases hv : (final .snmpmanager).keys.find? (fun x => x.1 == (.snmpmanager, 24) && x.2.1 == s) with
    | none =>
      rw [Option.map_none, List.findSome?_eq_none_iff]
      intro e he
      by_cases hne : e.1 = .snmpmanager
      · rw [hs e he, hne, hv]; rfl
      · rw [none' e he hne]; rfl
    | some v =>
      refine findSome?_unique _ _ _ ⟨(.snmpmanager, d), hd, ?_⟩ ?_
      · rw [hs _ hd, hv]
        rfl
      · intro e he u hu
        by_cases hne : e.1 = .snmpmanager
        · rw [hs e he, hne, hv] at hu
          exact (Option.some.inj hu).symm
        · rw [none' e he hne] at hu
          cases hu
  rw [hkey, hown]
  unfold typeSetter
  have hl : ∀ t : String, (lit s = lit t) ↔ (t == s) = true := fun t => by
    rw [beq_iff_eq]
    exact ⟨fun h => (lit_injective h).symm, fun h => by rw [h]⟩
  clear hkey hown hall hm' hm hg hp
  simp only [hl, List.findSome?_cons, List.findSome?_nil]
  clear hl
  cases "i" == s
  · cases "s" == s
    · cases "o" == s
      · cases "t" == s
        · cases "a" == s
          · cases "c" == s
            · cases "C" == s <;> simp
            · simp
          · simp
        · simp
      · simp
    · simp
  · simp

/-- A program that imports snmpmanager, then v1: the names exist. -/
example : ∃ p, Names.run [.snmpmanager, .v1] = some p ∧ Executed p .snmpmanager ∧
    Denotes p (.oct .octetString2) (.cls .rfc1902 55) ∧ Global p .rfc1905 "OctetString" (.cls .rfc1902 55) ∧
    Global p .rfc1157 "OctetString" (.cls .rfc1155 513) ∧ p.tag 0x04 = some (.cls .rfc1155 513) ∧
    p.tag 0x02 = some (.cls .rfc1902 27) := by
  refine ⟨(Names.run [.snmpmanager, .v1]).getD [], ?_, ⟨final .snmpmanager, ?_⟩, ⟨final .rfc1902, ?_, ?_⟩, ⟨final .rfc1905, ?_, ?_⟩,
    ⟨final .rfc1157, ?_, ?_⟩, ?_, ?_⟩ <;> decide +kernel

end Libsnmp
