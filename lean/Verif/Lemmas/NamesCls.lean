import Verif.Lemmas.Names
import Verif.Spec.Names
import Verif.Spec.Imports

/-!
# Classes and attributes in a process that imported modules of the package
-/

namespace Libsnmp.Names
open Spec.Py

theorem executed_iff {p : Process} {m : Module} : Executed p m ↔ p.has m := by
  rw [← lookup_isSome, Executed, Option.isSome_iff_exists]

/-- Reflexive-transitive imports are the module itself and `needed`. -/
theorem needed_closure (m x : Module) : Relation.ReflTransGen Imports m x ↔ x = m ∨ x ∈ needed m := by
  constructor
  · intro h
    induction h using Relation.ReflTransGen.head_induction_on with
    | refl => exact .inl rfl
    | head h1 _ ih =>
      refine .inr ((needed_iff _ x).2 ⟨_, h1, ih⟩)
  · have : ∀ n, ∀ m, rank m < n → ∀ x, x = m ∨ x ∈ needed m → Relation.ReflTransGen Imports m x := by
      intro n
      induction n with
      | zero => intro m h; omega
      | succ n ih =>
        rintro m hr x (rfl | hx)
        · exact .refl
        · obtain ⟨m', h1, h2⟩ := (needed_iff m x).1 hx
          exact .head h1 (ih m' (by have := rank_imports m m' h1; omega) x h2)
    exact this _ m (Nat.lt_succ_self _) x

/-! ## Classes -/

/-- The record of a class, in a new process. -/
def recAt : Obj → Option ClassRec
  | .cls m line => (final m).classes.find? (·.line == line)
  | _ => none

theorem isClass_iff {p : Process} (h : p.Good) {m : Module} {line : Nat} {r : ClassRec} (hm : p.has m) :
    IsClass p (.cls m line) r ↔ recAt (.cls m line) = some r := by
  constructor
  · rintro ⟨m', line', d, he, hl, hr⟩
    cases he
    rw [h.lookup hm] at hl
    cases hl
    exact hr
  · intro hr
    exact ⟨m, line, final m, rfl, h.lookup hm, hr⟩

theorem mem_allCls (c : Cls) : c ∈ allCls := by
  cases c with
  | asn1Object | oid => decide
  | int c => cases c <;> decide
  | oct c => cases c <;> decide
  | null c => cases c <;> decide
  | seq c => cases c <;> decide

theorem forall_cls {P : Cls → Prop} (h : ∀ c ∈ allCls, P c) (c : Cls) : P c := h c (mem_allCls c)

/-- The class object a model class stands for: module and line. -/
def pyObj (c : Cls) : Obj := ((final (pyName c).1).names.lookup (pyName c).2).getD (.data .util 0)

theorem pyObj_ok (c : Cls) : (final (pyName c).1).names.lookup (pyName c).2 = some (pyObj c) := by
  have : ∀ c ∈ allCls, ((final (pyName c).1).names.lookup (pyName c).2).isSome = true := by decide +kernel
  have := forall_cls this c
  unfold pyObj
  cases h : (final (pyName c).1).names.lookup (pyName c).2 with
  | none => rw [h] at this; cases this
  | some o => rfl

theorem denotes_iff {p : Process} (h : p.Good) (c : Cls) (o : Obj) :
    Denotes p c o ↔ p.has (pyName c).1 ∧ o = pyObj c := by
  constructor
  · rintro ⟨d, h1, h2⟩
    have hm : p.has (pyName c).1 := executed_iff.1 ⟨d, h1⟩
    rw [h.lookup hm] at h1
    cases h1
    rw [pyObj_ok] at h2
    exact ⟨hm, (Option.some.inj h2).symm⟩
  · rintro ⟨hm, rfl⟩
    exact ⟨_, h.lookup hm, pyObj_ok c⟩

/-- A class is created in its module, and its bases are the parent in the model. -/
def classCheck (c : Cls) : Bool :=
  match pyObj c, recAt (pyObj c) with
  | .cls m _, some r => m == (pyName c).1 && r.bases == (c.parent.map pyObj).toList &&
      (c.parent.all fun q => (pyName q).1 == m || (needed m).contains (pyName q).1)
  | _, _ => false

theorem classCheck_ok (c : Cls) : classCheck c = true := by
  have : ∀ c ∈ allCls, classCheck c = true := by decide +kernel
  exact forall_cls this c

theorem class_ok (c : Cls) : ∃ line r, pyObj c = .cls (pyName c).1 line ∧ recAt (pyObj c) = some r ∧
    r.bases = (c.parent.map pyObj).toList ∧ ∀ q, c.parent = some q → (pyName q).1 = (pyName c).1 ∨ (pyName q).1 ∈ needed (pyName c).1 := by
  have h := classCheck_ok c
  unfold classCheck at h
  split at h
  · next m line r h1 h2 =>
    simp only [Bool.and_eq_true, beq_iff_eq] at h
    obtain ⟨⟨rfl, h3⟩, h4⟩ := h
    refine ⟨line, r, h1, h2, h3, fun q hq => ?_⟩
    rw [hq] at h4
    simpa using h4
  · cases h

theorem pyObj_injective (c d : Cls) (h : pyObj c = pyObj d) : c = d := by
  have : ∀ c ∈ allCls, ∀ d ∈ allCls, pyObj c = pyObj d → c = d := by decide +kernel
  exact this c (mem_allCls c) d (mem_allCls d) h

theorem parent_has {p : Process} (h : p.Good) {c q : Cls} (hc : p.has (pyName c).1) (hq : c.parent = some q) :
    p.has (pyName q).1 := by
  obtain ⟨_, _, _, _, _, h4⟩ := class_ok c
  rcases h4 q hq with e | e
  · rw [e]; exact hc
  · obtain ⟨d, hd⟩ := hc; exact (h.1 _ d hd).2 _ e

theorem isClass_py {p : Process} (h : p.Good) {c : Cls} (hc : p.has (pyName c).1) {r : ClassRec} :
    IsClass p (pyObj c) r ↔ recAt (pyObj c) = some r := by
  obtain ⟨line, _, h1, _⟩ := class_ok c
  rw [h1]
  exact isClass_iff h hc

theorem mro_step (c : Cls) : c.mro = c :: match c.parent with
    | none => []
    | some q => q.mro := by
  have : ∀ c ∈ allCls, c.mro = c :: match c.parent with
    | none => []
    | some q => q.mro := by decide
  exact forall_cls this c

theorem subclass_iff {p : Process} (h : p.Good) {c : Cls} (hc : p.has (pyName c).1) (o : Obj) :
    IsSubclass p (pyObj c) o ↔ ∃ d ∈ c.mro, o = pyObj d := by
  constructor
  · intro hs
    generalize ho : pyObj c = oc at hs
    induction hs generalizing c with
    | refl => exact ⟨c, by rw [mro_step]; simp, ho.symm⟩
    | @base o r b o' h1 h2 _ ih =>
      subst ho
      obtain ⟨_, r', _, k1, k2, _⟩ := class_ok c
      rw [isClass_py h hc, k1] at h1
      cases h1
      rw [k2] at h2
      cases hp : c.parent with
      | none => rw [hp] at h2; simp at h2
      | some q =>
        rw [hp] at h2
        have hb : b = pyObj q := by simpa using h2
        obtain ⟨d, hd, he⟩ := ih (parent_has h hc hp) hb.symm
        refine ⟨d, ?_, he⟩
        rw [mro_step, hp]
        exact List.mem_cons_of_mem _ hd
  · rintro ⟨d, hd, rfl⟩
    have : ∀ n, ∀ c : Cls, c.mro.length < n → p.has (pyName c).1 → d ∈ c.mro → IsSubclass p (pyObj c) (pyObj d) := by
      intro n
      induction n with
      | zero => intro c h; omega
      | succ n ih =>
        intro c hn hc hd
        rw [mro_step] at hd hn
        cases hp : c.parent with
        | none =>
          rw [hp] at hd
          have : d = c := by simpa using hd
          rw [this]
          exact .refl
        | some q =>
          rw [hp] at hd hn
          rcases List.mem_cons.1 hd with rfl | hd
          · exact .refl
          · obtain ⟨_, r', _, k1, k2, _⟩ := class_ok c
            refine .base ((isClass_py h hc).2 k1) ?_ (ih q (by simp at hn; omega) (parent_has h hc hp) hd)
            rw [k2, hp]
            simp
    exact this _ c (Nat.lt_succ_self _) hc hd

/-! ## Attributes -/

/-- What the class statement itself gives a name. -/
def ownAttr (n : String) (c : Cls) : Option Obj := (recAt (pyObj c)).bind fun r => r.members.lookup n

theorem hasAttr_iff {p : Process} (h : p.Good) {c : Cls} (hc : p.has (pyName c).1) (n : String) (v : Obj) :
    HasAttr p (pyObj c) n v ↔ c.mro.findSome? (ownAttr n) = some v := by
  have hown : ∀ c : Cls, p.has (pyName c).1 → ∀ r, IsClass p (pyObj c) r → r.members.lookup n = ownAttr n c := by
    intro c hc r hr
    rw [isClass_py h hc] at hr
    rw [ownAttr, hr]
    rfl
  constructor
  · intro hs
    generalize ho : pyObj c = oc at hs
    induction hs generalizing c with
    | own h1 h2 =>
      subst ho
      rw [hown c hc _ h1] at h2
      rw [mro_step, List.findSome?_cons, h2]
    | @inherited o r n b v h1 h2 h3 _ ih =>
      subst ho
      rw [hown c hc _ h1] at h2
      rw [mro_step, List.findSome?_cons, h2]
      obtain ⟨_, r', _, k1, k2, _⟩ := class_ok c
      rw [isClass_py h hc, k1] at h1
      cases h1
      rw [k2] at h3
      cases hp : c.parent with
      | none => rw [hp] at h3; simp at h3
      | some q =>
        rw [hp] at h3
        have hb : pyObj q = b := by simpa using h3
        exact ih (parent_has h hc hp) hown hb
  · have : ∀ k, ∀ c : Cls, c.mro.length < k → p.has (pyName c).1 → c.mro.findSome? (ownAttr n) = some v →
        HasAttr p (pyObj c) n v := by
      intro k
      induction k with
      | zero => intro c h; omega
      | succ k ih =>
        intro c hk hc hv
        obtain ⟨_, r, _, k1, k2, _⟩ := class_ok c
        have hr := (isClass_py h hc).2 k1
        rw [mro_step, List.findSome?_cons] at hv
        cases hx : ownAttr n c with
        | some w =>
          rw [hx] at hv
          cases hv
          exact .own hr (by rw [hown c hc r hr, hx])
        | none =>
          rw [hx] at hv
          cases hp : c.parent with
          | none => rw [hp] at hv; simp at hv
          | some q =>
            rw [hp] at hv
            refine .inherited hr (by rw [hown c hc r hr, hx]) (by rw [k2, hp]; rfl)
              (ih q ?_ (parent_has h hc hp) hv)
            have := mro_step c
            rw [hp] at this
            rw [this] at hk
            simp at hk
            omega
    exact this _ c (Nat.lt_succ_self _) hc


/-! ## The registry -/

theorem has_cons {m : Module} {d : Done} {q : Process} {x : Module} : Process.has ((m, d) :: q) x ↔ x = m ∨ q.has x := by
  constructor
  · rintro ⟨d', hd⟩
    rcases List.mem_cons.1 hd with h | h
    · cases h; exact .inl rfl
    · exact .inr ⟨d', h⟩
  · rintro (rfl | ⟨d', hd⟩)
    · exact ⟨d, by simp⟩
    · exact ⟨d', by simp [hd]⟩

/-- Has it been executed? -/
def has? (p : Process) (m : Module) : Bool := (p.lookup m).isSome

theorem has?_iff {p : Process} {m : Module} : has? p m = true ↔ p.has m := lookup_isSome

theorem has?_cons (m : Module) (d : Done) (q : Process) (x : Module) : has? ((m, d) :: q) x = (decide (x = m) || has? q x) := by
  rw [Bool.eq_iff_iff, has?_iff, has_cons, Bool.or_eq_true, has?_iff]
  simp

theorem Process.Ordered.closed {p : Process} (h : p.Ordered) {m x : Module} (hm : p.has m) (hx : x ∈ needed m) : p.has x := by
  induction p with
  | nil => obtain ⟨d, hd⟩ := hm; cases hd
  | cons e q ih =>
    obtain ⟨m', d⟩ := e
    rw [has_cons] at hm ⊢
    rcases hm with rfl | hm
    · exact .inr (h.1 x hx)
    · exact .inr (ih h.2.2 hm)

theorem tags_bound (m : Module) : ∀ e ∈ (final m).tags, e.1 < 256 := by cases m <;> decide +kernel

theorem tags_big (m : Module) (t : Nat) (ht : 256 ≤ t) : (final m).tags.lookup t = none := by
  rw [List.lookup_eq_none_iff]
  intro e he
  have := tags_bound m e he
  simp
  omega

theorem decoder_big (a b c d : Bool) (t : Nat) (ht : 256 ≤ t) : Spec.decoder a b c d t = none := by
  unfold Spec.decoder
  split
  · rfl
  · split <;> first | rfl | omega

/-- What executing a module does to the registry. -/
def step (m : Module) (r : Option Obj) (t : Nat) : Option Obj := ((final m).tags.lookup t).or r

theorem step_others (m : Module) (h : m ≠ .rfc1155 ∧ m ≠ .rfc1157 ∧ m ≠ .rfc1902 ∧ m ≠ .rfc1905) : (final m).tags = [] := by
  cases m <;> first | (exfalso; simp at h; done) | decide +kernel

theorem step_1155 (t : Nat) (ht : t < 256) : step .rfc1155 none t = (Spec.decoder true false false false t).map pyObj := by
  have : ∀ t < 256, step .rfc1155 none t = (Spec.decoder true false false false t).map pyObj := by decide +kernel
  exact this t ht

theorem step_1157 (b : Bool) (t : Nat) (ht : t < 256) :
    step .rfc1157 ((Spec.decoder true false b false t).map pyObj) t = (Spec.decoder true true b false t).map pyObj := by
  have : ∀ t < 256, ∀ b : Bool,
      step .rfc1157 ((Spec.decoder true false b false t).map pyObj) t = (Spec.decoder true true b false t).map pyObj := by
    decide +kernel
  exact this t ht b

theorem step_1902 (b : Bool) (t : Nat) (ht : t < 256) :
    step .rfc1902 ((Spec.decoder true b false false t).map pyObj) t = (Spec.decoder true b true false t).map pyObj := by
  have : ∀ t < 256, ∀ b : Bool,
      step .rfc1902 ((Spec.decoder true b false false t).map pyObj) t = (Spec.decoder true b true false t).map pyObj := by
    decide +kernel
  exact this t ht b

theorem step_1905 (t : Nat) (ht : t < 256) :
    step .rfc1905 ((Spec.decoder true true true false t).map pyObj) t = (Spec.decoder true true true true t).map pyObj := by
  have : ∀ t < 256,
      step .rfc1905 ((Spec.decoder true true true false t).map pyObj) t = (Spec.decoder true true true true t).map pyObj := by
    decide +kernel
  exact this t ht

theorem tag_cons (m : Module) (q : Process) (t : Nat) : Process.tag ((m, final m) :: q) t = step m (q.tag t) t := by
  rw [Process.tag, List.findSome?_cons, step]
  cases (final m).tags.lookup t <;> rfl

theorem tag_good {p : Process} (h : p.Good) (t : Nat) :
    p.tag t = (Spec.decoder (has? p .rfc1155) (has? p .rfc1157) (has? p .rfc1902) (has? p .rfc1905) t).map pyObj := by
  obtain ⟨h0, h2⟩ := h
  have h1 : ∀ m d, (m, d) ∈ p → d = final m := fun m d hd => (h0 m d hd).1
  clear h0
  induction p with
  | nil => rfl
  | cons e q ih =>
    obtain ⟨m, d⟩ := e
    cases h1 m d (by simp)
    obtain ⟨k1, k2, k3⟩ := h2
    rw [tag_cons, ih k3 (fun x d hd => h1 x d (by simp [hd]))]
    simp only [has?_cons]
    by_cases ht : 256 ≤ t
    · rw [decoder_big _ _ _ _ t ht, decoder_big _ _ _ _ t ht, step, tags_big m t ht]
      rfl
    · have ht : t < 256 := by omega
      have yes : ∀ x, Process.has q x → has? q x = true := fun x hx => has?_iff.2 hx
      have no : ∀ x, ¬ Process.has q x → has? q x = false := fun x hx => by
        cases hh : has? q x with
        | false => rfl
        | true => exact absurd (has?_iff.1 hh) hx
      have no' : ∀ x, m ∈ needed x → has? q x = false := fun x hx => no x fun hh => k2 (k3.closed hh hx)
      by_cases e1 : m = .rfc1155
      · subst e1
        rw [no .rfc1155 k2, no' .rfc1157 (by decide +kernel), no' .rfc1902 (by decide +kernel), no' .rfc1905 (by decide +kernel)]
        exact step_1155 t ht
      · by_cases e2 : m = .rfc1157
        · subst e2
          rw [yes .rfc1155 (k1 .rfc1155 (by decide +kernel)), no .rfc1157 k2, no' .rfc1905 (by decide +kernel)]
          exact step_1157 _ t ht
        · by_cases e3 : m = .rfc1902
          · subst e3
            rw [yes .rfc1155 (k1 .rfc1155 (by decide +kernel)), no .rfc1902 k2, no' .rfc1905 (by decide +kernel)]
            exact step_1902 _ t ht
          · by_cases e4 : m = .rfc1905
            · subst e4
              rw [yes .rfc1155 (k1 .rfc1155 (by decide +kernel)), yes .rfc1157 (k1 .rfc1157 (by decide +kernel)),
                yes .rfc1902 (k1 .rfc1902 (by decide +kernel)), no .rfc1905 k2]
              exact step_1905 t ht
            · rw [step, step_others m ⟨e1, e2, e3, e4⟩]
              simp only [Ne.symm e1, Ne.symm e2, Ne.symm e3, Ne.symm e4, decide_false, Bool.false_or]
              rfl

/-! ## Any class of the package -/

/-- The class and its bases, upwards; none if that does not end within `n` or a class has two bases. -/
def chainOf : Nat → Obj → Option (List Obj)
  | 0, _ => none
  | n + 1, o => match recAt o with
    | none => some [o]
    | some r => match r.bases with
      | [] => some [o]
      | [b] => (chainOf n b).map (o :: ·)
      | _ => none

/-- The module of a class. -/
def Loaded (p : Process) : Obj → Prop
  | .cls m _ => p.has m
  | _ => True

theorem bases_check (m : Module) : ∀ r ∈ (final m).classes, ∀ b ∈ r.bases,
    (match b with
      | .cls m' _ => m' = m ∨ m' ∈ needed m
      | _ => True) := by
  have : ∀ m, ∀ r ∈ (final m).classes, ∀ b ∈ r.bases, (match b with
      | .cls m' _ => decide (m' = m ∨ m' ∈ needed m)
      | _ => true) = true := by intro m; cases m <;> decide +kernel
  intro r hr b hb
  have := this m r hr b hb
  cases b <;> first | trivial | simpa using this

theorem isClass_gen {p : Process} (h : p.Good) {o : Obj} (ho : Loaded p o) (r : ClassRec) : IsClass p o r ↔ recAt o = some r := by
  cases o with
  | cls m line => exact isClass_iff h ho
  | _ =>
    constructor
    · rintro ⟨_, _, _, he, _⟩; cases he
    · intro he; cases he

theorem base_loaded {p : Process} (h : p.Good) {o b : Obj} (ho : Loaded p o) {r : ClassRec} (hr : recAt o = some r)
    (hb : b ∈ r.bases) : Loaded p b := by
  cases o with
  | cls m line =>
    have hm := List.mem_of_find?_eq_some hr
    have := bases_check m r hm b hb
    cases b with
    | cls m' l' =>
      rcases this with rfl | hx
      · exact ho
      · obtain ⟨d, hd⟩ := ho; exact (h.1 _ d hd).2 _ hx
    | _ => trivial
  | _ => cases hr

theorem chain_sub {p : Process} (h : p.Good) (n : Nat) : ∀ (o : Obj) (cs : List Obj), chainOf n o = some cs → Loaded p o →
    ∀ o', IsSubclass p o o' ↔ o' ∈ cs := by
  induction n with
  | zero => intro o cs hc; cases hc
  | succ n ih =>
    intro o cs hc ho o'
    rw [chainOf] at hc
    cases hr : recAt o with
    | none =>
      rw [hr] at hc
      cases hc
      constructor
      · intro hs
        cases hs with
        | refl => simp
        | base h1 _ _ => rw [isClass_gen h ho, hr] at h1; cases h1
      · intro hm
        have : o' = o := by simpa using hm
        rw [this]
        exact .refl
    | some r =>
      rw [hr] at hc
      simp only at hc
      have hcls := (isClass_gen h ho r).2 hr
      split at hc
      · next hb =>
        cases hc
        constructor
        · intro hs
          cases hs with
          | refl => simp
          | base h1 h2 _ =>
            rw [isClass_gen h ho, hr] at h1
            cases h1
            rw [hb] at h2
            cases h2
        · intro hm
          have : o' = o := by simpa using hm
          rw [this]
          exact .refl
      · next b hb =>
        cases hcb : chainOf n b with
        | none => rw [hcb] at hc; cases hc
        | some ds =>
          rw [hcb] at hc
          cases hc
          have hlb := base_loaded h ho hr (b := b) (by rw [hb]; simp)
          constructor
          · intro hs
            cases hs with
            | refl => simp
            | base h1 h2 h3 =>
              rw [isClass_gen h ho, hr] at h1
              cases h1
              rw [hb] at h2
              rw [List.mem_singleton.1 h2] at h3
              exact List.mem_cons_of_mem _ ((ih b ds hcb hlb o').1 h3)
          · intro hm
            rcases List.mem_cons.1 hm with rfl | hm
            · exact .refl
            · exact .base hcls (by rw [hb]; simp) ((ih b ds hcb hlb o').2 hm)
      · cases hc

theorem chain_attr {p : Process} (h : p.Good) (k : Nat) : ∀ (o : Obj) (cs : List Obj), chainOf k o = some cs → Loaded p o →
    ∀ n v, HasAttr p o n v ↔ cs.findSome? (fun o => (recAt o).bind fun r => r.members.lookup n) = some v := by
  induction k with
  | zero => intro o cs hc; cases hc
  | succ k ih =>
    intro o cs hc ho n v
    rw [chainOf] at hc
    cases hr : recAt o with
    | none =>
      rw [hr] at hc
      cases hc
      rw [List.findSome?_cons, hr]
      constructor
      · intro hs
        cases hs with
        | own h1 _ => rw [isClass_gen h ho, hr] at h1; cases h1
        | inherited h1 _ _ _ => rw [isClass_gen h ho, hr] at h1; cases h1
      · intro hx; cases hx
    | some r =>
      rw [hr] at hc
      simp only at hc
      have hcls := (isClass_gen h ho r).2 hr
      split at hc
      · next hb =>
        cases hc
        rw [List.findSome?_cons, hr]
        constructor
        · intro hs
          cases hs with
          | own h1 h2 =>
            rw [isClass_gen h ho, hr] at h1
            cases h1
            simp only [Option.bind_some, h2]
          | inherited h1 _ h3 _ =>
            rw [isClass_gen h ho, hr] at h1
            cases h1
            rw [hb] at h3
            cases h3
        · intro hx
          cases hl : r.members.lookup n with
          | none => simp only [Option.bind_some, hl] at hx; cases hx
          | some w => simp only [Option.bind_some, hl] at hx; cases hx; exact .own hcls hl
      · next b hb =>
        cases hcb : chainOf k b with
        | none => rw [hcb] at hc; cases hc
        | some ds =>
          rw [hcb] at hc
          cases hc
          have hlb := base_loaded h ho hr (b := b) (by rw [hb]; simp)
          rw [List.findSome?_cons, hr]
          constructor
          · intro hs
            cases hs with
            | own h1 h2 =>
              rw [isClass_gen h ho, hr] at h1
              cases h1
              simp only [Option.bind_some, h2]
            | inherited h1 h2 h3 h4 =>
              rw [isClass_gen h ho, hr] at h1
              cases h1
              rw [hb] at h3
              cases h3
              simp only [Option.bind_some, h2]
              exact (ih b ds hcb hlb n v).1 h4
          · intro hx
            cases hl : r.members.lookup n with
            | none =>
              simp only [Option.bind_some, hl] at hx
              exact .inherited hcls hl hb ((ih b ds hcb hlb n v).2 hx)
            | some w => simp only [Option.bind_some, hl] at hx; cases hx; exact .own hcls hl
      · cases hc

end Libsnmp.Names
