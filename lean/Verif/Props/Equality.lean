import Verif.Model.Eq
import Verif.Spec.Equality
import Verif.Lemmas.ValEq
import Mathlib.Tactic.Basic

/-!
# C36, C37: equality and hashing
-/

namespace Libsnmp
open Spec

theorem isSubclass_refl (c : Cls) : c.isSubclass c = true := by
  rcases c with _ | c | c | _ | c | c <;> first | rfl | (cases c <;> rfl)

set_option maxRecDepth 4000 in
theorem isSubclass_antisymm (c d : Cls) (h1 : c.isSubclass d = true) (h2 : d.isSubclass c = true) : c = d := by
  rcases c with _ | c | c | _ | c | c <;> rcases d with _ | d | d | _ | d | d <;>
    first | rfl | (exact absurd h1 (by decide)) | (exact absurd h2 (by decide)) | skip
  all_goals first
    | (cases c <;> first | exact absurd h1 (by decide) | exact absurd h2 (by decide))
    | (cases d <;> first | exact absurd h1 (by decide) | exact absurd h2 (by decide))
    | (cases c <;> cases d <;> first | rfl | exact absurd h1 (by decide) | exact absurd h2 (by decide))

theorem pyEq_objects {a b : Val} {ca cb : Cls} (ha : a.cls? = some ca) (hb : b.cls? = some cb) :
    pyEq a b = if cb ≠ ca ∧ cb.isSubclass ca then eqMethod b a else eqMethod a b := by
  rw [pyEq, ha, hb]

/-! ## C36 -/

/-- C36. `==` on Integer-family objects never raises and compares the values, whatever the classes. -/
theorem C36_eq (c d : IntCls) (v w : Int) : pyEq (.integer c v) (.integer d w) = .ok (decide (v = w)) := by
  rw [pyEq_objects (ca := .int c) (cb := .int d) rfl rfl]
  split
  · rw [eqMethod]; simp only [integerEq, Val.toInt]
    congr 1; rw [Bool.eq_iff_iff]; simp only [decide_eq_true_eq]; exact eq_comm
  · rw [eqMethod]; rfl

/-- C36. Hence an equivalence relation, consistent with `hash()`, for objects of all the integer classes. -/
theorem C36_equivalence (a b c : Val) (ha : IsInteger a) (hb : IsInteger b) (hc : IsInteger c) :
    pyEq a a = .ok true ∧
    pyEq a b = pyEq b a ∧
    (pyEq a b = .ok true → pyEq b c = .ok true → pyEq a c = .ok true) ∧
    (pyEq a b = .ok true → ∃ h, objHash a = .ok h ∧ objHash b = .ok h) := by
  cases a <;> simp only [IsInteger] at ha
  cases b <;> simp only [IsInteger] at hb
  cases c <;> simp only [IsInteger] at hc
  simp only [C36_eq, Except.ok.injEq, decide_eq_true_eq, true_and]
  refine ⟨by rw [Bool.eq_iff_iff]; simp only [decide_eq_true_eq]; exact eq_comm, fun h1 h2 => h1.trans h2, ?_⟩
  rintro rfl
  exact ⟨_, rfl, rfl⟩

/-- C36. A plain int and an Integer object can replace one another as dictionary keys: equal exactly when the values
are, in either order, with the same hash. -/
theorem C36_plain_int (c : IntCls) (v n : Int) :
    pyEq (.integer c v) (.int n) = .ok (decide (v = n)) ∧ pyEq (.int n) (.integer c v) = .ok (decide (v = n)) ∧
    (v = n → objHash (.integer c v) = objHash (.int n)) := by
  refine ⟨?_, ?_, by rintro rfl; rfl⟩
  · rw [pyEq]; simp only [Val.cls?]; rw [eqMethod]; rfl
  · rw [pyEq]; simp only [Val.cls?]; rw [eqMethod]; rfl

/-- C36. But `==` is not an equivalence relation when strings take part: an Integer equals every text of its value. -/
theorem C36_text_not_transitive :
    pyEq (.str (lit "5")) (.integer .integer 5) = .ok true ∧
    pyEq (.integer .integer 5) (.str (lit " +5 ")) = .ok true ∧
    pyEq (.str (lit "5")) (.str (lit " +5 ")) = .ok false := by decide +kernel

example : pyEq (.integer .counter 7) (.integer .integer32 7) = .ok true ∧
    pyEq (.integer .counter 7) (.integer .counter32 8) = .ok false ∧
    objHash (.integer .counter 7) = objHash (.integer .integer32 7) := by decide +kernel

/-! ## C37 -/

theorem itemsEq_iff (l m : List Val) (hlen : l.length = m.length)
    (h : ∀ x ∈ l, ∀ y ∈ m, pyEq x y = .ok true ↔ Equal x y) : itemsEq l m = .ok true ↔ EqualList l m := by
  induction l generalizing m with
  | nil =>
    cases m with
    | nil => rw [itemsEq]; · exact ⟨fun _ => .nil, fun _ => rfl⟩
             · intro x xs y ys h; cases h
    | cons => simp at hlen
  | cons x xs ih =>
    cases m with
    | nil => simp at hlen
    | cons y ys =>
      rw [itemsEq]
      have hxy := h x (by simp) y (by simp)
      have := ih ys (by simpa using hlen) (fun a ha b hb => h a (by simp [ha]) b (by simp [hb]))
      constructor
      · intro he
        split at he
        · cases he
        · cases he
        · next hp => exact .cons (hxy.mp hp) (this.mp he)
      · intro he
        cases he with
        | cons h1 h2 => rw [hxy.mpr h1]; exact this.mpr h2

theorem equalList_length {l m : List Val} (h : EqualList l m) : l.length = m.length := by
  induction l generalizing m with
  | nil => cases h; rfl
  | cons x xs ih => cases h with
    | cons _ h => simp [ih h]

theorem objectTrees_mem {l : List Val} (h : ObjectTrees l) : ∀ x ∈ l, ObjectTree x := by
  induction l with
  | nil => simp
  | cons x xs ih =>
    cases h with
    | cons h1 h2 =>
      intro y hy
      simp only [List.mem_cons] at hy
      rcases hy with rfl | hy
      · exact h1
      · exact ih h2 y hy

theorem pyEq_seq (c d : SeqCls) (l m : List Val) :
    pyEq (.seq c l) (.seq d m) = if c = d then listEq l m else .ok false := by
  rw [pyEq_objects (ca := .seq c) (cb := .seq d) rfl rfl]
  by_cases hcd : c = d
  · subst hcd
    simp only [ne_eq, not_true_eq_false, false_and, if_false, if_true]
    rw [eqMethod]
    simp only [isSubclass_refl, if_true]
  · rw [if_neg hcd]
    have hne : Cls.seq d ≠ .seq c := by simpa using fun h => hcd h.symm
    by_cases hs : (Cls.seq d).isSubclass (.seq c) = true
    · rw [if_pos ⟨hne, hs⟩, eqMethod]
      rw [if_neg (fun h => hne (isSubclass_antisymm _ _ hs h))]
    · rw [if_neg (fun h => hs h.2), eqMethod]
      rw [if_neg hs]

theorem pyEq_octets (c d : OctCls) (v w : Str) :
    pyEq (.octets c v) (.octets d w) = .ok (decide (c = d) && decide (v = w)) := by
  rw [pyEq_objects (ca := .oct c) (cb := .oct d) rfl rfl]
  by_cases hcd : c = d
  · subst hcd
    simp only [ne_eq, not_true_eq_false, false_and, if_false]
    rw [eqMethod]
    simp [isSubclass_refl]
  · have hne : Cls.oct d ≠ .oct c := by simpa using fun h => hcd h.symm
    by_cases hs : (Cls.oct d).isSubclass (.oct c) = true
    · rw [if_pos ⟨hne, hs⟩, eqMethod]
      have : (Cls.oct c).isSubclass (.oct d) = false := by
        cases h : (Cls.oct c).isSubclass (.oct d)
        · rfl
        · exact absurd (isSubclass_antisymm _ _ hs h) hne
      simp [this, hcd]
    · rw [if_neg (fun h => hs h.2), eqMethod]
      simp [hs, hcd]

theorem rawEq_plain {v w : Raw} (hv : v.isNumber = false) (hw : w.isNumber = false) : rawEq v w = .ok (decide (v = w)) := by
  cases v <;> cases w <;> first | rfl | (simp [Raw.isNumber] at hv; done) | (simp [Raw.isNumber] at hw; done)

theorem strRawEq_plain {s : Str} {w : Raw} (hw : w.isNumber = false) : strRawEq s w = .ok false := by
  cases w <;> first | rfl | (simp [Raw.isNumber] at hw; done)

theorem pyEq_raw (c d : OctCls) {v w : Raw} (hv : v.isNumber = false) (hw : w.isNumber = false) :
    pyEq (.raw c v) (.raw d w) = .ok (decide (c = d) && decide (v = w)) := by
  rw [pyEq_objects (ca := .oct c) (cb := .oct d) rfl rfl]
  by_cases hcd : c = d
  · subst hcd
    simp only [ne_eq, not_true_eq_false, false_and, if_false]
    rw [eqMethod]
    simp [isSubclass_refl, rawEq_plain hv hw]
  · have hne : Cls.oct d ≠ .oct c := by simpa using fun h => hcd h.symm
    by_cases hs : (Cls.oct d).isSubclass (.oct c) = true
    · rw [if_pos ⟨hne, hs⟩, eqMethod]
      have : (Cls.oct c).isSubclass (.oct d) = false := by
        cases h : (Cls.oct c).isSubclass (.oct d)
        · rfl
        · exact absurd (isSubclass_antisymm _ _ hs h) hne
      simp [this, hcd]
    · rw [if_neg (fun h => hs h.2), eqMethod]
      simp [hs, hcd]

theorem pyEq_octets_raw (c d : OctCls) (s : Str) {w : Raw} (hw : w.isNumber = false) :
    pyEq (.octets c s) (.raw d w) = .ok false ∧ pyEq (.raw d w) (.octets c s) = .ok false := by
  constructor
  · rw [pyEq_objects (ca := .oct c) (cb := .oct d) rfl rfl]
    split <;> rw [eqMethod] <;> simp [strRawEq_plain hw]
  · rw [pyEq_objects (ca := .oct d) (cb := .oct c) rfl rfl]
    split <;> rw [eqMethod] <;> simp [strRawEq_plain hw]

theorem pyEq_null (c d : NullCls) : pyEq (.null c) (.null d) = .ok (decide (c = d)) := by
  rw [pyEq_objects (ca := .null c) (cb := .null d) rfl rfl]
  by_cases hcd : c = d
  · subst hcd
    simp only [ne_eq, not_true_eq_false, false_and, if_false]
    rw [eqMethod]
    simp [isSubclass_refl]
  · have hne : Cls.null d ≠ .null c := by simpa using fun h => hcd h.symm
    by_cases hs : (Cls.null d).isSubclass (.null c) = true
    · rw [if_pos ⟨hne, hs⟩, eqMethod]
      have : (Cls.null c).isSubclass (.null d) = false := by
        cases h : (Cls.null c).isSubclass (.null d)
        · rfl
        · exact absurd (isSubclass_antisymm _ _ hs h) hne
      simp [this, hcd]
    · rw [if_neg (fun h => hs h.2), eqMethod]
      simp [hs, hcd]

theorem pyEq_oid (v w : Option (List Int)) : pyEq (.oid v) (.oid w) = .ok (decide (v = w)) := by
  rw [pyEq_objects (ca := .oid) (cb := .oid) rfl rfl, if_neg (by simp), eqMethod]

/-- Objects of different kinds. -/
local macro "mixed" : tactic => `(tactic| (
  rw [pyEq]
  simp only [Val.cls?]
  split <;> rw [eqMethod] <;>
    first
    | (constructor <;> intro h <;> cases h; done)
    | (simp only [integerEq, Val.toInt]; constructor <;> intro h <;> cases h; done)
    | (intro _ _ h; cases h; done)
    | (intro _ h; cases h; done)))

/-- C37. On SNMP objects nested to any depth, `a == b` returns True exactly when they are equal: integers by value,
everything else by class and value. -/
theorem C37_eq_iff (a b : Val) (ha : ObjectTree a) (hb : ObjectTree b) : pyEq a b = .ok true ↔ Equal a b := by
  generalize hn : sizeOf a = n
  induction n using Nat.strong_induction_on generalizing a b with
  | _ n ih =>
    subst hn
    cases ha with
    | seq c hl =>
      cases hb with
      | seq d hm =>
        rename_i l m
        rw [pyEq_seq]
        by_cases hcd : c = d
        · subst hcd
          rw [if_pos rfl, listEq]
          by_cases hlen : l.length = m.length
          · rw [if_neg (by simpa using hlen)]
            have key := itemsEq_iff l m hlen (fun x hx y hy => ih (sizeOf x) (by
              have := List.sizeOf_lt_of_mem hx
              simp only [Val.seq.sizeOf_spec]; omega) x y (objectTrees_mem hl x hx) (objectTrees_mem hm y hy) rfl)
            rw [key]
            constructor
            · exact .seq c
            · intro h; cases h with
              | seq _ h => exact h
          · rw [if_pos hlen]
            constructor
            · intro h; cases h
            · intro h; cases h with
              | seq _ h => exact absurd (equalList_length h) hlen
        · rw [if_neg hcd]
          constructor
          · intro h; cases h
          · intro h; cases h; exact absurd rfl hcd
      | _ =>
        mixed
    | integer c v =>
      cases hb with
      | integer d w =>
        rw [C36_eq]
        simp only [Except.ok.injEq, decide_eq_true_eq]
        constructor
        · rintro rfl; exact .integer c d v
        · intro h; cases h; rfl
      | _ =>
        mixed
    | octets c v =>
      cases hb with
      | octets d w =>
        rw [pyEq_octets]
        simp only [Except.ok.injEq, Bool.and_eq_true, decide_eq_true_eq]
        constructor
        · rintro ⟨rfl, rfl⟩; exact .octets c v
        · intro h; cases h; exact ⟨rfl, rfl⟩
      | raw d w hw =>
        rw [(pyEq_octets_raw c d v hw).1]
        constructor <;> intro h <;> cases h
      | _ =>
        mixed
    | raw c v hv =>
      cases hb with
      | octets d w =>
        rw [(pyEq_octets_raw d c w hv).2]
        constructor <;> intro h <;> cases h
      | raw d w hw =>
        rw [pyEq_raw c d hv hw]
        simp only [Except.ok.injEq, Bool.and_eq_true, decide_eq_true_eq]
        constructor
        · rintro ⟨rfl, rfl⟩; exact .raw c v
        · intro h; cases h; exact ⟨rfl, rfl⟩
      | _ =>
        mixed
    | oid v =>
      cases hb with
      | oid w =>
        rw [pyEq_oid]
        simp only [Except.ok.injEq, decide_eq_true_eq]
        constructor
        · rintro rfl; exact .oid v
        · intro h; cases h; rfl
      | _ =>
        mixed
    | null c =>
      cases hb with
      | null d =>
        rw [pyEq_null]
        simp only [Except.ok.injEq, decide_eq_true_eq]
        constructor
        · rintro rfl; exact .null c
        · intro h; cases h; rfl
      | _ =>
        mixed

mutual
theorem equal_refl : (a : Val) → ObjectTree a → Equal a a
  | .integer c v, _ => .integer c c v
  | .octets c v, _ => .octets c v
  | .raw c v, _ => .raw c v
  | .oid v, _ => .oid v
  | .null c, _ => .null c
  | .seq c l, h => .seq c (equalList_refl l (by cases h with | seq _ h => exact h))
  | .none, h => by cases h
  | .int _, h => by cases h
  | .str _, h => by cases h
  | .bytes _, h => by cases h
theorem equalList_refl : (l : List Val) → ObjectTrees l → EqualList l l
  | [], _ => .nil
  | x :: xs, h => .cons (equal_refl x (by cases h with | cons h _ => exact h))
      (equalList_refl xs (by cases h with | cons _ h => exact h))
end

mutual
theorem equal_symm : (a b : Val) → Equal a b → Equal b a
  | _, _, .integer c d v => .integer d c v
  | _, _, .octets c v => .octets c v
  | _, _, .raw c v => .raw c v
  | _, _, .oid v => .oid v
  | _, _, .null c => .null c
  | _, _, .seq c h => .seq c (equalList_symm _ _ h)
theorem equalList_symm : (l m : List Val) → EqualList l m → EqualList m l
  | _, _, .nil => .nil
  | _, _, .cons h1 h2 => .cons (equal_symm _ _ h1) (equalList_symm _ _ h2)
end

mutual
theorem equal_trans : (a b c : Val) → Equal a b → Equal b c → Equal a c
  | _, _, _, .integer c d v, h => by cases h with | integer _ e _ => exact .integer c e v
  | _, _, _, .octets c v, h => h
  | _, _, _, .raw c v, h => h
  | _, _, _, .oid v, h => h
  | _, _, _, .null c, h => h
  | _, _, _, .seq c h, h' => by cases h' with | seq _ h' => exact .seq c (equalList_trans _ _ _ h h')
theorem equalList_trans : (l m n : List Val) → EqualList l m → EqualList m n → EqualList l n
  | _, _, _, .nil, h => h
  | _, _, _, .cons h1 h2, h => by
    cases h with
    | cons h3 h4 => exact .cons (equal_trans _ _ _ h1 h3) (equalList_trans _ _ _ h2 h4)
end

/-- C37. `==` is reflexive. -/
theorem C37_reflexive (a : Val) (ha : ObjectTree a) : pyEq a a = .ok true :=
  (C37_eq_iff a a ha ha).mpr (equal_refl a ha)

/-- C37. It is symmetric wherever it returns: True in one order means True in the other, and two answers always agree. -/
theorem C37_symmetric (a b : Val) (ha : ObjectTree a) (hb : ObjectTree b) :
    (pyEq a b = .ok true ↔ pyEq b a = .ok true) ∧
    ∀ r s, pyEq a b = .ok r → pyEq b a = .ok s → r = s := by
  have h : pyEq a b = .ok true ↔ pyEq b a = .ok true := by
    rw [C37_eq_iff a b ha hb, C37_eq_iff b a hb ha]
    exact ⟨equal_symm _ _, equal_symm _ _⟩
  refine ⟨h, fun r s h1 h2 => ?_⟩
  rw [h1, h2] at h
  simp only [Except.ok.injEq] at h
  exact Bool.eq_iff_iff.mpr h

/-- C37. It is transitive (and two True answers guarantee that the third comparison returns). -/
theorem C37_transitive (a b c : Val) (ha : ObjectTree a) (hb : ObjectTree b) (hc : ObjectTree c)
    (h1 : pyEq a b = .ok true) (h2 : pyEq b c = .ok true) : pyEq a c = .ok true := by
  rw [C37_eq_iff] at *
  · exact equal_trans _ _ _ h1 h2
  all_goals assumption

/-- C37. Non-integer objects are equal only if their classes are. -/
theorem C37_same_class (a b : Val) (ha : ObjectTree a) (hb : ObjectTree b) (hi : ¬ IsInteger a)
    (h : pyEq a b = .ok true) : a.cls? = b.cls? := by
  rw [C37_eq_iff a b ha hb] at h
  cases h <;> first | rfl | exact absurd trivial hi

theorem int_disjoint (c : IntCls) (cb : Cls) (h1 : ∀ d, cb ≠ .int d) (h2 : cb ≠ .asn1Object) :
    cb.isSubclass (.int c) = false ∧ (Cls.int c).isSubclass cb = false := by
  rcases cb with _ | d | d | _ | d | d
  · exact absurd rfl h2
  · exact absurd rfl (h1 d)
  · cases c <;> cases d <;> exact ⟨rfl, rfl⟩
  · cases c <;> exact ⟨rfl, rfl⟩
  · cases c <;> cases d <;> exact ⟨rfl, rfl⟩
  · cases c <;> cases d <;> exact ⟨rfl, rfl⟩

/-- C37. An Integer compared with an SNMP object that is not an Integer raises TypeError; the other way round the answer
is False. -/
theorem C37_integer_asymmetry (c : IntCls) (v : Int) (b : Val) (hb : ObjectTree b) (hi : ¬ IsInteger b) :
    pyEq (.integer c v) b = .error .typeError ∧ pyEq b (.integer c v) = .ok false := by
  have hdis : ∀ cb, b.cls? = some cb → cb.isSubclass (.int c) = false ∧ (Cls.int c).isSubclass cb = false := by
    intro cb hcb
    cases hb with
    | integer => exact absurd trivial hi
    | _ => cases hcb; exact int_disjoint c _ (by intro d h; cases h) (by intro h; cases h)
  obtain ⟨cb, hcb⟩ : ∃ cb, b.cls? = some cb := by cases hb <;> exact ⟨_, rfl⟩
  have hd := hdis cb hcb
  rw [pyEq_objects (ca := .int c) rfl hcb, pyEq_objects (cb := .int c) hcb rfl, hd.1, hd.2]
  simp only [Bool.false_eq_true, and_false, if_false]
  constructor
  · rw [eqMethod, integerEq]
    cases hb with
    | integer => exact absurd trivial hi
    | _ => rfl
  · cases hb with
    | integer => exact absurd trivial hi
    | _ => rw [eqMethod] <;> first | rfl | (intro _ _ h; cases h; done) | (intro _ h; cases h; done)

/-- C37. `!=` is the negation of `==`, and raises exactly when `==` does, for all values (bare Python values too). -/
theorem C37_ne (a b : Val) : pyNe a b = (pyEq a b).map (!·) := by
  unfold pyNe
  cases hca : a.cls? with
  | none =>
    cases hcb : b.cls? with
    | none => rw [pyEq, hca, hcb]; rfl
    | some cb =>
      simp only
      have : pyEq b a = pyEq a b := by rw [pyEq, pyEq, hca, hcb]
      rw [this]
      cases pyEq a b <;> rfl
  | some ca =>
    cases hcb : b.cls? with
    | none => simp only []; cases pyEq a b <;> rfl
    | some cb =>
      simp only
      split
      · next h =>
        have : pyEq b a = pyEq a b := by
          rw [pyEq_objects hcb hca, pyEq_objects hca hcb, if_pos h, if_neg]
          rintro ⟨h1, h2⟩
          exact h1 (isSubclass_antisymm _ _ h2 h.2)
        rw [this]
        cases pyEq a b <;> rfl
      · cases pyEq a b <;> rfl

/-- C37. Only integers can be dictionary keys. -/
theorem C37_unhashable (a : Val) (ha : ObjectTree a) (hi : ¬ IsInteger a) : objHash a = .error .typeError := by
  cases ha <;> first | rfl | exact absurd trivial hi

/-- None, an int, a `str` or bytes: no SNMP object. -/
def Bare : Val → Prop
  | .none | .int _ | .str _ | .bytes _ => True
  | _ => False

theorem bare_eq {x y : Val} (hx : Bare x) (hy : Bare y) : ∃ r, pyEq x y = .ok r ∧ (r = true ↔ x = y) := by
  cases x <;> simp only [Bare] at hx <;> cases y <;> simp only [Bare] at hy <;> rw [pyEq] <;>
    simp [Val.cls?, builtinEq]

/-- C37. Sequences of plain Python values (which a program can build, and even encode if they are texts) are equal exactly if
they have the same class and hold the same values in the same order; such a comparison never raises. -/
theorem C37_plain_values (c d : SeqCls) (l m : List Val) (hl : ∀ x ∈ l, Bare x) (hm : ∀ x ∈ m, Bare x) :
    ∃ r, pyEq (.seq c l) (.seq d m) = .ok r ∧
      (r = true ↔ c = d ∧ l = m) := by
  have items : ∀ l m : List Val, (∀ x ∈ l, Bare x) → (∀ x ∈ m, Bare x) → l.length = m.length →
      ∃ r, itemsEq l m = .ok r ∧ (r = true ↔ l = m) := by
    intro l
    induction l with
    | nil => intro m _ _ hlen; cases m with
      | nil => exact ⟨true, by rw [itemsEq]; simp, by simp⟩
      | cons => simp at hlen
    | cons x l ih =>
      intro m hl hm hlen
      cases m with
      | nil => simp at hlen
      | cons y m =>
        obtain ⟨r, h1, h2⟩ := bare_eq (hl x (by simp)) (hm y (by simp))
        obtain ⟨q, h3, h4⟩ := ih m (fun z hz => hl z (by simp [hz])) (fun z hz => hm z (by simp [hz])) (by simpa using hlen)
        rw [itemsEq, h1]
        cases r with
        | false => exact ⟨false, rfl, by simpa using fun h => absurd h (by simpa using h2)⟩
        | true => exact ⟨q, h3, by rw [h4]; simp [h2.1 rfl]⟩
  have lists : ∀ l m : List Val, (∀ x ∈ l, Bare x) → (∀ x ∈ m, Bare x) → ∃ r, listEq l m = .ok r ∧ (r = true ↔ l = m) := by
    intro l m hl hm
    rw [listEq]
    by_cases hlen : l.length = m.length
    · rw [if_neg (by simpa using hlen)]; exact items l m hl hm hlen
    · rw [if_pos hlen]
      exact ⟨false, rfl, by simpa using fun h => hlen (by rw [h])⟩
  rw [pyEq_objects (ca := .seq c) (cb := .seq d) rfl rfl]
  split
  · next h =>
    rw [eqMethod]
    have : ¬ (Cls.seq c).isSubclass (.seq d) = true := fun h' => h.1 (isSubclass_antisymm _ _ h.2 h')
    simp only [this, Bool.false_eq_true, if_false]
    refine ⟨false, rfl, ?_⟩
    simp only [Bool.false_eq_true, false_iff, not_and]
    rintro rfl
    exact absurd rfl h.1
  · next h =>
    rw [eqMethod]
    by_cases hs : (Cls.seq d).isSubclass (.seq c) = true
    · have e : c = d := by
        by_contra hne
        exact h ⟨fun e => hne (by cases e; rfl), hs⟩
      simp only [hs, if_true]
      obtain ⟨r, h1, h2⟩ := lists l m hl hm
      exact ⟨r, h1, by rw [h2]; simp [e]⟩
    · have hne : c ≠ d := by
        rintro rfl
        exact hs (by cases c <;> decide)
      exact ⟨false, by simp [hs], by simp [hne]⟩

example : pyEq (.seq .sequence [.str (lit "ab"), .none]) (.seq .sequence [.str (lit "ac"), .none]) = .ok false ∧
    (∀ x ∈ [Val.str (lit "ab"), .none], Bare x) := ⟨by decide +kernel, by simp [Bare]⟩

example : let a : Val := .seq .sequence [.integer .counter 3, .seq .varBind [.oid (some [1, 3]), .null .null]]
    let b : Val := .seq .sequence [.integer .integer 3, .seq .varBind [.oid (some [1, 3]), .null .null]]
    let c : Val := .seq .sequence [.integer .integer 3, .seq .varBind2 [.oid (some [1, 3]), .null .null]]
    pyEq a b = .ok true ∧ pyEq a c = .ok false ∧ pyNe b c = .ok true ∧
    pyEq (.seq .sequence [.integer .integer 1]) (.seq .sequence [.null .null]) = .error .typeError := by
  decide +kernel

example : ObjectTree (.seq .sequence [.integer .counter 3, .seq .varBind [.oid (some [1, 3]), .null .null]]) :=
  .seq _ (.cons (.integer _ _) (.cons (.seq _ (.cons (.oid _) (.cons (.null _) .nil))) .nil))

end Libsnmp
