import Verif.Model.Heap
import Mathlib.Data.List.Basic
import Mathlib.Data.List.Nodup

/-!
# C38–C40: which operations can change which objects
-/

namespace Libsnmp

theorem read_append {α} (cells : Cells α) (l : List α) {a : Nat} (h : a < cells.length) :
    Cells.read (cells ++ [l]) a = cells.read a := by
  simp [Cells.read, List.getD, List.getElem?_append_left h]

theorem read_new {α} (cells : Cells α) (l : List α) : Cells.read (cells ++ [l]) cells.length = l := by
  simp [Cells.read, List.getD]

theorem read_set_ne {α} (cells : Cells α) (l : List α) {a b : Nat} (h : a ≠ b) :
    Cells.read (cells.set a l) b = cells.read b := by
  simp [Cells.read, List.getD, List.getElem?_set_ne h]

theorem read_set_eq {α} (cells : Cells α) (l : List α) {a : Nat} (h : a < cells.length) :
    Cells.read (cells.set a l) a = l := by
  simp [Cells.read, List.getD, h]

/-! ## C38 -/

/-- The object or list an operation is meant to change: nothing for constructors, copies and slices. -/
inductive Target where
  | nothing
  | obj (j : Nat)
  | list (i : Nat)
deriving DecidableEq

def OidOp.target : OidOp → Target
  | .append j _ | .appendOther j | .extend j _ | .extendList j _ | .delItem j _ => .obj j
  | .setList i _ => .list i
  | _ => .nothing

/-- The addresses in use: every one belongs to one object or list only. -/
structure OidMem.Inv (s : OidMem) : Prop where
  bound_obj : ∀ (k a : Nat), s.objs[k]? = some (some a) → a < s.cells.length
  bound_list : ∀ (i a : Nat), s.lists[i]? = some a → a < s.cells.length
  obj_obj : ∀ (k l a : Nat), s.objs[k]? = some (some a) → s.objs[l]? = some (some a) → k = l
  list_list : ∀ (i j a : Nat), s.lists[i]? = some a → s.lists[j]? = some a → i = j
  obj_list : ∀ (k i a : Nat), s.objs[k]? = some (some a) → s.lists[i]? ≠ some a

theorem getElem?_snoc {α} {l : List α} {x y : α} {k : Nat} (h : (l ++ [x])[k]? = some y) :
    l[k]? = some y ∨ (k = l.length ∧ y = x) := by
  by_cases hk : k < l.length
  · rw [List.getElem?_append_left hk] at h; exact Or.inl h
  · rw [List.getElem?_append_right (by omega)] at h
    right
    have : k - l.length = 0 := by
      by_contra hne
      rw [List.getElem?_eq_none (by simp; omega)] at h
      cases h
    rw [this] at h
    simp at h
    exact ⟨by omega, h.symm⟩

theorem OidMem.Inv.newObj {s : OidMem} (h : s.Inv) (l : List Int) : (s.newObj l).Inv := by
  have hnew : ∀ (k : Nat), s.objs[k]? ≠ some (some s.cells.length) := fun k hk => absurd (h.bound_obj _ _ hk) (by omega)
  have hnew' : ∀ (i : Nat), s.lists[i]? ≠ some s.cells.length := fun i hi => absurd (h.bound_list _ _ hi) (by omega)
  refine ⟨?_, ?_, ?_, h.list_list, ?_⟩
  · intro k a hk
    simp only [OidMem.newObj, List.length_append, List.length_cons, List.length_nil] at *
    rcases getElem?_snoc hk with hk | ⟨_, hk⟩
    · have := h.bound_obj _ _ hk; omega
    · simp at hk; omega
  · intro i a hi
    have := h.bound_list i a hi
    simp only [OidMem.newObj, List.length_append]; omega
  · intro k m a hk hm
    simp only [OidMem.newObj] at *
    rcases getElem?_snoc hk with hk' | ⟨e1, hk'⟩ <;> rcases getElem?_snoc hm with hm' | ⟨e2, hm'⟩
    · exact h.obj_obj _ _ _ hk' hm'
    · simp only [Option.some.injEq] at hm'; subst hm'; exact absurd hk' (hnew k)
    · simp only [Option.some.injEq] at hk'; subst hk'; exact absurd hm' (hnew m)
    · omega
  · intro k i a hk hi
    simp only [OidMem.newObj] at *
    rcases getElem?_snoc hk with hk' | ⟨_, hk'⟩
    · exact h.obj_list _ _ _ hk' hi
    · simp only [Option.some.injEq] at hk'; subst hk'; exact hnew' i hi

theorem OidMem.Inv.newUnset {s : OidMem} (h : s.Inv) : s.newUnset.Inv := by
  have hold : ∀ (k a : Nat), s.newUnset.objs[k]? = some (some a) → s.objs[k]? = some (some a) := by
    intro k a hk
    rcases getElem?_snoc hk with hk | ⟨_, hk⟩
    · exact hk
    · cases hk
  exact ⟨fun k a hk => h.bound_obj k a (hold k a hk), h.bound_list,
    fun k l a hk hl => h.obj_obj k l a (hold k a hk) (hold l a hl), h.list_list,
    fun k i a hk => h.obj_list k i a (hold k a hk)⟩

theorem OidMem.Inv.write {s : OidMem} (h : s.Inv) (a : Nat) (l : List Int) : (s.write a l).Inv :=
  ⟨fun k b hk => by simpa [OidMem.write] using h.bound_obj k b hk,
   fun k b hk => by simpa [OidMem.write] using h.bound_list k b hk, h.obj_obj, h.list_list, h.obj_list⟩

theorem OidMem.Inv.newList {s : OidMem} (h : s.Inv) (l : List Int) :
    ({ s with cells := s.cells ++ [l], lists := s.lists ++ [s.cells.length] } : OidMem).Inv := by
  have hnew : ∀ (k : Nat), s.objs[k]? ≠ some (some s.cells.length) := fun k hk => absurd (h.bound_obj _ _ hk) (by omega)
  have hnew' : ∀ (i : Nat), s.lists[i]? ≠ some s.cells.length := fun i hi => absurd (h.bound_list _ _ hi) (by omega)
  refine ⟨?_, ?_, h.obj_obj, ?_, ?_⟩
  · intro k a hk
    have := h.bound_obj k a hk
    simp only [List.length_append]; omega
  · intro i a hi
    simp only [List.length_append, List.length_cons, List.length_nil] at *
    rcases getElem?_snoc hi with hi | ⟨_, rfl⟩
    · have := h.bound_list i a hi; omega
    · omega
  · intro i j a hi hj
    rcases getElem?_snoc hi with hi' | ⟨e1, hi'⟩ <;> rcases getElem?_snoc hj with hj' | ⟨e2, hj'⟩
    · exact h.list_list _ _ _ hi' hj'
    · subst hj'; exact absurd hi' (hnew' i)
    · subst hi'; exact absurd hj' (hnew' j)
    · omega
  · intro k i a hk hi
    rcases getElem?_snoc hi with hi | ⟨rfl, rfl⟩
    · exact h.obj_list _ _ _ hk hi
    · exact hnew k hk

/-- Every step either leaves the memory alone, adds an object or a list, or writes the list of its target. -/
theorem OidMem.step_cases (s : OidMem) (op : OidOp) :
    (s.step op).1 = s ∨ (∃ l, (s.step op).1 = s.newObj l) ∨ (s.step op).1 = s.newUnset ∨
    (∃ l, (s.step op).1 = { s with cells := s.cells ++ [l], lists := s.lists ++ [s.cells.length] }) ∨
    (∃ j a l, op.target = .obj j ∧ s.objs[j]? = some (some a) ∧ (s.step op).1 = s.write a l) ∨
    (∃ i a l, op.target = .list i ∧ s.lists[i]? = some a ∧ (s.step op).1 = s.write a l) := by
  cases op with
  | newList l => exact Or.inr (Or.inr (Or.inr (Or.inl ⟨l, rfl⟩)))
  | setList i l =>
    simp only [OidMem.step]
    split
    · exact Or.inl rfl
    · next a ha => exact Or.inr (Or.inr (Or.inr (Or.inr (Or.inr ⟨i, a, l, rfl, ha, rfl⟩))))
  | append j n =>
    simp only [OidMem.step]
    split
    · exact Or.inl rfl
    · exact Or.inl rfl
    · next a ha => exact Or.inr (Or.inr (Or.inr (Or.inr (Or.inl ⟨j, a, _, rfl, ha, rfl⟩))))
  | appendOther j =>
    simp only [OidMem.step]
    split <;> exact Or.inl rfl
  | extend j k =>
    simp only [OidMem.step]
    split
    · exact Or.inl rfl
    · exact Or.inl rfl
    · next a b ha hb => exact Or.inr (Or.inr (Or.inr (Or.inr (Or.inl ⟨j, a, _, rfl, ha, rfl⟩))))
    · exact Or.inl rfl
  | extendList j i =>
    simp only [OidMem.step]
    split
    · exact Or.inl rfl
    · next a b ha hb => exact Or.inr (Or.inr (Or.inr (Or.inr (Or.inl ⟨j, a, _, rfl, ha, rfl⟩))))
    · exact Or.inl rfl
  | delItem j i =>
    simp only [OidMem.step]
    split
    · exact Or.inl rfl
    · exact Or.inl rfl
    · next a ha =>
      split
      · exact Or.inl rfl
      · exact Or.inr (Or.inr (Or.inr (Or.inr (Or.inl ⟨j, a, _, rfl, ha, rfl⟩))))
  | _ =>
    simp only [OidMem.step]
    split <;> first
      | exact Or.inl rfl
      | exact Or.inr (Or.inr (Or.inl rfl))
      | exact Or.inr (Or.inl ⟨_, rfl⟩)

theorem OidMem.Inv.step {s : OidMem} (h : s.Inv) (op : OidOp) : (s.step op).1.Inv := by
  rcases s.step_cases op with e | ⟨l, e⟩ | e | ⟨l, e⟩ | ⟨j, a, l, _, _, e⟩ | ⟨i, a, l, _, _, e⟩ <;> rw [e]
  · exact h
  · exact h.newObj l
  · exact h.newUnset
  · exact h.newList l
  · exact h.write a l
  · exact h.write a l

theorem OidMem.inv_run (ops : List OidOp) : (OidMem.run ops).Inv := by
  unfold OidMem.run
  have key : ∀ (ops : List OidOp) (s : OidMem), s.Inv → (ops.foldl (fun s op => (s.step op).1) s).Inv := by
    intro ops
    induction ops with
    | nil => intro s h; exact h
    | cons op ops ih => intro s h; exact ih _ (h.step op)
  apply key
  constructor <;> intros <;> simp_all

/-- C38. Whatever happened before, an operation changes the value of no existing ObjectID except the one it is applied
to, and the contents of no list of the caller except one the caller changes itself.  In particular changing an ObjectID
never changes the list it was built from, nor the other way round. -/
theorem C38_isolation (history : List OidOp) (op : OidOp) :
    let before := OidMem.run history
    let after := OidMem.run (history ++ [op])
    (∀ k, k < before.objs.length → op.target ≠ .obj k → after.obj k = before.obj k) ∧
    (∀ i, i < before.lists.length → op.target ≠ .list i → after.list i = before.list i) := by
  intro before after
  have hinv : before.Inv := OidMem.inv_run history
  have hafter : after = (before.step op).1 := by
    simp [after, before, OidMem.run, List.foldl_append]
  rw [hafter]
  clear_value before
  rcases before.step_cases op with e | ⟨l, e⟩ | e | ⟨l, e⟩ | ⟨j, a, l, ht, ha, e⟩ | ⟨i, a, l, ht, ha, e⟩ <;> rw [e]
  · exact ⟨fun _ _ _ => rfl, fun _ _ _ => rfl⟩
  · constructor
    · intro k hk _
      simp only [OidMem.obj, OidMem.newObj, List.getElem?_append_left hk]
      cases hv : before.objs[k]? with
      | none => rfl
      | some o => cases o with
        | none => rfl
        | some a => simp [read_append before.cells l (hinv.bound_obj k a hv)]
    · intro i hi _
      simp only [OidMem.list, OidMem.newObj]
      cases hv : before.lists[i]? with
      | none => rfl
      | some a => simp [read_append before.cells l (hinv.bound_list i a hv)]
  · constructor
    · intro k hk _
      simp only [OidMem.obj, OidMem.newUnset, List.getElem?_append_left hk]
    · intro i hi _; rfl
  · constructor
    · intro k hk _
      simp only [OidMem.obj]
      cases hv : before.objs[k]? with
      | none => rfl
      | some o => cases o with
        | none => rfl
        | some a => simp [read_append before.cells l (hinv.bound_obj k a hv)]
    · intro i hi _
      simp only [OidMem.list, List.getElem?_append_left hi]
      cases hv : before.lists[i]? with
      | none => rfl
      | some a => simp [read_append before.cells l (hinv.bound_list i a hv)]
  · constructor
    · intro k hk hne
      simp only [OidMem.obj, OidMem.write]
      cases hv : before.objs[k]? with
      | none => rfl
      | some o => cases o with
        | none => rfl
        | some b =>
          have : a ≠ b := by
            rintro rfl
            exact hne (by rw [ht, hinv.obj_obj j k a ha hv])
          simp [read_set_ne before.cells l this]
    · intro i hi hne
      simp only [OidMem.list, OidMem.write]
      cases hv : before.lists[i]? with
      | none => rfl
      | some b =>
        have : a ≠ b := by rintro rfl; exact hinv.obj_list j i a ha hv
        simp [read_set_ne before.cells l this]
  · constructor
    · intro k hk hne
      simp only [OidMem.obj, OidMem.write]
      cases hv : before.objs[k]? with
      | none => rfl
      | some o => cases o with
        | none => rfl
        | some b =>
          have : a ≠ b := by rintro rfl; exact hinv.obj_list k i a hv ha
          simp [read_set_ne before.cells l this]
    · intro m hm hne
      simp only [OidMem.list, OidMem.write]
      cases hv : before.lists[m]? with
      | none => rfl
      | some b =>
        have : a ≠ b := by
          rintro rfl
          exact hne (by rw [ht, hinv.list_list i m a ha hv])
        simp [read_set_ne before.cells l this]

/-- C38. What the changing operations do to their own object: the list operations of Python. -/
theorem C38_effects (history : List OidOp) (j : Nat) (v : List Int)
    (hj : (OidMem.run history).obj j = some (some v)) :
    (∀ n, (OidMem.run (history ++ [.append j n])).obj j = some (some (v ++ [n]))) ∧
    (∀ k w, (OidMem.run history).obj k = some (some w) →
      (OidMem.run (history ++ [.extend j k])).obj j = some (some (v ++ w))) ∧
    (∀ i w, (OidMem.run history).list i = some w →
      (OidMem.run (history ++ [.extendList j i])).obj j = some (some (v ++ w))) ∧
    (∀ n : Nat, n < v.length → (OidMem.run (history ++ [.delItem j n])).obj j = some (some (v.eraseIdx n))) ∧
    (∀ n : Nat, v.length ≤ n → (OidMem.run (history ++ [.delItem j n])).obj j = some (some v)) := by
  have hinv := OidMem.inv_run history
  have hrun : ∀ op, OidMem.run (history ++ [op]) = ((OidMem.run history).step op).1 := by
    intro op; simp [OidMem.run, List.foldl_append]
  simp only [hrun]
  clear hrun
  generalize OidMem.run history = s at *
  obtain ⟨a, ha, hv⟩ : ∃ a, s.objs[j]? = some (some a) ∧ s.cells.read a = v := by
    simp only [OidMem.obj] at hj
    cases h1 : s.objs[j]? with
    | none => rw [h1] at hj; cases hj
    | some o =>
      rw [h1] at hj
      cases o with
      | none => cases hj
      | some a => simp at hj; exact ⟨a, rfl, hj⟩
  have hlt := hinv.bound_obj j a ha
  have hw : ∀ l, (s.write a l).obj j = some (some l) := by
    intro l
    simp [OidMem.obj, OidMem.write, ha, read_set_eq s.cells l hlt]
  refine ⟨?_, ?_, ?_, ?_, ?_⟩
  · intro n; simp only [OidMem.step, ha, hw, hv]
  · intro k w hk
    obtain ⟨b, hb, hv'⟩ : ∃ b, s.objs[k]? = some (some b) ∧ s.cells.read b = w := by
      simp only [OidMem.obj] at hk
      cases h1 : s.objs[k]? with
      | none => rw [h1] at hk; cases hk
      | some o =>
        rw [h1] at hk
        cases o with
        | none => cases hk
        | some a => simp at hk; exact ⟨a, rfl, hk⟩
    simp only [OidMem.step, ha, hb, hw, hv, hv']
  · intro i w hi
    obtain ⟨b, hb, hv'⟩ : ∃ b, s.lists[i]? = some b ∧ s.cells.read b = w := by
      simp only [OidMem.list] at hi
      cases h1 : s.lists[i]? with
      | none => rw [h1] at hi; cases hi
      | some b => rw [h1] at hi; simp at hi; exact ⟨b, rfl, hi⟩
    simp only [OidMem.step, ha, hb, hw, hv, hv']
  · intro n hn
    have : pyIndex v.length (n : Int) = some n := by
      unfold pyIndex; rw [if_pos (by omega)]; simp
    simp only [OidMem.step, ha, hv, this, hw]
  · intro n hn
    have : pyIndex v.length (n : Int) = none := by
      unfold pyIndex; rw [if_neg (by omega), if_neg (by omega)]
    simp only [OidMem.step, ha, hv, this]
    simp [OidMem.obj, ha, hv]

/-- C38. A copy starts with the value of its source: from a list, another ObjectID, `copy()`, `toObjectID()`. -/
theorem C38_copies (history : List OidOp) (v : List Int) :
    let s := OidMem.run history
    (∀ i, s.list i = some v → (OidMem.run (history ++ [.fromList i])).obj s.objs.length = some (some v)) ∧
    (∀ j, s.obj j = some (some v) →
      (OidMem.run (history ++ [.fromObj j])).obj s.objs.length = some (some v) ∧
      (OidMem.run (history ++ [.copy j])).obj s.objs.length = some (some v) ∧
      (OidMem.run (history ++ [.toObjectID j])).obj s.objs.length = some (some v) ∧
      ∀ a b : Nat, b ≤ v.length → a ≤ b →
        (OidMem.run (history ++ [.slice j a b])).obj s.objs.length = some (some ((v.take b).drop a))) := by
  intro s
  have hrun : ∀ op, OidMem.run (history ++ [op]) = (s.step op).1 := by
    intro op; simp [s, OidMem.run, List.foldl_append]
  simp only [hrun]
  clear hrun
  clear_value s
  have hnew : ∀ l, (s.newObj l).obj s.objs.length = some (some l) := by
    intro l; simp [OidMem.obj, OidMem.newObj, read_new]
  constructor
  · intro i hi
    simp only [OidMem.list] at hi
    cases h1 : s.lists[i]? with
    | none => rw [h1] at hi; cases hi
    | some b =>
      rw [h1] at hi
      simp at hi
      simp only [OidMem.step, h1, hnew, hi]
  · intro j hj
    obtain ⟨a, ha, hv⟩ : ∃ a, s.objs[j]? = some (some a) ∧ s.cells.read a = v := by
      simp only [OidMem.obj] at hj
      cases h1 : s.objs[j]? with
      | none => rw [h1] at hj; cases hj
      | some o =>
        rw [h1] at hj
        cases o with
        | none => cases hj
        | some a => simp at hj; exact ⟨a, rfl, hj⟩
    refine ⟨?_, ?_, ?_, ?_⟩
    · simp only [OidMem.step, ha, hnew, hv]
    · simp only [OidMem.step, ha, hnew, hv]
    · simp only [OidMem.step, ha, hnew, hv]
    · intro x y hy hx
      have h1 : sliceBound v.length (y : Int) = y := by unfold sliceBound; rw [if_neg (by omega)]; omega
      have h2 : sliceBound v.length (x : Int) = x := by unfold sliceBound; rw [if_neg (by omega)]; omega
      simp only [OidMem.step, ha, hnew, hv, pySlice, h1, h2]

/-- C38. Negative positions count from the end, positions beyond either end are cut off in slices and refused by `del`. -/
theorem C38_positions (history : List OidOp) (j : Nat) (v : List Int)
    (hj : (OidMem.run history).obj j = some (some v)) :
    (∀ n : Nat, 1 ≤ n → n ≤ v.length →
      OidMem.run (history ++ [.delItem j (-n)]) = OidMem.run (history ++ [.delItem j ((v.length - n : Nat) : Int)])) ∧
    (∀ i : Int, i < -v.length ∨ (v.length : Int) ≤ i →
      (OidMem.run history).step (.delItem j i) = (OidMem.run history, .error .indexError)) ∧
    (∀ a b : Int, ∃ x y : Nat, x ≤ v.length ∧ y ≤ v.length ∧
      (∀ n : Nat, n ≤ v.length → (a = n → x = n) ∧ (b = n → y = n) ∧ (1 ≤ n → a = -n → x = v.length - n) ∧
        (1 ≤ n → b = -n → y = v.length - n)) ∧
      ((v.length : Int) < a → x = v.length) ∧ ((v.length : Int) < b → y = v.length) ∧
      (a < -v.length → x = 0) ∧ (b < -v.length → y = 0) ∧
      OidMem.run (history ++ [.slice j a b]) = OidMem.run (history ++ [.slice j x y]) ∧
      (OidMem.run (history ++ [.slice j a b])).obj (OidMem.run history).objs.length = some (some ((v.take y).drop x))) := by
  have hrun : ∀ op, OidMem.run (history ++ [op]) = ((OidMem.run history).step op).1 := by
    intro op; simp [OidMem.run, List.foldl_append]
  simp only [hrun]
  clear hrun
  generalize OidMem.run history = s at *
  obtain ⟨a, ha, hv⟩ : ∃ a, s.objs[j]? = some (some a) ∧ s.cells.read a = v := by
    simp only [OidMem.obj] at hj
    cases h1 : s.objs[j]? with
    | none => rw [h1] at hj; cases hj
    | some o =>
      rw [h1] at hj
      cases o with
      | none => cases hj
      | some a => simp at hj; exact ⟨a, rfl, hj⟩
  have hnew : ∀ l, (s.newObj l).obj s.objs.length = some (some l) := by
    intro l; simp [OidMem.obj, OidMem.newObj, read_new]
  refine ⟨?_, ?_, ?_⟩
  · intro n h1 h2
    have e1 : pyIndex v.length (-n : Int) = some (v.length - n) := by
      unfold pyIndex
      rw [if_neg (by omega), if_pos (by omega)]
      congr 1; omega
    have e2 : pyIndex v.length ((v.length - n : Nat) : Int) = some (v.length - n) := by
      unfold pyIndex
      rw [if_pos (by omega)]
      simp
    simp only [OidMem.step, ha, hv, e1, e2]
  · intro i hi
    have e1 : pyIndex v.length i = none := by
      unfold pyIndex
      rw [if_neg (by omega), if_neg (by omega)]
    simp only [OidMem.step, ha, hv, e1]
  · intro x y
    have e : ∀ i : Int, sliceBound v.length (sliceBound v.length i : Nat) = sliceBound v.length i := by
      intro i; unfold sliceBound; split <;> split <;> omega
    refine ⟨sliceBound v.length x, sliceBound v.length y, ?_, ?_, ?_, ?_, ?_, ?_, ?_, ?_, ?_⟩
    · unfold sliceBound; split <;> omega
    · unfold sliceBound; split <;> omega
    · intro n hn
      refine ⟨?_, ?_, ?_, ?_⟩ <;> · intros; unfold sliceBound; split <;> omega
    · intros; unfold sliceBound; split <;> omega
    · intros; unfold sliceBound; split <;> omega
    · intros; unfold sliceBound; split <;> omega
    · intros; unfold sliceBound; split <;> omega
    · simp only [OidMem.step, ha, hv, pySlice, e]
    · simp only [OidMem.step, ha, hv, hnew, pySlice]

/-- A history with a list, an ObjectID built from it, a copy and changes to all three. -/
example :
    let s := OidMem.run [.newList [1, 3], .fromList 0, .copy 0, .append 0 6, .setList 0 [], .extend 1 0, .delItem 0 (-1)]
    s.list 0 = some [] ∧ s.obj 0 = some (some [1, 3]) ∧ s.obj 1 = some (some [1, 3, 1, 3, 6]) := by
  decide +kernel

/-! ## C39 -/

def SeqOp.target : SeqOp → Target
  | .append k _ => .obj k
  | .setList i _ => .list i
  | _ => .nothing

/-- `Sequence(list i)`: the one constructor that keeps the list it is given. -/
def SeqOp.Shares : SeqOp → Prop
  | .sequence (some _) => True
  | _ => False

/-- No list is held outside the heap, and the five default lists belong to nobody. -/
structure SeqMem.Inv (s : SeqMem) : Prop where
  bound_obj : ∀ (k : Nat) o, s.objs[k]? = some o → 5 ≤ o.addr ∧ o.addr < s.cells.length
  bound_list : ∀ (i a : Nat), s.lists[i]? = some a → 5 ≤ a ∧ a < s.cells.length
  five : 5 ≤ s.cells.length
  default : ∀ a, a < 5 → s.cells.read a = []

/-- Object `k` is the only holder of its list. -/
structure SeqMem.Owns (s : SeqMem) (k : Nat) (o : SeqObj) : Prop where
  here : s.objs[k]? = some o
  objs : ∀ (m : Nat) p, s.objs[m]? = some p → p.addr = o.addr → m = k
  lists : ∀ (i : Nat), s.lists[i]? ≠ some o.addr

theorem SeqMem.Inv.newObj {s : SeqMem} (h : s.Inv) (c : SeqCls) (t : Option Cls) (l : List Elem) :
    (s.newObj c t l).Inv := by
  refine ⟨?_, ?_, ?_, ?_⟩
  · intro k o hk
    simp only [SeqMem.newObj, List.length_append, List.length_cons, List.length_nil] at *
    rcases getElem?_snoc hk with hk | ⟨_, rfl⟩
    · have := h.bound_obj _ _ hk; omega
    · have := h.five; simp only; omega
  · intro i a hi
    have := h.bound_list i a hi
    simp only [SeqMem.newObj, List.length_append]; omega
  · have := h.five; simp only [SeqMem.newObj, List.length_append]; omega
  · intro a ha
    have := h.five
    simp only [SeqMem.newObj]
    rw [read_append _ _ (by omega)]
    exact h.default a ha

theorem SeqMem.Owns.newObj {s : SeqMem} (hi : s.Inv) {k : Nat} {o : SeqObj} (h : s.Owns k o) (c : SeqCls)
    (t : Option Cls) (l : List Elem) : (s.newObj c t l).Owns k o := by
  have hb := hi.bound_obj k o h.here
  refine ⟨?_, ?_, h.lists⟩
  · have : k < s.objs.length := (List.getElem?_eq_some_iff.mp h.here).1
    simp only [SeqMem.newObj, List.getElem?_append_left this, h.here]
  · intro m p hm hp
    rcases getElem?_snoc hm with hm | ⟨_, rfl⟩
    · exact h.objs m p hm hp
    · simp only at hp; omega

/-- The object created by `newObj` owns its list. -/
theorem SeqMem.newObj_owns {s : SeqMem} (hi : s.Inv) (c : SeqCls) (t : Option Cls) (l : List Elem) :
    (s.newObj c t l).Owns s.objs.length ⟨c, t, s.cells.length⟩ ∧
    (s.newObj c t l).elems s.objs.length = some l := by
  refine ⟨⟨?_, ?_, ?_⟩, ?_⟩
  · simp [SeqMem.newObj]
  · intro m p hm hp
    rcases getElem?_snoc hm with hm | ⟨rfl, rfl⟩
    · have := hi.bound_obj _ _ hm; simp only at hp; omega
    · rfl
  · intro i h
    have := hi.bound_list i _ h
    simp only at this; omega
  · simp [SeqMem.elems, SeqMem.newObj, read_new]

theorem SeqMem.newSequenceOf_cases (s : SeqMem) (c : SeqCls) (t : Cls) (src : Option Nat) :
    ((s.newSequenceOf c t src).1 = s ∧ (s.newSequenceOf c t src).2 = .error .valueError) ∨
    ∃ l, (s.newSequenceOf c t src) = (s.newObj c (some t) l, .ok ()) ∧ (∀ e ∈ l, s.isInstance e t = true) ∧
      (l = match src with | none => [] | some a => s.cells.read a) := by
  unfold SeqMem.newSequenceOf
  have key : ∀ items : List Elem,
      ((if items.all (s.isInstance · t) then (s.newObj c (some t) items, Except.ok ())
        else (s, Except.error Exc.valueError) : SeqMem × Except Exc Unit) = (s, .error .valueError)) ∨
      ((if items.all (s.isInstance · t) then (s.newObj c (some t) items, Except.ok ())
        else (s, Except.error Exc.valueError) : SeqMem × Except Exc Unit) = (s.newObj c (some t) items, .ok ()) ∧
        ∀ e ∈ items, s.isInstance e t = true) := by
    intro items
    by_cases h : (items.all fun x => s.isInstance x t) = true
    · rw [if_pos h]; exact Or.inr ⟨rfl, by simpa using h⟩
    · rw [if_neg h]; exact Or.inl rfl
  cases src with
  | none =>
    rcases key [] with h | ⟨h, h'⟩
    · exact Or.inl ⟨congrArg Prod.fst h, congrArg Prod.snd h⟩
    · exact Or.inr ⟨_, h, h', rfl⟩
  | some a =>
    rcases key (s.cells.read a) with h | ⟨h, h'⟩
    · exact Or.inl ⟨congrArg Prod.fst h, congrArg Prod.snd h⟩
    · exact Or.inr ⟨_, h, h', rfl⟩

theorem SeqMem.newVarBindList_cases (s : SeqMem) (v2 : Bool) (src : Nat) :
    ((s.newVarBindList v2 src).1 = s ∧ (s.newVarBindList v2 src).2 = .error .valueError) ∨
    ∃ l, (s.newVarBindList v2 src) =
      (s.newObj (if v2 then .varBindList2 else .varBindList) (some (.seq .varBind)) l, .ok ()) ∧
      (∀ e ∈ l, s.isInstance e (.seq .varBind) = true) ∧ l = s.cells.read src := by
  unfold SeqMem.newVarBindList
  split
  · exact Or.inl ⟨rfl, rfl⟩
  · exact s.newSequenceOf_cases _ _ _

/-- What a step can do to the memory. -/
inductive SeqMem.Change (s : SeqMem) (op : SeqOp) : SeqMem → Prop
  | same : Change s op s
  | list (l : List Elem) : Change s op { s with cells := s.cells ++ [l], lists := s.lists ++ [s.cells.length] }
  | obj (c : SeqCls) (l : List Elem) : ¬ op.Shares → Change s op (s.newObj c none l)
  | seqOf (c : SeqCls) (t : Cls) (l : List Elem) : ¬ op.Shares → (∀ e ∈ l, s.isInstance e t = true) →
      Change s op (s.newObj c (some t) l)
  | pdu (c : SeqCls) (v2 : Bool) (l f : List Elem) : ¬ op.Shares → (∀ e ∈ l, s.isInstance e (.seq .varBind) = true) →
      Change s op ((s.newObj (if v2 then .varBindList2 else .varBindList) (some (.seq .varBind)) l).newObj c none f)
  | share (i a : Nat) : op.Shares → s.lists[i]? = some a →
      Change s op { s with objs := s.objs ++ [⟨.sequence, none, a⟩] }
  | writeObj (k : Nat) (o : SeqObj) (e : Elem) : op.target = .obj k → s.objs[k]? = some o →
      (∀ t, o.comp = some t → s.isInstance e t = true) → Change s op (s.write o.addr (s.cells.read o.addr ++ [e]))
  | writeList (i a : Nat) (l : List Elem) : op.target = .list i → s.lists[i]? = some a → Change s op (s.write a l)

theorem SeqMem.step_change (s : SeqMem) (op : SeqOp) : s.Change op (s.step op).1 := by
  cases op with
  | newList l => exact .list l
  | setList i l =>
    simp only [SeqMem.step]
    split
    · exact .same
    · next a ha => exact .writeList i a l rfl ha
  | sequence arg =>
    cases arg with
    | none => exact .obj .sequence [] (fun h => h)
    | some i =>
      simp only [SeqMem.step]
      split
      · exact .same
      · next a ha => exact .share i a trivial ha
  | sequenceOf t arg =>
    cases arg with
    | none =>
      simp only [SeqMem.step]
      rcases s.newSequenceOf_cases .sequenceOf t none with ⟨e, _⟩ | ⟨l, e, h, _⟩
      · rw [e]; exact .same
      · rw [e]; exact .seqOf _ _ _ (fun h => h) h
    | some i =>
      simp only [SeqMem.step]
      split
      · exact .same
      · next a ha =>
        rcases s.newSequenceOf_cases .sequenceOf t (some a) with ⟨e, _⟩ | ⟨l, e, h, _⟩
        · rw [e]; exact .same
        · rw [e]; exact .seqOf _ _ _ (fun h => h) h
  | varBindList v2 arg =>
    simp only [SeqMem.step]
    split
    · exact .same
    · next a ha =>
      rcases s.newVarBindList_cases v2 a with ⟨e, _⟩ | ⟨l, e, h, _⟩
      · rw [e]; exact .same
      · rw [e]; exact .seqOf _ _ _ (fun h => h) h
  | pdu c a b d arg =>
    simp only [SeqMem.step]
    split
    · exact .same
    · next src hs =>
      split
      · split
        · exact .same
        · next s' hn =>
          rcases s.newVarBindList_cases ((Cls.seq c).isSubclass (.seq .pdu2) || (Cls.seq c).isSubclass (.seq .bulkPDU))
            src with ⟨_, e⟩ | ⟨l, e, h, _⟩
          · rw [hn] at e; cases e
          · rw [hn] at e; cases e
            exact .pdu _ _ _ _ (fun h => h) h
      · exact .same
      · exact .same
  | append k e =>
    simp only [SeqMem.step]
    split
    · exact .same
    · next o ho =>
      split
      · next hc => exact .writeObj k o e rfl ho (fun t ht => by rw [hc] at ht; cases ht)
      · next t hc =>
        split
        · next hi => exact .writeObj k o e rfl ho (fun t' ht => by rw [hc] at ht; cases ht; exact hi)
        · exact .same

theorem SeqMem.Inv.write {s : SeqMem} (h : s.Inv) {a : Nat} (l : List Elem) (ha : 5 ≤ a) : (s.write a l).Inv := by
  refine ⟨?_, ?_, ?_, ?_⟩
  · intro k o hk; simpa [SeqMem.write] using h.bound_obj k o hk
  · intro i b hi; simpa [SeqMem.write] using h.bound_list i b hi
  · simpa [SeqMem.write] using h.five
  · intro b hb
    simp only [SeqMem.write]
    rw [read_set_ne _ _ (by omega)]
    exact h.default b hb

theorem SeqMem.Inv.change {s s' : SeqMem} {op : SeqOp} (h : s.Inv) (hc : s.Change op s') : s'.Inv := by
  cases hc with
  | same => exact h
  | list l =>
    have := h.five
    refine ⟨?_, ?_, ?_, ?_⟩
    · intro k o hk
      have := h.bound_obj k o hk
      simp only [List.length_append]; omega
    · intro i a hi
      simp only [List.length_append, List.length_cons, List.length_nil] at *
      rcases getElem?_snoc hi with hi | ⟨_, rfl⟩
      · have := h.bound_list i a hi; omega
      · omega
    · simp only [List.length_append]; omega
    · intro a ha
      simp only
      rw [read_append _ _ (by omega)]
      exact h.default a ha
  | obj c l => exact h.newObj c none l
  | seqOf c t l => exact h.newObj c (some t) l
  | pdu c v2 l f => exact (h.newObj _ _ _).newObj _ _ _
  | share i a _ ha =>
    refine ⟨?_, h.bound_list, h.five, h.default⟩
    intro k o hk
    rcases getElem?_snoc hk with hk | ⟨_, rfl⟩
    · exact h.bound_obj k o hk
    · exact h.bound_list i a ha
  | writeObj k o e _ ho => exact h.write _ (h.bound_obj k o ho).1
  | writeList i a l _ ha => exact h.write _ (h.bound_list i a ha).1

theorem SeqMem.inv_runFrom {s : SeqMem} (h : s.Inv) (ops : List SeqOp) : (s.runFrom ops).Inv := by
  unfold SeqMem.runFrom
  induction ops generalizing s with
  | nil => exact h
  | cons op ops ih => exact ih (h.change (s.step_change op))

theorem SeqMem.inv_run (ops : List SeqOp) : (SeqMem.run ops).Inv := by
  apply SeqMem.inv_runFrom
  refine ⟨by simp, by simp, by simp, ?_⟩
  intro a ha
  have : a = 0 ∨ a = 1 ∨ a = 2 ∨ a = 3 ∨ a = 4 := by omega
  rcases this with rfl | rfl | rfl | rfl | rfl <;> rfl

/-- Ownership lasts, and a step not aimed at an owner leaves its elements alone. -/
theorem SeqMem.Owns.change {s s' : SeqMem} {op : SeqOp} (hi : s.Inv) {k : Nat} {o : SeqObj} (h : s.Owns k o)
    (hc : s.Change op s') : s'.Owns k o ∧ (op.target ≠ .obj k → s'.elems k = s.elems k) := by
  have hb := hi.bound_obj k o h.here
  have hk : k < s.objs.length := (List.getElem?_eq_some_iff.mp h.here).1
  have hnew : ∀ c t l, (s.newObj c t l).elems k = s.elems k := by
    intro c t l
    simp only [SeqMem.elems, SeqMem.newObj, List.getElem?_append_left hk, h.here, Option.map_some]
    rw [read_append _ _ hb.2]
  cases hc with
  | same => exact ⟨h, fun _ => rfl⟩
  | list l =>
    refine ⟨⟨h.here, h.objs, ?_⟩, fun _ => ?_⟩
    · intro i hi'
      rcases getElem?_snoc hi' with hi' | ⟨_, e⟩
      · exact h.lists i hi'
      · omega
    · simp only [SeqMem.elems, h.here, Option.map_some]
      rw [read_append _ _ hb.2]
  | obj c l => exact ⟨h.newObj hi c none l, fun _ => hnew _ _ _⟩
  | seqOf c t l => exact ⟨h.newObj hi c (some t) l, fun _ => hnew _ _ _⟩
  | pdu c v2 l f =>
    refine ⟨(h.newObj hi _ _ l).newObj (hi.newObj _ _ l) _ _ f, fun _ => ?_⟩
    have h2 := h.newObj hi (if v2 then .varBindList2 else .varBindList) (some (.seq .varBind)) l
    have hb2 := (hi.newObj (if v2 then .varBindList2 else .varBindList) (some (.seq .varBind)) l).bound_obj k o h2.here
    have hk2 : k < (s.newObj (if v2 then .varBindList2 else .varBindList) (some (.seq .varBind)) l).objs.length :=
      (List.getElem?_eq_some_iff.mp h2.here).1
    rw [← hnew (if v2 then .varBindList2 else .varBindList) (some (.seq .varBind)) l]
    generalize s.newObj (if v2 then .varBindList2 else .varBindList) (some (.seq .varBind)) l = s2 at *
    simp only [SeqMem.elems, SeqMem.newObj, List.getElem?_append_left hk2, h2.here, Option.map_some]
    rw [read_append _ _ hb2.2]
  | share i a _ ha =>
    refine ⟨⟨?_, ?_, h.lists⟩, fun _ => ?_⟩
    · simp only [List.getElem?_append_left hk, h.here]
    · intro m p hm hp
      rcases getElem?_snoc hm with hm | ⟨_, rfl⟩
      · exact h.objs m p hm hp
      · simp only at hp; subst hp; exact absurd ha (h.lists i)
    · simp only [SeqMem.elems, List.getElem?_append_left hk]
  | writeObj m p e ht hp =>
    refine ⟨⟨h.here, h.objs, h.lists⟩, fun hne => ?_⟩
    simp only [SeqMem.elems, SeqMem.write, h.here, Option.map_some]
    rw [read_set_ne]
    intro heq
    exact hne (by rw [ht, h.objs m p hp heq])
  | writeList i a l ht ha =>
    refine ⟨⟨h.here, h.objs, h.lists⟩, fun hne => ?_⟩
    simp only [SeqMem.elems, SeqMem.write, h.here, Option.map_some]
    rw [read_set_ne]
    intro heq
    subst heq
    exact h.lists i ha

theorem SeqMem.Owns.runFrom {s : SeqMem} (hi : s.Inv) {k : Nat} {o : SeqObj} (h : s.Owns k o) (ops : List SeqOp) :
    (s.runFrom ops).Owns k o ∧ ((∀ op ∈ ops, op.target ≠ .obj k) → (s.runFrom ops).elems k = s.elems k) := by
  unfold SeqMem.runFrom
  induction ops generalizing s with
  | nil => exact ⟨h, fun _ => rfl⟩
  | cons op ops ih =>
    have hc := h.change hi (s.step_change op)
    have := ih (hi.change (s.step_change op)) hc.1
    refine ⟨this.1, fun ht => ?_⟩
    rw [List.foldl_cons, this.2 (fun o ho => ht o (by simp [ho])), hc.2 (ht op (by simp))]

theorem SeqMem.run_append (h1 h2 : List SeqOp) : SeqMem.run (h1 ++ h2) = (SeqMem.run h1).runFrom h2 := by
  simp [SeqMem.run, SeqMem.runFrom, List.foldl_append]

/-- Every object an operation other than `Sequence(list)` creates owns its list. -/
theorem SeqMem.created_owns {s : SeqMem} (hi : s.Inv) (op : SeqOp) (hs : ¬ op.Shares) (k : Nat)
    (h1 : s.objs.length ≤ k) (h2 : k < (s.step op).1.objs.length) : ∃ o, (s.step op).1.Owns k o := by
  have hc := s.step_change op
  generalize (s.step op).1 = s' at *
  cases hc with
  | same => omega
  | list l => simp only at h2; omega
  | obj c l =>
    have : k = s.objs.length := by simp [SeqMem.newObj] at h2; omega
    exact ⟨_, this ▸ (SeqMem.newObj_owns hi c none l).1⟩
  | seqOf c t l =>
    have : k = s.objs.length := by simp [SeqMem.newObj] at h2; omega
    exact ⟨_, this ▸ (SeqMem.newObj_owns hi c (some t) l).1⟩
  | pdu c v2 l f =>
    have : k = s.objs.length ∨ k = s.objs.length + 1 := by simp [SeqMem.newObj] at h2; omega
    rcases this with rfl | rfl
    · exact ⟨_, ((SeqMem.newObj_owns hi _ _ l).1).newObj (hi.newObj _ _ l) c none f⟩
    · have := (SeqMem.newObj_owns (hi.newObj (if v2 then .varBindList2 else .varBindList) (some (.seq .varBind)) l) c none f).1
      have e : (s.newObj (if v2 then .varBindList2 else .varBindList) (some (.seq .varBind)) l).objs.length =
          s.objs.length + 1 := by simp [SeqMem.newObj]
      rw [e] at this
      exact ⟨_, this⟩
  | share i a hsh => exact absurd hsh hs
  | writeObj m p e ht hp => simp only [SeqMem.write] at h2; omega
  | writeList i a l ht ha => simp only [SeqMem.write] at h2; omega

/-- C39. Isolation.  Take any history, any construction other than `Sequence(list)` (with or without arguments), and any
further history that does not append to the object `k` so created: `k` still has exactly the elements it was created
with, whatever was appended to objects built with the same default arguments or done to the lists passed in. -/
theorem C39_isolation (history : List SeqOp) (op : SeqOp) (later : List SeqOp) (hs : ¬ op.Shares) (k : Nat)
    (h1 : (SeqMem.run history).objs.length ≤ k) (h2 : k < (SeqMem.run (history ++ [op])).objs.length)
    (hl : ∀ o ∈ later, o.target ≠ .obj k) :
    (SeqMem.run (history ++ [op] ++ later)).elems k = (SeqMem.run (history ++ [op])).elems k := by
  rw [SeqMem.run_append (history ++ [op]) later]
  have hi := SeqMem.inv_run history
  have e : SeqMem.run (history ++ [op]) = ((SeqMem.run history).step op).1 := by
    rw [SeqMem.run_append]; rfl
  have hi2 := SeqMem.inv_run (history ++ [op])
  rw [e] at h2 hi2 ⊢
  obtain ⟨o, ho⟩ := SeqMem.created_owns hi op hs k h1 h2
  exact (ho.runFrom hi2 later).2 hl

/-- C39. Whatever happened before, variable-binding lists and PDUs built with default arguments start with no variable
bindings. -/
theorem C39_defaults_start_empty (history : List SeqOp) :
    let s := SeqMem.run history
    (∀ v2, ((s.step (.varBindList v2 none)).2 = .ok ()) ∧
      (s.step (.varBindList v2 none)).1.elems s.objs.length = some []) ∧
    (∀ c a b d, (s.step (.pdu c a b d none)).2 = .ok () →
      (s.step (.pdu c a b d none)).1.elems s.objs.length = some [] ∧
      ∃ x y z, (s.step (.pdu c a b d none)).1.elems (s.objs.length + 1) =
        some [.val x, .val y, .val z, .ref s.objs.length]) := by
  intro s
  have hi : s.Inv := SeqMem.inv_run history
  clear_value s
  have hvbl : ∀ v2 a, a < 5 → s.newVarBindList v2 a =
      (s.newObj (if v2 then .varBindList2 else .varBindList) (some (.seq .varBind)) [], .ok ()) := by
    intro v2 a ha
    simp [SeqMem.newVarBindList, SeqMem.newSequenceOf, hi.default a ha]
  constructor
  · intro v2
    have hd : (if v2 = true then defaultVbl2 else defaultVbl1) < 5 := by cases v2 <;> decide
    simp only [SeqMem.step, SeqMem.argAddr, hvbl v2 _ hd, true_and]
    exact (SeqMem.newObj_owns hi _ _ _).2
  · intro c a b d hok
    have hd : (if (Cls.seq c).isSubclass (.seq .pdu2) = true then defaultPdu2
        else if (Cls.seq c).isSubclass (.seq .bulkPDU) = true then defaultBulk else defaultPdu1) < 5 := by
      split
      · decide
      · split <;> decide
    simp only [SeqMem.step, SeqMem.argAddr, hvbl _ _ hd] at hok ⊢
    split at hok
    · next x y z _ _ =>
      simp only
      refine ⟨?_, x, y, z, ?_⟩
      · have h1 := SeqMem.newObj_owns hi (if ((Cls.seq c).isSubclass (.seq .pdu2) || (Cls.seq c).isSubclass (.seq .bulkPDU)) = true
          then .varBindList2 else .varBindList) (some (.seq .varBind)) []
        have hi2 := hi.newObj (if ((Cls.seq c).isSubclass (.seq .pdu2) || (Cls.seq c).isSubclass (.seq .bulkPDU)) = true
          then .varBindList2 else .varBindList) (some (.seq .varBind)) []
        have hb := hi2.bound_obj _ _ h1.1.here
        have hk := (List.getElem?_eq_some_iff.mp h1.1.here).1
        rw [← h1.2]
        generalize s.newObj _ (some (.seq .varBind)) [] = s2 at *
        simp only [SeqMem.elems, SeqMem.newObj, List.getElem?_append_left hk, h1.1.here, Option.map_some]
        rw [read_append _ _ hb.2]
      · have hi2 := hi.newObj (if ((Cls.seq c).isSubclass (.seq .pdu2) || (Cls.seq c).isSubclass (.seq .bulkPDU)) = true
          then .varBindList2 else .varBindList) (some (.seq .varBind)) []
        have hlen : (s.newObj (if ((Cls.seq c).isSubclass (.seq .pdu2) || (Cls.seq c).isSubclass (.seq .bulkPDU)) = true
          then .varBindList2 else .varBindList) (some (.seq .varBind)) []).objs.length = s.objs.length + 1 := by
          simp [SeqMem.newObj]
        rw [← hlen]
        exact (SeqMem.newObj_owns hi2 _ _ _).2
    · cases hok
    · cases hok

/-- **C39**: a list built from the caller's list succeeds exactly if every element is a variable binding and - for the list of
rfc1905 - there are at most 2147483647 of them; it then holds what the caller's list holds. -/
theorem C39_accepted (history : List SeqOp) (i : Nat) (l : List Elem) (hl : (SeqMem.run history).list i = some l) (v2 : Bool) :
    let s := SeqMem.run history
    let r := s.step (.varBindList v2 (some i))
    ((∀ e ∈ l, s.isInstance e (.seq .varBind) = true) ∧ (v2 = true → l.length ≤ 2147483647) →
      r.2 = .ok () ∧ r.1.elems s.objs.length = some l) ∧
    (¬ ((∀ e ∈ l, s.isInstance e (.seq .varBind) = true) ∧ (v2 = true → l.length ≤ 2147483647)) →
      r = (s, .error .valueError)) := by
  intro s
  obtain ⟨a, ha, hr⟩ : ∃ a, s.lists[i]? = some a ∧ s.cells.read a = l := by
    have h := hl
    unfold SeqMem.list at h
    cases hx : (SeqMem.run history).lists[i]? with
    | none => rw [hx] at h; cases h
    | some a => rw [hx] at h; exact ⟨a, rfl, Option.some.inj h⟩
  have hs : s.step (.varBindList v2 (some i)) = s.newVarBindList v2 a := by
    simp only [SeqMem.step, SeqMem.argAddr, ha]
  rw [hs]
  unfold SeqMem.newVarBindList
  rw [hr]
  by_cases hlen : v2 = true ∧ l.length > 2147483647
  · rw [if_pos (by simpa using hlen)]
    refine ⟨fun h => ?_, fun _ => rfl⟩
    have := h.2 hlen.1
    omega
  · rw [if_neg (by simpa using hlen)]
    unfold SeqMem.newSequenceOf
    simp only [hr]
    have hlen' : v2 = true → l.length ≤ 2147483647 := fun h => by
      by_contra hc
      exact hlen ⟨h, by omega⟩
    by_cases hall : l.all (s.isInstance · (.seq .varBind)) = true
    · rw [if_pos hall]
      refine ⟨fun _ => ⟨rfl, ?_⟩, fun h => absurd ⟨by simpa using hall, hlen'⟩ h⟩
      simp [SeqMem.elems, SeqMem.newObj, Cells.read]
    · rw [if_neg hall]
      exact ⟨fun h => absurd (by simpa using h.1) hall, fun _ => rfl⟩

/-- C39. The counterpart: a plain `Sequence` built from a list *is* that list.  Appending to the object appends to the
caller's list, and changing the list changes the object. -/
theorem C39_sequence_shares (history : List SeqOp) (i : Nat) (l : List Elem)
    (hl : (SeqMem.run history).list i = some l) :
    let k := (SeqMem.run history).objs.length
    let built := history ++ [.sequence (some i)]
    (SeqMem.run built).elems k = some l ∧
    (∀ e, (SeqMem.run (built ++ [.append k e])).list i = some (l ++ [e])) ∧
    (∀ l', (SeqMem.run (built ++ [.setList i l'])).elems k = some l') := by
  intro k built
  have hi := SeqMem.inv_run history
  obtain ⟨a, ha, hv⟩ : ∃ a, (SeqMem.run history).lists[i]? = some a ∧ (SeqMem.run history).cells.read a = l := by
    simp only [SeqMem.list] at hl
    cases h1 : (SeqMem.run history).lists[i]? with
    | none => rw [h1] at hl; cases hl
    | some b => rw [h1] at hl; simp at hl; exact ⟨b, rfl, hl⟩
  have hb := hi.bound_list i a ha
  have e : SeqMem.run built = { (SeqMem.run history) with
      objs := (SeqMem.run history).objs ++ [⟨.sequence, none, a⟩] } := by
    show SeqMem.run (history ++ _) = _
    rw [SeqMem.run_append]
    show ((SeqMem.run history).step (.sequence (some i))).1 = _
    simp only [SeqMem.step, ha]
  refine ⟨?_, ?_, ?_⟩
  · rw [e]; simp [SeqMem.elems, k, hv]
  · intro x
    rw [SeqMem.run_append, e]
    simp [SeqMem.runFrom, SeqMem.step, k, SeqMem.list, SeqMem.write, ha, hv, read_set_eq _ _ hb.2]
  · intro l'
    rw [SeqMem.run_append, e]
    simp [SeqMem.runFrom, SeqMem.step, k, SeqMem.elems, SeqMem.write, ha, read_set_eq _ _ hb.2]

/-- Two default-built lists: appending to the first leaves the second, and later ones, empty. -/
example : let vb : Elem := .val (.seq .varBind [.none, .none])
    let s := SeqMem.run [.varBindList false none, .append 0 vb, .append 0 vb, .varBindList false none,
      .pdu .get 1 0 0 none, .append 2 vb]
    (s.elems 0).map List.length = some 2 ∧ (s.elems 1).map List.length = some 0 ∧
    (s.elems 2).map List.length = some 1 ∧ (s.elems 3).map List.length = some 4 := by decide +kernel

example : let vb : Elem := .val (.seq .varBind [.none, .none])
    let s := SeqMem.run [.newList [vb], .newList [vb, .val (.integer .integer 3)]]
    (s.list 0).map List.length = some 1 ∧ ((s.step (.varBindList true (some 0))).1.elems 0).map List.length = some 1 ∧
    (s.step (.varBindList true (some 1))).1.objs.length = 0 := by decide +kernel

/-! ## C40 -/

/-- Every element of every SequenceOf is an instance of its component type, and each of them owns its list. -/
def SeqMem.Typed (s : SeqMem) : Prop :=
  ∀ (k : Nat) o t, s.objs[k]? = some o → o.comp = some t →
    s.Owns k o ∧ ∀ e ∈ s.cells.read o.addr, s.isInstance e t = true

theorem SeqMem.isInstance_mono {s s' : SeqMem} (h : ∀ (k : Nat) o, s.objs[k]? = some o → s'.objs[k]? = some o) (e : Elem)
    (t : Cls) (hi : s.isInstance e t = true) : s'.isInstance e t = true := by
  cases e with
  | val v => exact hi
  | ref k =>
    simp only [SeqMem.isInstance] at hi ⊢
    cases ho : s.objs[k]? with
    | none => rw [ho] at hi; cases hi
    | some o => rw [ho] at hi; rw [h k o ho]; exact hi

theorem SeqMem.Typed.newObj {s : SeqMem} (hi : s.Inv) (h : s.Typed) (c : SeqCls) (t : Option Cls) (l : List Elem)
    (hl : ∀ u, t = some u → ∀ e ∈ l, s.isInstance e u = true) : (s.newObj c t l).Typed := by
  have hmono : ∀ (k : Nat) o, s.objs[k]? = some o → (s.newObj c t l).objs[k]? = some o := by
    intro k o hk
    simp only [SeqMem.newObj, List.getElem?_append_left (List.getElem?_eq_some_iff.mp hk).1, hk]
  intro k o u hk hu
  rcases getElem?_snoc hk with hk | ⟨rfl, rfl⟩
  · obtain ⟨h1, h2⟩ := h k o u hk hu
    refine ⟨h1.newObj hi c t l, ?_⟩
    simp only [SeqMem.newObj]
    rw [read_append _ _ (hi.bound_obj k o hk).2]
    exact fun e he => SeqMem.isInstance_mono hmono e u (h2 e he)
  · refine ⟨(SeqMem.newObj_owns hi c t l).1, ?_⟩
    simp only [SeqMem.newObj, read_new]
    exact fun e he => SeqMem.isInstance_mono hmono e u (hl u hu e he)

theorem SeqMem.Typed.change {s s' : SeqMem} {op : SeqOp} (hi : s.Inv) (h : s.Typed) (hc : s.Change op s') :
    s'.Typed := by
  have hown : ∀ (k : Nat) o t, s.objs[k]? = some o → o.comp = some t → s'.Owns k o :=
    fun k o t hk ht => ((h k o t hk ht).1.change hi hc).1
  cases hc with
  | same => exact h
  | list l =>
    intro k o t hk ht
    refine ⟨hown k o t hk ht, ?_⟩
    simp only
    rw [read_append _ _ (hi.bound_obj k o hk).2]
    exact fun e he => SeqMem.isInstance_mono (s := s) (fun _ _ h => h) e t ((h k o t hk ht).2 e he)
  | obj c l => exact h.newObj hi c none l (fun u hu => by cases hu)
  | seqOf c t l _ hl => exact h.newObj hi c (some t) l (fun u hu => by cases hu; exact hl)
  | pdu c v2 l f _ hl =>
    exact (h.newObj hi _ _ l (fun u hu => by cases hu; exact hl)).newObj (hi.newObj _ _ l) c none f
      (fun u hu => by cases hu)
  | share i a _ ha =>
    intro k o t hk ht
    rcases getElem?_snoc hk with hk' | ⟨_, rfl⟩
    · refine ⟨hown k o t hk' ht, fun e he => ?_⟩
      refine SeqMem.isInstance_mono (s := s) (fun m p hm => ?_) e t ((h k o t hk' ht).2 e he)
      simp only [List.getElem?_append_left (List.getElem?_eq_some_iff.mp hm).1, hm]
    · cases ht
  | writeObj m p e _ hp hcomp =>
    intro k o t hk ht
    refine ⟨hown k o t hk ht, ?_⟩
    simp only [SeqMem.write]
    by_cases heq : p.addr = o.addr
    · have hm : m = k := (h k o t hk ht).1.objs m p hp heq
      subst hm
      have hpo : p = o := by
        have hk' : s.objs[m]? = some o := hk
        rw [hp] at hk'; cases hk'; rfl
      subst hpo
      rw [read_set_eq _ _ (hi.bound_obj m p hp).2]
      intro x hx
      rw [List.mem_append, List.mem_singleton] at hx
      rcases hx with hx | rfl
      · exact SeqMem.isInstance_mono (s := s) (fun _ _ h => h) x t ((h m p t hk ht).2 x hx)
      · exact SeqMem.isInstance_mono (s := s) (fun _ _ h => h) x t (hcomp t ht)
    · rw [read_set_ne _ _ heq]
      exact fun x hx => SeqMem.isInstance_mono (s := s) (fun _ _ h => h) x t ((h k o t hk ht).2 x hx)
  | writeList i a l _ ha =>
    intro k o t hk ht
    refine ⟨hown k o t hk ht, ?_⟩
    simp only [SeqMem.write]
    rw [read_set_ne]
    · exact fun x hx => SeqMem.isInstance_mono (s := s) (fun _ _ h => h) x t ((h k o t hk ht).2 x hx)
    · rintro rfl
      exact (h k o t hk ht).1.lists i ha

/-- C40. After any history of constructions, appends and changes of the caller's own lists, every element of a
SequenceOf (in particular of a VarBindList, also inside a PDU) is an instance of its component type. -/
theorem C40_component_type (history : List SeqOp) (k : Nat) (o : SeqObj) (t : Cls) (l : List Elem)
    (hk : (SeqMem.run history).objs[k]? = some o) (ht : o.comp = some t)
    (hl : (SeqMem.run history).elems k = some l) : ∀ e ∈ l, (SeqMem.run history).isInstance e t = true := by
  have htyped : (SeqMem.run history).Typed := by
    unfold SeqMem.run SeqMem.runFrom
    have key : ∀ (ops : List SeqOp) (s : SeqMem), s.Inv → s.Typed →
        (ops.foldl (fun s op => (s.step op).1) s).Typed := by
      intro ops
      induction ops with
      | nil => intro s _ h; exact h
      | cons op ops ih => intro s hi h; exact ih _ (hi.change (s.step_change op)) (h.change hi (s.step_change op))
    apply key
    · exact SeqMem.inv_run []
    · intro k o t hk; simp at hk
  simp only [SeqMem.elems, hk, Option.map_some, Option.some.injEq] at hl
  rw [← hl]
  exact (htyped k o t hk ht).2

/-- C40. Appending something else raises ValueError and leaves the list as it was; appending an instance succeeds and
adds it at the end. -/
theorem C40_append (history : List SeqOp) (k : Nat) (o : SeqObj) (t : Cls) (l : List Elem) (e : Elem)
    (hk : (SeqMem.run history).objs[k]? = some o) (ht : o.comp = some t)
    (hl : (SeqMem.run history).elems k = some l) :
    ((SeqMem.run history).isInstance e t = false →
      ((SeqMem.run history).step (.append k e)).2 = .error .valueError ∧
      ((SeqMem.run history).step (.append k e)).1.elems k = some l) ∧
    ((SeqMem.run history).isInstance e t = true →
      ((SeqMem.run history).step (.append k e)).2 = .ok () ∧
      ((SeqMem.run history).step (.append k e)).1.elems k = some (l ++ [e])) := by
  have hb := (SeqMem.inv_run history).bound_obj k o hk
  have hl' := hl
  simp only [SeqMem.elems, hk, Option.map_some, Option.some.injEq] at hl'
  constructor
  · intro h
    simp only [SeqMem.step, hk, ht, h, Bool.false_eq_true, if_false, hl, and_self]
  · intro h
    simp only [SeqMem.step, hk, ht, h, if_true, true_and]
    simp [SeqMem.elems, SeqMem.write, hk, read_set_eq _ _ hb.2, hl']

/-- C40. Construction from a list with an element of another type raises ValueError and creates nothing. -/
theorem C40_construct (history : List SeqOp) (t : Cls) (i : Nat) (l : List Elem)
    (hl : (SeqMem.run history).list i = some l) :
    (((SeqMem.run history).step (.sequenceOf t (some i))).2 = .ok () ↔
      ∀ e ∈ l, (SeqMem.run history).isInstance e t = true) ∧
    (((SeqMem.run history).step (.sequenceOf t (some i))).2 ≠ .ok () →
      (SeqMem.run history).step (.sequenceOf t (some i)) = (SeqMem.run history, .error .valueError)) := by
  obtain ⟨a, ha, hv⟩ : ∃ a, (SeqMem.run history).lists[i]? = some a ∧ (SeqMem.run history).cells.read a = l := by
    simp only [SeqMem.list] at hl
    cases h1 : (SeqMem.run history).lists[i]? with
    | none => rw [h1] at hl; cases hl
    | some b => rw [h1] at hl; simp at hl; exact ⟨b, rfl, hl⟩
  simp only [SeqMem.step, ha, SeqMem.newSequenceOf, hv]
  split
  · next h => simpa using h
  · next h => simpa using h

example : let s := SeqMem.run [.sequenceOf (.int .integer) none, .append 0 (.val (.integer .counter 3)),
      .append 0 (.val (.octets .octetString [1]))]
    (s.elems 0).map List.length = some 1 := by decide +kernel

end Libsnmp
