import Verif.Model.Arith
import Verif.Spec.Numbers
import Verif.Lemmas.ValEq
import Mathlib.Tactic.Ring
import Mathlib.Tactic.Linarith

/-!
# C32–C35: ranges and arithmetic
-/

namespace Libsnmp
open Spec

theorem minVal_eq (c : IntCls) : c.minVal = (range c).1 := by cases c <;> decide
theorem maxVal_eq (c : IntCls) : c.maxVal = (range c).2 := by cases c <;> decide

/-! ## C32 -/

/-- C32. The constructor accepts exactly the ints in the class's range, keeping the value, and raises ValueError for all
others. -/
theorem C32_constructor (c : IntCls) (n : Int) :
    (InRange c n → mkInteger c n = .ok (.integer c n)) ∧ (¬ InRange c n → mkInteger c n = .error .valueError) := by
  unfold mkInteger InRange
  rw [minVal_eq, maxVal_eq]
  constructor
  · intro h; rw [if_pos h]
  · intro h; rw [if_neg h]

/-- C32. An object built by a constructor always holds a value in its class's range. -/
theorem C32_constructed_in_range (c : IntCls) (n : Int) (v : Val) (h : mkInteger c n = .ok v) :
    v = .integer c n ∧ InRange c n := by
  by_cases hr : InRange c n
  · rw [(C32_constructor c n).1 hr] at h; cases h; exact ⟨rfl, hr⟩
  · rw [(C32_constructor c n).2 hr] at h; cases h

example : mkInteger .integer (2 ^ 31 - 1) = .ok (.integer .integer (2 ^ 31 - 1)) ∧
    mkInteger .integer (2 ^ 31) = .error .valueError ∧
    mkInteger .integer32 (2 ^ 31) = .ok (.integer .integer32 (2 ^ 31)) ∧
    mkInteger .counter64 (-1) = .error .valueError := by decide +kernel

/-! ## C33 -/

theorem coerce_int (c : IntCls) (n : Int) :
    coerceOperand c (.int n) = if InRange c n then .ok n else .error .valueError := by
  by_cases hr : InRange c n
  · rw [if_pos hr]; simp only [coerceOperand, (C32_constructor c n).1 hr]
  · rw [if_neg hr]; simp only [coerceOperand, (C32_constructor c n).2 hr]

/-- C33. For the classes other than counters and gauges, `a + n` never changes `a`; it gives a new object of `a`'s class
holding the sum if `n` and the sum are in the class's range, and raises ValueError otherwise. -/
theorem C33_add (c : IntCls) (h1 : ¬ IsCounter c) (h2 : ¬ IsGuage c) (v n : Int) :
    (pyAdd c v (.int n)).self = v ∧
    (pyAdd c v (.int n)).result =
      if InRange c n ∧ InRange c (v + n) then .ok (.integer c (v + n)) else .error .valueError := by
  have e : pyAdd c v (.int n) = integerAdd c v (.int n) := by
    cases c <;> first | rfl | exact absurd (by decide) h1 | exact absurd (by decide) h2
  rw [e, integerAdd, coerce_int]
  by_cases hr : InRange c n
  · rw [if_pos hr]
    by_cases hs : InRange c (v + n)
    · simp [hr, hs, (C32_constructor c (v + n)).1 hs]
    · simp [hs, (C32_constructor c (v + n)).2 hs]
  · rw [if_neg hr]; simp [hr]

/-- C33. Adding an Integer object works exactly when its class is `a`'s class or a subclass of it. -/
theorem C33_add_object (c d : IntCls) (h1 : ¬ IsCounter c) (h2 : ¬ IsGuage c) (v w : Int) :
    (pyAdd c v (.integer d w)).self = v ∧
    (pyAdd c v (.integer d w)).result =
      if (Cls.int d).isSubclass (.int c) then
        (if InRange c (v + w) then .ok (.integer c (v + w)) else .error .valueError)
      else .error .typeError := by
  have e : pyAdd c v (.integer d w) = integerAdd c v (.integer d w) := by
    cases c <;> first | rfl | exact absurd (by decide) h1 | exact absurd (by decide) h2
  rw [e, integerAdd, coerceOperand]
  by_cases hsub : (Cls.int d).isSubclass (.int c) = true
  · simp only [hsub, if_true]
    by_cases hs : InRange c (v + w)
    · simp [hs, (C32_constructor c (v + w)).1 hs]
    · simp [hs, (C32_constructor c (v + w)).2 hs]
  · simp only [Bool.not_eq_true] at hsub
    simp [hsub]

/-- C33. For every class but gauges, `a - x` is what `Integer.__add__` would give: the *sum*. -/
theorem C33_sub_adds (c : IntCls) (h2 : ¬ IsGuage c) (v n : Int) :
    (pySub c v (.int n)).self = v ∧
    (pySub c v (.int n)).result =
      if InRange c n ∧ InRange c (v + n) then .ok (.integer c (v + n)) else .error .valueError := by
  have e : pySub c v (.int n) = integerSub c v (.int n) := by
    cases c <;> first | rfl | exact absurd (by decide) h2
  rw [e, integerSub, coerce_int]
  by_cases hr : InRange c n
  · rw [if_pos hr]
    by_cases hs : InRange c (v + n)
    · simp [hr, hs, (C32_constructor c (v + n)).1 hs]
    · simp [hs, (C32_constructor c (v + n)).2 hs]
  · rw [if_neg hr]; simp [hr]

/-- C33, the property is false of the code: subtraction that returns gives the difference only if the subtrahend
is 0. -/
theorem C33_sub_wrong (c : IntCls) (h2 : ¬ IsGuage c) (v n : Int) (w : Int)
    (h : (pySub c v (.int n)).result = .ok (.integer c w)) : w = v - n ↔ n = 0 := by
  rw [(C33_sub_adds c h2 v n).2] at h
  split at h
  · cases h; omega
  · cases h

example : (pyAdd .integer 5 (.int 3)).result = .ok (.integer .integer 8) ∧
    (pySub .integer 5 (.int 3)).result = .ok (.integer .integer 8) ∧
    (pyAdd .integer (2 ^ 31 - 1) (.int 1)).result = .error .valueError ∧
    (pyAdd .integer32 1 (.integer .integer 1)).result = .error .typeError ∧
    (pyAdd .integer 1 (.integer .integer32 1)).result = .ok (.integer .integer 2) := by decide +kernel

/-! ## C34 -/

/-- A counter holding `v` after the statements `c + n` for each `n` in turn. -/
def counterHistory (c : IntCls) (v : Int) (ns : List Int) : Int :=
  ns.foldl (fun v n => (pyAdd c v (.int n)).self) v

theorem pyAdd_counter (c : IntCls) (h : IsCounter c) (v : Int) (a : Val) : pyAdd c v a = counterAdd c v a := by
  rcases h with rfl | rfl | rfl <;> rfl

/-- C34. One increment: exact effect, for every int. -/
theorem C34_add (c : IntCls) (h : IsCounter c) (v n : Int) :
    pyAdd c v (.int n) = ⟨if v + n ≤ (range c).2 then v + n else v + n - (range c).2, .ok .none⟩ := by
  rw [pyAdd_counter c h, counterAdd, maxVal_eq]
  split
  · rw [if_neg (by omega)]; congr 1; omega
  · rw [if_pos (by omega)]

theorem wrapped_step (m v n : Int) (hm : 0 < m) (hv : 0 ≤ v) (hn : 0 ≤ n) (hnm : n ≤ m) :
    (if wrapped m v + n ≤ m then wrapped m v + n else wrapped m v + n - m) = wrapped m (v + n) := by
  unfold wrapped
  by_cases h0 : v = 0
  · subst h0
    simp only [if_true, zero_add]
    rw [if_pos hnm]
    split
    · assumption
    · rw [Int.emod_eq_of_lt (by omega) (by omega)]; omega
  · rw [if_neg h0, if_neg (show ¬ v + n = 0 by omega)]
    have h1 := Int.emod_nonneg (v - 1) (show m ≠ 0 by omega)
    have h2 := Int.emod_lt_of_pos (v - 1) hm
    have h3 := Int.mul_ediv_add_emod (v - 1) m
    set r := (v - 1) % m with hr
    set q := (v - 1) / m with hq
    by_cases hle : r + 1 + n ≤ m
    · rw [if_pos hle]
      have : (v + n - 1) % m = r + n := by
        have e : v + n - 1 = r + n + m * q := by omega
        rw [e, Int.add_mul_emod_self_left, Int.emod_eq_of_lt (by omega) (by omega)]
      omega
    · rw [if_neg hle]
      have : (v + n - 1) % m = r + n - m := by
        have e : v + n - 1 = r + n - m + m * (q + 1) := by linarith [Int.mul_add m q 1]
        rw [e, Int.add_mul_emod_self_left, Int.emod_eq_of_lt (by omega) (by omega)]
      omega

/-- C34. Over any history of increments between 0 and the maximum, a counter holds the running total on a dial
0, 1, ..., max that goes from max back to 1. -/
theorem C34_history (c : IntCls) (h : IsCounter c) (v : Int) (hv : InRange c v) (ns : List Int)
    (hn : ∀ n ∈ ns, 0 ≤ n ∧ n ≤ (range c).2) : counterHistory c v ns = wrapped (range c).2 (v + ns.sum) := by
  have hm : 0 < (range c).2 := by rcases h with rfl | rfl | rfl <;> decide
  have h0 : (range c).1 = 0 := by rcases h with rfl | rfl | rfl <;> rfl
  have key : ∀ (ns : List Int) (t : Int), 0 ≤ t → (∀ n ∈ ns, 0 ≤ n ∧ n ≤ (range c).2) →
      counterHistory c (wrapped (range c).2 t) ns = wrapped (range c).2 (t + ns.sum) := by
    intro ns
    induction ns with
    | nil => intro t _ _; simp [counterHistory]
    | cons n ns ih =>
      intro t ht hn
      have hn1 := hn n (by simp)
      rw [counterHistory, List.foldl_cons, ← counterHistory, C34_add c h]
      simp only
      rw [wrapped_step _ _ _ hm ht hn1.1 hn1.2, ih (t + n) (by omega) (fun m hm => hn m (by simp [hm])),
        List.sum_cons, add_assoc]
  have hw : wrapped (range c).2 v = v := by
    unfold InRange at hv
    unfold wrapped
    split
    · omega
    · rw [Int.emod_eq_of_lt (by omega) (by omega)]; omega
  have := key ns v (by unfold InRange at hv; omega) hn
  rwa [hw] at this

/-- C34. So it stays within its range, and is congruent to the running total modulo max (not max + 1). -/
theorem C34_stays_in_range (c : IntCls) (h : IsCounter c) (v : Int) (hv : InRange c v) (ns : List Int)
    (hn : ∀ n ∈ ns, 0 ≤ n ∧ n ≤ (range c).2) :
    InRange c (counterHistory c v ns) ∧ (counterHistory c v ns - (v + ns.sum)) % (range c).2 = 0 := by
  rw [C34_history c h v hv ns hn]
  have hm : 0 < (range c).2 := by rcases h with rfl | rfl | rfl <;> decide
  have h0 : (range c).1 = 0 := by rcases h with rfl | rfl | rfl <;> rfl
  set t := v + ns.sum
  unfold InRange wrapped
  split
  · next ht => rw [ht, h0]; simp; omega
  · have h1 := Int.emod_nonneg (t - 1) (show (range c).2 ≠ 0 by omega)
    have h2 := Int.emod_lt_of_pos (t - 1) hm
    have h3 := Int.mul_ediv_add_emod (t - 1) (range c).2
    refine ⟨by omega, ?_⟩
    rw [show (t - 1) % (range c).2 + 1 - t = (range c).2 * -((t - 1) / (range c).2) by rw [Int.mul_neg]; omega]
    exact Int.mul_emod_right _ _

/-- C34, the property as the RFC states it (a counter wraps to 0, modulo max + 1) is false of the code: every counter
class goes from its maximum to 1, and never back to 0. -/
theorem C34_wraps_to_one (c : IntCls) (h : IsCounter c) :
    (pyAdd c (range c).2 (.int 1)).self = 1 ∧
    ∀ v n, InRange c v → 0 ≤ n → n ≤ (range c).2 → (pyAdd c v (.int n)).self = 0 → v = 0 ∧ n = 0 := by
  have hm : 0 < (range c).2 := by rcases h with rfl | rfl | rfl <;> decide
  have h0 : (range c).1 = 0 := by rcases h with rfl | rfl | rfl <;> rfl
  constructor
  · rw [C34_add c h]; simp
  · intro v n hv hn1 hn2 he
    unfold InRange at hv
    rw [C34_add c h] at he
    simp only at he
    split at he <;> omega

/-- C34. Increments outside 0..max can leave the range: exactly when the raw sum does so by more than one turn. -/
theorem C34_escapes (c : IntCls) (h : IsCounter c) (v n : Int) (hv : InRange c v) :
    InRange c (pyAdd c v (.int n)).self ↔ 0 ≤ v + n ∧ v + n ≤ 2 * (range c).2 := by
  have hm : 0 < (range c).2 := by rcases h with rfl | rfl | rfl <;> decide
  have h0 : (range c).1 = 0 := by rcases h with rfl | rfl | rfl <;> rfl
  rw [C34_add c h]
  unfold InRange at *
  simp only
  split <;> omega

/-- C34. `c += n` loses the counter: the variable is rebound to None, for every int. -/
theorem C34_augmented_assignment (c : IntCls) (h : IsCounter c ∨ IsGuage c) (v n : Int) :
    pyIAdd c v (.int n) = .ok .none := by
  unfold pyIAdd
  rcases h with h | h
  · rw [C34_add c h]
  · have : pyAdd c v (.int n) = guageAdd c v (.int n) := by rcases h with rfl | rfl <;> rfl
    rw [this, guageAdd]
    split <;> rfl

/-- C34. Adding an SNMP object (even another counter) to a counter is a TypeError and changes nothing. -/
theorem C34_add_object (c d : IntCls) (h : IsCounter c) (v w : Int) :
    pyAdd c v (.integer d w) = ⟨v, .error .typeError⟩ := by
  rw [pyAdd_counter c h]; rfl

example : counterHistory .counter 4294967290 [5, 1, 10] = 11 ∧ InRange .counter 4294967290 ∧
    (pyAdd .counter 5 (.int (-6))).self = -1 := by decide +kernel

/-! ## C35 -/

/-- An operation on a gauge: `g + n` or `g - n`. -/
inductive GuageOp where
  | add (n : Int)
  | sub (n : Int)

def GuageOp.arg : GuageOp → Int
  | .add n => n
  | .sub n => n

def guageHistory (c : IntCls) (v : Int) (ops : List GuageOp) : Int :=
  ops.foldl (fun v op => match op with
    | .add n => (pyAdd c v (.int n)).self
    | .sub n => (pySub c v (.int n)).self) v

/-- C35. Addition latches at the maximum and subtraction at zero, for every int. -/
theorem C35_latches (c : IntCls) (h : IsGuage c) (v n : Int) :
    pyAdd c v (.int n) = ⟨min (v + n) (2 ^ 32 - 1), .ok .none⟩ ∧ pySub c v (.int n) = ⟨max (v - n) 0, .ok .none⟩ := by
  have e1 : pyAdd c v (.int n) = guageAdd c v (.int n) := by rcases h with rfl | rfl <;> rfl
  have e2 : pySub c v (.int n) = guageSub c v (.int n) := by rcases h with rfl | rfl <;> rfl
  have m1 : c.maxVal = 2 ^ 32 - 1 := by rcases h with rfl | rfl <;> decide
  have m2 : c.minVal = 0 := by rcases h with rfl | rfl <;> decide
  rw [e1, e2, guageAdd, guageSub, m1, m2]
  constructor
  · split
    · rw [min_eq_right (by omega)]
    · rw [min_eq_left (by omega)]
  · split
    · rw [max_eq_right (by omega)]
    · rw [max_eq_left (by omega)]

/-- C35. Over any history of additions and subtractions of non-negative amounts a gauge stays within its range. -/
theorem C35_history (c : IntCls) (h : IsGuage c) (v : Int) (hv : InRange c v) (ops : List GuageOp)
    (ho : ∀ op ∈ ops, 0 ≤ op.arg) : InRange c (guageHistory c v ops) := by
  have hr : range c = (0, 2 ^ 32 - 1) := by rcases h with rfl | rfl <;> rfl
  induction ops generalizing v with
  | nil => exact hv
  | cons op ops ih =>
    rw [guageHistory, List.foldl_cons, ← guageHistory]
    refine ih _ ?_ (fun o ho' => ho o (by simp [ho']))
    have := ho op (by simp)
    unfold InRange at *
    rw [hr] at *
    cases op with
    | add n =>
      simp only [(C35_latches c h v n).1, GuageOp.arg] at *
      omega
    | sub n =>
      simp only [(C35_latches c h v n).2, GuageOp.arg] at *
      omega

/-- C35. Negative amounts escape the range, in either direction. -/
theorem C35_negative_escapes (c : IntCls) (h : IsGuage c) (v n : Int) (hv : InRange c v) (hn : n < 0) :
    (InRange c (pyAdd c v (.int n)).self ↔ 0 ≤ v + n) ∧
    (InRange c (pySub c v (.int n)).self ↔ v - n ≤ 2 ^ 32 - 1) := by
  have hr : range c = (0, 2 ^ 32 - 1) := by rcases h with rfl | rfl <;> rfl
  rw [(C35_latches c h v n).1, (C35_latches c h v n).2]
  unfold InRange at *
  rw [hr] at *
  simp only at *
  omega

example : guageHistory .guage 10 [.add 4294967295, .sub 5, .sub 4294967295] = 0 ∧ InRange .guage 10 := by
  decide +kernel

end Libsnmp
