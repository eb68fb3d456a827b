import Mathlib.Tactic.Linarith
import Mathlib.Tactic.Positivity
import Mathlib.Tactic.NormNum
import Mathlib.Tactic.FieldSimp
import Mathlib.Tactic.Ring
import Verif.Model.Forms

/-! # Rounding to binary64 -/

namespace Libsnmp

theorem roundEven_int (n : ℤ) : roundEven (n : ℚ) = n := by simp [roundEven]

theorem roundEven_near (q : ℚ) : |(roundEven q : ℚ) - q| ≤ 1 / 2 := by
  have h1 := Int.floor_le q
  have h2 := Int.lt_floor_add_one q
  unfold roundEven
  rw [abs_le]
  split
  · constructor <;> linarith
  · split
    · push_cast; constructor <;> linarith
    · split
      · constructor <;> linarith
      · push_cast; constructor <;> linarith

theorem roundEven_mono {p q : ℚ} (h : p ≤ q) : roundEven p ≤ roundEven q := by
  have hf : ⌊p⌋ ≤ ⌊q⌋ := Int.floor_le_floor h
  have key : ∀ x : ℚ, roundEven x = ⌊x⌋ ∨ roundEven x = ⌊x⌋ + 1 := by
    intro x; unfold roundEven; split <;> (try split) <;> (try split) <;> simp
  rcases lt_or_eq_of_le hf with hlt | heq
  · rcases key p with hp | hp <;> rcases key q with hq | hq <;> omega
  · unfold roundEven
    rw [← heq]
    split_ifs <;> first | omega | (exfalso; linarith)

theorem roundEven_le {q : ℚ} {n : ℤ} (h : q ≤ n) : roundEven q ≤ n := by
  have := roundEven_mono h; rwa [roundEven_int] at this

theorem le_roundEven {q : ℚ} {n : ℤ} (h : (n : ℚ) ≤ q) : n ≤ roundEven q := by
  have := roundEven_mono h; rwa [roundEven_int] at this

/-- The spacing of binary64 numbers at `q`. -/
def ulp (q : ℚ) : ℚ := 2 ^ (max (Int.log 2 q) (-1022) - 52)

theorem ulp_pos (q : ℚ) : 0 < ulp q := zpow_pos (by norm_num) _

/-- The rounded value, before infinity is looked at. -/
def rounded (q : ℚ) : ℚ := roundEven (q / ulp q) * ulp q

theorem toDouble_eq {q : ℚ} (h : 0 < q) :
    toDouble q = if rounded q < 2 ^ (1024 : ℤ) then some (rounded q) else none := by
  rw [toDouble, if_neg (by linarith)]; rfl

theorem log_le_self {q : ℚ} (h : 0 < q) : (2 : ℚ) ^ Int.log 2 q ≤ q := by
  have := Int.zpow_log_le_self (b := 2) (by norm_num) h; simpa using this

theorem lt_log_succ (q : ℚ) : q < (2 : ℚ) ^ (Int.log 2 q + 1) := by
  have := Int.lt_zpow_succ_log_self (b := 2) (by norm_num) q; simpa using this

theorem two_zpow_le {a b : ℤ} (h : a ≤ b) : (2 : ℚ) ^ a ≤ 2 ^ b := zpow_le_zpow_right₀ (by norm_num) h

theorem rounded_near (q : ℚ) : |rounded q - q| ≤ ulp q / 2 := by
  have h := roundEven_near (q / ulp q)
  have hu := ulp_pos q
  have : rounded q - q = (roundEven (q / ulp q) - q / ulp q) * ulp q := by
    unfold rounded; field_simp
  rw [this, abs_mul, abs_of_pos hu]
  nlinarith

theorem log_ge {q : ℚ} {k : ℤ} (h : (2 : ℚ) ^ k ≤ q) : k ≤ Int.log 2 q := by
  have h2 := lt_of_le_of_lt h (lt_log_succ q)
  have := (zpow_lt_zpow_iff_right₀ (show (1 : ℚ) < 2 by norm_num)).mp h2
  omega

theorem log_lt {q : ℚ} (hq : 0 < q) {k : ℤ} (h : q < (2 : ℚ) ^ k) : Int.log 2 q < k := by
  have h2 := lt_of_le_of_lt (log_le_self hq) h
  exact (zpow_lt_zpow_iff_right₀ (show (1 : ℚ) < 2 by norm_num)).mp h2

/-- Relative error of normal numbers. -/
theorem rounded_rel {q : ℚ} (h : (2 : ℚ) ^ (-1022 : ℤ) ≤ q) : |rounded q - q| ≤ q / 2 ^ 53 := by
  have hq : 0 < q := lt_of_lt_of_le (zpow_pos (by norm_num) _) h
  have h1 := rounded_near q
  have h2 : ulp q ≤ q / 2 ^ 52 := by
    unfold ulp
    rw [max_eq_left (log_ge h), zpow_sub₀ (by norm_num)]
    have := log_le_self hq
    rw [show ((2 : ℚ) ^ (52 : ℤ)) = 2 ^ 52 by norm_num]
    gcongr
  have h3 : (2 : ℚ) ^ 53 = 2 * 2 ^ 52 := by norm_num
  rw [h3]
  calc _ ≤ ulp q / 2 := h1
    _ ≤ q / 2 ^ 52 / 2 := by linarith
    _ = _ := by ring

theorem div_ulp_lt {q : ℚ} : q / ulp q ≤ (2 ^ 53 : ℤ) := by
  rw [div_le_iff₀ (ulp_pos q)]
  have h1 := le_of_lt (lt_log_succ q)
  have h2 : (2 : ℚ) ^ (Int.log 2 q + 1) ≤ 2 ^ (max (Int.log 2 q) (-1022) + 1) := two_zpow_le (by omega)
  refine h1.trans (h2.trans (le_of_eq ?_))
  unfold ulp
  rw [show ((2 ^ 53 : ℤ) : ℚ) = (2 : ℚ) ^ (53 : ℤ) by norm_num, ← zpow_add₀ (by norm_num)]
  congr 1; ring

theorem rounded_le_pow (q : ℚ) : rounded q ≤ 2 ^ (max (Int.log 2 q) (-1022) + 1) := by
  have h := roundEven_le (div_ulp_lt (q := q))
  have h2 : (roundEven (q / ulp q) : ℚ) ≤ ((2 ^ 53 : ℤ) : ℚ) := by exact_mod_cast h
  unfold rounded
  refine (mul_le_mul_of_nonneg_right h2 (ulp_pos q).le).trans (le_of_eq ?_)
  unfold ulp
  rw [show ((2 ^ 53 : ℤ) : ℚ) = (2 : ℚ) ^ (53 : ℤ) by norm_num, ← zpow_add₀ (by norm_num)]
  congr 1; ring

theorem pow_le_rounded {q : ℚ} (h : (2 : ℚ) ^ (-1022 : ℤ) ≤ q) : 2 ^ (Int.log 2 q) ≤ rounded q := by
  have hq : 0 < q := lt_of_lt_of_le (zpow_pos (by norm_num) _) h
  have he : max (Int.log 2 q) (-1022) = Int.log 2 q := max_eq_left (log_ge h)
  have h1 : ((2 ^ 52 : ℤ) : ℚ) ≤ q / ulp q := by
    rw [le_div_iff₀ (ulp_pos q)]
    refine le_trans (le_of_eq ?_) (log_le_self hq)
    unfold ulp
    rw [he, show ((2 ^ 52 : ℤ) : ℚ) = (2 : ℚ) ^ (52 : ℤ) by norm_num, ← zpow_add₀ (by norm_num)]
    congr 1; ring
  have h2 : ((2 ^ 52 : ℤ) : ℚ) ≤ roundEven (q / ulp q) := by exact_mod_cast le_roundEven h1
  unfold rounded
  refine le_trans (le_of_eq ?_) (mul_le_mul_of_nonneg_right h2 (ulp_pos q).le)
  unfold ulp
  rw [he, show ((2 ^ 52 : ℤ) : ℚ) = (2 : ℚ) ^ (52 : ℤ) by norm_num, ← zpow_add₀ (by norm_num)]
  congr 1; ring

theorem rounded_mono {p q : ℚ} (hp : 0 < p) (h : p ≤ q) : rounded p ≤ rounded q := by
  have hl : Int.log 2 p ≤ Int.log 2 q := Int.log_mono_right hp h
  by_cases he : max (Int.log 2 p) (-1022) = max (Int.log 2 q) (-1022)
  · have hu : ulp p = ulp q := by unfold ulp; rw [he]
    unfold rounded
    rw [hu]
    have := roundEven_mono (div_le_div_of_nonneg_right h (ulp_pos q).le)
    have h2 : (roundEven (p / ulp q) : ℚ) ≤ roundEven (q / ulp q) := by exact_mod_cast this
    exact mul_le_mul_of_nonneg_right h2 (ulp_pos q).le
  · have h1 : max (Int.log 2 p) (-1022) + 1 ≤ Int.log 2 q := by omega
    have h2 : -1022 ≤ Int.log 2 q := by omega
    have hq : (2 : ℚ) ^ (-1022 : ℤ) ≤ q := (two_zpow_le h2).trans (log_le_self (hp.trans_le h))
    exact (rounded_le_pow p).trans ((two_zpow_le h1).trans (pow_le_rounded hq))

theorem rounded_nat {n : Nat} (h0 : 0 < n) (h : n < 2 ^ 53) : rounded (n : ℚ) = n := by
  have hq : (0 : ℚ) < n := by exact_mod_cast h0
  have h1 : (1 : ℚ) ≤ n := by exact_mod_cast h0
  have hl : 0 ≤ Int.log 2 (n : ℚ) := log_ge (by simpa using h1)
  have hu : Int.log 2 (n : ℚ) < 53 := log_lt hq (by
    have : (n : ℚ) < (2 ^ 53 : ℕ) := by exact_mod_cast h
    refine this.trans_le (le_of_eq (by norm_num)))
  have he : max (Int.log 2 (n : ℚ)) (-1022) = Int.log 2 (n : ℚ) := by omega
  obtain ⟨k, hk⟩ : ∃ k : Nat, 52 - Int.log 2 (n : ℚ) = k := ⟨(52 - Int.log 2 (n : ℚ)).toNat, by omega⟩
  have hulp : (n : ℚ) / ulp n = ((n * 2 ^ k : ℤ) : ℚ) := by
    rw [div_eq_iff (ulp_pos _).ne']
    unfold ulp
    rw [he, show Int.log 2 (n : ℚ) - 52 = -(k : ℤ) by omega, zpow_neg, zpow_natCast]
    push_cast
    field_simp
  unfold rounded
  rw [hulp, roundEven_int, ← hulp]
  exact div_mul_cancel₀ _ (ulp_pos _).ne'

theorem toDouble_zero : toDouble 0 = some 0 := by simp [toDouble]

theorem toDouble_nat {n : Nat} (h : n < 2 ^ 53) : toDouble (n : ℚ) = some (n : ℚ) := by
  rcases Nat.eq_zero_or_pos n with rfl | h0
  · simpa using toDouble_zero
  · rw [toDouble_eq (by exact_mod_cast h0), rounded_nat h0 h, if_pos]
    have h1 : (n : ℚ) < (2 ^ 53 : ℕ) := by exact_mod_cast h
    refine h1.trans ?_
    rw [show ((2 ^ 53 : ℕ) : ℚ) = (2 : ℚ) ^ (53 : ℤ) by norm_num]
    exact zpow_lt_zpow_right₀ (by norm_num) (by norm_num)

/-- Rounding of anything normal and well below the largest double. -/
theorem toDouble_some {q : ℚ} (h : 0 < q) (hu : q ≤ 2 ^ (1000 : ℤ)) : toDouble q = some (rounded q) := by
  rw [toDouble_eq h, if_pos]
  have h1 := rounded_mono h hu
  have h2 : rounded (2 ^ (1000 : ℤ)) ≤ 2 ^ (1001 : ℤ) := by
    have := rounded_le_pow (2 ^ (1000 : ℤ))
    have hl : Int.log 2 ((2 : ℚ) ^ (1000 : ℤ)) = 1000 := by
      have := Int.log_zpow (R := ℚ) (b := 2) (by norm_num) 1000; simpa using this
    rw [hl] at this
    exact this.trans (two_zpow_le (by norm_num))
  exact h1.trans_lt (h2.trans_lt (zpow_lt_zpow_right₀ (by norm_num) (by norm_num)))

end Libsnmp
