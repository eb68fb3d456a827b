import Verif.Model.Ber
import Verif.Spec.Ber
import Mathlib.Tactic.Ring

/-! Bit operations as arithmetic. -/

namespace Libsnmp

theorem and_ff (x : Nat) : x &&& 0xff = x % 256 := Nat.and_two_pow_sub_one_eq_mod x 8
theorem and_7f (x : Nat) : x &&& 0x7f = x % 128 := Nat.and_two_pow_sub_one_eq_mod x 7
theorem and_1f (x : Nat) : x &&& 0x1f = x % 32 := Nat.and_two_pow_sub_one_eq_mod x 5
theorem shr8 (x : Nat) : x >>> 8 = x / 256 := Nat.shiftRight_eq_div_pow x 8
theorem shr7 (x : Nat) : x >>> 7 = x / 128 := Nat.shiftRight_eq_div_pow x 7
theorem shl8 (x : Nat) : x <<< 8 = x * 256 := Nat.shiftLeft_eq x 8
theorem shl7 (x : Nat) : x <<< 7 = x * 128 := Nat.shiftLeft_eq x 7

theorem and_80 (x : Nat) : x &&& 0x80 = (x / 128 % 2) * 128 := by
  have h := Nat.and_two_pow x 7
  have h2 : x.testBit 7 = decide (x / 128 % 2 = 1) := by
    rw [Nat.testBit_eq_decide_div_mod_eq]
  have e : (2 : Nat) ^ 7 = 128 := rfl
  rw [e] at h
  rw [h, h2]
  have := Nat.mod_two_eq_zero_or_one (x / 128)
  rcases this with h | h <;> simp [h]

theorem and_80_octet {x : Nat} (h : x < 256) : x &&& 0x80 = if x < 128 then 0 else 128 := by
  rw [and_80]
  split
  · have : x / 128 = 0 := by omega
    simp [this]
  · have : x / 128 = 1 := by omega
    simp [this]

theorem and_80_high {x : Nat} (h1 : 128 ≤ x) (h2 : x < 256) : x &&& 0x80 = 0x80 := by
  rw [and_80_octet h2, if_neg (by omega)]

theorem and_80_low {x : Nat} (h : x < 128) : x &&& 0x80 = 0 := by
  rw [and_80_octet (by omega), if_pos h]

theorem shl8_or {v b : Nat} (h : b < 256) : (v <<< 8) ||| b = v * 256 + b := by
  rw [← Nat.shiftLeft_add_eq_or_of_lt (i := 8) (by simpa using h), shl8]

theorem shl7_or {v b : Nat} (h : b < 128) : (v <<< 7) ||| b = v * 128 + b := by
  rw [← Nat.shiftLeft_add_eq_or_of_lt (i := 7) (by simpa using h), shl7]

theorem or_80 {b : Nat} (h : b < 128) : 0x80 ||| b = 128 + b := by
  have := Nat.shiftLeft_add_eq_or_of_lt (i := 7) (b := b) (by simpa using h) 1
  simpa using this.symm

theorem or_80' {b : Nat} (h : b < 128) : b ||| 0x80 = 128 + b := by
  rw [Nat.or_comm, or_80 h]

theorem intShr8 (x : Int) : x >>> (8 : Nat) = x / 256 := Int.shiftRight_eq_div_pow x 8

theorem land_mask (x : Int) (k : Nat) : Int.land x ((2 ^ k - 1 : Nat) : Int) = x % (2 ^ k : Nat) := by
  cases x with
  | ofNat m =>
    show ((m &&& (2 ^ k - 1) : Nat) : Int) = _
    rw [Nat.and_two_pow_sub_one_eq_mod]; rfl
  | negSucc m =>
    show ((Nat.ldiff (2 ^ k - 1) m : Nat) : Int) = _
    have h : Nat.ldiff (2 ^ k - 1) m = 2 ^ k - 1 - m % 2 ^ k := by
      apply Nat.eq_of_testBit_eq
      intro i
      rw [Nat.testBit_ldiff, Nat.testBit_two_pow_sub_one]
      have hlt : m % 2 ^ k < 2 ^ k := Nat.mod_lt _ (Nat.two_pow_pos k)
      have e : 2 ^ k - 1 - m % 2 ^ k = 2 ^ k - (m % 2 ^ k + 1) := by omega
      rw [e, Nat.testBit_two_pow_sub_succ hlt, Nat.testBit_mod_two_pow]
      by_cases hi : i < k <;> simp [hi]
    rw [h, Int.negSucc_emod_ofNat]
    have hlt : m % 2 ^ k < 2 ^ k := Nat.mod_lt _ (Nat.two_pow_pos k)
    rw [Int.subNatNat_eq_coe]
    omega

theorem land_ff (x : Int) : Int.land x 0xff = x % 256 := land_mask x 8
theorem land_7f (x : Int) : Int.land x 0x7f = x % 128 := land_mask x 7

theorem intShl8 (x : Int) : x <<< (8 : Nat) = x * 256 := by
  rw [Int.shiftLeft_eq]; rfl

theorem ldiff_low (m b : Nat) (h : b < 256) : Nat.ldiff (2 ^ 8 * m + 255) b = 2 ^ 8 * m + (255 - b) := by
  apply Nat.eq_of_testBit_eq
  intro i
  rw [Nat.testBit_ldiff, Nat.testBit_two_pow_mul_add m (by decide), Nat.testBit_two_pow_mul_add m (by omega)]
  by_cases hi : i < 8
  · simp only [hi, if_true]
    have e : 255 - b = 2 ^ 8 - (b + 1) := by omega
    have e2 : 255 = 2 ^ 8 - 1 := rfl
    rw [e, Nat.testBit_two_pow_sub_succ (by simpa using h), e2, Nat.testBit_two_pow_sub_one]
  · simp only [hi, if_false]
    have : b.testBit i = false := by
      apply Nat.testBit_lt_two_pow
      calc b < 2 ^ 8 := h
        _ ≤ 2 ^ i := Nat.pow_le_pow_right (by decide) (by omega)
    simp [this]

theorem intShl8_lor (x : Int) {b : Nat} (h : b < 256) : Int.lor (x <<< (8 : Nat)) (b : Int) = x * 256 + b := by
  rw [intShl8]
  cases x with
  | ofNat m =>
    have e : Int.ofNat m * 256 = Int.ofNat (m * 256) := rfl
    rw [e]
    show (((m * 256) ||| b : Nat) : Int) = _
    have h2 := shl8_or (v := m) h
    rw [shl8] at h2
    rw [h2]; push_cast; rfl
  | negSucc m =>
    have e : Int.negSucc m * 256 = Int.negSucc (2 ^ 8 * m + 255) := by
      rw [Int.negSucc_eq, Int.negSucc_eq]; push_cast; ring
    rw [e]
    show Int.negSucc (Nat.ldiff (2 ^ 8 * m + 255) b) = _
    rw [ldiff_low m b h, Int.negSucc_eq, Int.negSucc_eq]
    omega

end Libsnmp
