import Verif.Lemmas.Int

/-! # C06 - C10: integer contents -/

namespace Libsnmp
open Spec

/-- C06. Integer contents of any length decode as two's complement; empty contents raise `IndexError`. -/
theorem C06_int_decode (s : Str) (h : Octets s) :
    intDecode s = if s = [] then .error .indexError else .ok (twos s) := by
  cases s with
  | nil => rfl
  | cons b t => simp [intDecode_eq h]

example : intDecode [0xff, 0x7f] = .ok (-129) ∧ intDecode [0x00, 0x80] = .ok 128 := by decide +kernel
example : Octets [0xff, 0x7f] ∧ twos [0xff, 0x7f] = -129 := by decide +kernel

/-- C07. The four integer decoders agree on every octet string, including the empty one. -/
theorem C07_decoders_agree (s : Str) (h : Octets s) :
    decodeTwosInteger1 s = intDecode s ∧ decodeTwosInteger2 s = intDecode s ∧ decodeTwosInteger3 s = intDecode s := by
  cases s with
  | nil => exact ⟨rfl, rfl, rfl⟩
  | cons b t =>
    rw [intDecode_eq h]
    have h' := h
    simp only [octets_cons] at h
    have hfold := foldl_intShl8 h'
    refine ⟨?_, ?_, ?_⟩
    · unfold decodeTwosInteger1
      simp only [and_80_octet h.1]
      by_cases hb : b < 128
      · simp only [hb, if_true, ne_eq, not_true_eq_false, if_false, hfold, twos_low hb]
        simp
      · simp only [hb, if_false]
        rw [if_pos (by decide), List.foldl_cons, hfold, twos, if_neg hb]
        have e : Int.lor ((0 : Int) <<< (8 : Nat)) (-1) = -1 := by decide +kernel
        rw [e, List.length_cons]; congr 1; ring
    · unfold decodeTwosInteger2
      simp only [List.getElem?_cons_zero, and_80_octet h.1, List.length_cons, Nat.add_sub_cancel]
      by_cases hb : b < 128
      · simp only [hb, if_true]
        rw [if_neg (by decide), foldl_range_getElem (fun v b => (v <<< 8) ||| b) b b t, foldl_shl8 h.2, twos_low hb,
          unsigned_cons]
      · simp only [hb, if_false, if_true]
        rw [foldl_range_getElem (fun (p : Nat × Nat) x => (p.1 <<< 8, (p.2 <<< 8) ||| x)) (128, b &&& 127) b t,
          foldl_pair h.2, twos_high (by omega), and_7f]
        have : b % 128 = b - 128 := by omega
        simp only [this]
    · unfold decodeTwosInteger3
      simp only [and_80_octet h.1]
      by_cases hb : b < 128
      · simp only [hb, if_true]
        rw [if_neg (by decide), foldl_shl8 h', twos_low hb]
        simp
      · simp only [hb, if_false]
        rw [if_pos (by decide), and_7f]
        have e : b % 128 = b - 128 := by omega
        have ho : Octets ((b - 128) :: t) := by rw [octets_cons]; exact ⟨by omega, h.2⟩
        rw [e, foldl_pair ho, twos_high (by omega), shr8]
        have e2 : 128 * 256 ^ ((b - 128) :: t).length / 256 = 128 * 256 ^ t.length := by
          rw [List.length_cons, pow_succ, ← mul_assoc, Nat.mul_div_cancel _ (by decide)]
        simp only [e2, Nat.zero_mul, Nat.zero_add, unsigned_cons]

example : decodeTwosInteger1 [0x80, 0, 1] = .ok (-8388607) ∧ decodeTwosInteger3 [0x80, 0, 1] = .ok (-8388607) := by
  decide +kernel

/-- C08. Encoding then decoding returns the integer exactly outside the bands `[-256^k, -256^k/2 - 1]`, `k ≥ 1`. -/
theorem C08_int_roundtrip_iff (v : Int) :
    intDecode (intEncode v) = .ok v ↔ ¬ ∃ k : Nat, 1 ≤ k ∧ -(256 ^ k : Int) ≤ v ∧ 2 * v < -(256 ^ k : Int) := by
  obtain ⟨ho, hne⟩ := intEncode_octets v
  rw [C06_int_decode _ ho, if_neg hne, Except.ok.injEq]
  rcases twos_intEncode v with ⟨h1, h2⟩ | ⟨k, hk, h1, h2, h3, _⟩
  · simp only [h1, true_iff]
    rintro ⟨k, hk, h⟩; exact h2 k hk h
  · constructor
    · intro h
      have : (0 : Int) < 256 ^ k := by positivity
      omega
    · intro h; exact absurd ⟨k, hk, h1, h2⟩ h

/-- C08. Inside a band the value comes back increased by `256^k`. -/
theorem C08_int_band (v : Int) (k : Nat) (hk : 1 ≤ k) (h1 : -(256 ^ k : Int) ≤ v) (h2 : 2 * v < -(256 ^ k : Int)) :
    intDecode (intEncode v) = .ok (v + 256 ^ k) := by
  obtain ⟨ho, hne⟩ := intEncode_octets v
  rw [C06_int_decode _ ho, if_neg hne, Except.ok.injEq]
  rcases twos_intEncode v with ⟨_, h3⟩ | ⟨j, hj, h3, h4, h5, _⟩
  · exact absurd ⟨h1, h2⟩ (h3 k hk)
  · -- the band determines k
    have hkj : k = j := by
      rcases Nat.lt_trichotomy k j with hlt | heq | hgt
      · have : (256 : Int) ^ (k + 1) ≤ 256 ^ j := pow_le_pow_right₀ (by decide) hlt
        rw [pow_succ] at this
        have : (0 : Int) < 256 ^ k := by positivity
        omega
      · exact heq
      · have : (256 : Int) ^ (j + 1) ≤ 256 ^ k := pow_le_pow_right₀ (by decide) hgt
        rw [pow_succ] at this
        have : (0 : Int) < 256 ^ j := by positivity
        omega
    rw [h5, hkj]

/-- C08, the part users rely on most: every non-negative integer survives. -/
theorem C08_int_roundtrip_nonneg (v : Int) (h : 0 ≤ v) : intDecode (intEncode v) = .ok v := by
  rw [C08_int_roundtrip_iff]
  rintro ⟨k, _, _, h2⟩
  have : (0 : Int) < 256 ^ k := by positivity
  omega

/-- C08 is false as stated for all integers: -129 comes back as 127. -/
theorem C08_int_roundtrip_false : ¬ ∀ v : Int, intDecode (intEncode v) = .ok v := by
  intro h
  have := C08_int_band (-129) 1 (by decide) (by decide) (by decide)
  rw [h] at this
  exact absurd this (by decide)

example : intDecode (intEncode (-256)) = .ok 0 ∧ intDecode (intEncode (-128)) = .ok (-128) ∧
    intDecode (intEncode 2147483647) = .ok 2147483647 := by decide +kernel

/-- C09. The contents are octets, at least one; outside the bands of C08 no shorter octet string has the same value. -/
theorem C09_int_minimal (v : Int) :
    Octets (intEncode v) ∧ intEncode v ≠ [] ∧
    ((¬ ∃ k : Nat, 1 ≤ k ∧ -(256 ^ k : Int) ≤ v ∧ 2 * v < -(256 ^ k : Int)) →
      ∀ t, Octets t → t ≠ [] → twos t = v → (intEncode v).length ≤ t.length) := by
  refine ⟨(intEncode_octets v).1, (intEncode_octets v).2, ?_⟩
  intro hb t ht hne htv
  have hr := twos_range ht hne
  rw [htv] at hr
  have hl1 : 1 ≤ t.length := by
    cases t with
    | nil => exact absurd rfl hne
    | cons => simp
  by_cases h0 : v = 0
  · subst h0; simpa [intEncode] using hl1
  · by_cases h1 : v = -1
    · subst h1; simpa [intEncode] using hl1
    · by_cases hp : 0 < v
      · obtain ⟨d, ds, h, h2, hd0, e⟩ := intEncode_nonneg hp
        have hlt := head_lt_iff h
        rw [h2] at hlt
        rw [e]; split
        · -- v ≥ 256^len
          have h3 : ((256 ^ ds.length : Nat) : Int) ≤ v := by
            rw [← h2]; exact_mod_cast ofDigits_ge (b := 256) (s := ds) hd0
          push_cast at h3
          have h4 : (256 : Int) ^ ds.length < 256 ^ t.length := by
            have : (0 : Int) < 256 ^ ds.length := by positivity
            omega
          have := (pow_lt_pow_iff_right₀ (show (1 : Int) < 256 by decide)).mp h4
          simp only [List.length_cons]; omega
        · next hd =>
          have h3 : ¬ (2 * v < 256 ^ (ds.length + 1)) := fun h' => hd (hlt.mpr h')
          have h4 : (256 : Int) ^ (ds.length + 1) < 256 ^ t.length := by omega
          have := (pow_lt_pow_iff_right₀ (show (1 : Int) < 256 by decide)).mp h4
          simp only [List.length_cons]; omega
      · obtain ⟨d, ds, h, h2, h3, e⟩ := intEncode_neg (v := v) (by omega)
        have hlt := head_lt_iff h
        rw [h2] at hlt
        rw [e]; split
        · next hd =>
          exfalso
          apply hb
          refine ⟨ds.length + 1, by omega, ?_, ?_⟩
          · have := Int.natCast_nonneg (unsigned (d :: ds)); omega
          · have := hlt.mp hd; omega
        · have h4 : (256 : Int) ^ ds.length < 256 ^ t.length := by
            have : (0 : Int) < 256 ^ ds.length := by positivity
            omega
          have := (pow_lt_pow_iff_right₀ (show (1 : Int) < 256 by decide)).mp h4
          simp only [List.length_cons]; omega

/-- C09. Sizes: signed 32-bit values take at most 4 octets, unsigned 32-bit at most 5, unsigned 64-bit at most 9;
in general a value of `8k` bits two's complement takes at most `k` octets, in or out of the bands. -/
theorem C09_int_sizes (v : Int) :
    (-2147483648 ≤ v → v ≤ 2147483647 → (intEncode v).length ≤ 4) ∧
    (0 ≤ v → v ≤ 4294967295 → (intEncode v).length ≤ 5) ∧
    (0 ≤ v → v ≤ 18446744073709551615 → (intEncode v).length ≤ 9) ∧
    (∀ k : Nat, 1 ≤ k → -(256 ^ k : Int) ≤ 2 * v → 2 * v < 256 ^ k → (intEncode v).length ≤ k) := by
  refine ⟨fun h1 h2 => twos_length_bound (by decide) ?_ ?_, fun h1 h2 => twos_length_bound (by decide) ?_ ?_,
    fun h1 h2 => twos_length_bound (by decide) ?_ ?_, fun k hk h1 h2 => twos_length_bound hk h1 h2⟩ <;>
  norm_num <;> omega

example : (intEncode 4294967295) = [0, 255, 255, 255, 255] ∧ (intEncode (-32768)) = [0x80, 0] := by decide +kernel

/-- C10. Counter contents of 1 to 4 octets give a value in `[0, 2^32)` congruent to the two's complement value;
4 octets are read as unsigned. -/
theorem C10_counter_decode (s : Str) (h : Octets s) (h1 : 1 ≤ s.length) (h4 : s.length ≤ 4) :
    ∃ v : Int, counterDecode s = .ok v ∧ 0 ≤ v ∧ v < 2 ^ 32 ∧ v = twos s % 2 ^ 32 ∧
      (s.length = 4 → v = unsigned s) := by
  cases s with
  | nil => simp at h1
  | cons b t =>
    have hr := twos_range h (by simp)
    have hbound : (256 : Int) ^ (b :: t).length ≤ 256 ^ 4 := pow_le_pow_right₀ (by decide) h4
    norm_num at hbound
    simp only [List.length_cons] at hr
    have hu : (0 : Int) ≤ unsigned (b :: t) := Int.natCast_nonneg _
    unfold counterDecode
    rw [intDecode_eq h]
    simp only
    by_cases hneg : twos (b :: t) < 0
    · refine ⟨twos (b :: t) + 4294967296, by simp [hneg], by omega, by omega, ?_, ?_⟩
      · norm_num; omega
      · intro hl
        have : ¬ b < 128 := fun hb => by rw [twos_low hb] at hneg; omega
        rw [twos, if_neg this]
        simp only [List.length_cons] at hl
        rw [hl]; norm_num
    · refine ⟨twos (b :: t), by simp [hneg], by omega, by omega, ?_, ?_⟩
      · norm_num; omega
      · intro hl
        by_cases hb : b < 128
        · rw [twos_low hb]
        · exfalso
          apply hneg
          rw [twos, if_neg hb]
          have := unsigned_lt h
          rw [List.length_cons] at this
          have : (unsigned (b :: t) : Int) < 256 ^ (t.length + 1) := by exact_mod_cast this
          omega

/-- C10. The formula for contents of any length: negative values are raised by `2^32` once. -/
theorem C10_counter_decode_any (s : Str) (h : Octets s) :
    counterDecode s = if s = [] then .error .indexError
      else .ok (if twos s < 0 then twos s + 2 ^ 32 else twos s) := by
  unfold counterDecode
  rw [C06_int_decode s h]
  by_cases hs : s = []
  · simp [hs]
  · simp [hs]

example : counterDecode [0xff, 0xff, 0xff, 0xff] = .ok 4294967295 ∧ counterDecode [0xff] = .ok 4294967295 ∧
    counterDecode [0, 0x80, 0, 0, 0] = .ok 2147483648 := by decide +kernel
/-- A counter contents of more than 4 octets can still decode to a negative value. -/
example : counterDecode [0x80, 0, 0, 0, 0] = .ok (-545460846592) := by decide +kernel

end Libsnmp
