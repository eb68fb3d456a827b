import Verif.Lemmas.Digits
import Mathlib.Tactic.Linarith
import Mathlib.Tactic.Positivity

/-! Integer contents. -/

namespace Libsnmp
open Spec

theorem unsigned_cons (b : Nat) (s : List Nat) : unsigned (b :: s) = b * 256 ^ s.length + unsigned s := rfl

theorem foldl_pair {s : List Nat} (h : Octets s) (p q : Nat) :
    s.foldl (fun (p : Nat × Nat) b => (p.1 <<< 8, (p.2 <<< 8) ||| b)) (p, q) =
      (p * 256 ^ s.length, q * 256 ^ s.length + unsigned s) := by
  induction s generalizing p q with
  | nil => simp [unsigned]
  | cons d ds ih =>
    simp only [octets_cons] at h
    rw [List.foldl_cons, shl8_or h.1, shl8, ih h.2, unsigned_cons, List.length_cons, pow_succ]
    congr 1 <;> ring

theorem twos_high {b : Nat} {s : List Nat} (hb : 128 ≤ b) :
    twos (b :: s) = ((b - 128 : Nat) * 256 ^ s.length + unsigned s : Nat) - ((128 * 256 ^ s.length : Nat) : Int) := by
  rw [twos, if_neg (by omega), unsigned_cons]
  obtain ⟨c, rfl⟩ := Nat.exists_eq_add_of_le hb
  have : 128 + c - 128 = c := by omega
  rw [this]
  push_cast
  ring

theorem twos_low {b : Nat} {s : List Nat} (hb : b < 128) : twos (b :: s) = (unsigned (b :: s) : Int) := by
  rw [twos, if_pos hb]

theorem intDecode_eq {b : Nat} {s : List Nat} (h : Octets (b :: s)) : intDecode (b :: s) = .ok (twos (b :: s)) := by
  simp only [octets_cons] at h
  unfold intDecode
  by_cases hb : b < 128
  · rw [twos_low hb]
    simp only [and_80_octet h.1, hb, if_true]
    rw [if_neg (by decide), foldl_shl8 h.2, unsigned_cons]
  · rw [twos_high (by omega)]
    simp only [and_80_octet h.1, hb, if_false, if_true]
    rw [foldl_pair h.2, and_7f]
    have : b % 128 = b - 128 := by omega
    simp only [this]

theorem twos_range {s : List Nat} (h : Octets s) (hs : s ≠ []) :
    -(256 ^ s.length : Int) ≤ 2 * twos s ∧ 2 * twos s < 256 ^ s.length := by
  cases s with
  | nil => exact absurd rfl hs
  | cons b t =>
    simp only [octets_cons] at h
    have h1 : (unsigned t : Int) < 256 ^ t.length := by exact_mod_cast unsigned_lt h.2
    have h2 : (0 : Int) ≤ unsigned t := Int.natCast_nonneg _
    have hp : (0 : Int) < 256 ^ t.length := by positivity
    rw [List.length_cons, pow_succ]
    by_cases hb : b < 128
    · rw [twos_low hb, unsigned_cons]
      push_cast
      have h3 : (b : Int) * 256 ^ t.length ≤ 127 * 256 ^ t.length :=
        mul_le_mul_of_nonneg_right (by omega) hp.le
      have h4 : 0 ≤ (b : Int) * 256 ^ t.length := by positivity
      constructor <;> linarith
    · rw [twos, if_neg hb, unsigned_cons, pow_succ]
      push_cast
      have h3 : (b : Int) * 256 ^ t.length ≤ 255 * 256 ^ t.length :=
        mul_le_mul_of_nonneg_right (by omega) hp.le
      have h4 : 128 * 256 ^ t.length ≤ (b : Int) * 256 ^ t.length :=
        mul_le_mul_of_nonneg_right (by omega) hp.le
      constructor <;> linarith

theorem intEncodePos_spec (n : Nat) (acc : Str) :
    ∃ ds, intEncodePos n acc = ds ++ acc ∧ unsigned ds = n ∧ Octets ds ∧ (∀ d, ds.head? = some d → d ≠ 0) := by
  induction n using Nat.strong_induction_on generalizing acc with
  | _ n ih =>
    rw [intEncodePos]
    split
    · next hn =>
      rw [shr8, and_ff]
      obtain ⟨ds, h1, h2, h3, h4⟩ := ih (n / 256) (Nat.div_lt_self (by omega) (by decide)) (n % 256 :: acc)
      refine ⟨ds ++ [n % 256], by rw [h1]; simp, ?_, ?_, ?_⟩
      · rw [unsigned, ofDigits_snoc, ← unsigned, h2]; omega
      · simp [h3]; omega
      · intro d hd
        cases ds with
        | nil =>
          simp at hd
          simp [unsigned] at h2
          omega
        | cons e es => exact h4 d (by simpa using hd)
    · next hn =>
      exact ⟨[], by simp, by simp [unsigned]; omega, by simp, by simp⟩

theorem intEncodeNeg_spec (v : Int) (hv : v < 0) (acc : Str) :
    ∃ ds, intEncodeNeg v acc = ds ++ acc ∧ Octets ds ∧ (unsigned ds : Int) = v + 256 ^ ds.length ∧
      (v < -1 → 1 ≤ ds.length ∧ v < -(256 ^ (ds.length - 1) : Int)) := by
  induction h : v.natAbs using Nat.strong_induction_on generalizing v acc with
  | _ n ih =>
    rw [intEncodeNeg]
    split
    · next hn =>
      rw [intShr8, land_ff]
      obtain ⟨ds, h1, h3, h2, h4⟩ := ih (v / 256).natAbs (by omega) (v / 256) (by omega) ((v % 256).toNat :: acc) rfl
      refine ⟨ds ++ [(v % 256).toNat], by rw [h1]; simp, ?_, ?_, ?_⟩
      · simp [h3]; omega
      · rw [unsigned, ofDigits_snoc, ← unsigned]
        push_cast
        rw [h2, List.length_append, pow_add, List.length_singleton, Int.toNat_of_nonneg (by omega)]
        have := Int.mul_ediv_add_emod v 256
        linarith
      · intro _
        refine ⟨by simp, ?_⟩
        simp only [List.length_append, List.length_singleton, Nat.add_sub_cancel]
        by_cases hq : v / 256 < -1
        · obtain ⟨h5, h6⟩ := h4 hq
          obtain ⟨m, hm⟩ := Nat.exists_eq_add_of_le h5
          rw [hm] at h6 ⊢
          rw [Nat.add_sub_cancel_left] at h6
          rw [pow_add]
          have h7 : v / 256 + 1 ≤ -(256 ^ m : Int) := by omega
          have := Int.mul_ediv_add_emod v 256
          have := Int.emod_lt_of_pos v (show (0 : Int) < 256 by decide)
          linarith
        · have : ds = [] := by
            have hq' : v / 256 = -1 := by omega
            rw [hq'] at h2 h1
            rw [intEncodeNeg] at h1
            simp only [lt_self_iff_false, dite_false] at h1
            simpa using h1
          subst this
          simpa using hn
    · next hn =>
      have : v = -1 := by omega
      subst this
      exact ⟨[], by simp, by simp, by simp [unsigned], by simp⟩

/-- The two shapes of an encoded integer. -/
theorem intEncode_nonneg {v : Int} (hv : 0 < v) : ∃ d ds, Octets (d :: ds) ∧ (unsigned (d :: ds) : Int) = v ∧ d ≠ 0 ∧
    intEncode v = if d < 128 then d :: ds else 0 :: d :: ds := by
  obtain ⟨l, h1, h2, h3, h4⟩ := intEncodePos_spec v.toNat []
  cases l with
  | nil => simp [unsigned] at h2; omega
  | cons d ds =>
    refine ⟨d, ds, h3, by omega, h4 d rfl, ?_⟩
    simp only [octets_cons] at h3
    unfold intEncode
    rw [if_neg (by omega), if_neg (by omega), if_pos (by omega), h1]
    simp only [List.append_nil, List.headD_cons, and_80_octet h3.1]
    by_cases hd : d < 128 <;> simp [hd]

theorem intEncode_neg {v : Int} (hv : v < -1) : ∃ d ds, Octets (d :: ds) ∧
    (unsigned (d :: ds) : Int) = v + 256 ^ (ds.length + 1) ∧ v < -(256 ^ ds.length : Int) ∧
    intEncode v = if d < 128 then 0 :: d :: ds else d :: ds := by
  obtain ⟨l, h1, h3, h2, h4⟩ := intEncodeNeg_spec v (by omega) []
  obtain ⟨h5, h6⟩ := h4 hv
  cases l with
  | nil => simp at h5
  | cons d ds =>
    refine ⟨d, ds, h3, by simpa using h2, by simpa using h6, ?_⟩
    simp only [octets_cons] at h3
    unfold intEncode
    rw [if_neg (by omega), if_neg (by omega), if_neg (by omega), h1]
    simp only [List.append_nil, List.headD_cons, and_80_octet h3.1]
    by_cases hd : d < 128 <;> simp [hd]

theorem intEncode_octets (v : Int) : Octets (intEncode v) ∧ intEncode v ≠ [] := by
  by_cases h0 : v = 0
  · subst h0; simp [intEncode, Octets]
  · by_cases h1 : v = -1
    · subst h1; simp [intEncode, Octets]
    · by_cases hp : 0 < v
      · obtain ⟨d, ds, h, _, _, e⟩ := intEncode_nonneg hp
        rw [e]; split
        · exact ⟨h, by simp⟩
        · refine ⟨?_, by simp⟩
          rw [octets_cons]; exact ⟨by decide, h⟩
      · obtain ⟨d, ds, h, _, _, e⟩ := intEncode_neg (v := v) (by omega)
        rw [e]; split
        · refine ⟨?_, by simp⟩
          rw [octets_cons]; exact ⟨by decide, h⟩
        · exact ⟨h, by simp⟩

theorem twos_zero_cons {s : List Nat} : twos (0 :: s) = (unsigned s : Int) := by
  rw [twos_low (by decide), unsigned_cons]; simp

/-- First digit from the value. -/
theorem head_lt_iff {d : Nat} {ds : List Nat} (h : Octets (d :: ds)) :
    d < 128 ↔ 2 * (unsigned (d :: ds) : Int) < 256 ^ (ds.length + 1) := by
  simp only [octets_cons] at h
  have h1 : (unsigned ds : Int) < 256 ^ ds.length := by exact_mod_cast unsigned_lt h.2
  have h2 : (0 : Int) ≤ unsigned ds := Int.natCast_nonneg _
  have hp : (0 : Int) < 256 ^ ds.length := by positivity
  rw [unsigned_cons, pow_succ]
  push_cast
  constructor
  · intro hd
    have h3 : (d : Int) * 256 ^ ds.length ≤ 127 * 256 ^ ds.length :=
      mul_le_mul_of_nonneg_right (by omega) hp.le
    linarith
  · intro h3
    by_contra hd
    have h4 : 128 * 256 ^ ds.length ≤ (d : Int) * 256 ^ ds.length :=
      mul_le_mul_of_nonneg_right (by omega) hp.le
    linarith

/-- Values the encoder gets wrong. -/
theorem twos_intEncode (v : Int) :
    twos (intEncode v) = v ∧ (∀ k : Nat, 1 ≤ k → ¬ (-(256 ^ k : Int) ≤ v ∧ 2 * v < -(256 ^ k : Int))) ∨
    ∃ k : Nat, 1 ≤ k ∧ -(256 ^ k : Int) ≤ v ∧ 2 * v < -(256 ^ k : Int) ∧ twos (intEncode v) = v + 256 ^ k ∧
      (intEncode v).length = k + 1 := by
  have pos : ∀ k : Nat, (0 : Int) < 256 ^ k := fun k => by positivity
  by_cases h0 : v = 0
  · left; subst h0
    refine ⟨by decide +kernel, fun k hk => ?_⟩
    have := pos k
    omega
  · by_cases h1 : v = -1
    · left; subst h1
      refine ⟨by decide +kernel, fun k hk => ?_⟩
      have : (256 : Int) ^ 1 ≤ 256 ^ k := pow_le_pow_right₀ (by decide) hk
      omega
    · by_cases hp : 0 < v
      · left
        obtain ⟨d, ds, h, h2, _, e⟩ := intEncode_nonneg hp
        refine ⟨?_, fun k hk => by have := pos k; omega⟩
        rw [e]; split
        · next hd => rw [twos_low hd, h2]
        · rw [twos_zero_cons, h2]
      · obtain ⟨d, ds, h, h2, h3, e⟩ := intEncode_neg (v := v) (by omega)
        have hd := head_lt_iff h
        rw [h2] at hd
        rw [e]
        split
        · next hd' =>
          right
          refine ⟨ds.length + 1, by omega, ?_, ?_, ?_, by simp⟩
          · have := Int.natCast_nonneg (unsigned (d :: ds)); omega
          · have := hd.mp hd'; omega
          · rw [twos_zero_cons, h2]
        · next hd' =>
          left
          constructor
          · rw [twos, if_neg hd', h2]; omega
          · rintro k hk ⟨h4, h5⟩
            have hd'' : ¬ (2 * (v + 256 ^ (ds.length + 1)) < 256 ^ (ds.length + 1)) := fun h' => hd' (hd.mpr h')
            -- 256^len < -v ≤ 256^(len+1)/2 ; 256^k ≥ -v > 256^k/2
            have h6 : (256 : Int) ^ ds.length < 256 ^ k := by omega
            have h7 := (pow_lt_pow_iff_right₀ (show (1 : Int) < 256 by decide)).mp h6
            have h8 : (256 : Int) ^ (ds.length + 1) ≤ 256 ^ k := pow_le_pow_right₀ (by decide) h7
            omega

/-- Left fold over octets on integers. -/
theorem foldl_intShl8 {s : List Nat} (h : Octets s) (a : Int) :
    (s.map Int.ofNat).foldl (fun x y => Int.lor (x <<< (8 : Nat)) y) a = a * 256 ^ s.length + unsigned s := by
  induction s generalizing a with
  | nil => simp [unsigned]
  | cons d ds ih =>
    simp only [octets_cons] at h
    have e : Int.ofNat d = (d : Int) := rfl
    rw [List.map_cons, List.foldl_cons, e, intShl8_lor a h.1, ih h.2, unsigned_cons, List.length_cons, pow_succ]
    push_cast; ring

/-- Folding over indices is folding over the tail. -/
theorem foldl_range_getElem {α : Type} (f : α → Nat → α) (a : α) (b : Nat) (t : List Nat) :
    (List.range t.length).foldl (fun p i => f p ((b :: t)[i + 1]?.getD 0)) a = t.foldl f a := by
  induction t using List.reverseRecOn generalizing a with
  | nil => simp
  | append_singleton t x ih =>
    rw [List.length_append, List.length_singleton, List.range_succ, List.foldl_append, List.foldl_append]
    simp only [List.foldl_cons, List.foldl_nil]
    have e : (b :: (t ++ [x]))[t.length + 1]?.getD 0 = x := by simp
    rw [e]
    have e2 : List.foldl (fun p i => f p ((b :: (t ++ [x]))[i + 1]?.getD 0)) a (List.range t.length) =
        List.foldl (fun p i => f p ((b :: t)[i + 1]?.getD 0)) a (List.range t.length) := by
      apply List.foldl_ext
      intro p i hi
      have hi' : i < t.length := List.mem_range.mp hi
      rw [List.getElem?_cons_succ, List.getElem?_cons_succ, List.getElem?_append_left hi']
    rw [e2, ih]

theorem twos_length_bound {v : Int} {k : Nat} (hk : 1 ≤ k) (h1 : -(256 ^ k : Int) ≤ 2 * v) (h2 : 2 * v < 256 ^ k) :
    (intEncode v).length ≤ k := by
  by_cases h0 : v = 0
  · subst h0; simpa [intEncode] using hk
  · by_cases hm : v = -1
    · subst hm; simpa [intEncode] using hk
    · by_cases hp : 0 < v
      · obtain ⟨d, ds, h, h3, hd0, e⟩ := intEncode_nonneg hp
        have hlt := head_lt_iff h
        rw [h3] at hlt
        rw [e]; split
        · have h4 : ((256 ^ ds.length : Nat) : Int) ≤ v := by
            rw [← h3]; exact_mod_cast ofDigits_ge (b := 256) (s := ds) hd0
          push_cast at h4
          have h5 : (256 : Int) ^ ds.length < 256 ^ k := by
            have : (0 : Int) < 256 ^ ds.length := by positivity
            omega
          have := (pow_lt_pow_iff_right₀ (show (1 : Int) < 256 by decide)).mp h5
          simp only [List.length_cons]; omega
        · next hd =>
          have h4 : ¬ (2 * v < 256 ^ (ds.length + 1)) := fun h' => hd (hlt.mpr h')
          have h5 : (256 : Int) ^ (ds.length + 1) < 256 ^ k := by omega
          have := (pow_lt_pow_iff_right₀ (show (1 : Int) < 256 by decide)).mp h5
          simp only [List.length_cons]; omega
      · obtain ⟨d, ds, h, h3, h4, e⟩ := intEncode_neg (v := v) (by omega)
        have hlt := head_lt_iff h
        rw [h3] at hlt
        rw [e]; split
        · next hd =>
          have h5 := hlt.mp hd
          have h6 : (256 : Int) ^ (ds.length + 1) < 256 ^ k := by omega
          have := (pow_lt_pow_iff_right₀ (show (1 : Int) < 256 by decide)).mp h6
          simp only [List.length_cons]; omega
        · have h6 : (256 : Int) ^ ds.length < 256 ^ k := by
            have : (0 : Int) < 256 ^ ds.length := by positivity
            omega
          have := (pow_lt_pow_iff_right₀ (show (1 : Int) < 256 by decide)).mp h6
          simp only [List.length_cons]; omega

end Libsnmp
