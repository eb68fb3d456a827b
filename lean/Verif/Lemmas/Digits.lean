import Verif.Lemmas.Bits

/-! Positional notation. -/

namespace Spec

@[simp] theorem octets_nil : Octets [] := by simp [Octets]
@[simp] theorem octets_cons {b : Nat} {s : List Nat} : Octets (b :: s) ↔ b < 256 ∧ Octets s := by
  simp [Octets]
@[simp] theorem octets_append {s t : List Nat} : Octets (s ++ t) ↔ Octets s ∧ Octets t := by
  simp only [Octets, List.mem_append]
  constructor
  · intro h; exact ⟨fun b hb => h b (Or.inl hb), fun b hb => h b (Or.inr hb)⟩
  · rintro ⟨h1, h2⟩ b (hb | hb)
    · exact h1 b hb
    · exact h2 b hb
theorem octets_take {s : List Nat} (h : Octets s) (n : Nat) : Octets (s.take n) :=
  fun b hb => h b (List.mem_of_mem_take hb)
theorem octets_drop {s : List Nat} (h : Octets s) (n : Nat) : Octets (s.drop n) :=
  fun b hb => h b (List.mem_of_mem_drop hb)

@[simp] theorem ofDigits_nil (b : Nat) : ofDigits b [] = 0 := rfl
theorem ofDigits_cons (b d : Nat) (ds : List Nat) : ofDigits b (d :: ds) = d * b ^ ds.length + ofDigits b ds := rfl

theorem ofDigits_append (b : Nat) (s t : List Nat) :
    ofDigits b (s ++ t) = ofDigits b s * b ^ t.length + ofDigits b t := by
  induction s with
  | nil => simp
  | cons d ds ih =>
    simp only [List.cons_append, ofDigits_cons, List.length_append, ih, pow_add]
    ring

@[simp] theorem ofDigits_singleton (b d : Nat) : ofDigits b [d] = d := by simp [ofDigits]

theorem ofDigits_snoc (b d : Nat) (s : List Nat) : ofDigits b (s ++ [d]) = ofDigits b s * b + d := by
  simp [ofDigits_append]

theorem ofDigits_lt {b : Nat} {s : List Nat} (h : ∀ d ∈ s, d < b) : ofDigits b s < b ^ s.length := by
  induction s with
  | nil => simp
  | cons d ds ih =>
    have h1 : d < b := h d (by simp)
    have h2 := ih (fun x hx => h x (by simp [hx]))
    rw [ofDigits_cons, List.length_cons, pow_succ]
    calc d * b ^ ds.length + ofDigits b ds < d * b ^ ds.length + b ^ ds.length := by omega
      _ = (d + 1) * b ^ ds.length := by ring
      _ ≤ b * b ^ ds.length := Nat.mul_le_mul_right _ h1
      _ = b ^ ds.length * b := by ring

theorem unsigned_lt {s : List Nat} (h : Octets s) : unsigned s < 256 ^ s.length := ofDigits_lt h

theorem ofDigits_ge {b d : Nat} {s : List Nat} (hd : d ≠ 0) : b ^ s.length ≤ ofDigits b (d :: s) := by
  rw [ofDigits_cons]
  have : 1 * b ^ s.length ≤ d * b ^ s.length := Nat.mul_le_mul_right _ (by omega)
  omega

/-- Folding in digits. -/
theorem foldl_digits (b : Nat) (s : List Nat) (a : Nat) :
    s.foldl (fun v d => v * b + d) a = a * b ^ s.length + ofDigits b s := by
  induction s generalizing a with
  | nil => simp
  | cons d ds ih => rw [List.foldl_cons, ih, ofDigits_cons, List.length_cons, pow_succ]; ring

/-- Digits of the same number and same length are equal. -/
theorem ofDigits_inj {b : Nat} {s t : List Nat} (hs : ∀ d ∈ s, d < b) (ht : ∀ d ∈ t, d < b)
    (hl : s.length = t.length) (h : ofDigits b s = ofDigits b t) : s = t := by
  induction s generalizing t with
  | nil => cases t with
    | nil => rfl
    | cons => simp at hl
  | cons d ds ih =>
    cases t with
    | nil => simp at hl
    | cons e es =>
      simp only [List.length_cons, Nat.add_right_cancel_iff] at hl
      rw [ofDigits_cons, ofDigits_cons, hl] at h
      have h1 := ofDigits_lt (fun x hx => hs x (List.mem_cons_of_mem _ hx))
      have h2 := ofDigits_lt (fun x hx => ht x (List.mem_cons_of_mem _ hx))
      rw [hl] at h1
      have hde : d = e := by
        rcases Nat.lt_trichotomy d e with hlt | heq | hgt
        · have : (d + 1) * b ^ es.length ≤ e * b ^ es.length := Nat.mul_le_mul_right _ hlt
          have : (d + 1) * b ^ es.length = d * b ^ es.length + b ^ es.length := by ring
          omega
        · exact heq
        · have : (e + 1) * b ^ es.length ≤ d * b ^ es.length := Nat.mul_le_mul_right _ hgt
          have : (e + 1) * b ^ es.length = e * b ^ es.length + b ^ es.length := by ring
          omega
      subst hde
      have : ofDigits b ds = ofDigits b es := by omega
      rw [ih (fun x hx => hs x (List.mem_cons_of_mem _ hx)) (fun x hx => ht x (List.mem_cons_of_mem _ hx)) hl this]

end Spec

namespace Libsnmp
open Spec

theorem foldl_shl8 {s : List Nat} (h : Octets s) (a : Nat) :
    s.foldl (fun v b => (v <<< 8) ||| b) a = a * 256 ^ s.length + unsigned s := by
  rw [unsigned, ← foldl_digits]
  induction s generalizing a with
  | nil => rfl
  | cons d ds ih =>
    simp only [octets_cons] at h
    rw [List.foldl_cons, List.foldl_cons, shl8_or h.1, ih h.2]

end Libsnmp
