import Verif.Spec.Ber

/-!
# Specification vocabulary for text forms

Characters are code points: `46` is a full stop, `48`–`57` the decimal digits, `95` an underscore.
-/

namespace Spec

/-- The digits of the numeral of `n` in base `base`: no superfluous leading zero. -/
def Numeral (base n : Nat) (ds : List Nat) : Prop :=
  (∀ d ∈ ds, d < base) ∧ ds ≠ [] ∧ (ds.head? = some 0 → ds = [0]) ∧ ofDigits base ds = n

/-- Decimal numerals separated by full stops: `DottedText [1, 3, 6] "1.3.6"`. -/
inductive DottedText : List Nat → List Nat → Prop
  | one {n ds} : Numeral 10 n ds → DottedText [n] (ds.map (· + 48))
  | cons {n ds ns t} : Numeral 10 n ds → DottedText ns t → DottedText (n :: ns) (ds.map (· + 48) ++ 46 :: t)

/-- A non-empty run of digits in which single underscores may separate digits. -/
inductive DigitRun : List Nat → List Nat → Prop
  | last {d} : d < 10 → DigitRun [d] [d + 48]
  | next {d ds t} : d < 10 → DigitRun ds t → DigitRun (d :: ds) ((d + 48) :: t)
  | underscore {d ds t} : d < 10 → DigitRun ds t → DigitRun (d :: ds) ((d + 48) :: 95 :: t)

/-- ASCII white space, as `int()` understands it. -/
def White (s : List Nat) : Prop := ∀ c ∈ s, (9 ≤ c ∧ c ≤ 13) ∨ (28 ≤ c ∧ c ≤ 32)

/-- Text that `int()` reads as `n`: white space, an optional sign, a run of digits, white space. -/
inductive IntText : Int → List Nat → Prop
  | plain {u w ds t} : White u → White w → DigitRun ds t → IntText (ofDigits 10 ds : Nat) (u ++ t ++ w)
  | plus {u w ds t} : White u → White w → DigitRun ds t → IntText (ofDigits 10 ds : Nat) (u ++ 43 :: t ++ w)
  | minus {u w ds t} : White u → White w → DigitRun ds t → IntText (-(ofDigits 10 ds : Nat)) (u ++ 45 :: t ++ w)

/-- Pieces (none containing a full stop) put together with full stops between them. -/
inductive Pieces : List (List Nat) → List Nat → Prop
  | one {p} : 46 ∉ p → Pieces [p] p
  | cons {p ps t} : 46 ∉ p → Pieces ps t → Pieces (p :: ps) (p ++ 46 :: t)

/-- Lower-case hexadecimal digit characters. -/
def hexChars : List Nat := [48, 49, 50, 51, 52, 53, 54, 55, 56, 57, 97, 98, 99, 100, 101, 102]

end Spec
