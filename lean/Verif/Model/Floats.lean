import Mathlib.Data.Int.Log
import Mathlib.Data.Rat.Floor
import Verif.Py

/-!
# Python's `float`

An IEEE 754 binary64 number; the finite ones are rationals, and that is how they are modelled here.  Nothing in this file models
`/repo` itself.
-/

namespace Libsnmp

/-! ## binary64 -/

/-- The nearest integer, the even one of two equally near ones. -/
def roundEven (q : ℚ) : ℤ :=
  if q - ⌊q⌋ < 1 / 2 then ⌊q⌋
  else if 1 / 2 < q - ⌊q⌋ then ⌊q⌋ + 1
  else if ⌊q⌋ % 2 = 0 then ⌊q⌋ else ⌊q⌋ + 1

/-- The nearest binary64 number to a rational that is not negative: 53 significant bits, exponents from -1022 to 1023,
gradual underflow.  `none` is infinity. -/
def toDouble (q : ℚ) : Option ℚ :=
  if q ≤ 0 then some 0
  else
    let ulp : ℚ := 2 ^ (max (Int.log 2 q) (-1022) - 52)
    let r := roundEven (q / ulp) * ulp
    if r < 2 ^ (1024 : ℤ) then some r else none

/-- A possibly empty run of decimal digits with underscores between them: its value and the number of its digits. -/
def floatDigits (t : Str) : Option (Nat × Nat) :=
  if t = [] then some (0, 0)
  else (parseDigits t 0 false).map fun n => (n, (t.filter isDigit).length)

/-- The exponent of a number: an optional sign and at least one digit. -/
def floatExponent : Str → Option Int
  | 43 :: t => (parseDigits t 0 false).map fun n => (n : Int)
  | 45 :: t => (parseDigits t 0 false).map fun n => -(n : Int)
  | t => (parseDigits t 0 false).map fun n => (n : Int)

/-- The exact value spelled by the text of a number without sign: digits, optional full stop and digits, optional
exponent.  Simplification: `inf` and `nan`, which `float()` accepts and which `int()` then refuses, are refused here,
and so are non-ASCII digits. -/
def floatMagnitude (t : Str) : Option ℚ :=
  let isE := fun c : Nat => c == 101 || c == 69
  let mantissa := t.takeWhile fun c => !isE c
  let whole := mantissa.takeWhile (· != 46)
  match floatDigits whole, floatDigits (mantissa.dropWhile (· != 46)).tail,
      (match t.dropWhile fun c => !isE c with | [] => some 0 | _ :: x => floatExponent x) with
  | some (a, j), some (b, k), some e => if j + k = 0 then none else some ((a + b / 10 ^ k) * 10 ^ e)
  | _, _, _ => none

/-- The sign of a number, and the rest. -/
def floatSign : Str → Bool × Str
  | 43 :: ds => (false, ds)
  | 45 :: ds => (true, ds)
  | ds => (false, ds)

end Libsnmp
