import Mathlib.Data.Rat.Floor
import Verif.Spec.Text

/-!
# Specification vocabulary for number forms
-/

namespace Spec

/-- Upper-case hexadecimal digit characters. -/
def hexCharsUpper : List Nat := [48, 49, 50, 51, 52, 53, 54, 55, 56, 57, 65, 66, 67, 68, 69, 70]

/-- A numeral with a base prefix, as Python writes an int: a minus sign if it is negative, `0` and the letter of the base,
and the digits, each written as the character in its position in `chars`. -/
def Prefixed (base letter : Nat) (chars : List Nat) (n : Int) (t : List Nat) : Prop :=
  ∃ ds, Numeral base n.natAbs ds ∧
    t = (if n < 0 then [45] else []) ++ [48, letter] ++ ds.map fun d => chars.getD d 0

/-- What the kernel writes in /proc/uptime after `h` hundredths of a second: the seconds, a full stop, two decimals, a
blank, and something else. -/
inductive UptimeText : Nat → List Nat → Prop
  | mk {s c ds rest} : Numeral 10 s ds → c < 100 →
      UptimeText (100 * s + c) (ds.map (· + 48) ++ [46, c / 10 + 48, c % 10 + 48, 32] ++ rest)

end Spec
