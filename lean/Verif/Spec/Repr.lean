import Verif.Spec.Text
import Mathlib.Data.List.Forall2

/-!
# How Python writes a bytes object

From the language reference: `repr(b)` is a bytes literal, in apostrophes unless it holds an apostrophe and no quotation mark;
tab, newline and carriage return have their letter escapes, other characters outside 32..126 are written `\xhh` in lower
case.
-/

namespace Spec

/-- The octet `c`, in a literal delimited by `q`, is written `t`. -/
inductive ByteText (q : Nat) : Nat → List Nat → Prop
  | escaped {c} : c = 92 ∨ c = q → ByteText q c [92, c]
  | tab : ByteText q 9 [92, 116]
  | newline : ByteText q 10 [92, 110]
  | ret : ByteText q 13 [92, 114]
  | plain {c} : 32 ≤ c → c ≤ 126 → c ≠ 92 → c ≠ q → ByteText q c [c]
  | hex {c} : c < 32 ∨ 126 < c → c ∉ [9, 10, 13] → ByteText q c [92, 120, hexChars.getD (c / 16) 0, hexChars.getD (c % 16) 0]

/-- The text of the bytes `b`. -/
def BytesText (b t : List Nat) : Prop :=
  ∃ q parts, (q = 34 ∧ 39 ∈ b ∧ 34 ∉ b ∨ q = 39 ∧ ¬ (39 ∈ b ∧ 34 ∉ b)) ∧ List.Forall₂ (ByteText q) b parts ∧
    t = 98 :: q :: (parts.flatten ++ [q])

end Spec
