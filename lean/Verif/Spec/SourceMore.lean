import Verif.Spec.Source
import Verif.Spec.Text

/-!
# What a program does with a counter or a gauge: additions and subtractions, one after another
-/

namespace Libsnmp.Src
open Libsnmp Spec

/-- `x + n` or `x - n`. -/
inductive Tally where
  | add (n : Int)
  | sub (n : Int)

def Tally.amount : Tally → Int
  | .add n => n
  | .sub n => n

/-- Doing it with the object `a`. -/
def Tally.run (cfg : Cfg) (a : Nat) (h : Heap) : Tally → R V
  | .add n => binop program cfg .add (.ref a) (.int n) h
  | .sub n => binop program cfg .sub (.ref a) (.int n) h

/-- The steps are done one after another from the heap `h`, they return `xs`, and leave the heap `g`. -/
inductive Sums (cfg : Cfg) (a : Nat) : Heap → List Tally → List V → Heap → Prop
  | nil {h} : Sums cfg a h [] [] h
  | cons {h h1 g op ops x xs} : op.run cfg a h = okR x h1 → Sums cfg a h1 ops xs g → Sums cfg a h (op :: ops) (x :: xs) g

/-- A reading that stops at the maximum and at zero. -/
def latched (v : Int) : List Tally → Int
  | [] => v
  | .add n :: ops => latched (min (v + n) 4294967295) ops
  | .sub n :: ops => latched (max (v - n) 0) ops

/-- A text that is accepted as an object identifier, and its numbers: dots at either end do not count, and between them are numerals
below 2^31 (in Python's notation) separated by dots. -/
def OidText (s : Str) (l : List Int) : Prop :=
  ∃ u t w ps, s = u ++ t ++ w ∧ (∀ c ∈ u, c = 46) ∧ (∀ c ∈ w, c = 46) ∧ t.head? ≠ some 46 ∧ t.getLast? ≠ some 46 ∧ Pieces ps t ∧
    List.Forall₂ (fun p n => IntText n p ∧ 0 ≤ n ∧ n < 2 ^ 31) ps l

/-- A text that is accepted as an IP address, and its contents: four numerals separated by dots. -/
def IpText (s l : Str) : Prop :=
  ∃ ps, Pieces ps s ∧ l.length = 4 ∧ List.Forall₂ (fun p (n : Nat) => IntText n p ∧ n ≤ 0x10FFFF) ps l

end Libsnmp.Src
