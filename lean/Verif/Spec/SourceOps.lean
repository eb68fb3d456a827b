import Verif.Spec.Source
import Verif.Model.Arith
import Verif.Model.Text

/-!
# What it means that constructors and operators of the source text do what the model says
-/

namespace Libsnmp.Src
open Libsnmp

/-- The constructors of Integers on any value. -/
def newInt (c : IntCls) : Val → Except Exc Val
  | .int n => mkInteger c n
  | _ => .error .typeError

/-- What code that makes a new object must do: the new object is the value of the model, or there is its exception; and nothing
happens to the objects before `n`. -/
def NewOr (n : Nat) (h : Heap) (r : R V) (m : Except Exc Val) : Prop :=
  match m with
  | .ok v => ∃ h' x, r = okR x h' ∧ Kept n h h' ∧ Rep n h' v x
  | .error e => ∃ h' args, r = excR (.exc (excName e) args) h' ∧ Kept n h h'

/-- What `a + b` and `a - b` must do: the Integer `a` then has the number that the model says, the result is a new object or `None`,
and nothing happens to the other objects. -/
def Computes (lo : Nat) (h : Heap) (a : Nat) (c : IntCls) (r : R V) (m : OpResult) : Prop :=
  ∃ h', Base h' ∧ (∀ b, 9 ≤ b → b < h.length → b ≠ a → h'[b]? = h[b]?) ∧ Rep lo h' (.integer c m.self) (.ref a) ∧
    match m.result with
    | .ok v => ∃ x, r = okR x h' ∧ Rep h.length h' v x
    | .error e => ∃ args, r = excR (.exc (excName e) args) h'

/-- The numeral has no more digits than `int()` accepts. -/
def Short (cfg : Cfg) (s : Str) : Prop := cfg.digits = 0 ∨ (s.filter isDigit).length ≤ cfg.digits

/-- An argument of a constructor: `None`, a text, a number, a list or a tuple of numbers, an object. -/
def RepArg (lo : Nat) (h : Heap) : Arg → V → Prop
  | .none, x => x = .none
  | .str s, x => x = .str s
  | .bytes _, _ => False
  | .int n, x => x = .int n
  | .list l, x => ∃ b, x = .ref b ∧ h[b]? = some (.list (l.map V.int))
  | .tuple l, x => x = .tuple (l.map V.int)
  | .obj v, x => Obj v = true ∧ Rep lo h v x

end Libsnmp.Src
