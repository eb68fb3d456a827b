import Verif.Spec.SourceHistory

/-!
# What can be read off a manager object in the heap

Its attributes `callbacks`, `outbound` and `nextRequestID`, as the heap holds them; no model is involved.
-/

namespace Libsnmp.Src

/-- The key `x` of a dictionary stands for the number `n`: it is the number, or an Integer object of this value. -/
def KeyIs (h : Heap) (x : V) (n : Int) : Prop :=
  x = .int n ∨ ∃ b c attrs, x = .ref b ∧ h[b]? = some (.inst c attrs) ∧ attrs.lookup "value" = some (.int n)

/-- Request number `n` waits for an answer, with the callback `g`. -/
def Waits (h : Heap) (a : Nat) (n : Int) (g : V) : Prop :=
  ∃ c attrs d es x, h[a]? = some (.inst c attrs) ∧ attrs.lookup "callbacks" = some (.ref d) ∧ h[d]? = some (.dict es) ∧ (x, g) ∈ es ∧ KeyIs h x n

/-- The items of the queue. -/
def Queued (h : Heap) (a : Nat) (xs : List V) : Prop :=
  ∃ c attrs q, h[a]? = some (.inst c attrs) ∧ attrs.lookup "outbound" = some (.ref q) ∧ h[q]? = some (.queue xs)

/-- `self.nextRequestID`: of the object, or if it has none, 0, of the class. -/
def Next (h : Heap) (a : Nat) (n : Int) : Prop :=
  ∃ c attrs, h[a]? = some (.inst c attrs) ∧
    (attrs.lookup "nextRequestID" = some (.int n) ∨ attrs.lookup "nextRequestID" = none ∧ n = 0)

end Libsnmp.Src
