import Verif.Model.Channels

/-!
# Histories of a process that opens and closes managers
-/

namespace Spec
open Libsnmp

/-- The operating system gives out only descriptor numbers that are not taken. -/
def Given (p : Fds) : ChanOp → Prop
  | .create f | .send _ f | .otherOpen f => p.inUse f = false
  | _ => True

/-- `After p h q`: from `p`, the things in `h` happened, in order, and now it is `q`. -/
inductive After : Fds → List ChanOp → Fds → Prop
  | nil (p) : After p [] p
  | snoc {p h q} (o : ChanOp) : After p h q → Given q o → After p (h ++ [o]) (o.run q)

/-- Manager `i` sends from descriptor `f`: answers to its requests arrive there. -/
def SendsFrom (p : Fds) (i f : Nat) : Prop := ∀ g, p.inUse g = false → (chanSend i g p) = (.ok f, p)

/-- The loop serves manager `i`: it can be run, and a datagram that arrives where the manager sends from is read, by this
manager. -/
def Served (p : Fds) (i : Nat) : Prop := pollSelect p = .ok () ∧ ∃ f, SendsFrom p i f ∧ pollRead f p = some (i, .ok f)

/-- The loop never reads for manager `i`. -/
def Deaf (p : Fds) (i : Nat) : Prop := ∀ f r, pollRead f p ≠ some (i, r)

end Spec
