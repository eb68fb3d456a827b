import Verif.Spec.SourceMgr
import Verif.Model.LongInts

/-!
# What `receiveData` must do in the heap

The callbacks are the user's code.  `Obeys` says when a function of the model (`User`) describes them: whatever they do to the manager
is what the model's function does, they return or raise, and apart from the manager they change only objects of their own.
-/

namespace Libsnmp.Src
open Libsnmp

/-- From the heap `h` to `h'`, only the manager at `a`, its queue at `q`, its dictionary at `d` and the user's own objects `U` have
changed; of the manager's attributes only `nextRequestID`. -/
structure Leaves (U : Nat → Prop) (a q d : Nat) (h h' : Heap) : Prop where
  base : Base h'
  len : h.length ≤ h'.length
  same : ∀ b, 9 ≤ b → b < h.length → b ≠ a → b ≠ q → b ≠ d → ¬ U b → h'[b]? = h[b]?
  wires : Wires a h h'

/-- How a call ends: it returns, or it raises the model's exception; `h'` is the heap afterwards. -/
def Ends (h' : Heap) (r : R V) : Except Exc Unit → Prop
  | .ok () => ∃ x, r = okR x h'
  | .error e => e ≠ .diverges ∧ ∃ x, r = excR x h' ∧ Raised h' e x

/-- The callbacks of the manager at `a` do what the model's function says, in every heap of at least `n` objects. -/
def Obeys (cfg : Cfg) (nm : Names) (env : Libsnmp.Env) (U : Nat → Prop) (n a : Nat) {k : Libsnmp.Kind} (user : User k) : Prop :=
  (∀ b, U b → b < n) ∧
  ∀ cb m (s : Mgr k) h x attrs q d, n ≤ h.length → Base h → MgrAt nm env h a s attrs q d → RepMsg n h m x →
    ∃ h' attrs', Leaves U a q d h h' ∧ MgrAt nm env h' a (user cb (some m) s).2 attrs' q d ∧
      Ends h' (call program cfg (nm.fn cb) [.ref a, .ref x] h) (user cb (some m) s).1

/-- What `receiveData` of the manager at `a` must do. -/
def Receives (nm : Names) (env : Libsnmp.Env) (U : Nat → Prop) (h : Heap) (a : Nat) {k : Libsnmp.Kind} (r : R V)
    (m : Except Exc Unit × Mgr k) : Prop :=
  ∃ h' attrs attrs' q d, h[a]? = some (.inst (mgrCid k) attrs) ∧ attrs.lookup "outbound" = some (.ref q) ∧
    attrs.lookup "callbacks" = some (.ref d) ∧ Leaves U a q d h h' ∧ MgrAt nm env h' a m.2 attrs' q d ∧ Ends h' r m.1

end Libsnmp.Src
