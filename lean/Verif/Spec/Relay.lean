import Verif.Spec.Protocol

/-!
# What the far end sees when a received value is sent on

Independent of the model.
-/

namespace Spec
open Libsnmp

mutual
/-- `Echo a a'`: whoever is sent the object in which `a` was received gets `a'`.  Integers in a band of C08 change their
value, Opaque and the three exception values change their type; a Counter64 has no echo. -/
inductive Echo : Asn → Asn → Prop
  | integer {v} : OutOfBand v → Echo (.integer v) (.integer v)
  | band {v : Int} {k : Nat} : 1 ≤ k → -(256 ^ k : Int) ≤ v → 2 * v < -(256 ^ k : Int) → Echo (.integer v) (.integer (v + 256 ^ k))
  | unsigned {k n} : k ≠ .counter64 → Echo (.unsigned k n) (.unsigned k n)
  | string {k s} : k ≠ .opaque → Echo (.string k s) (.string k s)
  | opaque {s} : Echo (.string .opaque s) (.string .octetString s)
  | null {k} : Echo (.null k) (.null .null)
  | oid {a b rest} : a ≤ 2 → (a < 2 → b < 40) → Echo (.oid (a :: b :: rest)) (.oid (a :: b :: rest))
  | seq {as bs} : EchoAll as bs → Echo (.seq as) (.seq bs)
/-- Element by element. -/
inductive EchoAll : List Asn → List Asn → Prop
  | nil : EchoAll [] []
  | cons {a b as bs} : Echo a b → EchoAll as bs → EchoAll (a :: as) (b :: bs)
end

/-- There is a Counter64 in the value. -/
inductive HasCounter64 : Asn → Prop
  | here {n} : HasCounter64 (.unsigned .counter64 n)
  | inside {a as} : a ∈ as → HasCounter64 a → HasCounter64 (.seq as)

/-- The same for a variable binding: the name stays as it is. -/
def EchoVB (b b' : VB) : Prop := Echo (.oid b.name) (.oid b'.name) ∧ Echo b.value b'.value

/-- `x.encode()` returns an encoding of `a` (as long as a length field can say how long it is). -/
def Emits (x : Val) (a : Asn) : Prop := ∃ o, x.encode = .ok o ∧ (o.length < 256 ^ 127 → Ber a o)

end Spec
