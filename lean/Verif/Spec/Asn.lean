import Verif.Spec.Ber

/-!
# SNMP abstract values and their BER encodings

Independent of the model.  The relation `Ber` allows every definite-length form of the length field, and integer
contents of any length (a superset of X.690, which asks for the shortest).
-/

namespace Spec

/-- Unsigned types: Counter, Gauge, TimeTicks, Counter64. -/
inductive UKind where
  | counter | gauge | timeTicks | counter64
deriving DecidableEq, Repr

/-- String types. -/
inductive SKind where
  | octetString | ipAddress | opaque
deriving DecidableEq, Repr

/-- NULL and the SNMPv2 exception values. -/
inductive NKind where
  | null | noSuchObject | noSuchInstance | endOfMibView
deriving DecidableEq, Repr

/-- Identifier octets (RFC 1155, 1902, 1905). -/
def UKind.tag : UKind → Nat
  | .counter => 0x41 | .gauge => 0x42 | .timeTicks => 0x43 | .counter64 => 0x46
def SKind.tag : SKind → Nat
  | .octetString => 0x04 | .ipAddress => 0x40 | .opaque => 0x44
def NKind.tag : NKind → Nat
  | .null => 0x05 | .noSuchObject => 0x80 | .noSuchInstance => 0x81 | .endOfMibView => 0x82

/-- SNMP abstract values. -/
inductive Asn where
  | integer (v : Int)
  | unsigned (k : UKind) (n : Nat)
  | string (k : SKind) (s : List Nat)
  | null (k : NKind)
  | oid (ids : List Nat)
  | seq (items : List Asn)
deriving Repr

/-- `s` is identifier octet, some definite-length length field, contents. -/
def Tlv (tag : Nat) (contents s : List Nat) : Prop :=
  ∃ f, LengthField contents.length f ∧ s = tag :: (f ++ contents)

/-- Contents octets of an object identifier (X.690, 8.19): the first two sub-identifiers share the first group. -/
inductive OidContents : List Nat → List Nat → Prop
  | mk (a b : Nat) (rest g t : List Nat) (ha : a ≤ 2) (hb : a < 2 → b < 40)
      (hg : Base128 (40 * a + b) g) (hmin : g.head? ≠ some 0x80) (ht : Base128List rest t) :
      OidContents (a :: b :: rest) (g ++ t)

mutual
/-- `Ber a s`: `s` is a definite-length encoding of the abstract value `a`. -/
inductive Ber : Asn → List Nat → Prop
  | integer (c s : List Nat) (hne : c ≠ []) (ho : Octets c) (h : Tlv 0x02 c s) : Ber (.integer (twos c)) s
  | unsigned (k : UKind) (n : Nat) (c s : List Nat) (hne : c ≠ []) (ho : Octets c) (hv : twos c = n)
      (h : Tlv k.tag c s) : Ber (.unsigned k n) s
  | string (k : SKind) (c s : List Nat) (h : Tlv k.tag c s) : Ber (.string k c) s
  | null (k : NKind) (s : List Nat) (h : Tlv k.tag [] s) : Ber (.null k) s
  | oid (ids c s : List Nat) (hc : OidContents ids c) (h : Tlv 0x06 c s) : Ber (.oid ids) s
  | seq (items : List Asn) (c s : List Nat) (hc : BerList items c) (h : Tlv 0x30 c s) : Ber (.seq items) s
/-- Concatenated encodings. -/
inductive BerList : List Asn → List Nat → Prop
  | nil : BerList [] []
  | cons {x xs s t} : Ber x s → BerList xs t → BerList (x :: xs) (s ++ t)
end

/-- Integers that the library's encoder gets right (see C08): not in any band `[-256^k, -256^k/2 - 1]`, `k ≥ 1`. -/
def OutOfBand (v : Int) : Prop := ∀ k : Nat, 1 ≤ k → ¬ (-(256 ^ k : Int) ≤ v ∧ 2 * v < -(256 ^ k : Int))

end Spec
