import Verif.Spec.Represents

/-!
# How large objects and encodings are
-/

namespace Spec
open Libsnmp

/-- What an OctetString holds instead of a `str`: its length, or one. -/
def rawWeight : Raw → Nat
  | .bytes b => b.length
  | .list l => l.length
  | .tuple l => l.length
  | .octets _ s => 1 + s.length
  | .oid ids => 1 + (ids.getD []).length
  | _ => 1

mutual
/-- The space an object takes: one for each object, plus one for each character of a string and each sub-identifier of an
ObjectID in it. -/
def weight : Val → Nat
  | .none => 1
  | .int _ => 1
  | .str s => 1 + s.length
  | .bytes s => 1 + s.length
  | .integer _ _ => 1
  | .octets _ s => 1 + s.length
  | .raw _ v => 1 + rawWeight v
  | .oid ids => 1 + (ids.getD []).length
  | .null _ => 1
  | .seq _ items => 1 + weights items
def weights : List Val → Nat
  | [] => 0
  | v :: vs => weight v + weights vs
end

/-- Every integer in the object is smaller than `2 ^ b` in magnitude. -/
inductive Bits (b : Nat) : Val → Prop
  | none : Bits b .none
  | int (n : Int) (h : n.natAbs < 2 ^ b) : Bits b (.int n)
  | str (s : List Nat) : Bits b (.str s)
  | bytes (s : List Nat) : Bits b (.bytes s)
  | integer (c : IntCls) (n : Int) (h : n.natAbs < 2 ^ b) : Bits b (.integer c n)
  | octets (c : OctCls) (s : List Nat) : Bits b (.octets c s)
  | oid (ids : List Nat) (h : ∀ n ∈ ids, n < 2 ^ b) : Bits b (.oid (some (ints ids)))
  | unset : Bits b (.oid Option.none)
  | null (c : NullCls) : Bits b (.null c)
  | seq (c : SeqCls) (items : List Val) (h : ∀ v ∈ items, Bits b v) : Bits b (.seq c items)

/-- The octets an integer takes: header and at most 4, 5 or 9 octets of contents. -/
def integerRoom (n : Int) : Nat :=
  if -2147483648 ≤ n ∧ n ≤ 2147483647 then 6 else if 0 ≤ n ∧ n ≤ 4294967295 then 7 else 11

mutual
/-- An upper bound for the octets of an encoding that fits in a datagram: headers of four octets (two, where the contents are
short anyway), integers as above, five octets for each sub-identifier. -/
def room : Val → Nat
  | .none => 0
  | .int _ => 0
  | .bytes _ => 0
  | .str s => s.length
  | .integer _ n => integerRoom n
  | .octets _ s => 4 + s.length
  | .raw _ _ => 0
  | .oid ids => 4 + 5 * (ids.getD []).length
  | .null _ => 2
  | .seq _ items => 4 + rooms items
def rooms : List Val → Nat
  | [] => 0
  | v :: vs => room v + rooms vs
end

mutual
/-- A lower bound: headers of two octets, integers of one octet, one octet for each sub-identifier (and one for the first two
together). -/
def least : Val → Nat
  | .none => 0
  | .int _ => 0
  | .bytes _ => 0
  | .str s => s.length
  | .integer _ _ => 3
  | .octets _ s => 2 + s.length
  | .raw _ _ => 0
  | .oid ids => 1 + (ids.getD []).length
  | .null _ => 2
  | .seq _ items => 2 + leasts items
def leasts : List Val → Nat
  | [] => 0
  | v :: vs => least v + leasts vs
end

/-- Every integer in the object fits in 64 bits, every sub-identifier in 31 (as in all objects made from text). -/
inductive Moderate : Val → Prop
  | str (s : List Nat) : Moderate (.str s)
  | integer (c : IntCls) (n : Int) (h : -9223372036854775808 ≤ n ∧ n ≤ 18446744073709551615) : Moderate (.integer c n)
  | octets (c : OctCls) (s : List Nat) : Moderate (.octets c s)
  | oid (ids : List Nat) (h : ∀ n ∈ ids, n < 2 ^ 31) : Moderate (.oid (some (ints ids)))
  | null (c : NullCls) : Moderate (.null c)
  | seq (c : SeqCls) (items : List Val) (h : ∀ v ∈ items, Moderate v) : Moderate (.seq c items)

end Spec
