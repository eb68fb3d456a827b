import Verif.Model.Obj

/-!
# When two SNMP objects are the same

Independent of the model's `==`; it uses only the model's representation of objects.
-/

namespace Spec
open Libsnmp

mutual
/-- Integers of any class are equal when their values are; all other objects when they have the same class and equal
values, sequences element by element. -/
inductive Equal : Val → Val → Prop
  | integer (c d : IntCls) (v : Int) : Equal (.integer c v) (.integer d v)
  | octets (c : OctCls) (v : Str) : Equal (.octets c v) (.octets c v)
  | raw (c : OctCls) (v : Raw) : Equal (.raw c v) (.raw c v)
  | oid (v : Option (List Int)) : Equal (.oid v) (.oid v)
  | null (c : NullCls) : Equal (.null c) (.null c)
  | seq (c : SeqCls) {l m : List Val} : EqualList l m → Equal (.seq c l) (.seq c m)
inductive EqualList : List Val → List Val → Prop
  | nil : EqualList [] []
  | cons {x y xs ys} : Equal x y → EqualList xs ys → EqualList (x :: xs) (y :: ys)
end

/-- An OctetString was made from an Integer object (and fails when it is encoded). -/
def _root_.Libsnmp.Raw.isNumber : Raw → Bool
  | .integer _ _ => true
  | _ => false

mutual
/-- An SNMP object all of whose components, to any depth, are SNMP objects (no bare Python values inside); no OctetString in it
was made from an Integer object. -/
inductive ObjectTree : Val → Prop
  | integer (c v) : ObjectTree (.integer c v)
  | octets (c v) : ObjectTree (.octets c v)
  | raw (c v) (h : v.isNumber = false) : ObjectTree (.raw c v)
  | oid (v) : ObjectTree (.oid v)
  | null (c) : ObjectTree (.null c)
  | seq (c) {l} : ObjectTrees l → ObjectTree (.seq c l)
inductive ObjectTrees : List Val → Prop
  | nil : ObjectTrees []
  | cons {x xs} : ObjectTree x → ObjectTrees xs → ObjectTrees (x :: xs)
end

/-- An Integer, Counter, ... object. -/
def IsInteger : Val → Prop
  | .integer _ _ => True
  | _ => False

end Spec
