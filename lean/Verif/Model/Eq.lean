import Verif.Model.Obj

/-!
# `==`, `!=` and `hash()`

Python evaluates `a == b` by calling `type(b).__eq__(b, a)` if `type(b)` is a proper subclass of `type(a)`, and
`type(a).__eq__(a, b)` otherwise; if the method of a built-in type does not know the other operand, the other operand's
method is called.  No `__eq__` of this library returns NotImplemented, so the first of its methods to be called decides.
List comparison compares lengths first, then elements until the first unequal pair.  (Python's shortcut for identical
elements changes nothing, because `==` is reflexive here: theorem C37_reflexive.)
-/

namespace Libsnmp

/-- `==` between built-in values (`None`, `int`, `str`, `bytes`). -/
def builtinEq : Val → Val → Bool
  | .none, .none => true
  | .int a, .int b => decide (a = b)
  | .str a, .str b => decide (a = b)
  | .bytes a, .bytes b => decide (a = b)
  | _, _ => false

/-- rfc1155.py:332-340 `Integer.__eq__`: `self.value == int(other)`; exceptions of `int()` propagate. -/
def integerEq (v : Int) (other : Val) : Except Exc Bool :=
  match other.toInt with
  | .error e => .error e
  | .ok n => .ok (decide (v = n))

/-- `s == v` and `v == s` for a `str` and what an OctetString may hold instead of one: only an Integer object looks into the
`str`. -/
def strRawEq (s : Str) : Raw → Except Exc Bool
  | .integer _ n => integerEq n (.str s)
  | _ => .ok false

/-- `a == b` for what OctetStrings may hold instead of a `str`. -/
def rawEq : Raw → Raw → Except Exc Bool
  | .integer _ v, .integer _ w => .ok (decide (v = w))
  | .integer _ v, .int n => .ok (decide (v = n))
  | .integer _ v, .bytes b => integerEq v (.bytes b)
  | .integer _ _, _ => .error .typeError            -- int(other)
  | .int n, .integer _ v => .ok (decide (v = n))
  | .bytes b, .integer _ v => integerEq v (.bytes b)
  | .none, .integer _ _ => .error .typeError
  | .list _, .integer _ _ => .error .typeError
  | .tuple _, .integer _ _ => .error .typeError
  | a, b => .ok (decide (a = b))                    -- also for two OctetStrings or Nulls: the classes must be the same

mutual
/-- `a == b`. -/
def pyEq (a b : Val) : Except Exc Bool :=
  match a.cls?, b.cls? with
  | none, none => .ok (builtinEq a b)
  | some ca, some cb =>
    if cb ≠ ca ∧ cb.isSubclass ca then eqMethod b a else eqMethod a b
  | some _, none => eqMethod a b
  | none, some _ => eqMethod b a
termination_by 3 * (sizeOf a + sizeOf b) + 2
decreasing_by all_goals omega
/-- `type(self).__eq__(self, other)`: rfc1155.py:332-340 for Integers, rfc1155.py:262-268 for all other classes:
`isinstance(other, self.__class__) and self.value == other.value`. -/
def eqMethod (self other : Val) : Except Exc Bool :=
  match self with
  | .integer _ v => integerEq v other
  | .octets c v => match other with
    | .octets d w => .ok ((Cls.oct d).isSubclass (.oct c) && decide (v = w))
    | .raw d w => if (Cls.oct d).isSubclass (.oct c) then strRawEq v w else .ok false
    | _ => .ok false
  | .raw c v => match other with
    | .raw d w => if (Cls.oct d).isSubclass (.oct c) then rawEq v w else .ok false
    | .octets d w => if (Cls.oct d).isSubclass (.oct c) then strRawEq w v else .ok false
    | _ => .ok false
  | .oid v => match other with
    | .oid w => .ok (decide (v = w))
    | _ => .ok false
  | .null c => match other with
    | .null d => .ok ((Cls.null d).isSubclass (.null c))   -- both values are None
    | _ => .ok false
  | .seq c l => match other with
    | .seq d m => if (Cls.seq d).isSubclass (.seq c) then listEq l m else .ok false
    | _ => .ok false
  | _ => .ok false            -- not reached: `self` is an SNMP object
termination_by 3 * (sizeOf self + sizeOf other)
decreasing_by
  simp only [Val.seq.sizeOf_spec]
  omega
/-- `l == m` for lists. -/
def listEq (l m : List Val) : Except Exc Bool :=
  if l.length ≠ m.length then .ok false else itemsEq l m
termination_by 3 * (sizeOf l + sizeOf m) + 1
decreasing_by omega
/-- The element loop of list comparison. -/
def itemsEq (l m : List Val) : Except Exc Bool :=
  match l, m with
  | x :: xs, y :: ys =>
    match pyEq x y with
    | .error e => .error e
    | .ok false => .ok false
    | .ok true => itemsEq xs ys
  | _, _ => .ok true
termination_by 3 * (sizeOf l + sizeOf m)
decreasing_by all_goals simp only [List.cons.sizeOf_spec]; omega
end

/-- rfc1155.py:274-278 `__ne__`: `not (self == other)`, chosen by the same operand rule. -/
def pyNe (a b : Val) : Except Exc Bool :=
  let neMethod (self other : Val) : Except Exc Bool :=
    match pyEq self other with
    | .error e => .error e
    | .ok r => .ok (!r)
  match a.cls?, b.cls? with
  | none, none => .ok (!builtinEq a b)
  | some ca, some cb => if cb ≠ ca ∧ cb.isSubclass ca then neMethod b a else neMethod a b
  | some _, none => neMethod a b
  | none, some _ => neMethod b a

/-- `hash(n)` of a Python int (64-bit CPython): reduced modulo the prime 2^61 - 1, with -1 replaced by -2. -/
def intHash (n : Int) : Int :=
  let r := (n.natAbs % (2 ^ 61 - 1) : Nat)
  let h : Int := if n < 0 then -(r : Int) else r
  if h = -1 then -2 else h

/-- `hash(v)` of an SNMP object or int: rfc1155.py:356-360 `Integer.__hash__`; the other SNMP classes inherit
`Asn1Object`'s `__eq__` without a `__hash__` and so are unhashable.  (Hashes of the other built-in types are not
modelled.) -/
def objHash : Val → Except Exc Int
  | .integer _ v => .ok (intHash v)
  | .int v => .ok (intHash v)
  | _ => .error .typeError

end Libsnmp
