import Verif.Model.Obj

/-!
# Text forms and constructors with dynamically typed arguments

`ObjectID`, `IPAddress`, `OctetString`, `Integer` constructors by argument type, `__str__`, `util.py`.
-/

namespace Libsnmp

/-- A constructor argument, by the Python type the constructors test for. -/
inductive Arg where
  | none
  | str (s : Str)
  | bytes (s : Str)
  | int (n : Int)
  | list (l : List Int)     -- simplification: lists and tuples of ints only
  | tuple (l : List Int)
  | obj (v : Val)           -- an SNMP object
deriving Repr

/-- rfc1155.py:572-577: the loop over the pieces of the text. -/
def oidParse : List Str → Except Exc (List Int)
  | [] => .ok []
  | subid :: rest =>
    match pyInt subid with
    | .error e => .error e
    | .ok number =>
      if number < 0 ∨ number > 0x7FFFFFFF then .error .valueError
      else match oidParse rest with
        | .error e => .error e
        | .ok value => .ok (number :: value)

/-- rfc1155.py:557-595 `ObjectID.__init__`; the result is `self.value`. -/
def mkOid : Arg → Except Exc (Option (List Int))
  | .str s => match oidParse (pySplit 46 (pyStrip 46 s)) with
    | .error e => .error e
    | .ok value => .ok (some value)
  | .list l => .ok (some l)
  | .none => .ok Option.none
  | .tuple l => .ok (some l)
  | .int n => .ok (some [n])
  | .obj (.oid (some v)) => .ok (some v)
  | .obj (.oid Option.none) => .error .typeError      -- None[:]
  | .obj _ => .error .typeError
  | .bytes _ => .error .typeError

/-- rfc1155.py:597-603 `ObjectID.__str__`. -/
def oidStr : Option (List Int) → Str
  | some v => lit "." ++ pyJoin (lit ".") (v.map pyStrInt)
  | Option.none => []

/-- rfc1155.py:655-660, the comparison loop of `isPrefixOf` over `i`, with `n = len(self) - i` turns left. -/
def prefixLoop (a b : List Int) (i : Nat) : Nat → Bool
  | 0 => true
  | n + 1 => if a[i]? ≠ b[i]? then false else prefixLoop a b (i + 1) n

/-- rfc1155.py:644-661 `ObjectID.isPrefixOf`.  `other` must be an ObjectID.  (`self.value[i]` is within bounds for
both lists in the loop, so comparing the optional elements is comparing the elements.) -/
def isPrefixOf (self : Option (List Int)) (other : Val) : Except Exc Bool :=
  match other with
  | .oid other =>
    let a := self.getD []
    let b := other.getD []
    if b.length < a.length then .ok false else .ok (prefixLoop a b 0 a.length)
  | _ => .error .typeError

/-- rfc1155.py:908-910: `self.value += chr(int(item))` for each item. -/
def ipParse : List Str → Except Exc Str
  | [] => .ok []
  | item :: rest =>
    match pyInt item with
    | .error e => .error e
    | .ok n => match pyChr n with
      | .error e => .error e
      | .ok c => match ipParse rest with
        | .error e => .error e
        | .ok cs => .ok (c :: cs)

/-- rfc1155.py:898-919 `IPAddress.__init__` (also NetworkAddress).  A list is kept as it is. -/
def mkIPAddress (c : OctCls) : Arg → Except Exc Val
  | .str s =>
    let listform := pySplit 46 s
    if listform.length ≠ 4 then .error .valueError
    else match ipParse listform with
      | .error e => .error e
      | .ok v => .ok (.octets c v)
  | .list l => if l.length ≠ 4 then .error .valueError else .ok (.raw c (.list l))
  | _ => .ok (.octets c [])

/-- rfc1155.py:928-933 `IPAddress.__str__` of an address holding a string. -/
def ipStr (v : Str) : Str := pyJoin (lit ".") (v.map fun (c : Nat) => pyStrInt (c : Int))

/-- rfc1155.py:297-305 `Integer.__init__` on any argument: comparing an int with a str, list, None or SNMP object
(none of which define ordering with int) is a TypeError. -/
def mkIntegerArg (c : IntCls) : Arg → Except Exc Val
  | .int n => mkInteger c n
  | _ => .error .typeError

/-- `len(value)`. -/
def Arg.len : Arg → Except Exc Nat
  | .str s => .ok s.length
  | .bytes s => .ok s.length
  | .list l => .ok l.length
  | .tuple l => .ok l.length
  | .obj v => v.len
  | _ => .error .typeError

/-- rfc1155.py:519-522 `OctetString.__init__` on any argument: whatever it is, it is kept.  rfc1902.py:60-64: the SNMPv2
class checks the length and then calls *itself* through the module's rebound name `OctetString`, without end:
RecursionError.  Simplification: a Sequence, or an OctetString that does not itself hold a `str`,
is a TypeError here. -/
def mkOctetStringArg (c : OctCls) (value : Arg) : Except Exc Val :=
  if (Cls.oct c).isSubclass (.oct .octetString2) then
    match value.len with
    | .error e => .error e
    | .ok n => if n > 65535 then .error .valueError else .error .recursionError
  else
    match value with
    | .str s => .ok (.octets c s)
    | .none => .ok (.raw c .none)
    | .int n => .ok (.raw c (.int n))
    | .bytes b => .ok (.raw c (.bytes b))
    | .list l => .ok (.raw c (.list l))
    | .tuple l => .ok (.raw c (.tuple l))
    | .obj (.integer d n) => .ok (.raw c (.integer d n))
    | .obj (.octets d s) => .ok (.raw c (.octets d s))
    | .obj (.oid v) => .ok (.raw c (.oid v))
    | .obj (.null d) => .ok (.raw c (.null d))
    | .obj _ => .error .typeError

/-- rfc1155.py:519-522, rfc1902.py:60-64 `OctetString.__init__` on a str. -/
def mkOctetString (c : OctCls) (s : Str) : Except Exc Val := mkOctetStringArg c (.str s)

/-! ## `toObjectID` -/

/-- `[ord(x) for x in v]`: only an empty one has nothing for `ord` to fail on. -/
def Raw.ords : Raw → Except Exc Str
  | .list [] => .ok []
  | .tuple [] => .ok []
  | .bytes [] => .ok []
  | .oid (some []) => .ok []
  | .oid Option.none => .error .attributeError
  | _ => .error .typeError

/-- rfc1155.py:280-281 (TypeError), 507-508 `Integer`, 544-545 `OctetString`, 756-757 `ObjectID`, 937-938 `IPAddress`.
The result is the value of the new ObjectID. -/
def toObjectID : Val → Except Exc (Option (List Int))
  | .integer _ n => .ok (some [n])
  | .octets _ s => .ok (some (s.map fun (c : Nat) => (c : Int)))
  | .oid v => .ok v
  | .null _ => .error .typeError
  | .seq _ _ => .error .typeError
  | .raw _ v => v.ords.map fun s => some (s.map fun (c : Nat) => (c : Int))
  | _ => .error .attributeError

/-! ## `util.py` -/

/-- `"%.2x" % n`: at least two hexadecimal digits. -/
def hex2 (n : Nat) : Str :=
  let ds := (digits 16 n).map hexDigit
  if ds.length < 2 then 48 :: ds else ds

/-- util.py:9-18 `octetsToHex`. -/
def octetsToHex : Str → Str
  | [] => []
  | byte :: octets => hex2 byte ++ octetsToHex octets

/-- `oct(n)`: `'0o'` and the octal digits. -/
def pyOct (n : Nat) : Str := lit "0o" ++ (digits 8 n).map (· + 48)

/-- util.py:20-29 `octetsToOct`: `"%.4s,"` keeps only the first four characters of `oct(...)`. -/
def octetsToOct : Str → Str
  | [] => []
  | byte :: octets => (pyOct byte).take 4 ++ lit "," ++ octetsToOct octets

end Libsnmp
