import Verif.Model.Str
import Verif.Model.LongInts

/-!
# Texts of objects under a limit on numerals

CPython (since 3.11) refuses to write an int of more than a given number of decimal digits (4300 unless configured; 0: no limit).
`Model/Str.lean` is the code without a limit.
-/

namespace Libsnmp

/-- `'%d' % n` and `str(n)`. -/
def numStr (D : Nat) (n : Int) : Except Exc Str := if tooLong D n then .error .valueError else .ok (pyStrInt n)

/-- The texts of numbers, one after the other: rfc1155.py:599 (`[str(x) for x in self.value]`), 929-931. -/
def numStrs (D : Nat) : List Int → Except Exc (List Str)
  | [] => .ok []
  | n :: l => match numStr D n with
    | .error e => .error e
    | .ok s => match numStrs D l with
      | .error e => .error e
      | .ok ss => .ok (s :: ss)

/-- rfc1157.py:42-45: the text of the number is looked up before the number is written. -/
def errorStatusStrDig (D : Nat) (d : Table) (v : Int) : Except Exc Str :=
  match d.get v with
  | .error e => .error e
  | .ok t => (numStr D v).map fun s => s ++ lit ": " ++ t

/-- rfc1157.py:211-214. -/
def genericTrapStrDig (D : Nat) (v : Int) : Except Exc Str :=
  match genericTraps.get v with
  | .error e => .error e
  | .ok t => (numStr D v).map fun s => lit "GenericTrap: " ++ s ++ lit " (" ++ t ++ lit ")"

mutual
/-- `str(v)`, as `valStr` (`Model/Str.lean`, which cites the lines), with numbers written by `numStr`. -/
def valStrDig (D : Nat) (d : Table) : Val → Except Exc Str
  | .int n => numStr D n
  | .integer c v =>
    if c = .errorStatus ∨ c = .errorStatus2 then errorStatusStrDig D d v
    else if c = .genericTrap then genericTrapStrDig D v
    else numStr D v
  | .octets c v =>
    if (Cls.oct c).isSubclass (.oct .ipAddress) then (numStrs D (v.map fun (c : Nat) => (c : Int))).map (pyJoin (lit "."))
    else .ok v
  | .oid (some ids) => (numStrs D ids).map fun l => lit "." ++ pyJoin (lit ".") l
  | .seq _ items => match itemsStrDig D d items with
    | .error e => .error e
    | .ok ts => .ok (lit "[" ++ pyJoin (lit ", ") ts ++ lit "]")
  | v => valStr d v
def itemsStrDig (D : Nat) (d : Table) : List Val → Except Exc (List Str)
  | [] => .ok []
  | x :: xs => match valStrDig D d x with
    | .error e => .error e
    | .ok t => match itemsStrDig D d xs with
      | .error e => .error e
      | .ok ts => .ok (t :: ts)
end

/-- rfc1157.py:97-101 `Message.__str__`. -/
def msgStrDig (D : Nat) (d : Table) (m : Msg) : Except Exc Str :=
  match valStrDig D d m.version with
  | .error e => .error e
  | .ok v => match valStrDig D d m.community with
    | .error e => .error e
    | .ok c => match valStrDig D d m.data with
      | .error e => .error e
      | .ok p => .ok (lit "[" ++ v ++ lit ", " ++ c ++ lit ", " ++ p ++ lit "]")

mutual
/-- No number in the value is too long for the limit. -/
def Writable (D : Nat) : Val → Prop
  | .int n => tooLong D n = false
  | .integer _ n => tooLong D n = false
  | .octets _ s => ∀ c ∈ s, tooLong D (c : Int) = false
  | .oid v => ∀ ids, v = some ids → ∀ n ∈ ids, tooLong D n = false
  | .seq _ items => AllWritable D items
  | _ => True
def AllWritable (D : Nat) : List Val → Prop
  | [] => True
  | v :: vs => Writable D v ∧ AllWritable D vs
end

end Libsnmp
