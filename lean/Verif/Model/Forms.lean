import Verif.Model.Floats
import Verif.Model.Text

/-!
# Other text and number forms: `__hex__`, `__oct__`, `__float__`, `__call__`, and the system's uptime

Python's `float` is an IEEE 754 binary64 number; the finite ones are rationals, and that is how they are modelled here.
-/

namespace Libsnmp

/-! ## `__hex__` and `__oct__` -/

/-- `hex(n)` of an int: sign, `0x`, lower-case digits. -/
def pyHexInt (n : Int) : Str :=
  (if n < 0 then lit "-" else []) ++ lit "0x" ++ (digits 16 n.natAbs).map hexDigit

/-- `oct(n)` of an int: sign, `0o`, digits. -/
def pyOctInt (n : Int) : Str :=
  (if n < 0 then lit "-" else []) ++ lit "0o" ++ (digits 8 n.natAbs).map (· + 48)

/-- A hexadecimal digit, upper case. -/
def hexDigitUpper (d : Nat) : Nat := if d < 10 then d + 48 else d + 55

/-- `'%.2X' % n`: at least two upper-case hexadecimal digits. -/
def hex2Upper (n : Nat) : Str :=
  let ds := (digits 16 n).map hexDigitUpper
  List.replicate (2 - ds.length) 48 ++ ds

/-- `'%3o' % n`: octal digits, filled up with blanks on the left to three characters. -/
def oct3 (n : Nat) : Str :=
  let ds := (digits 8 n).map (· + 48)
  List.replicate (3 - ds.length) 32 ++ ds

/-- rfc1155.py:319-320 `Integer.__hex__`, 538-539 `OctetString.__hex__`, of the classes that define or inherit it.  What an
OctetString holds instead of a `str` is gone through in the same way (`Raw.ords`).  (Python 3's `hex()` does not use this
method: it has to be called by name.) -/
def valHex : Val → Except Exc Str
  | .integer _ n => .ok (pyHexInt n)
  | .octets _ s => .ok (s.flatMap hex2Upper)
  | .raw _ v => v.ords.map fun s => s.flatMap hex2Upper
  | _ => .error .attributeError

/-- rfc1155.py:322-323 `Integer.__oct__`, 541-542 `OctetString.__oct__`. -/
def valOct : Val → Except Exc Str
  | .integer _ n => .ok (pyOctInt n)
  | .octets _ s => .ok (s.flatMap oct3)
  | .raw _ v => v.ords.map fun s => s.flatMap oct3
  | _ => .error .attributeError

/-- rfc1155.py:325-328 `Integer.__call__`: calling an integer gives its value; calling any other object is a TypeError. -/
def valCall : Val → Except Exc Int
  | .integer _ n => .ok n
  | _ => .error .typeError

/-! ## `__float__` -/

/-- `float(n)` for an int: OverflowError when it would be infinite. -/
def pyFloatInt (n : Int) : Except Exc ℚ :=
  match toDouble (n.natAbs : ℚ) with
  | none => .error .overflowError
  | some r => .ok (if n < 0 then -r else r)

/-- rfc1155.py:313-314 `Integer.__float__`: `float(obj)`; other objects have no such method, which is a TypeError. -/
def valFloat : Val → Except Exc ℚ
  | .integer _ n => pyFloatInt n
  | _ => .error .typeError

/-! ## The system's uptime -/

/-- `int(float(t) * 100)` for text without white space; `none`: an exception.  Reading and multiplying both round to
binary64; `int` cuts off. -/
def hundredfold (t : Str) : Option Int :=
  match floatMagnitude (floatSign t).2 with
  | none => none
  | some q => match toDouble q with
    | none => none
    | some x => match toDouble (x * 100) with
      | none => none
      | some y => some (if (floatSign t).1 then -⌊y⌋ else ⌊y⌋)

/-- v1.py:236-251, snmpmanager.py:344-359 `getSysUptime`: the first word of /proc/uptime, as hundredths of a second.  `file` is
the text of the file, or `none` if it could not be opened or read; any exception gives 0. -/
def getSysUptime (file : Option Str) : Int :=
  match file with
  | none => 0
  | some text =>
    match (text.dropWhile isSpace).takeWhile fun c => !isSpace c with
    | [] => 0
    | word => (hundredfold word).getD 0

end Libsnmp
