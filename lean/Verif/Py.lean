/-!
# Python primitives used by the model

Nothing in this file models `/repo` itself; it fixes the meaning of the Python built-ins that the code calls.
-/

namespace Libsnmp

/-- Exceptions, as values.  `user n` is an exception class of the user's own, derived from `Exception` but not from
`ValueError`; `systemExit` stands for the exceptions not derived from `Exception` (SystemExit, KeyboardInterrupt);
`diverges` is not a Python exception: it marks a call that never returns. -/
inductive Exc where
  | valueError | typeError | indexError | keyError | attributeError | notImplementedError
  | overflowError | unboundLocalError | recursionError | osError
  | messageError      -- rfc1157.MessageError
  | pduError          -- rfc1157.PDUError
  | pduError2         -- rfc1905.PDUError
  | queueEmpty        -- queue.Empty
  | unicodeDecodeError  -- a subclass of ValueError whose constructor needs five arguments
  | systemExit
  | user (n : Nat)
  | diverges
deriving DecidableEq, Repr

deriving instance DecidableEq for Except

/-- `isinstance(e, Exception)`. -/
def Exc.isException : Exc → Bool
  | .systemExit => false
  | .diverges => false
  | _ => true

/-- `issubclass(type(e), ValueError)`. -/
def Exc.isValueError : Exc → Bool
  | .valueError => true
  | .unicodeDecodeError => true
  | _ => false

/-- A Python `str`: the list of its code points.  The library keeps octets in `str` and moves between the
two with `chr`/`ord`, so `ord` and `chr` are the identity here. -/
abbrev Str := List Nat

/-- A Python string literal. -/
def lit (s : String) : Str := s.toList.map Char.toNat

/-- `chr(n)` (the code point itself): `OverflowError` beyond a C `int`, `ValueError` beyond Unicode. -/
def pyChr (n : Int) : Except Exc Nat :=
  if n < -2147483648 ∨ 2147483647 < n then .error .overflowError
  else if 0 ≤ n ∧ n ≤ 0x10FFFF then .ok n.toNat
  else .error .valueError

/-- `s.split(sep)` for a one-character separator: always at least one piece. -/
def pySplit (sep : Nat) : Str → List Str
  | [] => [[]]
  | c :: cs =>
    if c = sep then [] :: pySplit sep cs
    else match pySplit sep cs with
      | [] => [[c]]
      | w :: ws => (c :: w) :: ws

/-- Remove a run of characters satisfying `p` from both ends. -/
def stripBy (p : Nat → Bool) (s : Str) : Str :=
  (((s.dropWhile p).reverse).dropWhile p).reverse

/-- `s.strip(c)` for a one-character argument. -/
def pyStrip (c : Nat) (s : Str) : Str := stripBy (· == c) s

/-- `sep.join(parts)`. -/
def pyJoin (sep : Str) : List Str → Str
  | [] => []
  | [w] => w
  | w :: ws => w ++ sep ++ pyJoin sep ws

/-- ASCII white space, as stripped by `int()`. -/
def isSpace (c : Nat) : Bool := (9 ≤ c && c ≤ 13) || (28 ≤ c && c ≤ 32)

def isDigit (c : Nat) : Bool := 48 ≤ c && c ≤ 57

/-- The digits of `int(text)`: at least one digit, single underscores allowed between digits. -/
def parseDigits : Str → Nat → Bool → Option Nat
  | [], acc, prevDigit => if prevDigit then some acc else none
  | c :: cs, acc, prevDigit =>
    if isDigit c then parseDigits cs (acc * 10 + (c - 48)) true
    else if c = 95 && prevDigit then parseDigits cs acc false
    else none

/-- `int(text)` for ASCII text: optional surrounding white space, optional sign, digits.
Simplifications: non-ASCII digits and white space (which Python accepts) are rejected, and Python 3.11's
limit of 4300 digits is not imposed. -/
def pyInt (s : Str) : Except Exc Int :=
  match stripBy isSpace s with
  | 43 :: ds => match parseDigits ds 0 false with
    | some n => .ok (n : Int)
    | none => .error .valueError
  | 45 :: ds => match parseDigits ds 0 false with
    | some n => .ok (-(n : Int))
    | none => .error .valueError
  | ds => match parseDigits ds 0 false with
    | some n => .ok (n : Int)
    | none => .error .valueError

/-- Digits of `n` in base `b` (used with b = 8, 10, 16), digit values, most significant first. -/
def digits (b : Nat) (n : Nat) : List Nat :=
  if _h : n < b ∨ b < 2 then [n] else digits b (n / b) ++ [n % b]
termination_by n
decreasing_by
  have : ¬ n < b := fun h' => _h (Or.inl h')
  have : ¬ b < 2 := fun h' => _h (Or.inr h')
  exact Nat.div_lt_self (by omega) (by omega)

/-- `str(n)` / `'%d' % n` for an int. -/
def pyStrInt (n : Int) : Str :=
  if n < 0 then 45 :: (digits 10 n.natAbs).map (· + 48) else (digits 10 n.natAbs).map (· + 48)

/-- A hexadecimal digit, lower case. -/
def hexDigit (d : Nat) : Nat := if d < 10 then d + 48 else d + 87

end Libsnmp
