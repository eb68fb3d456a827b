import Verif.Model.Obj

/-!
# Arithmetic on Integer objects

`a + b` calls `a.__add__(b)`: no class of the library defines `__radd__`/`__rsub__`, so Python's reflected-operand rule
never applies.  Some methods change `a` itself, so a result carries the value `a` holds afterwards.
-/

namespace Libsnmp

/-- Outcome of a method of an Integer object: the value the object holds afterwards, and what the call returned
(`Val.none` for a method that returns nothing) or raised. -/
structure OpResult where
  self : Int
  result : Except Exc Val

/-- rfc1155.py:346-347, 353-354: `if not isinstance(x, self.__class__): x = self.__class__(x)`, then `x.value`.
Passing an Integer object of another class to the constructor compares an int with it: TypeError. -/
def coerceOperand (c : IntCls) (arg : Val) : Except Exc Int :=
  match arg with
  | .integer d w => if (Cls.int d).isSubclass (.int c) then .ok w else .error .typeError
  | .int n => match mkInteger c n with
    | .error e => .error e
    | .ok _ => .ok n
  | _ => .error .typeError

/-- rfc1155.py:342-349 `Integer.__add__`. -/
def integerAdd (c : IntCls) (v : Int) (arg : Val) : OpResult :=
  match coerceOperand c arg with
  | .error e => ⟨v, .error e⟩
  | .ok w => ⟨v, mkInteger c (v + w)⟩

/-- rfc1155.py:351-354 `Integer.__sub__`: adds. -/
def integerSub (c : IntCls) (v : Int) (arg : Val) : OpResult :=
  match coerceOperand c arg with
  | .error e => ⟨v, .error e⟩
  | .ok w => ⟨v, mkInteger c (v + w)⟩

/-- rfc1155.py:963-975 `Counter.__add__`; an int plus an object without `__radd__` is a TypeError. -/
def counterAdd (c : IntCls) (v : Int) (arg : Val) : OpResult :=
  match arg with
  | .int val =>
    if v + val > c.maxVal then ⟨val - (c.maxVal - v), .ok .none⟩
    else ⟨v + val, .ok .none⟩
  | _ => ⟨v, .error .typeError⟩

/-- rfc1155.py:1008-1017 `Guage.__add__`. -/
def guageAdd (c : IntCls) (v : Int) (arg : Val) : OpResult :=
  match arg with
  | .int val => if v + val > c.maxVal then ⟨c.maxVal, .ok .none⟩ else ⟨v + val, .ok .none⟩
  | _ => ⟨v, .error .typeError⟩

/-- rfc1155.py:1019-1028 `Guage.__sub__`. -/
def guageSub (c : IntCls) (v : Int) (arg : Val) : OpResult :=
  match arg with
  | .int val => if v - val < c.minVal then ⟨c.minVal, .ok .none⟩ else ⟨v - val, .ok .none⟩
  | _ => ⟨v, .error .typeError⟩

/-- `a + b` for an object `a` of class `c` holding `v`: the `__add__` found along the MRO. -/
def pyAdd (c : IntCls) (v : Int) (arg : Val) : OpResult :=
  if (Cls.int c).isSubclass (.int .counter) then counterAdd c v arg
  else if (Cls.int c).isSubclass (.int .guage) then guageAdd c v arg
  else integerAdd c v arg

/-- `a - b`: Counter has no `__sub__` of its own. -/
def pySub (c : IntCls) (v : Int) (arg : Val) : OpResult :=
  if (Cls.int c).isSubclass (.int .guage) then guageSub c v arg
  else integerSub c v arg

/-- Python's `a += b` / `a -= b` for a variable holding such an object: there is no `__iadd__`, so the variable is
rebound to the result of `a + b`. -/
def pyIAdd (c : IntCls) (v : Int) (arg : Val) : Except Exc Val := (pyAdd c v arg).result
def pyISub (c : IntCls) (v : Int) (arg : Val) : Except Exc Val := (pySub c v arg).result

/-- rfc1155.py:307-308 `Integer.__str__` (`'%d' % self.value`); ErrorStatus and GenericTrap have their own. -/
def integerStr (v : Int) : Str := pyStrInt v

end Libsnmp
