import Verif.Py
import Verif.Model.Floats
import Verif.Model.Imports
import Mathlib.Data.Int.Bitwise

/-!
# The part of Python the codec is written in: syntax and meaning

`Model/SourceData.lean` holds the functions of `rfc1155.py`, `rfc1157.py`, `rfc1902.py`, `rfc1905.py` and `util.py` as syntax
trees, generated from the source text by `tools/extract_source.py`.  Here is the language of those trees: values, a heap of
mutable objects with identity, and an interpreter.  Nothing in this file is about SNMP.

What an interpreter run can end in: a value, an exception, `stuck` (the interpreter does not model what the code does there),
or nothing at all (`none`: the run never ends).

Simplifications, all visible below: `map` and `range` produce their elements at once instead of one by one; the exceptions that
Python's own operations raise carry no text; `/` is only modelled where the quotient's whole part is exact, and its result is the quotient without rounding; attribute lookup
does not look for descriptors other than functions; there is no limit on the depth of calls.
-/

namespace Libsnmp.Src

/-! ## Syntax -/

inductive BinOp where
  | add | sub | mul | div | mod | shl | shr | bor | band
deriving DecidableEq, Repr

inductive CmpOp where
  | eq | ne | lt | le | gt | ge | is | isNot
deriving DecidableEq, Repr

/-- Expressions.  `loc` is a name that the function binds, `glob` any other (Python decides that when it compiles the
function). -/
inductive Expr where
  | none | bool (b : Bool) | int (n : Int) | str (s : Str)
  | loc (x : String)
  | glob (x : String)
  | attr (e : Expr) (a : String)
  | index (e i : Expr)
  | slice (e lo hi : Expr)                    -- an absent bound is `none`
  | call (f : Expr) (args : List Expr)
  | bin (op : BinOp) (a b : Expr)
  | neg (e : Expr)
  | not (e : Expr)
  | and (a b : Expr)
  | or (a b : Expr)
  | cmp (op : CmpOp) (a b : Expr)
  | cmp2 (op1 op2 : CmpOp) (a b c : Expr)     -- a op1 b op2 c
  | ife (c a b : Expr)                        -- a if c else b
  | comp (elt : Expr) (x : String) (it : Expr) -- [elt for x in it]
  | lam (ps : List String) (body : Expr)
  | tuple (es : List Expr)
  | list (es : List Expr)
  | callK (f : Expr) (args : List Expr) (ks : List String) (vs : List Expr)   -- f(args, k=v, ...)
  | emptyDict                                 -- {}
  | float (a b : Int)                         -- a literal: the float a / b
deriving Repr

/-- What an assignment assigns to. -/
inductive Target where
  | loc (x : String)
  | attr (e : Expr) (a : String)
  | index (e i : Expr)
  | tuple (xs : List String)
deriving Repr

inductive Stmt where
  | expr (e : Expr)
  | assign (t : Target) (e : Expr)
  | aug (t : Target) (op : BinOp) (e : Expr)
  | ret (e : Expr)
  | raise (e : Expr)
  | reraise
  | pass
  | brk
  | ifS (c : Expr) (a b : List Stmt)
  | whileS (c : Expr) (body : List Stmt)
  | forS (x : String) (it : Expr) (body : List Stmt)
  | tryS (body : List Stmt) (exc : Option String) (handler : List Stmt)   -- exc: none is a bare `except:`
  | del (e i : Expr)                                                      -- del e[i]
  | tryAs (body : List Stmt) (exc : Option String) (x : Option String) (handler other : List Stmt)
    -- `except exc as x: handler` and, for any other exception, `except: other`
deriving Repr

/-! ## Values -/

/-- A class of the package: its module and the line of its `class` statement. -/
abbrev CId := Module × Nat

inductive V where
  | none | bool (b : Bool) | int (n : Int) | str (s : Str)
  | quot (a b : Int)                          -- the float a / b; b = 0: infinity or, if a = 0 too, not a number
  | tuple (l : List V)
  | iter (l : List V)                         -- a `map` or `range` object
  | ref (a : Nat)                             -- an object in the heap
  | cls (c : CId)
  | func (m : Module) (line : Nat)
  | meth (self : V) (m : Module) (line : Nat) -- a bound method
  | bmeth (self : V) (name : String)          -- a bound method of a built-in type
  | builtin (name : String)                   -- a built-in function, type or exception class
  | mod (m : Module)
  | logger
  | registry                                  -- tagDecodeDict
  | exc (name : String) (args : List V)       -- an instance of a built-in exception class
  | slc (lo hi : V)                           -- a `slice` object
  | lam (ps : List String) (body : Expr) (m : Module) (env : List (String × Option V))
  | ext (name : String)                       -- something outside the package: a module, a function, an object of another library

/-- A mutable object. -/
inductive Cell where
  | list (l : List V)
  | inst (c : CId) (attrs : List (String × V))
  | dict (l : List (V × V))
  | queue (l : List V)                        -- a `queue.Queue`, its items in order

abbrev Heap := List Cell

/-- The local names of a function call, all of them from the start; `none` is one that is not bound yet. -/
abbrev Env := List (String × Option V)

/-- A function definition. -/
structure Fn where
  name : String
  params : List String
  defaults : List V          -- of the last parameters
  locals : List String       -- the other names the body binds
  body : List Stmt

/-- A class definition: its name, its base class and what its body binds (the last binding first). -/
structure Class where
  id : CId
  name : String
  base : Option V
  attrs : List (String × V)

/-- What the source text says: functions by module and line, classes, the global names of each module. -/
structure Program where
  code : Module → Nat → Option Fn
  classes : CId → Option Class
  globals : Module → String → Option V

inductive Out (α : Type) where
  | ok (a : α)
  | exc (e : V)
  | stuck

/-- The outcome of evaluating something: the heap afterwards and a value or an exception; `none` if it never ends. -/
abbrev R (α : Type) := Option (Heap × Out α)

/-- What the process adds: `tagDecodeDict`, the limit on the length of numerals (0: none), `__debug__`, and the text that
`v.__repr__()` makes (which depends on addresses: any function), and what calls of things outside the package do (which may
change the heap, raise, or never end: any function). -/
structure Cfg where
  tag : Int → Option CId
  digits : Nat
  debug : Bool
  repr : V → Heap → Str
  ext : String → List V → Heap → R V := fun _ _ h => some (h, .stuck)

inductive Flow where
  | next | brk | ret (v : V) | exc (e : V) | stuck

/-- The outcome of executing a statement. -/
abbrev S := Option (Heap × Env × Flow)

/-! ## Sequencing -/

def okR {α} (a : α) (h : Heap) : R α := some (h, .ok a)
def excR {α} (e : V) (h : Heap) : R α := some (h, .exc e)
def stuckR {α} (h : Heap) : R α := some (h, .stuck)
/-- A built-in exception. -/
def raiseR {α} (name : String) (h : Heap) : R α := some (h, .exc (.exc name []))

def bindR {α β} (x : R α) (f : α → Heap → R β) : R β :=
  match x with
  | none => none
  | some (h, .ok a) => f a h
  | some (h, .exc e) => some (h, .exc e)
  | some (h, .stuck) => some (h, .stuck)

/-- Evaluate, then go on with a statement. -/
def bindE {α} (x : R α) (env : Env) (f : α → Heap → S) : S :=
  match x with
  | none => none
  | some (h, .ok a) => f a h
  | some (h, .exc e) => some (h, env, .exc e)
  | some (h, .stuck) => some (h, env, .stuck)

/-- Execute, then go on if nothing ended the block. -/
def bindS (x : S) (f : Env → Heap → S) : S :=
  match x with
  | none => none
  | some (h, env, .next) => f env h
  | some r => some r

/-- After the body of a loop: `break` ends the loop. -/
def bindLoop (x : S) (f : Env → Heap → S) : S :=
  match x with
  | none => none
  | some (h, env, .next) => f env h
  | some (h, env, .brk) => some (h, env, .next)
  | some r => some r

/-- The result of a function body. -/
def result (x : S) : R V :=
  match x with
  | none => none
  | some (h, _, .next) => some (h, .ok .none)
  | some (h, _, .ret v) => some (h, .ok v)
  | some (h, _, .exc e) => some (h, .exc e)
  | some (h, _, _) => some (h, .stuck)

/-- `try`: on an exception that the handler catches, run the handler. -/
def bindTry (x : S) (catches : V → Heap → Bool) (f : V → Env → Heap → S) : S :=
  match x with
  | none => none
  | some (h, env, .exc e) => if catches e h then f e env h else some (h, env, .exc e)
  | some r => some r

/-- Look at the exception too. -/
def bindAll {α β} (x : R α) (f : α → Heap → R β) (g : V → Heap → R β) : R β :=
  match x with
  | none => none
  | some (h, .ok a) => f a h
  | some (h, .exc e) => g e h
  | some (h, .stuck) => some (h, .stuck)

/-- `if b then x else y`. -/
def branch {α} (b : Bool) (x y : α) : α := match b with | true => x | false => y

/-! ## Names -/

def Env.get (env : Env) (x : String) : Option V := ((env.lookup x).getD none)

def Env.set : Env → String → V → Env
  | [], _, _ => []
  | (y, w) :: env, x, v => if y = x then (y, some v) :: env else (y, w) :: Env.set env x v

def Env.setAll : Env → List String → List V → Env
  | env, x :: xs, v :: vs => Env.setAll (Env.set env x v) xs vs
  | env, _, _ => env

/-- The built-in functions, types and exception classes that the code names. -/
def builtins : List String :=
  ["ord", "chr", "len", "int", "str", "list", "tuple", "map", "range", "isinstance", "type", "hex", "oct", "float",
   "ValueError", "TypeError", "KeyError", "IndexError", "NotImplementedError", "Exception", "callable", "issubclass"]

def Program.glob (P : Program) (cfg : Cfg) (m : Module) (x : String) : Option V :=
  match P.globals m x with
  | some v => some v
  | none =>
    if x = "__debug__" then some (.bool cfg.debug)
    else if x ∈ builtins then some (.builtin x)
    else if x = "open" then some (.ext x)
    else none

/-! ## Classes -/

/-- The methods that a class from outside the package is known to have: those of `asyncore.dispatcher` in the CPython 3.11 that the
text is for, whose `dispatcher` has no `__getattr__`, so that what it does not have itself is not looked for in its socket. -/
def extAttrs (n : String) : List String :=
  if n = "asyncore.dispatcher" then
    ["__init__", "add_channel", "del_channel", "create_socket", "set_socket", "set_reuse_addr", "readable", "writable", "listen",
     "bind", "connect", "accept", "send", "recv", "close", "log", "log_info", "handle_read_event", "handle_write_event",
     "handle_connect_event", "handle_expt_event", "handle_error", "handle_expt", "handle_read", "handle_write", "handle_connect",
     "handle_accept", "handle_accepted", "handle_close"]
  else []

/-- An attribute of a class, looked up through its bases (there is one base at most); the number bounds the depth. -/
def Program.attrFrom (P : Program) : Nat → CId → String → Option V
  | 0, _, _ => none
  | n + 1, c, a => match P.classes c with
    | none => none
    | some k => match k.attrs.lookup a with
      | some v => some v
      | none => match k.base with
        | some (.cls b) => P.attrFrom n b a
        | some (.ext m) => if a ∈ extAttrs m then some (.ext (m ++ "." ++ a)) else none
        | _ => none

def Program.attr (P : Program) (c : CId) (a : String) : Option V := P.attrFrom 8 c a

/-- `issubclass(c, d)` for classes of the package. -/
def Program.subFrom (P : Program) : Nat → CId → CId → Bool
  | 0, _, _ => false
  | n + 1, c, d => c == d || match P.classes c with
    | some { base := some (.cls b), .. } => P.subFrom n b d
    | _ => false

def Program.sub (P : Program) (c d : CId) : Bool := P.subFrom 8 c d

/-- The class derives from `Exception`. -/
def Program.isExc (P : Program) : Nat → CId → Bool
  | 0, _ => false
  | n + 1, c => match P.classes c with
    | some { base := some (.cls b), .. } => P.isExc n b
    | some { base := some (.builtin "Exception"), .. } => true
    | _ => false

/-! ## Operations that never run code of the package -/

def instOf (h : Heap) : V → Option (CId × List (String × V))
  | .ref a => match h[a]? with
    | some (.inst c attrs) => some (c, attrs)
    | _ => none
  | _ => none

def listOf (h : Heap) : V → Option (List V)
  | .ref a => match h[a]? with
    | some (.list l) => some l
    | _ => none
  | _ => none

def dictOf (h : Heap) : V → Option (List (V × V))
  | .ref a => match h[a]? with
    | some (.dict l) => some l
    | _ => none
  | _ => none

/-- `type(v)`. -/
def typeOf (h : Heap) : V → Option V
  | .none => some (.builtin "NoneType")
  | .bool _ => some (.builtin "bool")
  | .int _ => some (.builtin "int")
  | .str _ => some (.builtin "str")
  | .quot _ _ => some (.builtin "float")
  | .tuple _ => some (.builtin "tuple")
  | .ref a => match h[a]? with
    | some (.list _) => some (.builtin "list")
    | some (.dict _) => some (.builtin "dict")
    | some (.inst c _) => some (.cls c)
    | _ => none
  | .exc n _ => some (.builtin n)
  | .cls _ => some (.builtin "type")
  | .builtin n =>                               -- a class, or one of these functions
    if n ∈ ["ord", "chr", "len", "isinstance", "hex", "oct", "callable", "issubclass", "log", "reduce", "copy.copy", "copy", "queue"] then none
    else some (.builtin "type")
  | _ => none

/-- `isinstance(v, k)`; none if not modelled. -/
def isInst (P : Program) (h : Heap) (v k : V) : Option Bool :=
  match k with
  | .cls d => match instOf h v with
    | some (c, _) => some (P.sub c d)
    | none => some false
  | .builtin "int" => match v with
    | .int _ => some true
    | .bool _ => some true
    | _ => some false
  | _ => none

/-- `v.a`; none is AttributeError. -/
def getattr (P : Program) (h : Heap) (v : V) (a : String) : Option V :=
  match v with
  | .mod m => P.globals m a
  | .builtin n =>
    if n = "copy" then (if a = "copy" then some (.builtin "copy.copy") else none)
    else if n = "queue" then
      (if a = "Queue" then some (.builtin "queue.Queue") else if a = "Empty" then some (.builtin "queue.Empty") else none)
    else if a = "__name__" then some (.str (lit n))
    else none
  | .logger => some (.builtin "log")
  | .cls c =>
    if a = "__name__" then (P.classes c).map fun k => .str (lit k.name)
    else P.attr c a
  | .ref r => match h[r]? with
    | some (.inst c attrs) =>
      match attrs.lookup a with
      | some x => some x
      | none =>
        if a = "__class__" then some (.cls c)
        else match P.attr c a with
          | some (.func m l) => some (.meth v m l)
          | some (.ext n) => some (.bmeth v n)
          | some x => some x
          | none => if a = "__repr__" then some (.bmeth v a) else none
    | some (.list _) =>
      if a ∈ ["append", "insert", "extend", "reverse", "pop", "__getitem__", "__delitem__", "__repr__"] then some (.bmeth v a)
      else if a = "__class__" then some (.builtin "list") else none
    | some (.queue _) => if a ∈ ["put", "get"] then some (.bmeth v a) else none
    | _ => none
  | .ext n => some (.ext (n ++ "." ++ a))
  | .str _ =>
    if a ∈ ["join", "split", "strip", "encode", "__repr__"] then some (.bmeth v a)
    else if a = "__class__" then some (.builtin "str") else none
  | .int _ =>
    if a ∈ ["__hash__", "__repr__"] then some (.bmeth v a) else if a = "__class__" then some (.builtin "int") else none
  | .none => if a = "__repr__" then some (.bmeth v a) else if a = "__class__" then some (.builtin "NoneType") else none
  | _ => none

def setAssoc (l : List (String × V)) (a : String) (v : V) : List (String × V) :=
  match l with
  | [] => [(a, v)]
  | (b, w) :: l => if b = a then (b, v) :: l else (b, w) :: setAssoc l a v

/-- Python's equality for keys of a dictionary. -/
def keyEq : V → V → Bool
  | .int a, .int b => a == b
  | .str a, .str b => a == b
  | _, _ => false

def setKey (l : List (V × V)) (k v : V) : List (V × V) :=
  match l with
  | [] => [(k, v)]
  | (k', w) :: l => if keyEq k' k then (k', v) :: l else (k', w) :: setKey l k v

def getKey (l : List (V × V)) (k : V) : Option V :=
  (l.find? fun e => keyEq e.1 k).map (·.2)

/-- The position an index means, for a sequence of length `n`. -/
def position (n : Nat) (i : Int) : Option Nat :=
  if 0 ≤ i then (if i.toNat < n then some i.toNat else none)
  else if 0 ≤ i + n then some (i + n).toNat else none

/-- The element at an index. -/
def itemAt {α} (l : List α) (i : Int) : Option α := (position l.length i).bind fun k => l[k]?

/-- A bound of a slice. -/
def bound (n : Nat) (i : Int) : Nat := if 0 ≤ i then min i.toNat n else (i + n).toNat

/-- `l.insert(i, v)`. -/
def insertAt {α} (l : List α) (i : Int) (v : α) : List α := l.take (bound l.length i) ++ v :: l.drop (bound l.length i)

/-- `l[i] = v`; none is an IndexError. -/
def setAt {α} (l : List α) (i : Int) (v : α) : Option (List α) := (position l.length i).map fun k => l.set k v

/-- `l[lo:hi]`; none if a bound is not an int or None. -/
def sliceL {α} (l : List α) (lo hi : V) : Option (List α) :=
  match lo, hi with
  | .none, .none => some l
  | .none, .int j => some (l.take (bound l.length j))
  | .int i, .none => some (l.drop (bound l.length i))
  | .int i, .int j => some ((l.take (bound l.length j)).drop (bound l.length i))
  | _, _ => none

/-- `a op b` on ints. -/
def intOp (op : BinOp) (a b : Int) (h : Heap) : R V :=
  match op with
  | .add => okR (.int (a + b)) h
  | .sub => okR (.int (a - b)) h
  | .mul => okR (.int (a * b)) h
  | .div =>
    if b = 0 then raiseR "ZeroDivisionError" h
    else if a.natAbs < 2 ^ 31 ∧ b.natAbs < 2 ^ 10 then okR (.quot a b) h   -- then the float's whole part is that of a / b
    else stuckR h
  | .mod => if b = 0 then raiseR "ZeroDivisionError" h else okR (.int (Int.fmod a b)) h
  | .shl => if b < 0 then raiseR "ValueError" h else okR (.int (a <<< b.toNat)) h
  | .shr => if b < 0 then raiseR "ValueError" h else okR (.int (a >>> b.toNat)) h
  | .bor => okR (.int (Int.lor a b)) h
  | .band => okR (.int (Int.land a b)) h

def intCmp (op : CmpOp) (a b : Int) : Option Bool :=
  match op with
  | .eq => some (a == b)
  | .ne => some (a != b)
  | .lt => some (decide (a < b))
  | .le => some (decide (a ≤ b))
  | .gt => some (decide (b < a))
  | .ge => some (decide (b ≤ a))
  | _ => none

/-- `a is b`; none if not modelled (two equal numbers or texts may or may not be one object). -/
def identical : V → V → Option Bool
  | .none, .none => some true
  | .none, _ => some false
  | .int _, .none => some false
  | .bool _, .none => some false
  | .str _, .none => some false
  | .ref _, .none => some false
  | .tuple _, .none => some false
  | .cls _, .none => some false
  | .builtin _, .none => some false
  | .func _ _, .none => some false
  | .meth _ _ _, .none => some false
  | .exc _ _, .none => some false
  | .ext _, .none => some false
  | .ref a, .ref b => some (a == b)
  | .cls a, .cls b => some (a == b)
  | .builtin a, .builtin b => some (a == b)
  | .cls _, .builtin _ => some false
  | .builtin _, .cls _ => some false
  | _, _ => none

/-- The exception is caught by `except name:`. -/
def caught (name : Option String) (e : V) (_h : Heap) : Bool :=
  match name with
  | none => true
  | some n => match e with
    | .exc n' _ => n == n' || n == "Exception" && !["KeyboardInterrupt", "SystemExit", "GeneratorExit"].contains n'
    | _ => n == "Exception"                    -- the exception classes of the package derive from `Exception`

/-! ## Formatting: `text % values` -/

inductive Piece where
  | text (s : Str)
  | conv (width : Nat) (prec : Option Nat) (c : Nat)
deriving DecidableEq, Repr

/-- Reads the digits at the head of a text. -/
def digitsHead : Str → Nat → Nat × Str
  | [], n => (n, [])
  | c :: cs, n => if isDigit c then digitsHead cs (10 * n + (c - 48)) else (n, c :: cs)

/-- One conversion, after its `%`. -/
def pieceHead (s : Str) : Option (Piece × Str) :=
  let (w, s1) := digitsHead s 0
  match s1 with
  | 46 :: s2 =>
    let (p, s3) := digitsHead s2 0
    match s3 with
    | c :: s4 => some (.conv w (some p) c, s4)
    | [] => none
  | c :: s2 => some (.conv w none c, s2)
  | [] => none

/-- The pieces of a format; the number bounds how many there are. -/
def pieces : Nat → Str → Option (List Piece)
  | _, [] => some []
  | 0, _ => none
  | n + 1, 37 :: s => match pieceHead s with
    | some (p, s') => (pieces n s').map (p :: ·)
    | none => none
  | n + 1, s => (pieces n (s.dropWhile (· != 37))).map (Piece.text (s.takeWhile (· != 37)) :: ·)

/-- `'%d' % n` raises. -/
def tooLong (digits : Nat) (n : Int) : Bool := digits ≠ 0 && decide (10 ^ digits ≤ n.natAbs)

def padLeft (w : Nat) (c : Nat) (s : Str) : Str := List.replicate (w - s.length) c ++ s

/-- `%x`, `%X`, `%o` of a non-negative int. -/
def basedDigits (c : Nat) (n : Nat) : Option Str :=
  if c = 120 then some ((digits 16 n).map hexDigit)                                              -- x
  else if c = 88 then some ((digits 16 n).map fun d => if d < 10 then d + 48 else d + 55)          -- X
  else if c = 111 then some ((digits 8 n).map (· + 48))                                          -- o
  else none

/-- One conversion of a value that no code of the package is needed for; `s` is `str(v)` for `%s`. -/
def convInt (cfg : Cfg) (w : Nat) (p : Option Nat) (c : Nat) (n : Int) (h : Heap) : R Str :=
  if c = 100 then                                                                                 -- d
    if tooLong cfg.digits n then raiseR "ValueError" h
    else if p.isSome then stuckR h
    else okR (padLeft w 32 (pyStrInt n)) h
  else if 0 ≤ n then match basedDigits c n.toNat with
    | some ds => okR (padLeft w 32 (padLeft (p.getD 0) 48 ds)) h
    | none => stuckR h
  else stuckR h

def convStr (w : Nat) (p : Option Nat) (s : Str) : Str :=
  padLeft w 32 (match p with | none => s | some k => s.take k)

/-! ## Iteration -/

/-- An iterator: over given values, a list object, or an object with `__getitem__`. -/
inductive It where
  | vals (l : List V)
  | list (a : Nat) (i : Nat)
  | inst (self : V) (i : Nat)

/-- `iter(v)`; none if not modelled or a TypeError. -/
def iterOf (P : Program) (h : Heap) (v : V) : Option It :=
  match v with
  | .iter l => some (.vals l)
  | .tuple l => some (.vals l)
  | .str s => some (.vals (s.map fun c => .str [c]))
  | .ref a => match h[a]? with
    | some (.list _) => some (.list a 0)
    | some (.inst c _) => if (P.attr c "__getitem__").isSome then some (.inst v 0) else none
    | _ => none
  | _ => none

/-! ## Calls -/

/-- The local names at the start of a call: parameters, then the other local names; none is a TypeError. -/
def Fn.enter (f : Fn) (args : List V) : Option Env :=
  if args.length ≤ f.params.length ∧ f.params.length ≤ args.length + f.defaults.length then
    let all := args ++ f.defaults.drop (f.defaults.length - (f.params.length - args.length))
    some (f.params.zip (all.map some) ++ f.locals.map (·, none))
  else none

/-- The values of the parameters that are left: given by name, or the default; none if there is neither. -/
def fill (kw : List (String × V)) : List String → List (Option V) → Option (List V)
  | [], _ => some []
  | _ :: _, [] => none
  | p :: ps, d :: ds => match kw.lookup p, d with
    | some v, _ => (fill kw ps ds).map (v :: ·)
    | none, some v => (fill kw ps ds).map (v :: ·)
    | none, none => none

/-- All arguments of a call, in order, when some are given by name; none is a TypeError. -/
def Fn.place (f : Fn) (args : List V) (kw : List (String × V)) : Option (List V) :=
  if args.length ≤ f.params.length ∧ kw.all (fun p => decide (p.1 ∈ f.params.drop args.length)) = true then
    (fill kw (f.params.drop args.length)
      ((List.replicate (f.params.length - f.defaults.length) none ++ f.defaults.map some).drop args.length)).map (args ++ ·)
  else none

/-- The same for whatever is called: a method's first parameter is given already. -/
def Program.place (P : Program) (f : V) (args : List V) (kw : List (String × V)) : Option (List V) :=
  match f with
  | .func m l => (P.code m l).bind fun fn => fn.place args kw
  | .meth self m l => (P.code m l).bind fun fn => (fn.place (self :: args) kw).map (·.drop 1)
  | .cls c => match P.attr c "__init__" with
    | some (.func m l) => (P.code m l).bind fun fn => (fn.place (.none :: args) kw).map (·.drop 1)
    | _ => none
  | _ => none

/-- `callable(v)`; none if not modelled. -/
def pyCallable (P : Program) (h : Heap) : V → Option Bool
  | .none => some false
  | .int _ => some false
  | .str _ => some false
  | .tuple _ => some false
  | .func _ _ => some true
  | .meth _ _ _ => some true
  | .bmeth _ _ => some true
  | .cls _ => some true
  | .builtin _ => some true
  | .ext _ => some true
  | .ref a => match h[a]? with
    | some (.inst c _) => some (P.attr c "__call__").isSome
    | some _ => some false
    | none => none
  | _ => none

/-- `issubclass(c, d)`, as far as it is asked for. -/
def pySubclass : V → V → Option Bool
  | .builtin a, .builtin b => some (a == b || b == "ValueError" && a == "UnicodeDecodeError" || b == "Exception")
  | .cls _, .builtin b => if b = "ValueError" then some false else none     -- no class of the package derives from it
  | _, _ => none

/-- A method of a queue. -/
def queueMethod (a : Nat) (l : List V) (name : String) (args : List V) (h : Heap) : R V :=
  match name, args with
  | "put", [v] => okR .none (h.set a (.queue (l ++ [v])))
  | "get", [.int 0] => match l with                                          -- block=0
    | v :: l => okR v (h.set a (.queue l))
    | [] => raiseR "queue.Empty" h
  | _, _ => stuckR h

/-- `ord(v)`. -/
def pyOrd (v : V) (h : Heap) : R V :=
  match v with
  | .str [c] => okR (.int c) h
  | _ => raiseR "TypeError" h

/-- `chr(v)`. -/
def pyChrV (v : V) (h : Heap) : R V :=
  match v with
  | .int n => match pyChr n with
    | .ok c => okR (.str [c]) h
    | .error .overflowError => raiseR "OverflowError" h
    | .error _ => raiseR "ValueError" h
  | _ => raiseR "TypeError" h

/-- The texts in a list, for `''.join`; none is a TypeError. -/
def allStr : List V → Option (List Str)
  | [] => some []
  | .str s :: vs => (allStr vs).map (s :: ·)
  | _ => none

/-- `int(text)`, with the limit on numerals. -/
def intOfStr (cfg : Cfg) (s : Str) (h : Heap) : R V :=
  if cfg.digits ≠ 0 ∧ cfg.digits < (s.filter isDigit).length then raiseR "ValueError" h
  else match pyInt s with
    | .ok n => okR (.int n) h
    | .error _ => raiseR "ValueError" h

/-- A float, from its sign and the number without it (`none`: infinity).  Simplification: there is one zero. -/
def ofFloat (neg : Bool) : Option ℚ → V
  | none => .quot (if neg then -1 else 1) 0
  | some q => .quot (if neg then -q.num else q.num) q.den

/-- A text in small letters (ASCII). -/
def lowercase (s : Str) : Str := s.map fun c => if 65 ≤ c ∧ c ≤ 90 then c + 32 else c

/-- `float(text)`; only modelled for ASCII texts. -/
def floatOfStr (s : Str) (h : Heap) : R V :=
  if s.any (128 ≤ ·) then stuckR h
  else
    let w := floatSign (stripBy isSpace s)
    match floatMagnitude w.2 with
    | some q => okR (ofFloat w.1 (toDouble q)) h
    | none =>
      if lowercase w.2 = lit "inf" ∨ lowercase w.2 = lit "infinity" then okR (ofFloat w.1 none) h
      else if lowercase w.2 = lit "nan" then okR (.quot 0 0) h
      else raiseR "ValueError" h

/-- `float(n)`. -/
def floatOfInt (n : Int) (h : Heap) : R V :=
  match toDouble (n.natAbs : ℚ) with
  | none => raiseR "OverflowError" h
  | some q => okR (ofFloat (n < 0) (some q)) h

/-- A float times an int that is itself a float.  (Simplification: what `/` gives is the quotient without rounding.) -/
def floatTimes (a b n : Int) (h : Heap) : R V :=
  if n.natAbs ≤ 2 ^ 53 then
    if b = 0 then okR (.quot (a.sign * n.sign) 0) h
    else okR (ofFloat (a * n < 0) (toDouble ((a.natAbs : ℚ) / b * n.natAbs))) h
  else stuckR h

/-- `int(a / b)` for a float. -/
def intOfFloat (a b : Int) (h : Heap) : R V :=
  if b = 0 then raiseR (if a = 0 then "ValueError" else "OverflowError") h else okR (.int (Int.tdiv a b)) h

/-- `s.split()`: the words. -/
def pyWords (s : Str) : List Str :=
  go s []
where
  go : Str → Str → List Str
    | [], w => if w = [] then [] else [w]
    | c :: s, w => if isSpace c then (if w = [] then go s [] else w :: go s []) else go s (w ++ [c])

/-- A method of a list object that runs no code of the package. -/
def listMethod (a : Nat) (l : List V) (name : String) (args : List V) (h : Heap) : R V :=
  match name, args with
  | "append", [v] => okR .none (h.set a (.list (l ++ [v])))
  | "insert", [.int i, v] => okR .none (h.set a (.list (insertAt l i v)))
  | "reverse", [] => okR .none (h.set a (.list l.reverse))
  | "pop", [] => match l.getLast? with
    | some v => okR v (h.set a (.list l.dropLast))
    | none => raiseR "IndexError" h
  | "__getitem__", [.int i] => match itemAt l i with
    | some v => okR v h
    | none => raiseR "IndexError" h
  | "__getitem__", [.slc i j] => match sliceL l i j with
    | some l => okR (.ref h.length) (h ++ [.list l])
    | none => stuckR h
  | "__delitem__", [.int i] => match position l.length i with
    | some k => okR .none (h.set a (.list (l.eraseIdx k)))
    | none => raiseR "IndexError" h
  | _, _ => stuckR h

/-- A method of a text that needs no iteration. -/
def strMethod (s : Str) (name : String) (args : List V) (h : Heap) : R V :=
  match name, args with
  | "split", [.str [c]] => okR (.ref h.length) (h ++ [.list ((pySplit c s).map V.str)])
  | "strip", [.str [c]] => okR (.str (pyStrip c s)) h
  | "split", [] =>                             -- Only modelled for ASCII texts
    if s.any (128 ≤ ·) then stuckR h else okR (.ref h.length) (h ++ [.list ((pyWords s).map V.str)])
  | _, _ => stuckR h

/-- `v.a = w`. -/
def setattr (P : Program) (v : V) (a : String) (w : V) (h : Heap) : R Unit :=
  match v with
  | .ref r => match h[r]? with
    | some (.inst c attrs) =>
      if a = "args" ∧ P.isExc 8 c = true then
        match w with                        -- BaseException.args turns what it is given into a tuple
        | .str s => okR () (h.set r (.inst c (setAssoc attrs a (.tuple (s.map fun c => .str [c])))))
        | .tuple l => okR () (h.set r (.inst c (setAssoc attrs a (.tuple l))))
        | .none => raiseR "TypeError" h
        | _ => stuckR h
      else okR () (h.set r (.inst c (setAssoc attrs a w)))
    | _ => raiseR "AttributeError" h
  | _ => raiseR "AttributeError" h

/-- `v[i] = w`. -/
def setitem (v i w : V) (h : Heap) : R Unit :=
  match v with
  | .ref r => match h[r]? with
    | some (.list l) => match i with
      | .int n => match setAt l n w with
        | some l' => okR () (h.set r (.list l'))
        | none => raiseR "IndexError" h
      | _ => raiseR "TypeError" h
    | some (.dict l) => okR () (h.set r (.dict (setKey l i w)))
    | _ => stuckR h
  | _ => stuckR h

/-- Allocates an object. -/
def alloc (c : Cell) (h : Heap) : R V := okR (.ref h.length) (h ++ [c])

end Libsnmp.Src
