import Verif.Model.Imports

/-!
# Names: modules, classes and what executing a module binds

The statements of the modules are in `NamesData.lean`, generated from the source text.  Here is what they do: a module's
top level is executed once, after the modules it imports; it binds names, creates classes, fills the dictionaries
`asnTagClasses`, `asnTagFormats`, `asnTagNumbers` and `tagDecodeDict`, which other modules then share (they import the
dictionary object).
-/

namespace Libsnmp.Names

/-- What a name can be bound to.  Classes, functions, dictionaries and other data are identified by the module and the line of
the statement that made them. -/
inductive Obj where
  | cls (m : Module) (line : Nat)
  | func (m : Module) (line : Nat)
  | mod (m : Module)
  | ext (name : String)                    -- a module, function or class from outside the package
  | extAttr (name attr : String)           -- `asyncore.dispatcher`, `logging.Logger`
  | dict (m : Module) (line : Nat)         -- a dictionary from texts to numbers
  | registry (m : Module)                  -- `tagDecodeDict`
  | num (n : Int)
  | data (m : Module) (line : Nat)         -- something computed: a logger, a string, None, ...
deriving DecidableEq, Repr

/-- An expression in a top level statement or in a class body. -/
inductive Expr where
  | name (n : String)
  | attr (n a : String)                    -- n.a
  | item (n key : String)                  -- n['key']
  | num (n : Int)
  | other                                  -- a text, None, a dictionary, ...: no name of the package in it
deriving DecidableEq, Repr

/-- A statement in a class body. -/
inductive Member where
  | func (line : Nat)
  | val (e : Expr)
deriving DecidableEq, Repr

/-- A statement at the top level of a module. -/
inductive Stmt where
  | importExt (name : String)
  | importMod (m : Module)                                          -- from . import m, from libsnmp import m
  | star (m : Module)                                               -- from .m import *
  | cls (line : Nat) (name : String) (bases : List Expr) (members : List (String × Member))
  | func (line : Nat) (name : String)
  | dict (line : Nat) (name : String) (entries : List (String × Int))
  | registry (name : String) (entries : List (Nat × Expr))          -- tagDecodeDict = {...}
  | assign (name : String) (e : Expr)
  | compute (line : Nat) (name : String) (uses : List String)       -- log = logging.getLogger(...)
  | setKey (name key : String) (n : Int)                            -- asnTagNumbers['Get'] = n
  | setTag (name : String) (tag : Nat) (e : Expr)                   -- tagDecodeDict[tag] = C
  | use (names : List String)                                       -- log.setLevel(logging.INFO)
deriving DecidableEq, Repr

/-- A class that a module has created. -/
structure ClassRec where
  line : Nat
  bases : List Obj
  members : List (String × Obj)
deriving DecidableEq, Repr

/-- What executing the top level of a module leaves behind; the newest entry of each list comes first. -/
structure Done where
  names : List (String × Obj) := []
  classes : List ClassRec := []
  keys : List ((Module × Nat) × String × Int) := []
  tags : List (Nat × Obj) := []
deriving DecidableEq, Repr

/-- What the top level of a module can see of the rest of the process: the names of other modules, and the entries of the
dictionaries. -/
structure View where
  names : Module → List (String × Obj)
  key : Module × Nat → String → Option Int

def moduleOf : String → Option Module
  | "util" => some .util | "debug" => some .debug | "role" => some .role | "asynrole" => some .asynrole
  | "rfc1155" => some .rfc1155 | "rfc1157" => some .rfc1157 | "rfc1902" => some .rfc1902 | "rfc1905" => some .rfc1905
  | "v1" => some .v1 | "v2" => some .v2 | "snmpmanager" => some .snmpmanager | _ => none

/-- The name a module is bound to by `from . import m`. -/
def modName : Module → String
  | .util => "util" | .debug => "debug" | .role => "role" | .asynrole => "asynrole" | .rfc1155 => "rfc1155"
  | .rfc1157 => "rfc1157" | .rfc1902 => "rfc1902" | .rfc1905 => "rfc1905" | .v1 => "v1" | .v2 => "v2"
  | .snmpmanager => "snmpmanager"

/-- A global name at the top level (the only built-in class the package's classes derive from is `Exception`). -/
def Done.get (d : Done) (n : String) : Option Obj :=
  match d.names.lookup n with
  | some o => some o
  | none => if n = "Exception" then some (.ext "Exception") else none

/-- The value of an expression; none stands for NameError, AttributeError or KeyError. -/
def eval (v : View) (m : Module) (d : Done) : Expr → Option Obj
  | .name n => d.get n
  | .attr n a => match d.get n with
    | some (.mod m') => (v.names m').lookup a
    | some (.ext x) => some (.extAttr x a)
    | _ => none
  | .item n key => match d.get n with
    | some (.dict m' l) => match d.keys.find? fun e => e.1 == (m', l) && e.2.1 == key with
      | some e => some (.num e.2.2)
      | none => (v.key (m', l) key).map .num
    | _ => none
  | .num n => some (.num n)
  | .other => some (.data m 0)

/-- All of them, or none. -/
def evalAll (v : View) (m : Module) (d : Done) : List Expr → Option (List Obj)
  | [] => some []
  | e :: es => match eval v m d e, evalAll v m d es with
    | some o, some os => some (o :: os)
    | _, _ => none

/-- The members of a class, the newest first.  (No class body of the package refers to a name bound earlier in the same class
body.) -/
def evalMembers (v : View) (m : Module) (d : Done) : List (String × Member) → Option (List (String × Obj))
  | [] => some []
  | (n, .func l) :: ms => (evalMembers v m d ms).map (· ++ [(n, .func m l)])
  | (n, .val e) :: ms => match eval v m d e, evalMembers v m d ms with
    | some o, some os => some (os ++ [(n, o)])
    | _, _ => none

def evalTags (v : View) (m : Module) (d : Done) : List (Nat × Expr) → Option (List (Nat × Obj))
  | [] => some []
  | (t, e) :: es => match eval v m d e, evalTags v m d es with
    | some o, some os => some (os ++ [(t, o)])
    | _, _ => none

/-- One statement; none if it raises. -/
def exec (v : View) (m : Module) (d : Done) : Stmt → Option Done
  | .importExt n => some { d with names := (n, .ext n) :: d.names }
  | .importMod m' => some { d with names := (modName m', .mod m') :: d.names }
  | .star m' => some { d with names := (v.names m').filter (fun e => !e.1.startsWith "_") ++ d.names }
  | .cls line n bases members => match evalAll v m d bases, evalMembers v m d members with
    | some bs, some ms => some { d with names := (n, .cls m line) :: d.names, classes := ⟨line, bs, ms⟩ :: d.classes }
    | _, _ => none
  | .func line n => some { d with names := (n, .func m line) :: d.names }
  | .dict line n entries =>
    some { d with names := (n, .dict m line) :: d.names, keys := (entries.map fun e => ((m, line), e)) ++ d.keys }
  | .registry n entries => match evalTags v m d entries with
    | some ts => some { d with names := (n, .registry m) :: d.names, tags := ts ++ d.tags }
    | none => none
  | .assign n e => match eval v m d e with
    | some o => some { d with names := (n, o) :: d.names }
    | none => none
  | .compute line n us =>
    if us.all fun u => (d.get u).isSome then some { d with names := (n, .data m line) :: d.names } else none
  | .setKey n key x => match d.get n with
    | some (.dict m' l) => some { d with keys := ((m', l), key, x) :: d.keys }
    | _ => none
  | .setTag n t e => match d.get n, eval v m d e with
    | some (.registry _), some o => some { d with tags := (t, o) :: d.tags }
    | _, _ => none
  | .use us => if us.all fun u => (d.get u).isSome then some d else none

/-- The statements of a module one after the other. -/
def execAll (v : View) (m : Module) : List Stmt → Done → Option Done
  | [], d => some d
  | s :: ss, d => match exec v m d s with
    | some d' => execAll v m ss d'
    | none => none

/-- The modules that a list of statements imports, in order. -/
def importsOf : List Stmt → List Module
  | [] => []
  | .importMod m :: ss => m :: importsOf ss
  | .star m :: ss => m :: importsOf ss
  | _ :: ss => importsOf ss

end Libsnmp.Names
