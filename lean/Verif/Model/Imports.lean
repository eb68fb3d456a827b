import Verif.Model.Obj

/-!
# Module imports and the shared tag registry

`tagDecodeDict` is one dictionary object, created by rfc1155 and re-exported by `from .rfc1155 import *`.
-/

namespace Libsnmp

/-- The modules of the package (`__init__.py` has no imports). -/
inductive Module where
  | util | debug | role | asynrole | rfc1155 | rfc1157 | rfc1902 | rfc1905 | v1 | v2 | snmpmanager
deriving DecidableEq, Repr

/-- A process, as far as imports are concerned: `sys.modules` and the registry. -/
structure Proc where
  loaded : Module → Bool := fun _ => false
  reg : Reg := fun _ => none

/-- `import m`: a module already in `sys.modules` is not executed again; otherwise it is entered there and its body is
executed, which imports other modules (`deps`) and then runs its own statements (`own`). -/
def load (m : Module) (deps : Proc → Proc) (own : Reg → Reg) (p : Proc) : Proc :=
  if p.loaded m then p
  else
    let q := deps { p with loaded := fun x => decide (x = m) || p.loaded x }
    { q with reg := own q.reg }

/-- util.py: no imports, nothing registered. -/
def impUtil : Proc → Proc := load .util id id
/-- debug.py. -/
def impDebug : Proc → Proc := load .debug id id
/-- role.py. -/
def impRole : Proc → Proc := load .role id id
/-- asynrole.py:10. -/
def impAsynrole : Proc → Proc := load .asynrole impRole id
/-- rfc1155.py:20, 1086-1102: creates the dictionary. -/
def imp1155 : Proc → Proc := load .rfc1155 impUtil fun _ => reg1155
/-- rfc1157.py:11, 273-277. -/
def imp1157 : Proc → Proc := load .rfc1157 imp1155 addReg1157
/-- rfc1902.py:9, 70-73. -/
def imp1902 : Proc → Proc := load .rfc1902 imp1155 addReg1902
/-- rfc1905.py:9-10, 234-243. -/
def imp1905 : Proc → Proc := load .rfc1905 (fun p => imp1902 (imp1157 p)) addReg1905
/-- v1.py:12-13. -/
def impV1 : Proc → Proc := load .v1 (fun p => imp1157 (impAsynrole p)) id
/-- v2.py:13-16. -/
def impV2 : Proc → Proc := load .v2 (fun p => impV1 (imp1905 (imp1157 (imp1155 p)))) id
/-- snmpmanager.py:14-18. -/
def impManager : Proc → Proc := load .snmpmanager (fun p => impV2 (impV1 (imp1905 (imp1157 (impAsynrole p))))) id

/-- `import m`. -/
def Module.imp : Module → Proc → Proc
  | .util => impUtil
  | .debug => impDebug
  | .role => impRole
  | .asynrole => impAsynrole
  | .rfc1155 => imp1155
  | .rfc1157 => imp1157
  | .rfc1902 => imp1902
  | .rfc1905 => imp1905
  | .v1 => impV1
  | .v2 => impV2
  | .snmpmanager => impManager

/-- A program that imports these modules in this order. -/
def imports (l : List Module) : Proc := l.foldl (fun p m => m.imp p) {}

end Libsnmp
