import Verif.Model.Logging
import Verif.Spec.Imports
import Verif.Spec.Manager

/-!
# What a program does about logging, in terms of its source
-/

namespace Spec
open Libsnmp

/-- The modules whose import makes the logger of this name. -/
def makers (n : LogName) : List Module :=
  if n = logV1 then [.role, .asynrole, .v1, .v2, .snmpmanager]
  else if n = logAsn1 then [.rfc1155, .rfc1157, .rfc1902, .rfc1905, .v1, .v2, .snmpmanager]
  else if n = log1157 then [.rfc1157, .rfc1905, .v1, .v2, .snmpmanager]
  else if n = log1902 then [.rfc1902, .rfc1905, .v2, .snmpmanager]
  else if n = log1905 then [.rfc1905, .v2, .snmpmanager]
  else if n = logV2 then [.v2, .snmpmanager]
  else if n = logManager then [.snmpmanager]
  else []

/-- The loggers of the library. -/
def libraryLoggers : List LogName := [logAsn1, log1157, log1902, log1905, logV1, logV2, logManager]

/-- The program leaves the library's loggers alone, and the names `v1` and `v2` above two of them. -/
def leavesAlone : LogAct → Bool
  | .getLogger n | .setLevel n _ => !(libraryLoggers ++ [["v1"], ["v2"]]).contains n
  | _ => true

/-- `debug` is imported before any module that makes this logger. -/
def debugFirst (n : LogName) : List LogAct → Bool
  | [] => false
  | .imp m :: rest => if m = .debug then true else if (makers n).contains m then false else debugFirst n rest
  | _ :: rest => debugFirst n rest

/-- Some module that makes this logger is imported. -/
def made (n : LogName) (l : List LogAct) : Bool :=
  l.any fun | .imp m => (makers n).contains m | _ => false

/-- How many handlers the program adds to the root logger. -/
def rootHandlersOf (l : List LogAct) : Nat := l.countP fun | .rootHandler => true | _ => false

/-- The level of the root logger. -/
def rootLevelOf (l : List LogAct) : Nat := l.foldl (fun v a => match a with | .rootLevel w => w | _ => v) 30

/-- The modules whose import gives a program this manager class. -/
def brings : Kind → List Module
  | .v1 => [.v1, .v2, .snmpmanager]
  | .v2 => [.v2, .snmpmanager]
  | .sm => [.snmpmanager]

/-- What the operator is told when handling a datagram fails with `e`: `v1.SNMP` writes one line, `v2.SNMP` a line and a
traceback, `snmpManager` nothing (the exception leaves `receiveData` in the first and the last). -/
def told : Kind → Exc → List Report
  | .v1, e => [.record logV1 40 (.failed e)]
  | .v2, e => [.record logV2 40 (.failed e), .traceback e]
  | .sm, _ => []

/-- The logger of a manager class. -/
def loggerOf : Kind → LogName
  | .v1 => logV1
  | .v2 => logV2
  | .sm => logManager

/-- The lines about a version number the class does not handle: two when the version is an Integer object, one when it is a
plain number (the "message" was an ObjectID, say), none otherwise. -/
def versionTold (k : Kind) : Val → List Report
  | .integer _ n => [.record (loggerOf k) 40 (.unknownVersion n), .record (loggerOf k) 40 (.versionIs n)]
  | .int n => [.record (loggerOf k) 40 (.unknownVersion n)]
  | _ => []

end Spec
