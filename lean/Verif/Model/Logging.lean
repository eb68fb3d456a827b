import Verif.Model.Imports
import Verif.Model.Manager

/-!
# Logging: the loggers of the library's modules, `debug.snmpLogger`, and what a manager reports about a datagram

Python's `logging` as far as the library uses it.  A logger's name is given by its dotted components (`v1.SNMP` is
`["v1", "SNMP"]`).  Not modelled: `logging.disable`, filters, `propagate = False`, handlers with a level of their own, handlers
that do not write to the terminal.
-/

namespace Libsnmp

abbrev LogName := List String

/-- A `Logger` object: its own level (0 is NOTSET) and the number of handlers attached to it. -/
structure Lgr where
  level : Nat
  handlers : Nat
deriving DecidableEq, Repr

/-- The state of the `logging` module: the class of new loggers, the loggers by name, the root logger (level WARNING, no
handlers, when the process starts). -/
structure Logs where
  snmpClass : Bool := false
  loggers : LogName → Option Lgr := fun _ => none
  rootLevel : Nat := 30
  rootHandlers : Nat := 0

/-- A new logger: `logging.Logger` has level NOTSET and no handler; debug.py:9-22 `snmpLogger` has level DEBUG and a
`StreamHandler` of its own. -/
def newLogger (snmp : Bool) : Lgr := if snmp then ⟨10, 1⟩ else ⟨0, 0⟩

/-- `logging.getLogger(name)`: the logger of that name, made at the first call. -/
def getLogger (n : LogName) (L : Logs) : Logs :=
  match L.loggers n with
  | some _ => L
  | none => { L with loggers := fun x => if x = n then some (newLogger L.snmpClass) else L.loggers x }

/-- `logging.getLogger(name).setLevel(v)`. -/
def setLevel (n : LogName) (v : Nat) (L : Logs) : Logs :=
  let L' := getLogger n L
  { L' with loggers := fun x => if x = n then (L'.loggers x).map ({ · with level := v }) else L'.loggers x }

/-- The logger and its dotted ancestors, nearest first; the root is not in it. -/
def ancestry (n : LogName) : List LogName := (List.range n.length).map fun i => n.take (n.length - i)

/-- `Logger.getEffectiveLevel`. -/
def effectiveLevel (L : Logs) (n : LogName) : Nat :=
  ((((ancestry n).filterMap L.loggers).map Lgr.level).find? (· ≠ 0)).getD L.rootLevel

/-- The handlers a record meets on its way to the root (`Logger.callHandlers`). -/
def handlersMet (L : Logs) (n : LogName) : Nat :=
  (((ancestry n).filterMap L.loggers).map Lgr.handlers).sum + L.rootHandlers

/-- How many times a record of this level is written (`Logger.isEnabledFor`, `callHandlers`): when it meets no handler, the
handler of last resort writes it if it is a WARNING or worse. -/
def linesWritten (L : Logs) (n : LogName) (level : Nat) : Nat :=
  if level < effectiveLevel L n then 0
  else if handlersMet L n = 0 then (if 30 ≤ level then 1 else 0)
  else handlersMet L n

/-! ## The modules -/

def logAsn1 : LogName := ["Asn1Object"]
def log1157 : LogName := ["rfc1157"]
def log1902 : LogName := ["rfc1902"]
def log1905 : LogName := ["rfc1905"]
def logV1 : LogName := ["v1", "SNMP"]
def logV2 : LogName := ["v2", "SNMP"]
def logManager : LogName := ["snmp-manager"]

/-- A process as far as imports and logging are concerned. -/
structure LogProc where
  loaded : Module → Bool := fun _ => false
  logs : Logs := {}

/-- `import m`: statements before the imports of `m` (`pre`), the imports (`deps`), statements after them (`own`); nothing if
it is already loaded. -/
def loadLog (m : Module) (pre : Logs → Logs) (deps : LogProc → LogProc) (own : Logs → Logs) (p : LogProc) : LogProc :=
  if p.loaded m then p
  else
    let q := deps ⟨fun x => decide (x = m) || p.loaded x, pre p.logs⟩
    { q with logs := own q.logs }

/-- util.py: no logger. -/
def logUtil : LogProc → LogProc := loadLog .util id id id
/-- debug.py:24 `logging.setLoggerClass(snmpLogger)`. -/
def logDebug : LogProc → LogProc := loadLog .debug id id fun L => { L with snmpClass := true }
/-- role.py:10: role has no logger of its own, it shares v1's. -/
def logRole : LogProc → LogProc := loadLog .role id id (getLogger logV1)
/-- asynrole.py:7-10: no logger. -/
def logAsynrole : LogProc → LogProc := loadLog .asynrole id logRole id
/-- rfc1155.py:20-32. -/
def log1155m : LogProc → LogProc := loadLog .rfc1155 id logUtil (setLevel logAsn1 20)
/-- rfc1157.py:7-11: the logger is made first; the star import then rebinds `log` to rfc1155's. -/
def log1157m : LogProc → LogProc := loadLog .rfc1157 (getLogger log1157) log1155m id
/-- rfc1902.py:9-21. -/
def log1902m : LogProc → LogProc := loadLog .rfc1902 id log1155m (setLevel log1902 20)
/-- rfc1905.py:9-12: no level set. -/
def log1905m : LogProc → LogProc := loadLog .rfc1905 id (fun p => log1902m (log1157m p)) (getLogger log1905)
/-- v1.py:12-16. -/
def logV1m : LogProc → LogProc := loadLog .v1 id (fun p => log1157m (logAsynrole p)) (setLevel logV1 20)
/-- v2.py:13-21. -/
def logV2m : LogProc → LogProc := loadLog .v2 id (fun p => logV1m (log1905m (log1157m (log1155m p)))) (setLevel logV2 20)
/-- snmpmanager.py:14-20: no level set. -/
def logManagerm : LogProc → LogProc :=
  loadLog .snmpmanager id (fun p => logV2m (logV1m (log1905m (log1157m (logAsynrole p))))) (getLogger logManager)

/-- `import m`. -/
def Module.impLog : Module → LogProc → LogProc
  | .util => logUtil
  | .debug => logDebug
  | .role => logRole
  | .asynrole => logAsynrole
  | .rfc1155 => log1155m
  | .rfc1157 => log1157m
  | .rfc1902 => log1902m
  | .rfc1905 => log1905m
  | .v1 => logV1m
  | .v2 => logV2m
  | .snmpmanager => logManagerm

/-- What a program does that concerns logging.  `basicConfig` with a level stands for any configuration of the root logger: it
adds a handler that writes to the terminal. -/
inductive LogAct where
  | imp (m : Module)
  | getLogger (n : LogName)
  | setLevel (n : LogName) (v : Nat)
  | rootHandler
  | rootLevel (v : Nat)
deriving DecidableEq

def LogAct.run : LogAct → LogProc → LogProc
  | .imp m, p => m.impLog p
  | .getLogger n, p => { p with logs := Libsnmp.getLogger n p.logs }
  | .setLevel n v, p => { p with logs := Libsnmp.setLevel n v p.logs }
  | .rootHandler, p => { p with logs := { p.logs with rootHandlers := p.logs.rootHandlers + 1 } }
  | .rootLevel v, p => { p with logs := { p.logs with rootLevel := v } }

/-- The process after these actions, in order. -/
def logsAfter (l : List LogAct) : LogProc := l.foldl (fun p a => a.run p) {}

/-! ## What a manager reports about a datagram -/

/-- The texts of the log records of `receiveData`. -/
inductive LogText where
  | detectedV1 | detectedV2 | inboundTrap | unknownType | unknownTypeV1
  | unknownVersion (n : Int)   -- 'Unknown message version %d detected'
  | versionIs (n : Int)        -- 'version is a %s'
  | failed (e : Exc)           -- 'Exception in receiveData: %s'
deriving DecidableEq, Repr

/-- Something written for the operator: a log record, or a traceback on the standard error stream. -/
inductive Report where
  | record (logger : LogName) (level : Nat) (text : LogText)
  | traceback (e : Exc)
deriving DecidableEq, Repr

/-- v1.py:185-187, v2.py:166-168, snmpmanager.py:280-282: the first record needs `'%d' % version`, the second
`version()`. -/
def versionReports (name : LogName) (version : Val) : List Report :=
  match version with
  | .integer _ n => [.record name 40 (.unknownVersion n), .record name 40 (.versionIs n)]
  | .int n => [.record name 40 (.unknownVersion n)]
  | _ => []

/-- v1.py:189-202, v2.py:170-183: the records of the dispatch. -/
def dispatchReports (name : LogName) (msg : Msg) : List Report :=
  if msg.data.isInstance (.seq .pdu) then []
  else if msg.data.isInstance (.seq .trapPDU) then [.record name 10 .inboundTrap]
  else [.record name 10 .unknownType]

/-- v1.py:205-208: the record of the `except` clause; `except Exception` passes over SystemExit. -/
def v1Caught (r : Except Exc Unit) : List Report :=
  match r with
  | .ok () => []
  | .error e => if e.isException then [.record logV1 40 (.failed e)] else []

/-- v1.py:163-208 `receiveData`: what it reports (besides what the callback reports itself). -/
def v1Reports (env : Env) (user : User .v1) (data : Val) (s : Mgr .v1) : List Report :=
  (match msgDecode env.reg .message data with
    | .error _ => []
    | .ok msg => match versionIs msg.version 0 with
      | .error _ => []
      | .ok true => .record logV1 10 .detectedV1 :: dispatchReports logV1 msg
      | .ok false => versionReports logV1 msg.version)
  ++ v1Caught (v1ReceiveData env user data s).1

/-- v2.py:186-190: the record of the `except` clause, and the traceback. -/
def v2Caught (r : Except Exc Unit) : List Report :=
  match r with
  | .ok () => []
  | .error e => if e.isException then [.record logV2 40 (.failed e), .traceback e] else []

/-- v2.py:141-190 `receiveData`: what it reports. -/
def v2Reports (env : Env) (user : User .v2) (data : Val) (s : Mgr .v2) : List Report :=
  (match msgDecode env.reg .message2 data with
    | .error _ => []
    | .ok msg => match versionIs msg.version 0 with
      | .error _ => []
      | .ok true => .record logV2 10 .detectedV1 :: dispatchReports logV2 msg
      | .ok false => match versionIs msg.version 1 with
        | .error _ => []
        | .ok true => .record logV2 10 .detectedV2 :: dispatchReports logV2 msg
        | .ok false => versionReports logV2 msg.version)
  ++ v2Caught (v2ReceiveBody env user data s).1

/-- snmpmanager.py:254-298: what `snmpManager.receiveData` reports; line 313 is never reached (line 309 raises). -/
def smReports (env : Env) (data : Val) : List Report :=
  match msgDecode env.reg .message2 data with
  | .error _ => []
  | .ok msg => match versionIs msg.version 0 with
    | .error _ => []
    | .ok true =>
      if msg.data.isInstance (.seq .pdu) then []
      else if msg.data.isInstance (.seq .trapPDU) then []
      else [.record logManager 20 .unknownTypeV1]
    | .ok false => match versionIs msg.version 1 with
      | .error _ => []
      | .ok true => []
      | .ok false => versionReports logManager msg.version

/-- The reports of `receiveData` of each class. -/
def receiveReports (env : Env) : (k : Kind) → User k → Val → Mgr k → List Report
  | .v1, user, data, s => v1Reports env user data s
  | .v2, user, data, s => v2Reports env user data s
  | .sm, _, data, _ => smReports env data

/-- Which of these the operator sees, each as often as it is written. -/
def seen (L : Logs) : List Report → List Report
  | [] => []
  | .record n l t :: rest => List.replicate (linesWritten L n l) (.record n l t) ++ seen L rest
  | .traceback e :: rest => .traceback e :: seen L rest

end Libsnmp
