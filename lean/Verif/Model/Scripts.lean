import Verif.Model.Run
import Verif.Model.Str
import Verif.Model.Imports

/-!
# The command line programs

snmpget.py, snmpset.py, snmpwalk.py, snmpget-v1.py, snmpget-v2.py, trapsender.py, traplistener.py.

Simplifications: `getopt` (lines such as snmpget.py:46) is given no option names, so `args` is the command line without a
leading `--`, or the program ends with GetoptError; the models start from `args`.  The socket is created and bound (except
for the two programs whose bind address is wrong).  Host names stand for themselves: `addr server` is the address
`(server, 161)`.  `print` and the logger do not fail.  What the network does is a parameter: for every turn of the loop,
the outcome of `sendto` and the datagram that is there when the loop polls.
-/

namespace Libsnmp

/-- `type(v).__name__`: the names in the `class` statements. -/
def Cls.name : Cls → Str
  | .asn1Object => lit "Asn1Object"
  | .int .integer => lit "Integer"
  | .int .counter => lit "Counter"
  | .int .guage => lit "Guage"
  | .int .timeTicks => lit "TimeTicks"
  | .int .errorStatus => lit "ErrorStatus"
  | .int .genericTrap => lit "GenericTrap"
  | .int .integer32 => lit "Integer32"
  | .int .counter32 => lit "Counter32"
  | .int .guage32 => lit "Guage32"
  | .int .counter64 => lit "Counter64"
  | .int .errorStatus2 => lit "ErrorStatus"
  | .oct .octetString => lit "OctetString"
  | .oct .opaque => lit "Opaque"
  | .oct .ipAddress => lit "IPAddress"
  | .oct .networkAddress => lit "NetworkAddress"
  | .oct .octetString2 => lit "OctetString"
  | .oid => lit "ObjectID"
  | .null .null => lit "Null"
  | .null .noSuchObject => lit "NoSuchObject"
  | .null .noSuchInstance => lit "NoSuchInstance"
  | .null .endOfMibView => lit "EndOfMibView"
  | .seq .sequence => lit "Sequence"
  | .seq .sequenceOf => lit "SequenceOf"
  | .seq .varBind => lit "VarBind"
  | .seq .varBindList => lit "VarBindList"
  | .seq .message => lit "Message"
  | .seq .pdu => lit "PDU"
  | .seq .get => lit "Get"
  | .seq .getNext => lit "GetNext"
  | .seq .response => lit "Response"
  | .seq .set => lit "Set"
  | .seq .trapPDU => lit "TrapPDU"
  | .seq .varBind2 => lit "VarBind"
  | .seq .varBindList2 => lit "VarBindList"
  | .seq .message2 => lit "Message"
  | .seq .pdu2 => lit "PDU"
  | .seq .bulkPDU => lit "BulkPDU"
  | .seq .get2 => lit "Get"
  | .seq .getNext2 => lit "GetNext"
  | .seq .response2 => lit "Response"
  | .seq .set2 => lit "Set"
  | .seq .getBulk => lit "GetBulk"
  | .seq .inform => lit "Inform"
  | .seq .trapV2 => lit "TrapV2"
  | .seq .report => lit "Report"

/-- `v.__class__.__name__` of any object. -/
def Val.className (v : Val) : Str :=
  match v with
  | .none => lit "NoneType"
  | .int _ => lit "int"
  | .str _ => lit "str"
  | .bytes _ => lit "bytes"
  | v => match v.cls? with
    | some c => c.name
    | Option.none => lit "IPAddress"

/-- `pdu.errorStatus`, `pdu.varBindList` of a PDU object (the second and the fourth component; the callbacks of the scripts
only ever see objects of the PDU classes, see C46). -/
def pduErrorStatus : Val → Except Exc Val
  | .seq _ [_, es, _, _] => .ok es
  | _ => .error .attributeError

def pduVarBindList : Val → Except Exc (List Val)
  | .seq _ [_, _, _, .seq _ vbs] => .ok vbs
  | _ => .error .attributeError

/-- `varBindList[0].objectID`, `varBindList[0].objectValue`. -/
def firstBinding : List Val → Except Exc (Val × Val)
  | [] => .error .indexError
  | .seq _ [name, value] :: _ => .ok (name, value)
  | _ => .error .attributeError

/-- Output and outcome of a piece of code that prints. -/
abbrev Out (α : Type) := List Str × Except Exc α

/-- snmpget.py:33-34, snmpwalk.py:38-39: the hex line, for every class *called* OctetString. -/
def hexLine (value : Val) : List Str :=
  match value with
  | .octets c s => if (Cls.oct c).name = lit "OctetString" then [lit "   hex: " ++ octetsToHex s] else []
  | _ => []

/-- snmpget.py:24-34 `unwrapVarBinds` (with the hex line), snmpset.py:26-34 (without).  `d` are the
texts of error numbers. -/
def getUnwrap (hex : Bool) (d : Table) (vbs : List Val) : Out Unit :=
  match firstBinding vbs with
  | .error e => ([], .error e)
  | .ok (name, value) => match valStr d name with
    | .error e => ([], .error e)
    | .ok n => match valStr d value with
      | .error e => ([], .error e)
      | .ok t =>
        ((n ++ lit " = " ++ value.className ++ lit ": (" ++ t ++ lit ") " ++ t) :: if hex then hexLine value else [], .ok ())

/-- snmpget.py:19, snmpset.py:21, snmpwalk.py:22: `print('Error: %s' % msg.data.errorStatus)`. -/
def printError (d : Table) (es : Val) : Out Unit :=
  match valStr d es with
  | .error e => ([], .error e)
  | .ok t => ([lit "Error: " ++ t], .ok ())

/-- snmpget.py:13-21 `checkResponse` (also snmpset.py:15-23). -/
def getCheck (hex : Bool) (d : Table) (m : Msg) : Out Unit :=
  match pduErrorStatus m.data with
  | .error e => ([], .error e)
  | .ok es => match es.toInt with
    | .error e => ([], .error e)
    | .ok n =>
      if n ≠ 0 then printError d es
      else match pduVarBindList m.data with
        | .error e => ([], .error e)
        | .ok vbs => getUnwrap hex d vbs

/-- snmpwalk.py:29-47 `unwrapVarBinds`: `sys.exit(0)` after NoSuchObject and EndOfMibView. -/
def walkUnwrap (d : Table) (vbs : List Val) : Out Unit :=
  match firstBinding vbs with
  | .error e => ([], .error e)
  | .ok (name, value) => match valStr d name with
    | .error e => ([], .error e)
    | .ok n => match valStr d value with
      | .error e => ([], .error e)
      | .ok t =>
        ((n ++ lit " = " ++ value.className ++ lit ": " ++ t) :: hexLine value,
          if value.className = lit "NoSuchObject" ∨ value.className = lit "EndOfMibView" then .error .systemExit else .ok ())

/-- snmpwalk.py:16-26 `checkResponse` up to line 24; the result is the binding list to go on with, if any. -/
def walkCheck (d : Table) (m : Msg) : Out (Option (List Val)) :=
  match pduErrorStatus m.data with
  | .error e => ([], .error e)
  | .ok es => match es.toInt with
    | .error e => ([], .error e)
    | .ok n =>
      if n ≠ 0 then ((printError d es).1, (printError d es).2.map fun _ => none)
      else match pduVarBindList m.data with
        | .error e => ([], .error e)
        | .ok vbs => ((walkUnwrap d vbs).1, (walkUnwrap d vbs).2.map fun _ => some vbs)

/-- The number under which the scripts' callback functions are known in the manager model. -/
def idleCb : Nat := 0
def responseCb : Nat := 1

/-- The texts of error numbers when a callback of an `snmpManager` script runs: the script has built an SNMPv2 PDU before
(C57); snmpset.py builds an SNMPv1 PDU, but a callback runs only after an SNMPv2 PDU has been decoded: `regFull` maps 0xa2 to
rfc1905.Response. -/
def scriptTexts : Table := extendErrString errString1

/-- snmpget.py:13-21 and 38-39, snmpset.py:15-23 and 38-39 (`whenDone`: `sys.exit(0)`) as callback code. -/
def getUser (hex : Bool) : Nat → Option Msg → Act .sm
  | _, none => .raise .systemExit
  | _, some m => match (getCheck hex scriptTexts m).2 with
    | .ok () => .ret
    | .error e => .raise e

/-- snmpwalk.py:16-26 and 51-52 as callback code: line 26 asks for the successors of the bindings just received. -/
def walkUser (remote : Nat) (community : Str) : Nat → Option Msg → Act .sm
  | _, none => .raise .systemExit
  | _, some m => match (walkCheck scriptTexts m).2 with
    | .error e => .raise e
    | .ok none => .ret
    | .ok (some vbs) => .call (SmCall.getNext vbs remote responseCb community 2) fun r => match r with
      | .ok _ => .ret
      | .error e => .raise e

/-- What has become of a process: still in its loop, ended by `sys.exit`, or by an exception (exit status 1). -/
inductive Status where
  | running
  | exit (code : Nat)
  | traceback (e : Exc)
deriving DecidableEq, Repr

/-- A process: its status, what it printed, its manager object. -/
structure ScriptRun (k : Kind) where
  status : Status
  out : List Str
  mgr : Mgr k

/-- What callbacks printed. -/
def printed {k : Kind} (f : Msg → List Str) (log : List (Obs k)) : List Str :=
  log.flatMap fun
    | .entered _ (some m) => f m
    | _ => []

/-- One turn of the loop as seen from outside: the outcome of `sendto`, and the datagram that is there at the poll. -/
structure Net where
  socket : Except Exc Unit := .ok ()
  datagram : Option Val := none

/-- How a process ends whose main program returned or raised: every `sys.exit` in the callbacks is `sys.exit(0)`.  (A
`run()` that has not raised is still running.) -/
def endOf (r : Except Exc Unit) : Status :=
  match r with
  | .ok () => .running
  | .error .systemExit => .exit 0
  | .error e => .traceback e

/-- `myClient.run()` as the last statement of a script (snmpget.py:65, snmpwalk.py:70, snmpset.py:71; `run` itself is snmpmanager.py:322-345). -/
def runScript (env : Env) {k : Kind} (user : Nat → Option Msg → Act k) (f : Msg → List Str) (net : List Net) (s : Mgr k) : ScriptRun k :=
  let q := run env k (net.map fun t => ⟨t.socket, t.datagram, user⟩) s
  ⟨endOf q.1, printed f q.2.log, q.2⟩

/-- The scripts that use `snmpManager` import snmpmanager, hence everything; they pass `whenDone` as `queueEmpty`. -/
def scriptEnv : Env := { reg := regFull, queueEmpty := some idleCb }

/-- A request followed by `run()`. -/
def askAndRun {k : Kind} (env : Env) (c : k.Call) (user : Nat → Option Msg → Act k) (f : Msg → List Str) (net : List Net) : ScriptRun k :=
  match doCall env c {} with
  | (.error e, s) => ⟨.traceback e, [], s⟩
  | (.ok _, s) => runScript env user f net s

/-- snmpget.py:46-65. -/
def snmpget (addr : Str → Nat) (args : List Str) (net : List Net) : ScriptRun .sm :=
  match args with
  | [server, community, oid] =>
    askAndRun scriptEnv (k := .sm) (SmCall.get (.str oid) (addr server) responseCb community 2) (getUser true)
      (fun m => (getCheck true scriptTexts m).1) net
  | _ => ⟨.exit 1, [lit "Usage: snmpget.py <server> <community> <oid>"], {}⟩

/-- snmpwalk.py:55-70. -/
def snmpwalk (addr : Str → Nat) (args : List Str) (net : List Net) : ScriptRun .sm :=
  match args with
  | [server, community, oid] =>
    askAndRun scriptEnv (k := .sm) (SmCall.get (.str oid) (addr server) responseCb community 2)
      (walkUser (addr server) community) (fun m => (walkCheck scriptTexts m).1) net
  | _ => ⟨.exit 1, [lit "Usage: snmpget.py <server> <community> <oid>"], {}⟩

/-- `int(s)` of a command line argument (snmpset.py:63). -/
def argInt (s : Str) : Except Exc Int := pyInt s

/-- snmpset.py:46-71. -/
def snmpset (addr : Str → Nat) (args : List Str) (net : List Net) : ScriptRun .sm :=
  match args with
  | [server, community, oid, type, value] =>
    match typeSetter type with
    | .error e => ⟨.traceback e, [], {}⟩
    | .ok typeval =>
      if type = lit "i" then match argInt value with
        | .error e => ⟨.traceback e, [], {}⟩
        | .ok n => askAndRun scriptEnv (k := .sm)
            (SmCall.set (.str oid) typeval (.int n) (addr server) responseCb community 2) (getUser false)
            (fun m => (getCheck false scriptTexts m).1) net
      else askAndRun scriptEnv (k := .sm)
        (SmCall.set (.str oid) typeval (.str value) (addr server) responseCb community 2) (getUser false)
        (fun m => (getCheck false scriptTexts m).1) net
  | _ => ⟨.exit 1, [lit "Usage: snmpset.py <server> <community> <oid> <type> <value>"], {}⟩

/-! ## traplistener.py -/

/-- `str(x.value)` of a component of a trap.  Simplification: for a component that is neither an Integer nor an OctetString
(only another implementation's broken trap can have one where line 24 looks) the text is a parameter, `none` if there is no
attribute `value`. -/
def valueStr (other : Val → Option Str) : Val → Except Exc Str
  | .integer _ n => .ok (pyStrInt n)
  | .octets _ s => .ok s
  | v => match other v with
    | some t => .ok t
    | none => .error .attributeError

/-- traplistener.py:18-25: the first line printed for a trap.  (`genericTrap` of a decoded trap is a GenericTrap.) -/
def trapHeader (d : Table) (other : Val → Option Str) (ent addr gt sp ts : Val) : Except Exc Str := do
  let a ← valStr d ent
  let b ← valStr d addr
  match gt with
  | .integer .genericTrap g => do
    let n ← genericTrapEnum g none
    let e ← valStr d sp
    let f ← valueStr other ts
    .ok (pyJoin (lit ",") [a, b, pyStrInt g, n, e, f])
  | _ => .error .attributeError

/-- traplistener.py:29-31: the lines for the bindings. -/
def trapBindings (d : Table) : List Val → Out Unit
  | [] => ([], .ok ())
  | .seq _ [name, value] :: rest =>
    match valStr d name with
    | .error e => ([], .error e)
    | .ok n => match valStr d value with
      | .error e => ([], .error e)
      | .ok t => ((lit "  " ++ (n ++ lit "," ++ t)) :: (trapBindings d rest).1, (trapBindings d rest).2)
  | _ :: _ => ([], .error .attributeError)

/-- traplistener.py:12-31 `checkResponse`. -/
def trapCheck (d : Table) (other : Val → Option Str) (m : Msg) : Out Unit :=
  match m.data with
  | .seq _ [ent, addr, gt, sp, ts, .seq _ vbs] =>
    match trapHeader d other ent addr gt sp ts with
    | .error e => ([], .error e)
    | .ok l => (l :: (trapBindings d vbs).1, (trapBindings d vbs).2)
  | _ => ([], .error .attributeError)

/-- `checkResponse` as callback code. -/
def trapUser (d : Table) (other : Val → Option Str) : Nat → Option Msg → Act .v2
  | _, none => .ret
  | _, some m => match (trapCheck d other m).2 with
    | .ok () => .ret
    | .error e => .raise e

/-- traplistener.py:59 gives a trap callback and no `queueEmpty`; v2 is imported in line 10. -/
def listenEnv : Env := { reg := (imports [.v2]).reg, trapCallback := some responseCb }

/-- traplistener.py:53-60; the command line is not looked at.  `texts` are the error texts in force (C62: whether a PDU of
SNMPv2 has been decoded so far; simplification: the same during the whole run). -/
def traplistener (texts : Table) (other : Val → Option Str) (net : List Net) : ScriptRun .v2 :=
  runScript listenEnv (trapUser texts other) (fun m => (trapCheck texts other m).1) net {}

/-! ## trapsender.py -/

/-- trapsender.py:33-52 `whenDone`.  The waiting of lines 35-36 has no effect here; `time` is the text of line 39, `uptime`
what `getSysUptime` returned; lines 51-52: `finishat` is the time at which the program was started (lines 25-26), which is
taken to be earlier than that of line 37. -/
def sendUser (dest : Nat) (time : Str) (uptime : Int) : Nat → Option Msg → Act .v2 := fun _ _ =>
  let pdu : Except Exc Val := do
    let name ← mkOid (.str (lit ".1.3.6.1.4.5.6.7"))
    let text ← mkOctetString .octetString time
    let vb ← mkVarBind .varBind (.oid name) text
    let vbl ← mkVarBindList .varBindList [vb]
    createTrapPDU .v2 vbl 2 (.str (lit ".1.3.6.1.4")) .none 6 0 uptime
  match pdu with
  | .error e => .raise e
  | .ok pdu => .call (V2Call.trap dest pdu (lit "public")) fun
    | .error e => .raise e
    | .ok _ => .raise .systemExit

/-- trapsender.py:60. -/
def sendEnv : Env := { reg := (imports [.v2]).reg, queueEmpty := some idleCb }

/-- trapsender.py:54-62. -/
def trapsender (dest : Nat) (time : Str) (uptime : Int) (net : List Net) : ScriptRun .v2 :=
  runScript sendEnv (sendUser dest time uptime) (fun _ => []) net {}

/-! ## snmpget-v1.py, snmpget-v2.py -/

/-- The first argument of `v1.SNMP(...)`, `v2.SNMP(...)`: the address to bind to (v1.py:22). -/
inductive Interface where
  | address (host : Str) (port : Nat)
  | function

/-- `v1.SNMP(interface)` up to role.py:36 `self.socket.bind(self.interface)`: an AF_INET address must be a tuple (the
constructors of asynrole.py:16-32 and v1.py:22-45 pass it on).  Simplification: the port is free. -/
def bindInterface : Interface → Except Exc Unit
  | .address _ _ => .ok ()
  | .function => .error .typeError

/-- snmpget-v1.py:45-64 and snmpget-v2.py:45-64: in line 49 the function `whenDone` is passed as the *first*
argument.  What follows (a request as in snmpget.py, by `rest`) needs the object. -/
def snmpgetOld {k : Kind} (rest : List Str → List Net → ScriptRun k) (args : List Str) (net : List Net) : ScriptRun k :=
  match bindInterface .function with
  | .error e => ⟨.traceback e, [], {}⟩
  | .ok () => rest args net

end Libsnmp
