import Verif.Model.Text
import Verif.Model.Eq

/-!
# The manager classes: `v1.SNMP`, `v2.SNMP`, `snmpmanager.snmpManager`

State machines.  User code (callbacks and the main program) is an arbitrary interaction tree `Act`: it calls the request
API, feeds data to `receiveData`, runs iterations of the main loop, looks at every result, and finally returns or raises.

Simplifications: SNMP objects are values, so user code that changes a queued message or a received message in place is
not modelled here (`Model/Graph.lean`, `Model/Program.lean` and C68-C70 treat it); user code does not assign to the manager's attributes; logging has no
effect; `time.sleep` has no effect; addresses and callbacks are opaque names (numbers).
-/

namespace Libsnmp

/-- The three manager classes: v1.py:19, v2.py:24, snmpmanager.py:37. -/
inductive Kind where
  | v1 | v2 | sm
deriving DecidableEq, Repr

/-- The request methods of `v1.SNMP` with their arguments: v1.py:103, 118, 133, 151.  `remote` and `cb` are names.
Simplification: the community is a `str`, a variable-binding list is a list of values. -/
inductive V1Call where
  | get (oid : Arg) (remote cb : Nat) (community : Str)
  | getNext (varbinds : List Val) (remote cb : Nat) (community : Str)
  | set (varbinds : List Val) (remote cb : Nat) (community : Str)
  | trap (remote : Nat) (pdu : Val) (community : Str)

/-- The request methods of `v2.SNMP`: v2.py:80, 96, 111, 129.  `snmpGet` iterates over its first argument. -/
inductive V2Call where
  | get (oids : List Arg) (remote cb : Nat) (community : Str)
  | getNext (varbinds : List Val) (remote cb : Nat) (community : Str)
  | set (varbinds : List Val) (remote cb : Nat) (community : Str)
  | trap (remote : Nat) (pdu : Val) (community : Str)

/-- The request methods of `snmpManager`: snmpmanager.py:199, 215, 230, 247. -/
inductive SmCall where
  | get (oid : Arg) (remote cb : Nat) (community : Str) (version : Int)
  | getNext (varbinds : List Val) (remote cb : Nat) (community : Str) (version : Int)
  | set (oid : Arg) (valtype : Int) (value : Arg) (remote cb : Nat) (community : Str) (version : Int)
  | trap (remote : Nat) (pdu : Val) (community : Str) (version : Int)

def Kind.Call : Kind → Type
  | .v1 => V1Call
  | .v2 => V2Call
  | .sm => SmCall

/-- A dictionary, as the list of its items. -/
abbrev Dict := List (Val × Nat)

/-- Two keys are the same key: equal hashes and `stored == wanted`. -/
def sameKey (stored wanted : Val) : Bool :=
  match objHash stored, objHash wanted, pyEq stored wanted with
  | .ok a, .ok b, .ok e => decide (a = b) && e
  | _, _, _ => false

/-- `d[k]`: TypeError if `k` is not hashable, KeyError if it is absent. -/
def Dict.get (d : Dict) (k : Val) : Except Exc Nat :=
  match objHash k with
  | .error e => .error e
  | .ok _ => match d.find? fun p => sameKey p.1 k with
    | none => .error .keyError
    | some p => .ok p.2

/-- `d[k] = v`: an equal key keeps its place (and the old key object). -/
def Dict.put (d : Dict) (k : Val) (v : Nat) : Except Exc Dict :=
  match objHash k with
  | .error e => .error e
  | .ok _ => .ok (if d.any fun p => sameKey p.1 k then d.map fun p => if sameKey p.1 k then (p.1, v) else p
      else d ++ [(k, v)])

/-- `del d[k]`. -/
def Dict.del (d : Dict) (k : Val) : Except Exc Dict :=
  match objHash k with
  | .error e => .error e
  | .ok _ => if d.any fun p => sameKey p.1 k then .ok (d.filter fun p => !sameKey p.1 k) else .error .keyError

/-- What an observer of the API sees (recorded in a history variable that the code does not have). -/
inductive Obs (k : Kind) where
  | called (c : k.Call) (r : Except Exc Val)                       -- a request method returned or raised
  | entered (cb : Nat) (m : Option Msg)                            -- a callback was invoked (message, or none)
  | left (cb : Nat) (m : Option Msg) (r : Except Exc Unit)         -- ... and returned or raised
  | took (item : Option Msg × Nat)                                 -- the loop took an item from the queue
  | sent (octets : Str) (remote : Nat)                             -- the loop called send()

/-- The attributes of a manager object (v1.py:20, 29-34; snmpmanager.py:38, 45-50) and the history variable. -/
structure Mgr (k : Kind) where
  nextRequestID : Nat := 0
  outbound : List (Option Msg × Nat) := []
  callbacks : Dict := []
  log : List (Obs k) := []

/-- What the constructor was given, and the process's tag registry. -/
structure Env where
  reg : Reg
  trapCallback : Option Nat := none
  queueEmpty : Option Nat := none

/-- Python code that changes a manager and returns or raises.  Changes made before an exception remain. -/
def M (k : Kind) (α : Type) := Mgr k → Except Exc α × Mgr k

instance (k : Kind) : Monad (M k) where
  pure a := fun s => (.ok a, s)
  bind x f := fun s => match x s with
    | (.ok a, s') => f a s'
    | (.error e, s') => (.error e, s')

/-- A computation without effect on the manager. -/
def M.lift {k : Kind} {α : Type} (x : Except Exc α) : M k α := fun s => (x, s)

def M.throw {k : Kind} {α : Type} (e : Exc) : M k α := fun s => (.error e, s)

def Mgr.note {k : Kind} (s : Mgr k) (o : Obs k) : Mgr k := { s with log := s.log ++ [o] }

/-- v1.py:47-52, snmpmanager.py:63-68 `assignRequestID`. -/
def assignRequestID {k : Kind} : M k Nat := fun s =>
  (.ok s.nextRequestID, { s with nextRequestID := s.nextRequestID + 1 })

/-- `self.outbound.put((msg, remote))`. -/
def putOutbound {k : Kind} (msg : Option Msg) (remote : Nat) : M k Unit := fun s =>
  (.ok (), { s with outbound := s.outbound ++ [(msg, remote)] })

/-- `self.callbacks[key] = callback`. -/
def setCallback {k : Kind} (key : Val) (cb : Nat) : M k Unit := fun s =>
  match s.callbacks.put key cb with
  | .error e => (.error e, s)
  | .ok d => (.ok (), { s with callbacks := d })

/-- `self.callbacks[key]`. -/
def getCallback {k : Kind} (key : Val) : M k Nat := fun s => (s.callbacks.get key, s)

/-- `del self.callbacks[key]`. -/
def delCallback {k : Kind} (key : Val) : M k Unit := fun s =>
  match s.callbacks.del key with
  | .error e => (.error e, s)
  | .ok d => (.ok (), { s with callbacks := d })

/-- `pdu.requestID` (rfc1157.py:146, rfc1905.py:111, 152: the first component). -/
def pduRequestID : Val → Except Exc Val
  | .seq _ (r :: _) => .ok r
  | _ => .error .attributeError

/-! ## v1.SNMP -/

/-- v1.py:54-57 `createGetRequestPDU`. -/
def v1CreateGetRequestPDU (varbindlist : List Val) : M .v1 Val := do
  let reqID ← assignRequestID
  M.lift (mkPDU .get reqID 0 0 varbindlist)

/-- v1.py:59-62 `createGetNextRequestPDU`. -/
def v1CreateGetNextRequestPDU (varbindlist : List Val) : M .v1 Val := do
  let reqID ← assignRequestID
  M.lift (mkPDU .getNext reqID 0 0 varbindlist)

/-- v1.py:64-72 `createGetRequestMessage`. -/
def v1CreateGetRequestMessage (oid : Arg) (community : Str) : M .v1 Msg := do
  let objID ← M.lift (mkOid oid)
  let vb ← M.lift (mkVarBind .varBind (.oid objID) (.null .null))
  let varbindlist ← M.lift (mkVarBindList .varBindList [vb])
  let vbs ← M.lift varbindlist.iter
  let pdu ← v1CreateGetRequestPDU vbs
  M.lift (mkMessage .message 0 community pdu)

/-- v1.py:74-79 `createGetNextRequestMessage`. -/
def v1CreateGetNextRequestMessage (varbindlist : List Val) (community : Str) : M .v1 Msg := do
  let pdu ← v1CreateGetNextRequestPDU varbindlist
  M.lift (mkMessage .message 0 community pdu)

/-- v1.py:111-116 (126-131, 144-149; v2.py:89-94): queue the message, register the callback under
`int(msg.data.requestID)`, return the request ID. -/
def v1Enqueue {k : Kind} (msg : Msg) (remote cb : Nat) : M k Val := do
  putOutbound (some msg) remote
  let requestID ← M.lift (pduRequestID msg.data)
  let key ← M.lift requestID.toInt
  setCallback (.int key) cb
  pure requestID

/-- v1.py:103-116 `snmpGet`. -/
def v1SnmpGet (oid : Arg) (remote cb : Nat) (community : Str) : M .v1 Val := do
  let msg ← v1CreateGetRequestMessage oid community
  v1Enqueue msg remote cb

/-- v1.py:118-131 `snmpGetNext`. -/
def v1SnmpGetNext (varbindlist : List Val) (remote cb : Nat) (community : Str) : M .v1 Val := do
  let msg ← v1CreateGetNextRequestMessage varbindlist community
  v1Enqueue msg remote cb

/-- v1.py:133-149 `snmpSet`: line 141 builds a GetNext PDU. -/
def v1SnmpSet (varbindlist : List Val) (remote cb : Nat) (community : Str) : M .v1 Val := do
  let reqID ← assignRequestID
  let pdu ← M.lift (mkPDU .getNext reqID 0 0 varbindlist)
  let msg ← M.lift (mkMessage .message 0 community pdu)
  v1Enqueue msg remote cb

/-- v1.py:151-156 `snmpTrap`, 81-85 `createTrapMessage`. -/
def v1SnmpTrap (remote : Nat) (trapPDU : Val) (community : Str) : M .v1 Val := do
  let msg ← M.lift (mkMessage .message 0 community trapPDU)
  putOutbound (some msg) remote
  pure .none

/-! ## v2.SNMP -/

/-- v2.py:26-29 `createGetRequestPDU`. -/
def v2CreateGetRequestPDU (varbindlist : List Val) : M .v2 Val := do
  let reqID ← assignRequestID
  M.lift (mkPDU .get2 reqID 0 0 varbindlist)

/-- v2.py:43-47: the loop over the object identifiers. -/
def v2Varbinds : List Arg → Except Exc (List Val)
  | [] => .ok []
  | oid :: rest => do
    let objID ← mkOid oid
    let vb ← mkVarBind .varBind (.oid objID) (.null .null)
    let vbs ← v2Varbinds rest
    .ok (vb :: vbs)

/-- v2.py:36-50 `createGetRequestMessage`. -/
def v2CreateGetRequestMessage (oidlist : List Arg) (community : Str) : M .v2 Msg := do
  let varbinds ← M.lift (v2Varbinds oidlist)
  let varbindlist ← M.lift (mkVarBindList .varBindList2 varbinds)
  let vbs ← M.lift varbindlist.iter
  let pdu ← v2CreateGetRequestPDU vbs
  M.lift (mkMessage .message2 1 community pdu)

/-- v2.py:52-57 `createGetNextRequestMessage`: there is no method `createGetNextRequest`. -/
def v2CreateGetNextRequestMessage (_varbindlist : List Val) (_community : Str) : M .v2 Msg :=
  M.throw .attributeError

/-- v2.py:80-94 `snmpGet`. -/
def v2SnmpGet (oids : List Arg) (remote cb : Nat) (community : Str) : M .v2 Val := do
  let msg ← v2CreateGetRequestMessage oids community
  v1Enqueue msg remote cb

/-- v2.py:96-109 `snmpGetNext`. -/
def v2SnmpGetNext (varbindlist : List Val) (remote cb : Nat) (community : Str) : M .v2 Val := do
  let msg ← v2CreateGetNextRequestMessage varbindlist community
  v1Enqueue msg remote cb

/-- v2.py:111-127 `snmpSet`: line 119 looks up `rfc1157.GetNextRequestPDU`, which does not exist. -/
def v2SnmpSet (_varbindlist : List Val) (_remote _cb : Nat) (_community : Str) : M .v2 Val := do
  let _reqID ← assignRequestID
  M.throw .attributeError

/-- v2.py:129-134 `snmpTrap`, 59-63 `createTrapMessage`. -/
def v2SnmpTrap (remote : Nat) (trapPDU : Val) (community : Str) : M .v2 Val := do
  let msg ← M.lift (mkMessage .message2 1 community trapPDU)
  putOutbound (some msg) remote
  pure .none

/-! ## snmpManager -/

/-- snmpmanager.py:70-79, 81-90, 92-101 `createGetRequestPDU`, `createGetNextRequestPDU`, `createSetRequestPDU`, given
the SNMPv1 and SNMPv2 class of the PDU.  With another version the local variable `pdu` is unbound. -/
def smCreatePDU (c1 c2 : SeqCls) (varbindlist : List Val) (version : Int) : M .sm Val := do
  let reqID ← assignRequestID
  if version = 1 then M.lift (mkPDU c1 reqID 0 0 varbindlist)
  else if version = 2 then M.lift (mkPDU c2 reqID 0 0 varbindlist)
  else M.throw .unboundLocalError

/-- snmpmanager.py:103-124 `createGetRequestMessage`. -/
def smCreateGetRequestMessage (oid : Arg) (community : Str) (version : Int) : M .sm Msg :=
  if version = 1 then do
    let objID ← M.lift (mkOid oid)
    let vb ← M.lift (mkVarBind .varBind (.oid objID) (.null .null))
    let varbindlist ← M.lift (mkVarBindList .varBindList [vb])
    let vbs ← M.lift varbindlist.iter
    let pdu ← smCreatePDU .get .get2 vbs 1
    M.lift (mkMessage .message 0 community pdu)
  else if version = 2 then do
    let objID ← M.lift (mkOid oid)
    let vb ← M.lift (mkVarBind .varBind2 (.oid objID) (.null .null))
    let varbindlist ← M.lift (mkVarBindList .varBindList2 [vb])
    let vbs ← M.lift varbindlist.iter
    let pdu ← smCreatePDU .get .get2 vbs 2
    M.lift (mkMessage .message2 1 community pdu)
  else M.throw .valueError

/-- snmpmanager.py:126-136 `createGetNextRequestMessage`.  (The implicit `return None` after line 136 is not reached:
another version fails in line 130.) -/
def smCreateGetNextRequestMessage (varbindlist : List Val) (community : Str) (version : Int) : M .sm (Option Msg) := do
  let pdu ← smCreatePDU .getNext .getNext2 varbindlist version
  if version = 1 then do
    let m ← M.lift (mkMessage .message 0 community pdu)
    pure (some m)
  else if version = 2 then do
    let m ← M.lift (mkMessage .message2 1 community pdu)
    pure (some m)
  else pure none

/-- `tagDecodeDict[valtype](value)`: the constructor of a registered class on one argument.  Integers: rfc1155.py:297,
OctetString 519, IPAddress 898, ObjectID 557, Sequence 796; `Null(value)` is a TypeError (Asn1Object.__init__ takes no
argument); a PDU class takes the value as its request ID; TrapPDU takes it as the enterprise.
Simplifications: a TrapPDU of a list or tuple, which fails when encoded, is a TypeError here; a Sequence of something that
has no length, which fails in the truth test of rfc1157.py:67, and one of an ObjectID without value, which fails when encoded,
are TypeErrors here. -/
def construct (cls : Cls) (value : Arg) : Except Exc Val :=
  match cls with
  | .asn1Object => .error .typeError
  | .int c => mkIntegerArg c value
  | .oct c =>
    if (Cls.oct c).isSubclass (.oct .ipAddress) then mkIPAddress c value
    else mkOctetStringArg c value
  | .oid => match mkOid value with
    | .error e => .error e
    | .ok v => .ok (.oid v)
  | .null _ => .error .typeError
  | .seq c =>
    if (Cls.seq c).isSubclass (.seq .pdu) || (Cls.seq c).isSubclass (.seq .bulkPDU) then
      match value with
      | .int n => mkPDU c n 0 0 []
      | _ => .error .typeError
    else if (Cls.seq c).isSubclass (.seq .trapPDU) then
      match value with
      | .none => .ok (mkTrap .none .none .none .none .none .none)
      | .str s => .ok (mkTrap (.str s) .none .none .none .none .none)
      | .int n => .ok (mkTrap (.int n) .none .none .none .none .none)
      | .bytes s => .ok (mkTrap (.bytes s) .none .none .none .none .none)
      | .obj v => .ok (mkTrap v .none .none .none .none .none)
      | _ => .error .typeError
    else match value with
      | .none => .ok (.seq c [])
      | .list l => .ok (.seq c (l.map Val.int))
      | .tuple l => .ok (.seq c (l.map Val.int))
      | .str s => .ok (.seq c (s.map fun (ch : Nat) => Val.str [ch]))
      | .bytes s => .ok (.seq c (s.map fun (b : Nat) => Val.int b))
      | .obj (.oid (some ids)) => .ok (.seq c (ids.map Val.int))
      | .obj (.seq _ items) => .ok (.seq c items)
      | _ => .error .typeError

/-- snmpmanager.py:144, 151 `tagDecodeDict[valtype](value)`; the dictionary is the same object in both modules. -/
def constructTag (reg : Reg) (valtype : Int) (value : Arg) : Except Exc Val :=
  if valtype < 0 then .error .keyError
  else match reg valtype.toNat with
    | none => .error .keyError
    | some cls => construct cls value

/-- snmpmanager.py:138-159 `createSetRequestMessage`: line 153 asks for a version 1 PDU inside a version 2 message. -/
def smCreateSetRequestMessage (reg : Reg) (oid : Arg) (valtype : Int) (value : Arg) (community : Str) (version : Int) :
    M .sm Msg :=
  if version = 1 then do
    let objID ← M.lift (mkOid oid)
    let val ← M.lift (constructTag reg valtype value)
    let vb ← M.lift (mkVarBind .varBind (.oid objID) val)
    let varbindlist ← M.lift (mkVarBindList .varBindList [vb])
    let vbs ← M.lift varbindlist.iter
    let pdu ← smCreatePDU .set .set2 vbs 1
    M.lift (mkMessage .message 0 community pdu)
  else if version = 2 then do
    let objID ← M.lift (mkOid oid)
    let val ← M.lift (constructTag reg valtype value)
    let vb ← M.lift (mkVarBind .varBind2 (.oid objID) val)
    let varbindlist ← M.lift (mkVarBindList .varBindList2 [vb])
    let vbs ← M.lift varbindlist.iter
    let pdu ← smCreatePDU .set .set2 vbs 1
    M.lift (mkMessage .message2 1 community pdu)
  else M.throw .valueError

/-- snmpmanager.py:161-168 `createTrapMessage`: the modules v1 and v2 have no function `createTrapMessage`; for any other
version the method falls through and returns None. -/
def smCreateTrapMessage (_pdu : Val) (_community : Str) (version : Int) : M .sm (Option Msg) :=
  if version = 1 then M.throw .attributeError
  else if version = 2 then M.throw .attributeError
  else pure none

/-- snmpmanager.py:207-213 (223-228, 240-245): queue the message, then register the callback under the Integer object
`msg.data.requestID`; `None.data` is an AttributeError. -/
def smEnqueue (msg : Option Msg) (remote cb : Nat) : M .sm Val := do
  putOutbound msg remote
  match msg with
  | none => M.throw .attributeError
  | some msg => do
    let requestID ← M.lift (pduRequestID msg.data)
    setCallback requestID cb
    pure requestID

/-- snmpmanager.py:199-213 `snmpGet`. -/
def smSnmpGet (oid : Arg) (remote cb : Nat) (community : Str) (version : Int) : M .sm Val := do
  let msg ← smCreateGetRequestMessage oid community version
  smEnqueue (some msg) remote cb

/-- snmpmanager.py:215-228 `snmpGetNext`. -/
def smSnmpGetNext (varbindlist : List Val) (remote cb : Nat) (community : Str) (version : Int) : M .sm Val := do
  let msg ← smCreateGetNextRequestMessage varbindlist community version
  smEnqueue msg remote cb

/-- snmpmanager.py:230-245 `snmpSet`. -/
def smSnmpSet (reg : Reg) (oid : Arg) (valtype : Int) (value : Arg) (remote cb : Nat) (community : Str)
    (version : Int) : M .sm Val := do
  let msg ← smCreateSetRequestMessage reg oid valtype value community version
  smEnqueue (some msg) remote cb

/-- snmpmanager.py:247-252 `snmpTrap`. -/
def smSnmpTrap (remote : Nat) (trapPDU : Val) (community : Str) (version : Int) : M .sm Val := do
  let msg ← smCreateTrapMessage trapPDU community version
  putOutbound msg remote
  pure .none

/-! ## Calls -/

/-- A request method by name. -/
def callBody (env : Env) : (k : Kind) → k.Call → M k Val
  | .v1, .get oid remote cb community => v1SnmpGet oid remote cb community
  | .v1, .getNext vbs remote cb community => v1SnmpGetNext vbs remote cb community
  | .v1, .set vbs remote cb community => v1SnmpSet vbs remote cb community
  | .v1, .trap remote pdu community => v1SnmpTrap remote pdu community
  | .v2, .get oids remote cb community => v2SnmpGet oids remote cb community
  | .v2, .getNext vbs remote cb community => v2SnmpGetNext vbs remote cb community
  | .v2, .set vbs remote cb community => v2SnmpSet vbs remote cb community
  | .v2, .trap remote pdu community => v2SnmpTrap remote pdu community
  | .sm, .get oid remote cb community version => smSnmpGet oid remote cb community version
  | .sm, .getNext vbs remote cb community version => smSnmpGetNext vbs remote cb community version
  | .sm, .set oid valtype value remote cb community version =>
    smSnmpSet env.reg oid valtype value remote cb community version
  | .sm, .trap remote pdu community version => smSnmpTrap remote pdu community version

/-- A call of a request method, with its observation. -/
def doCall (env : Env) {k : Kind} (c : k.Call) (s : Mgr k) : Except Exc Val × Mgr k :=
  let (r, s') := callBody env k c s
  (r, s'.note (.called c r))

/-! ## Receiving -/

/-- User code: what the callback `cb` does when invoked with a message (or, for `queueEmpty`, without one). -/
abbrev User (k : Kind) := Nat → Option Msg → M k Unit

/-- `callback(self, msg)`, with its observation. -/
def invoke {k : Kind} (user : User k) (cb : Nat) (m : Option Msg) : M k Unit := fun s =>
  let (r, s') := user cb m (s.note (.entered cb m))
  (r, s'.note (.left cb m r))

/-- `self.trapCallback(self, msg)`: calling None is a TypeError. -/
def invokeTrap {k : Kind} (env : Env) (user : User k) (m : Msg) : M k Unit :=
  match env.trapCallback with
  | none => M.throw .typeError
  | some cb => invoke user cb (some m)

/-- `version == n` (v1.py:181; v2.py:159, 162; snmpmanager.py:271, 275). -/
def versionIs (version : Val) (n : Int) : Except Exc Bool := pyEq version (.int n)

/-- The exception of the unknown-version branch (v1.py:185-187; v2.py:166-168; snmpmanager.py:280-282): `'%d' % version`
is a TypeError unless the version is an Integer object or an int, and an int is not callable (`msg.version()`). -/
def unknownVersion (version : Val) : Exc :=
  match version with
  | .integer _ _ => .valueError
  | _ => .typeError

/-- v1.py:189-202: dispatch on the kind of PDU (also v2.py:170-183). -/
def v1Dispatch {k : Kind} (env : Env) (user : User k) (msg : Msg) : M k Unit :=
  if msg.data.isInstance (.seq .pdu) then do
    let requestID ← M.lift (pduRequestID msg.data)
    let key ← M.lift requestID.toInt
    let cb ← getCallback (.int key)
    invoke user cb (some msg)
    delCallback (.int key)
  else if msg.data.isInstance (.seq .trapPDU) then invokeTrap env user msg
  else pure ()

/-- v1.py:163-208 `receiveData` with no exception passed in: the `except` clause re-raises. -/
def v1ReceiveData (env : Env) (user : User .v1) (data : Val) : M .v1 Unit := do
  let msg ← M.lift (msgDecode env.reg .message data)
  let is0 ← M.lift (versionIs msg.version 0)
  if is0 then v1Dispatch env user msg
  else M.throw (unknownVersion msg.version)

/-- v2.py:154-183, the body of the `try`. -/
def v2ReceiveBody (env : Env) (user : User .v2) (data : Val) : M .v2 Unit := do
  let msg ← M.lift (msgDecode env.reg .message2 data)
  let is0 ← M.lift (versionIs msg.version 0)
  if is0 then v1Dispatch env user msg
  else do
    let is1 ← M.lift (versionIs msg.version 1)
    if is1 then v1Dispatch env user msg
    else M.throw (unknownVersion msg.version)

/-- v2.py:141-190 `receiveData` with no exception passed in: `except Exception` swallows.  Simplification: formatting
the exception (line 188) does not itself fail. -/
def v2ReceiveData (env : Env) (user : User .v2) (data : Val) : M .v2 Unit := fun s =>
  match v2ReceiveBody env user data s with
  | (.ok (), s') => (.ok (), s')
  | (.error e, s') => if e.isException then (.ok (), s') else (.error e, s')

/-- snmpmanager.py:284-298 `handleV1Message`. -/
def smHandleV1Message (env : Env) (user : User .sm) (msg : Msg) : M .sm Unit :=
  if msg.data.isInstance (.seq .pdu) then do
    let requestID ← M.lift (pduRequestID msg.data)
    let cb ← getCallback requestID
    invoke user cb (some msg)
    delCallback requestID
  else if msg.data.isInstance (.seq .trapPDU) then invokeTrap env user msg
  else pure ()

/-- snmpmanager.py:300-314 `handleV2Message`: rfc1905 has no `TrapPDU`, so line 309 raises AttributeError. -/
def smHandleV2Message (_env : Env) (user : User .sm) (msg : Msg) : M .sm Unit :=
  if msg.data.isInstance (.seq .pdu2) then do
    let requestID ← M.lift (pduRequestID msg.data)
    let cb ← getCallback requestID
    invoke user cb (some msg)
    delCallback requestID
  else M.throw .attributeError

/-- snmpmanager.py:254-282 `receiveData` with no exception passed in. -/
def smReceiveData (env : Env) (user : User .sm) (data : Val) : M .sm Unit := do
  let msg ← M.lift (msgDecode env.reg .message2 data)
  let is0 ← M.lift (versionIs msg.version 0)
  if is0 then smHandleV1Message env user msg
  else do
    let is1 ← M.lift (versionIs msg.version 1)
    if is1 then smHandleV2Message env user msg
    else M.throw (unknownVersion msg.version)

/-- `receiveData(manager, ctx, (data, src), (None, None, None))`. -/
def receiveData (env : Env) : (k : Kind) → User k → Val → M k Unit
  | .v1 => v1ReceiveData env
  | .v2 => v2ReceiveData env
  | .sm => smReceiveData env

/-- `receiveData(manager, ctx, (None, None), (exc_type, exc_value, tb))`: `raise exc_type(exc_value)` (v1.py:169-170,
v2.py:147-148, snmpmanager.py:260-261), before any `try`.  UnicodeDecodeError cannot be built from one argument. -/
def reraiseAs : Exc → Exc
  | .unicodeDecodeError => .typeError
  | e => e

/-- asyncore's `read(obj)` calling asynrole.py:37-40 `handle_read` and, when that raises, asynrole.py:52-61
`handle_error`: a ValueError goes to the manager's own `receiveData`, anything else is re-raised. -/
def handleError {k : Kind} (e : Exc) : M k Unit :=
  if e.isValueError then M.throw (reraiseAs e) else M.throw e

/-- asynrole.py:65-66 `poll` of a process with one manager: at most one datagram is read.  (What the socket delivers is
a parameter; on Python 3 it delivers `bytes`, see C54.) -/
def poll (env : Env) (k : Kind) (user : User k) (datagram : Option Val) : M k Unit := fun s =>
  match datagram with
  | none => (.ok (), s)
  | some data => match receiveData env k user data s with
    | (.ok (), s') => (.ok (), s')
    | (.error e, s') => handleError e s'

/-- `if self.queueEmpty is not None: self.queueEmpty(self)`. -/
def callQueueEmpty {k : Kind} (env : Env) (user : User k) : M k Unit :=
  match env.queueEmpty with
  | none => pure ()
  | some cb => invoke user cb none

/-- v1.py:223-224, snmpmanager.py:333-334: `outbound.get(0)` (`queue.Empty` if there is nothing), encode, send.
`socket` is the outcome of the socket's `sendto`. -/
def takeAndSend {k : Kind} (socket : Except Exc Unit) : M k Unit := fun s =>
  match s.outbound with
  | [] => (.error .queueEmpty, s)
  | (m, remote) :: rest =>
    let s := ({ s with outbound := rest } : Mgr k).note (.took (m, remote))
    match m with
    | none => (.error .attributeError, s)
    | some m => match m.encode with
      | .error e => (.error e, s)
      | .ok octets => (socket, s.note (.sent octets remote))

/-- One turn of the loop of v1.py:216-234 `run` (v2 inherits it). -/
def v1Iterate (env : Env) (k : Kind) (user : User k) (socket : Except Exc Unit) (datagram : Option Val) : M k Unit :=
  fun s =>
    match takeAndSend socket s with
    | (.error .queueEmpty, s') =>
      (do callQueueEmpty env user
          poll env k user datagram : M k Unit) s'
    | r => r

/-- One turn of the loop of snmpmanager.py:322-342 `run`. -/
def smIterate (env : Env) (user : User .sm) (socket : Except Exc Unit) (datagram : Option Val) : M .sm Unit :=
  fun s =>
    match (do poll env .sm user datagram
              takeAndSend socket : M .sm Unit) s with
    | (.error .queueEmpty, s') => callQueueEmpty env user s'
    | r => r

def iterate (env : Env) : (k : Kind) → User k → Except Exc Unit → Option Val → M k Unit
  | .v1, user, socket, datagram => v1Iterate env .v1 user socket datagram
  | .v2, user, socket, datagram => v1Iterate env .v2 user socket datagram
  | .sm, user, socket, datagram => smIterate env user socket datagram

/-! ## Programs -/

/-- User code, as an interaction tree: the main program, or the body of a callback.  `user` says what each callback
invoked during a step does (it may differ from step to step). -/
inductive Act (k : Kind) where
  | ret                                                                   -- returns normally
  | raise (e : Exc)                                                       -- raises
  | call (c : k.Call) (next : Except Exc Val → Act k)                     -- calls a request method
  | receive (data : Val) (user : Nat → Option Msg → Act k) (next : Except Exc Unit → Act k)   -- receiveData(data)
  | loop (socket : Except Exc Unit) (datagram : Option Val) (user : Nat → Option Msg → Act k)
      (next : Except Exc Unit → Act k)                                    -- one turn of run()
  | idle (user : Nat → Option Msg → Act k) (next : Except Exc Unit → Act k)  -- calls the queueEmpty callback itself

/-- Executing a program. -/
def Act.exec (env : Env) {k : Kind} : Act k → M k Unit
  | .ret => fun s => (.ok (), s)
  | .raise e => fun s => (.error e, s)
  | .call c next => fun s =>
    let (r, s') := doCall env c s
    (next r).exec env s'
  | .receive data user next => fun s =>
    let (r, s') := receiveData env k (fun cb m => (user cb m).exec env) data s
    (next r).exec env s'
  | .loop socket datagram user next => fun s =>
    let (r, s') := iterate env k (fun cb m => (user cb m).exec env) socket datagram s
    (next r).exec env s'
  | .idle user next => fun s =>
    let (r, s') := callQueueEmpty env (fun cb m => (user cb m).exec env) s
    (next r).exec env s'

/-- A state some program leads to, starting from a new manager object. -/
def Reachable (env : Env) {k : Kind} (s : Mgr k) : Prop := ∃ p : Act k, (p.exec env {}).2 = s

end Libsnmp
