import Verif.Model.Manager
import Mathlib.Logic.Function.Basic

/-!
# Several manager objects in one process

All managers of a process register their socket in one dictionary, `asyncore.socket_map`, and `asyncore.poll` serves all of
it: whoever runs its loop reads the datagrams of all (asynrole.py:65-66, asyncore.py `poll`).  User code may use any of the
manager objects.

The class attribute `nextRequestID = 0` (v1.py:20, snmpmanager.py:38) is never assigned: `self.nextRequestID += 1` reads it
through the object and stores into the object, so every object counts for itself, from 0.

Simplifications as in `Model/Manager.lean`; a manager that is created later is one that nobody used before.
-/

namespace Libsnmp

/-- The manager objects of a process: the class of each, and what its constructor was given. -/
structure Managers where
  kind : Nat → Kind
  env : Nat → Env

/-- Their attributes. -/
abbrev World (P : Managers) := (i : Nat) → Mgr (P.kind i)

/-- Python code that changes managers and returns or raises. -/
def W (P : Managers) (α : Type) := World P → Except Exc α × World P

instance (P : Managers) : Monad (W P) where
  pure a := fun w => (.ok a, w)
  bind x f := fun w => match x w with
    | (.ok a, w') => f a w'
    | (.error e, w') => (.error e, w')

/-- A method of manager `i` that uses no other manager. -/
def W.on {P : Managers} {α : Type} (i : Nat) (x : M (P.kind i) α) : W P α := fun w =>
  let (r, s) := x (w i)
  (r, Function.update w i s)

def W.throw {P : Managers} {α : Type} (e : Exc) : W P α := fun w => (.error e, w)

/-- User code: what callback `cb` of manager `i` does; it may use every manager. -/
abbrev WUser (P : Managers) := Nat → Nat → Option Msg → W P Unit

/-- `callback(self, msg)` with its observation, as `invoke`. -/
def wInvoke {P : Managers} (user : WUser P) (i cb : Nat) (m : Option Msg) : W P Unit := fun w =>
  let (r, w') := user i cb m (Function.update w i ((w i).note (.entered cb m)))
  (r, Function.update w' i ((w' i).note (.left cb m r)))

/-- As `invokeTrap`. -/
def wInvokeTrap {P : Managers} (user : WUser P) (i : Nat) (m : Msg) : W P Unit :=
  match (P.env i).trapCallback with
  | none => W.throw .typeError
  | some cb => wInvoke user i cb (some m)

/-- v1.py:189-202, v2.py:170-183, as `v1Dispatch`. -/
def wV1Dispatch {P : Managers} (user : WUser P) (i : Nat) (msg : Msg) : W P Unit :=
  if msg.data.isInstance (.seq .pdu) then do
    let requestID ← W.on i (M.lift (pduRequestID msg.data))
    let key ← W.on i (M.lift requestID.toInt)
    let cb ← W.on i (getCallback (.int key))
    wInvoke user i cb (some msg)
    W.on i (delCallback (.int key))
  else if msg.data.isInstance (.seq .trapPDU) then wInvokeTrap user i msg
  else pure ()

/-- v1.py:163-208, as `v1ReceiveData`. -/
def wV1ReceiveData {P : Managers} (user : WUser P) (i : Nat) (data : Val) : W P Unit := do
  let msg ← W.on i (M.lift (msgDecode (P.env i).reg .message data))
  let is0 ← W.on i (M.lift (versionIs msg.version 0))
  if is0 then wV1Dispatch user i msg
  else W.throw (unknownVersion msg.version)

/-- v2.py:154-183, as `v2ReceiveBody`. -/
def wV2ReceiveBody {P : Managers} (user : WUser P) (i : Nat) (data : Val) : W P Unit := do
  let msg ← W.on i (M.lift (msgDecode (P.env i).reg .message2 data))
  let is0 ← W.on i (M.lift (versionIs msg.version 0))
  if is0 then wV1Dispatch user i msg
  else do
    let is1 ← W.on i (M.lift (versionIs msg.version 1))
    if is1 then wV1Dispatch user i msg
    else W.throw (unknownVersion msg.version)

/-- v2.py:141-190, as `v2ReceiveData`. -/
def wV2ReceiveData {P : Managers} (user : WUser P) (i : Nat) (data : Val) : W P Unit := fun w =>
  match wV2ReceiveBody user i data w with
  | (.ok (), w') => (.ok (), w')
  | (.error e, w') => if e.isException then (.ok (), w') else (.error e, w')

/-- snmpmanager.py:284-298, as `smHandleV1Message`. -/
def wHandleV1Message {P : Managers} (user : WUser P) (i : Nat) (msg : Msg) : W P Unit :=
  if msg.data.isInstance (.seq .pdu) then do
    let requestID ← W.on i (M.lift (pduRequestID msg.data))
    let cb ← W.on i (getCallback requestID)
    wInvoke user i cb (some msg)
    W.on i (delCallback requestID)
  else if msg.data.isInstance (.seq .trapPDU) then wInvokeTrap user i msg
  else pure ()

/-- snmpmanager.py:300-314, as `smHandleV2Message`. -/
def wHandleV2Message {P : Managers} (user : WUser P) (i : Nat) (msg : Msg) : W P Unit :=
  if msg.data.isInstance (.seq .pdu2) then do
    let requestID ← W.on i (M.lift (pduRequestID msg.data))
    let cb ← W.on i (getCallback requestID)
    wInvoke user i cb (some msg)
    W.on i (delCallback requestID)
  else W.throw .attributeError

/-- snmpmanager.py:254-282, as `smReceiveData`. -/
def wSmReceiveData {P : Managers} (user : WUser P) (i : Nat) (data : Val) : W P Unit := do
  let msg ← W.on i (M.lift (msgDecode (P.env i).reg .message2 data))
  let is0 ← W.on i (M.lift (versionIs msg.version 0))
  if is0 then wHandleV1Message user i msg
  else do
    let is1 ← W.on i (M.lift (versionIs msg.version 1))
    if is1 then wHandleV2Message user i msg
    else W.throw (unknownVersion msg.version)

/-- `receiveData` of manager `i`. -/
def wReceiveData {P : Managers} (user : WUser P) (i : Nat) (data : Val) : W P Unit :=
  match P.kind i with
  | .v1 => wV1ReceiveData user i data
  | .v2 => wV2ReceiveData user i data
  | .sm => wSmReceiveData user i data

/-- asyncore's `read(obj)` of manager `i`, with asynrole.py:37-40 and 52-61. -/
def wRead {P : Managers} (user : WUser P) (i : Nat) (data : Val) : W P Unit := fun w =>
  match wReceiveData user i data w with
  | (.ok (), w') => (.ok (), w')
  | (.error e, w') => (.error (if e.isValueError then reraiseAs e else e), w')

/-- asynrole.py:65-66 `poll`: `asyncore.poll` reads every manager that has a datagram; an exception ends it. -/
def wPoll {P : Managers} (user : WUser P) : List (Nat × Val) → W P Unit
  | [] => pure ()
  | (i, data) :: rest => do
    wRead user i data
    wPoll user rest

/-- As `callQueueEmpty`. -/
def wCallQueueEmpty {P : Managers} (user : WUser P) (i : Nat) : W P Unit :=
  match (P.env i).queueEmpty with
  | none => pure ()
  | some cb => wInvoke user i cb none

/-- One turn of v1.py:216-234 `run` of manager `i`, as `v1Iterate`; `ready` are the datagrams at hand, of any manager. -/
def wV1Iterate {P : Managers} (user : WUser P) (i : Nat) (socket : Except Exc Unit) (ready : List (Nat × Val)) : W P Unit :=
  fun w =>
    match W.on i (takeAndSend socket) w with
    | (.error .queueEmpty, w') =>
      (do wCallQueueEmpty user i
          wPoll user ready : W P Unit) w'
    | r => r

/-- One turn of snmpmanager.py:322-342 `run` of manager `i`, as `smIterate`. -/
def wSmIterate {P : Managers} (user : WUser P) (i : Nat) (socket : Except Exc Unit) (ready : List (Nat × Val)) : W P Unit :=
  fun w =>
    match (do wPoll user ready
              W.on i (takeAndSend socket) : W P Unit) w with
    | (.error .queueEmpty, w') => wCallQueueEmpty user i w'
    | r => r

def wIterate {P : Managers} (user : WUser P) (i : Nat) (socket : Except Exc Unit) (ready : List (Nat × Val)) : W P Unit :=
  match P.kind i with
  | .sm => wSmIterate user i socket ready
  | _ => wV1Iterate user i socket ready

/-- User code of a process, as `Act`: every step names the manager it is done with. -/
inductive WAct (P : Managers) where
  | ret
  | raise (e : Exc)
  | call (i : Nat) (c : (P.kind i).Call) (next : Except Exc Val → WAct P)
  | receive (i : Nat) (data : Val) (user : Nat → Nat → Option Msg → WAct P) (next : Except Exc Unit → WAct P)
  | loop (i : Nat) (socket : Except Exc Unit) (ready : List (Nat × Val)) (user : Nat → Nat → Option Msg → WAct P)
      (next : Except Exc Unit → WAct P)
  | idle (i : Nat) (user : Nat → Nat → Option Msg → WAct P) (next : Except Exc Unit → WAct P)

/-- Executing it, as `Act.exec`. -/
def WAct.exec {P : Managers} : WAct P → W P Unit
  | .ret => fun w => (.ok (), w)
  | .raise e => fun w => (.error e, w)
  | .call i c next => fun w =>
    let (r, w') := W.on i (doCall (P.env i) c) w
    (next r).exec w'
  | .receive i data user next => fun w =>
    let (r, w') := wReceiveData (fun j cb m => (user j cb m).exec) i data w
    (next r).exec w'
  | .loop i socket ready user next => fun w =>
    let (r, w') := wIterate (fun j cb m => (user j cb m).exec) i socket ready w
    (next r).exec w'
  | .idle i user next => fun w =>
    let (r, w') := wCallQueueEmpty (fun j cb m => (user j cb m).exec) i w
    (next r).exec w'

/-- A process in which every manager is new. -/
def World.new (P : Managers) : World P := fun _ => {}

end Libsnmp
