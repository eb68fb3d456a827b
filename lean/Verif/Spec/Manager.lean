import Verif.Model.Manager

/-!
# What the manager classes are asked to do, and what an observer of their API can say

The specification talks about calls, the messages they should send, and the log of observations only.
-/

namespace Spec
open Libsnmp

/-- An SNMPv1 message: version 0, community, a PDU of class `c` with request ID `id`, no error, these bindings. -/
def v1Msg (c : SeqCls) (community : Str) (id : Int) (vbs : List Val) : Msg :=
  { cls := .message, version := .integer .integer 0, community := .octets .octetString community,
    data := .seq c [.integer .integer id, .integer .errorStatus 0, .integer .integer 0, .seq .varBindList vbs] }

/-- An SNMPv2c message (version 1). -/
def v2Msg (c : SeqCls) (community : Str) (id : Int) (vbs : List Val) : Msg :=
  { cls := .message2, version := .integer .integer 1, community := .octets .octetString community,
    data := .seq c [.integer .integer32 id, .integer .errorStatus2 0, .integer .integer 0, .seq .varBindList2 vbs] }

/-- A message carrying a given PDU. -/
def wrap (c : SeqCls) (version : Int) (community : Str) (pdu : Val) : Msg :=
  { cls := c, version := .integer .integer version, community := .octets .octetString community, data := pdu }

/-- The callback given in the call; traps have none. -/
def callbackOf : {k : Kind} → k.Call → Option Nat
  | .v1, .get _ _ cb _ | .v1, .getNext _ _ cb _ | .v1, .set _ _ cb _ => some cb
  | .v1, .trap _ _ _ => none
  | .v2, .get _ _ cb _ | .v2, .getNext _ _ cb _ | .v2, .set _ _ cb _ => some cb
  | .v2, .trap _ _ _ => none
  | .sm, .get _ _ cb _ _ | .sm, .getNext _ _ cb _ _ | .sm, .set _ _ _ _ cb _ _ => some cb
  | .sm, .trap _ _ _ _ => none

/-- The address given in the call. -/
def remoteOf : {k : Kind} → k.Call → Nat
  | .v1, .get _ r _ _ | .v1, .getNext _ r _ _ | .v1, .set _ r _ _ | .v1, .trap r _ _ => r
  | .v2, .get _ r _ _ | .v2, .getNext _ r _ _ | .v2, .set _ r _ _ | .v2, .trap r _ _ => r
  | .sm, .get _ r _ _ _ | .sm, .getNext _ r _ _ _ | .sm, .set _ _ _ r _ _ _ | .sm, .trap r _ _ _ => r

/-- The community given in the call. -/
def communityOf : {k : Kind} → k.Call → Str
  | .v1, .get _ _ _ s | .v1, .getNext _ _ _ s | .v1, .set _ _ _ s | .v1, .trap _ _ s => s
  | .v2, .get _ _ _ s | .v2, .getNext _ _ _ s | .v2, .set _ _ _ s | .v2, .trap _ _ s => s
  | .sm, .get _ _ _ s _ | .sm, .getNext _ _ _ s _ | .sm, .set _ _ _ _ _ s _ | .sm, .trap _ _ s _ => s

/-- A variable binding asking for the object named by the constructor argument `oid`. -/
def Query (c : SeqCls) (oid : Arg) (vb : Val) : Prop := ∃ v, mkOid oid = .ok v ∧ vb = .seq c [.oid v, .null .null]

/-- `Sends env c id m`: the message a successful call `c`, given the request ID `id`, puts on the wire (`none`: no message
at all, only an unusable place holder).  The SNMPv1 `snmpSet` sends a GetNext: the code does so, see C51. -/
def Sends (env : Env) : {k : Kind} → k.Call → Int → Option Msg → Prop
  | .v1, .get oid _ _ com, id, m => ∃ vb, Query .varBind oid vb ∧ m = some (v1Msg .get com id [vb])
  | .v1, .getNext vbs _ _ com, id, m => m = some (v1Msg .getNext com id vbs)
  | .v1, .set vbs _ _ com, id, m => m = some (v1Msg .getNext com id vbs)
  | .v1, .trap _ pdu com, _, m => m = some (wrap .message 0 com pdu)
  | .v2, .get oids _ _ com, id, m =>
    ∃ vbs, List.Forall₂ (Query .varBind) oids vbs ∧ m = some (v2Msg .get2 com id vbs)
  | .v2, .getNext _ _ _ _, _, _ => False
  | .v2, .set _ _ _ _, _, _ => False
  | .v2, .trap _ pdu com, _, m => m = some (wrap .message2 1 com pdu)
  | .sm, .get oid _ _ com version, id, m =>
    (version = 1 ∧ ∃ vb, Query .varBind oid vb ∧ m = some (v1Msg .get com id [vb])) ∨
    (version = 2 ∧ ∃ vb, Query .varBind2 oid vb ∧ m = some (v2Msg .get2 com id [vb]))
  | .sm, .getNext vbs _ _ com version, id, m =>
    (version = 1 ∧ m = some (v1Msg .getNext com id vbs)) ∨ (version = 2 ∧ m = some (v2Msg .getNext2 com id vbs))
  | .sm, .set oid valtype value _ _ com version, id, m =>
    ∃ v x, mkOid oid = .ok v ∧ constructTag env.reg valtype value = .ok x ∧
      ((version = 1 ∧ m = some (v1Msg .set com id [.seq .varBind [.oid v, x]])) ∨
       (version = 2 ∧ m = some (wrap .message2 1 com (v1Msg .set com id [.seq .varBind2 [.oid v, x]]).data)))
  | .sm, .trap _ _ _ version, _, m => version ≠ 1 ∧ version ≠ 2 ∧ m = none

/-- The arguments of a request call are acceptable: the names are object identifiers, the bindings are VarBind objects,
the value can be built, the version is known.  (The SNMPv2 manager's `snmpGetNext` and `snmpSet` accept nothing.) -/
def CallOk (env : Env) : {k : Kind} → k.Call → Prop
  | .v1, .get oid _ _ _ => ∃ v, mkOid oid = .ok v
  | .v1, .getNext vbs _ _ _ => ∀ vb ∈ vbs, vb.isInstance (.seq .varBind) = true
  | .v1, .set vbs _ _ _ => ∀ vb ∈ vbs, vb.isInstance (.seq .varBind) = true
  | .v1, .trap _ _ _ => True
  | .v2, .get oids _ _ _ => (∀ oid ∈ oids, ∃ v, mkOid oid = .ok v) ∧ oids.length ≤ 2147483647
  | .v2, .getNext _ _ _ _ => False
  | .v2, .set _ _ _ _ => False
  | .v2, .trap _ _ _ => True
  | .sm, .get oid _ _ _ version => (version = 1 ∨ version = 2) ∧ ∃ v, mkOid oid = .ok v
  | .sm, .getNext vbs _ _ _ version =>
    (version = 1 ∨ version = 2 ∧ vbs.length ≤ 2147483647) ∧ ∀ vb ∈ vbs, vb.isInstance (.seq .varBind) = true
  | .sm, .set oid valtype value _ _ _ version =>
    (version = 1 ∨ version = 2) ∧ (∃ v, mkOid oid = .ok v) ∧ ∃ x, constructTag env.reg valtype value = .ok x
  | .sm, .trap _ _ _ version => version ≠ 1 ∧ version ≠ 2

/-- The largest request ID the call can carry. -/
def lastID : {k : Kind} → k.Call → Nat
  | .v1, _ => 2147483647
  | .v2, _ => 2147483648
  | .sm, .get _ _ _ _ version => if version = 2 then 2147483648 else 2147483647
  | .sm, .getNext _ _ _ _ version => if version = 2 then 2147483648 else 2147483647
  | .sm, _ => 2147483647

/-- The identifier octet of the PDU a successful request should carry (RFC 1157: get 0xa0, get-next 0xa1, set 0xa3). -/
def askedTag : {k : Kind} → k.Call → Option Nat
  | .v1, .get _ _ _ _ | .v2, .get _ _ _ _ | .sm, .get _ _ _ _ _ => some 0xa0
  | .v1, .getNext _ _ _ _ | .v2, .getNext _ _ _ _ | .sm, .getNext _ _ _ _ _ => some 0xa1
  | .v1, .set _ _ _ _ | .v2, .set _ _ _ _ | .sm, .set _ _ _ _ _ _ _ => some 0xa3
  | _, _ => none

/-- The call is `v1.SNMP.snmpSet`. -/
def isV1Set : {k : Kind} → k.Call → Bool
  | .v1, .set _ _ _ _ => true
  | _, _ => false

/-- The datagram of a queue item: none if there is no message or it cannot be encoded. -/
def datagramOf (item : Option Msg × Nat) : Option (Str × Nat) :=
  match item.1 with
  | none => none
  | some m => match m.encode with
    | .ok o => some (o, item.2)
    | .error _ => none

/-- The version number of a message (an Integer object in every proper message). -/
def versionNo (m : Msg) : Option Int :=
  match m.version with
  | .integer _ v => some v
  | .int v => some v
  | _ => none

/-- The versions a manager class handles: SNMPv1 is version 0, SNMPv2c is version 1. -/
def accepts (k : Kind) (m : Msg) : Prop := versionNo m = some 0 ∨ k ≠ .v1 ∧ versionNo m = some 1

instance (k : Kind) (m : Msg) : Decidable (accepts k m) := by unfold accepts; infer_instance

/-- The PDU class whose instances count as answers: `snmpManager` asks for an rfc1905 PDU in an SNMPv2c message. -/
def answerCls (k : Kind) (m : Msg) : SeqCls := if k = .sm ∧ versionNo m = some 1 then .pdu2 else .pdu

/-- The request ID a message answers: it must carry a PDU whose first component is an Integer. -/
def answers (k : Kind) (m : Msg) : Option Int :=
  match m.data with
  | .seq c (.integer _ n :: _) => if (Cls.seq c).isSubclass (.seq (answerCls k m)) then some n else none
  | _ => none

/-- The message carries an SNMPv1 Trap-PDU where the manager class looks for one (`snmpManager` does not in an SNMPv2c
message). -/
def isTrap (k : Kind) (m : Msg) : Prop := m.data.isInstance (.seq .trapPDU) = true ∧ ¬ (k = .sm ∧ versionNo m = some 1)

instance (k : Kind) (m : Msg) : Decidable (isTrap k m) := by unfold isTrap; infer_instance

/-- The successful calls in a log, in order, each with what it returned. -/
def successes {k : Kind} (log : List (Obs k)) : List (k.Call × Val) :=
  log.filterMap fun
    | .called c (.ok v) => some (c, v)
    | _ => none

/-- The request IDs returned, in order, each with the callback of the call. -/
def issued {k : Kind} (log : List (Obs k)) : List (Int × Nat) :=
  log.filterMap fun
    | .called c (.ok (.integer _ n)) => (callbackOf c).map fun cb => (n, cb)
    | _ => none

/-- The items taken from the queue, in order. -/
def taken {k : Kind} (log : List (Obs k)) : List (Option Msg × Nat) :=
  log.filterMap fun
    | .took item => some item
    | _ => none

/-- The datagrams given to `send()`, in order. -/
def sentOut {k : Kind} (log : List (Obs k)) : List (Str × Nat) :=
  log.filterMap fun
    | .sent s r => some (s, r)
    | _ => none

/-- The request with ID `n` is finished: its callback was invoked with an answer and returned normally. -/
def Finished {k : Kind} (log : List (Obs k)) (n : Int) : Prop :=
  ∃ cb m, Obs.left cb (some m) (.ok ()) ∈ log ∧ answers k m = some n

/-- The request with ID `n` was made with callback `cb` and is not finished. -/
def Pending {k : Kind} (log : List (Obs k)) (n : Int) (cb : Nat) : Prop := (n, cb) ∈ issued log ∧ ¬ Finished log n

/-- The number of times a callback returned normally from an answer to `n`. -/
def returns {k : Kind} (log : List (Obs k)) (n : Int) : Nat :=
  log.countP fun
    | .left _ (some m) (.ok ()) => answers k m == some n
    | _ => false

end Spec
