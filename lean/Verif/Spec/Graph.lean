import Verif.Model.Program

/-! # Specification: fields of objects, and the message a waiting request stands for (C68-C70) -/

namespace Spec
open Libsnmp

/-- Which field is which component: a VarBind is (name, value); a PDU (request ID, error status, error index, bindings);
a BulkPDU (request ID, non-repeaters, max-repetitions, bindings); a TrapPDU (enterprise, agent address, generic trap,
specific trap, timestamp, bindings). -/
def fields : SeqCls → List (Attr × Nat)
  | .varBind | .varBind2 => [(.objectID, 0), (.objectValue, 1)]
  | .pdu | .get | .getNext | .response | .set | .pdu2 | .get2 | .getNext2 | .response2 | .set2 | .inform | .trapV2
  | .report =>
    [(.requestID, 0), (.errorStatus, 1), (.errorIndex, 2), (.varBindList, 3)]
  | .bulkPDU | .getBulk => [(.requestID, 0), (.nonRepeaters, 1), (.maxRepetitions, 2), (.varBindList, 3)]
  | .trapPDU => [(.enterprise, 0), (.agentAddr, 1), (.genericTrap, 2), (.specificTrap, 3), (.timestamp, 4),
      (.varBindList, 5)]
  | _ => []

/-- The names asked for: one object identifier per argument. -/
inductive Names : List Arg → List (Option (List Int)) → Prop
  | nil : Names [] []
  | cons {a as i is} : mkOid a = .ok i → Names as is → Names (a :: as) (i :: is)

/-- A variable binding that asks for the name `i`. -/
def nullBind (c : SeqCls) (i : Option (List Int)) : Val := .seq c [.oid i, .null .null]

/-- The Get message for `names` with request ID `n`. -/
def getMessage (k : Api) (community : Str) (n : Int) (names : List (Option (List Int))) : Val :=
  match k with
  | .v1 | .sm1 =>
    .seq .message [.integer .integer 0, .octets .octetString community,
      .seq .get [.integer .integer n, .integer .errorStatus 0, .integer .integer 0,
        .seq .varBindList (names.map (nullBind .varBind))]]
  | .v2 =>
    .seq .message2 [.integer .integer 1, .octets .octetString community,
      .seq .get2 [.integer .integer32 n, .integer .errorStatus2 0, .integer .integer 0,
        .seq .varBindList2 (names.map (nullBind .varBind))]]
  | .sm2 =>
    .seq .message2 [.integer .integer 1, .octets .octetString community,
      .seq .get2 [.integer .integer32 n, .integer .errorStatus2 0, .integer .integer 0,
        .seq .varBindList2 (names.map (nullBind .varBind2))]]

/-- The GetNext message with request ID `n` and the bindings `vs`. -/
def getNextMessage (k : Api) (community : Str) (n : Int) (vs : List Val) : Val :=
  match k with
  | .v1 | .sm1 =>
    .seq .message [.integer .integer 0, .octets .octetString community,
      .seq .getNext [.integer .integer n, .integer .errorStatus 0, .integer .integer 0, .seq .varBindList vs]]
  | .v2 | .sm2 =>
    .seq .message2 [.integer .integer 1, .octets .octetString community,
      .seq .getNext2 [.integer .integer32 n, .integer .errorStatus2 0, .integer .integer 0, .seq .varBindList2 vs]]

/-- The message around a PDU. -/
def trapMessage (k : Api) (community : Str) (pdu : Val) : Val :=
  match k with
  | .v1 | .sm1 => .seq .message [.integer .integer 0, .octets .octetString community, pdu]
  | .v2 | .sm2 => .seq .message2 [.integer .integer 1, .octets .octetString community, pdu]

end Spec
