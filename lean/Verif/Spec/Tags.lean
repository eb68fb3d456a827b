import Verif.Model.Cls

/-!
# Identifier octets assigned by the RFCs

RFC 1155/1157 and RFC 1902/1905: universal types 2, 4, 5, 6, 16; application types 0-4 and 6; context-specific
exception values 0-2; PDUs are context-specific and constructed.  The class names of the library are only used as
names here.
-/

namespace Spec
open Libsnmp

/-- universal, application, context-specific; primitive or constructed. -/
def universal (n : Nat) : Nat := n
def universalC (n : Nat) : Nat := 0x20 + n
def application (n : Nat) : Nat := 0x40 + n
def context (n : Nat) : Nat := 0x80 + n
def contextC (n : Nat) : Nat := 0xA0 + n

/-- The identifier octet the RFCs assign to each type; `none` for the abstract base classes. -/
def rfcTag : Cls → Option Nat
  | .asn1Object => none
  | .int .integer | .int .integer32 | .int .errorStatus | .int .errorStatus2 | .int .genericTrap => some (universal 2)
  | .int .counter | .int .counter32 => some (application 1)
  | .int .guage | .int .guage32 => some (application 2)
  | .int .timeTicks => some (application 3)
  | .int .counter64 => some (application 6)
  | .oct .octetString | .oct .octetString2 => some (universal 4)
  | .oct .ipAddress | .oct .networkAddress => some (application 0)
  | .oct .opaque => some (application 4)
  | .oid => some (universal 6)
  | .null .null => some (universal 5)
  | .null .noSuchObject => some (context 0)
  | .null .noSuchInstance => some (context 1)
  | .null .endOfMibView => some (context 2)
  | .seq .sequence | .seq .sequenceOf | .seq .varBind | .seq .varBind2 | .seq .varBindList | .seq .varBindList2
  | .seq .message | .seq .message2 => some (universalC 16)
  | .seq .pdu | .seq .pdu2 | .seq .bulkPDU => none
  | .seq .get | .seq .get2 => some (contextC 0)
  | .seq .getNext | .seq .getNext2 => some (contextC 1)
  | .seq .response | .seq .response2 => some (contextC 2)
  | .seq .set | .seq .set2 => some (contextC 3)
  | .seq .trapPDU => some (contextC 4)
  | .seq .getBulk => some (contextC 5)
  | .seq .inform => some (contextC 6)
  | .seq .trapV2 => some (contextC 7)
  | .seq .report => some (contextC 8)

end Spec
