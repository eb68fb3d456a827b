import Verif.Model.Imports
import Verif.Spec.Tags

/-!
# Which decoders a program has, by the modules it uses
-/

namespace Spec
open Libsnmp

/-- The modules that bring in rfc1155, rfc1157, rfc1902, rfc1905. -/
def needs1155 : List Module := [.rfc1155, .rfc1157, .rfc1902, .rfc1905, .v1, .v2, .snmpmanager]
def needs1157 : List Module := [.rfc1157, .rfc1905, .v1, .v2, .snmpmanager]
def needs1902 : List Module := [.rfc1902, .rfc1905, .v2, .snmpmanager]
def needs1905 : List Module := [.rfc1905, .v2, .snmpmanager]

/-- Some imported module is among these. -/
def uses (l ms : List Module) : Bool := l.any fun m => ms.contains m

/-- The decoder for each identifier octet, given which of the four RFC modules a program uses. -/
def decoder (u1155 u1157 u1902 u1905 : Bool) (t : Nat) : Option Cls :=
  if u1155 = false then none
  else match t with
  | 0x02 => some (.int (if u1902 then .integer32 else .integer))
  | 0x04 => some (.oct .octetString)
  | 0x05 => some (.null .null)
  | 0x06 => some .oid
  | 0x30 => some (.seq .sequence)
  | 0x40 => some (.oct .ipAddress)
  | 0x41 => some (.int (if u1902 then .counter32 else .counter))
  | 0x42 => some (.int (if u1902 then .guage32 else .guage))
  | 0x43 => some (.int .timeTicks)
  | 0x44 => some (.oct .opaque)
  | 0x46 => if u1902 then some (.int .counter64) else none
  | 0x80 => if u1905 then some (.null .noSuchObject) else none
  | 0x81 => if u1905 then some (.null .noSuchInstance) else none
  | 0x82 => if u1905 then some (.null .endOfMibView) else none
  | 0xa0 => if u1157 then some (.seq .get) else none
  | 0xa1 => if u1157 then some (.seq .getNext) else none
  | 0xa2 => if u1905 then some (.seq .response2) else if u1157 then some (.seq .response) else none
  | 0xa3 => if u1157 then some (.seq .set) else none
  | 0xa4 => if u1157 then some (.seq .trapPDU) else none
  | 0xa5 => if u1905 then some (.seq .getBulk) else none
  | 0xa6 => if u1905 then some (.seq .inform) else none
  | 0xa7 => if u1905 then some (.seq .trapV2) else none
  | 0xa8 => if u1905 then some (.seq .report) else none
  | _ => none

/-- The registry of a program that imports these modules. -/
def registry (l : List Module) : Reg := decoder (uses l needs1155) (uses l needs1157) (uses l needs1902) (uses l needs1905)

/-- The registry of some program that has imported the classes at all, whatever it imported and in whatever order. -/
def Imported (reg : Reg) : Prop := ∃ l, uses l needs1155 = true ∧ reg = (imports l).reg

end Spec
