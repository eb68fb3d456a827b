import Verif.Spec.Protocol
import Verif.Spec.Process
import Verif.Model.Scripts

/-!
# What the command line programs should print

In terms of SNMP values; nothing here mentions the library's classes, except by their names, which are printed.
-/

namespace Spec
open Libsnmp

mutual
/-- `Displayed a name t`: the value `a` is displayed as a `name`, with the text `t`. -/
inductive Displayed : Asn → String → Str → Prop
  | integer {n t} : Decimal n t → Displayed (.integer n) "Integer32" t
  | counter {n t} : Decimal (n : Nat) t → Displayed (.unsigned .counter n) "Counter32" t
  | gauge {n t} : Decimal (n : Nat) t → Displayed (.unsigned .gauge n) "Guage32" t
  | timeTicks {n t} : Decimal (n : Nat) t → Displayed (.unsigned .timeTicks n) "TimeTicks" t
  | counter64 {n t} : Decimal (n : Nat) t → Displayed (.unsigned .counter64 n) "Counter64" t
  | octets {s} : Displayed (.string .octetString s) "OctetString" s
  | opaque {s} : Displayed (.string .opaque s) "Opaque" s
  | address {s ts t} : List.Forall₂ (fun (b : Nat) => Decimal b) s ts → Joined (lit ".") ts t →
      Displayed (.string .ipAddress s) "IPAddress" t
  | null : Displayed (.null .null) "Null" (lit "<Null>")
  | noSuchObject : Displayed (.null .noSuchObject) "NoSuchObject" (lit "No Such Object")
  | noSuchInstance : Displayed (.null .noSuchInstance) "NoSuchInstance" (lit "No Such Instance")
  | endOfMibView : Displayed (.null .endOfMibView) "EndOfMibView" (lit "EndOfMibView")
  | oid {ids ts t} : List.Forall₂ (fun (n : Nat) => Decimal n) ids ts → Joined (lit ".") ts t →
      Displayed (.oid ids) "ObjectID" (46 :: t)
  | seq {as ts t} : DisplayedAll as ts → Joined (lit ", ") ts t → Displayed (.seq as) "Sequence" (91 :: (t ++ [93]))
/-- The texts of several values. -/
inductive DisplayedAll : List Asn → List Str → Prop
  | nil : DisplayedAll [] []
  | cons {a as name t ts} : Displayed a name t → DisplayedAll as ts → DisplayedAll (a :: as) (t :: ts)
end

/-- The extra line for octet strings (C42 says what `octetsToHex` yields). -/
def hexLines : Asn → List Str
  | .string .octetString s => [lit "   hex: " ++ octetsToHex s]
  | _ => []

/-- The lines snmpget.py prints for a binding (snmpset.py: without the hex line). -/
def GetLines (hex : Bool) (b : VB) (lines : List Str) : Prop :=
  ∃ n name t, Displayed (.oid b.name) "ObjectID" n ∧ Displayed b.value name t ∧
    lines = (n ++ lit " = " ++ lit name ++ lit ": (" ++ t ++ lit ") " ++ t) :: if hex then hexLines b.value else []

/-- The lines snmpwalk.py prints for a binding. -/
def WalkLines (b : VB) (lines : List Str) : Prop :=
  ∃ n name t, Displayed (.oid b.name) "ObjectID" n ∧ Displayed b.value name t ∧
    lines = (n ++ lit " = " ++ lit name ++ lit ": " ++ t) :: hexLines b.value

/-- The values at which snmpwalk.py stops. -/
def isEnd : Asn → Bool
  | .null .noSuchObject | .null .endOfMibView => true
  | _ => false

/-- What a command line of snmpget.py or snmpset.py asks for: whether octet strings are also shown in hex, the address, the
community, the identifier octet of the request and its only binding.  `pyInt` is Python's `int(text)`. -/
inductive AskScript (addr : Str → Nat) : (List Net → ScriptRun .sm) → Bool → Nat → Str → Nat → VB → Prop
  | get {server community oid ids} : OidNames (.str oid) ids →
      AskScript addr (snmpget addr [server, community, oid]) true (addr server) community 0xa0 ⟨ids, .null .null⟩
  | setInt {server community oid ids value n} : OidNames (.str oid) ids → pyInt value = .ok n → Int32 n → OutOfBand n →
      AskScript addr (snmpset addr [server, community, oid, lit "i", value]) false (addr server) community 0xa3
        ⟨ids, .integer n⟩
  | setText {server community oid ids value} : OidNames (.str oid) ids →
      AskScript addr (snmpset addr [server, community, oid, lit "s", value]) false (addr server) community 0xa3
        ⟨ids, .string .octetString value⟩
  | setName {server community oid ids value name} : OidNames (.str oid) ids → OidNames (.str value) name →
      AskScript addr (snmpset addr [server, community, oid, lit "o", value]) false (addr server) community 0xa3
        ⟨ids, .oid name⟩
  | setAddress {server community oid ids value octets} : OidNames (.str oid) ids →
      mkIPAddress .ipAddress (.str value) = .ok (.octets .ipAddress octets) →
      AskScript addr (snmpset addr [server, community, oid, lit "a", value]) false (addr server) community 0xa3
        ⟨ids, .string .ipAddress octets⟩

end Spec
