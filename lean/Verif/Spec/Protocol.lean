import Verif.Spec.Represents
import Verif.Spec.Manager
import Verif.Spec.Imports
import Verif.Spec.Grammar

/-!
# SNMP messages as octets (RFC 1157, 1901, 1905), and the messages a request call asks for

`PduOctets` and `MessageOctets` do not mention the model; they allow every definite-length BER form.
-/

namespace Spec
open Libsnmp

/-- A variable binding: a name and a value. -/
structure VB where
  name : List Nat
  value : Asn

/-- As an ASN.1 value. -/
def VB.asn (b : VB) : Asn := .seq [.oid b.name, b.value]

/-- A PDU other than the SNMPv1 trap: identifier octet, request ID, error status, error index, bindings. -/
structure Pdu where
  tag : Nat
  requestID : Int
  errorStatus : Int := 0
  errorIndex : Int := 0
  bindings : List VB

/-- `s` is an encoding of the PDU `p`. -/
inductive PduOctets (p : Pdu) : List Nat → Prop
  | mk {s1 s2 s3 s4 s : List Nat} (h1 : Ber (.integer p.requestID) s1) (h2 : Ber (.integer p.errorStatus) s2)
      (h3 : Ber (.integer p.errorIndex) s3) (h4 : Ber (.seq (p.bindings.map VB.asn)) s4)
      (h : Tlv p.tag (s1 ++ (s2 ++ (s3 ++ s4))) s) : PduOctets p s

/-- `s` is an encoding of an SNMP message: a SEQUENCE of version, community and PDU. -/
inductive MessageOctets (version : Int) (community : List Nat) (p : Pdu) : List Nat → Prop
  | mk {s1 s2 s3 s : List Nat} (h1 : Ber (.integer version) s1) (h2 : Ber (.string .octetString community) s2)
      (h3 : PduOctets p s3) (h : Tlv 0x30 (s1 ++ (s2 ++ s3)) s) : MessageOctets version community p s

/-- An SNMPv1 trap (RFC 1157, 4.1.6). -/
structure Trap where
  enterprise : List Nat
  agent : List Nat
  generic : Int
  specific : Int
  timestamp : Nat
  bindings : List VB

/-- `s` is an encoding of an SNMPv1 Trap-PDU. -/
inductive TrapOctets (p : Trap) : List Nat → Prop
  | mk {s1 s2 s3 s4 s5 s6 s : List Nat} (h1 : Ber (.oid p.enterprise) s1) (h2 : Ber (.string .ipAddress p.agent) s2)
      (h3 : Ber (.integer p.generic) s3) (h4 : Ber (.integer p.specific) s4) (h5 : Ber (.unsigned .timeTicks p.timestamp) s5)
      (h6 : Ber (.seq (p.bindings.map VB.asn)) s6)
      (h : Tlv 0xa4 (s1 ++ (s2 ++ (s3 ++ (s4 ++ (s5 ++ s6))))) s) : TrapOctets p s

/-- `s` is an encoding of a message carrying an SNMPv1 Trap-PDU. -/
inductive TrapMessageOctets (version : Int) (community : List Nat) (p : Trap) : List Nat → Prop
  | mk {s1 s2 s3 s : List Nat} (h1 : Ber (.integer version) s1) (h2 : Ber (.string .octetString community) s2)
      (h3 : TrapOctets p s3) (h : Tlv 0x30 (s1 ++ (s2 ++ s3)) s) : TrapMessageOctets version community p s

/-! ## What a call asks for -/

/-- The constructor argument `oid` names the object identifier `ids` (C15 and C16 say when), which is a proper one. -/
def OidNames (oid : Arg) (ids : List Nat) : Prop :=
  mkOid oid = .ok (some (ints ids)) ∧ ∃ a b rest, ids = a :: b :: rest ∧ a ≤ 2 ∧ (a < 2 → b < 40)

/-- The object `x` is a VarBind holding this name and this value. -/
def HoldsVB (x : Val) (b : VB) : Prop :=
  ∃ c name value, (c = .varBind ∨ c = .varBind2) ∧ x = .seq c [name, value] ∧ Represents name (.oid b.name) ∧
    Represents value b.value

/-- The object `x` is a Trap-PDU holding these things. -/
def HoldsTrap (x : Val) (p : Trap) : Prop :=
  ∃ ent addr cg cs ct cl xs, x = .seq .trapPDU [ent, addr, .integer cg p.generic, .integer cs p.specific,
      .integer ct (p.timestamp : Int), .seq cl xs] ∧
    Represents ent (.oid p.enterprise) ∧ Represents addr (.string .ipAddress p.agent) ∧ cg ∈ signedClasses ∧
    cs ∈ signedClasses ∧ OutOfBand p.generic ∧ OutOfBand p.specific ∧ ct ∈ unsignedClasses .timeTicks ∧
    cl ∈ sequenceClasses ∧ List.Forall₂ HoldsVB xs p.bindings

/-- The message a call should put on the wire: version number, identifier octet of the PDU, bindings.  SNMPv1 is version
number 0, SNMPv2c is 1.  (`v1.SNMP.snmpSet` is given the identifier octet of a GetNext here, as C51 found.) -/
def AsksFor (env : Env) : {k : Kind} → k.Call → Int → Nat → List VB → Prop
  | .v1, .get oid _ _ _, v, t, bs => v = 0 ∧ t = 0xa0 ∧ ∃ ids, OidNames oid ids ∧ bs = [⟨ids, .null .null⟩]
  | .v1, .getNext vbs _ _ _, v, t, bs => v = 0 ∧ t = 0xa1 ∧ List.Forall₂ HoldsVB vbs bs
  | .v1, .set vbs _ _ _, v, t, bs => v = 0 ∧ t = 0xa1 ∧ List.Forall₂ HoldsVB vbs bs
  | .v2, .get oids _ _ _, v, t, bs =>
    v = 1 ∧ t = 0xa0 ∧ List.Forall₂ (fun oid b => ∃ ids, OidNames oid ids ∧ b = ⟨ids, .null .null⟩) oids bs
  | .sm, .get oid _ _ _ version, v, t, bs =>
    v = version - 1 ∧ t = 0xa0 ∧ ∃ ids, OidNames oid ids ∧ bs = [⟨ids, .null .null⟩]
  | .sm, .getNext vbs _ _ _ version, v, t, bs => v = version - 1 ∧ t = 0xa1 ∧ List.Forall₂ HoldsVB vbs bs
  | .sm, .set oid valtype value _ _ _ version, v, t, bs =>
    v = version - 1 ∧ t = 0xa3 ∧ ∃ ids a x, OidNames oid ids ∧ constructTag env.reg valtype value = .ok x ∧
      Represents x a ∧ bs = [⟨ids, a⟩]
  | _, _, _, _, _ => False

/-! ## What a receiver makes of bindings -/

/-- The objects `ys` are variable bindings standing for `bs`, as a receiver with registry `reg` gets them. -/
def Carries (reg : Reg) (bs : List VB) (ys : List Val) : Prop :=
  List.Forall₂ (fun b y => ∃ cb name value, (cb = .varBind ∨ cb = .varBind2) ∧ y = .seq cb [name, value] ∧
    Denotes reg (.oid b.name) name ∧ Denotes reg b.value value) bs ys

/-- The receiver can hold the binding: the name's second arc is below 40 (C11), and the value's types are known. -/
def Holdable (reg : Reg) (b : VB) : Prop := (∃ x, Denotes reg (.oid b.name) x) ∧ ∃ y, Denotes reg b.value y

/-- The object `y` is a trap standing for `p`, as a receiver with registry `reg` gets it. -/
def CarriesTrap (reg : Reg) (p : Trap) (y : Val) : Prop :=
  ∃ ent addr cs ct ys, y = .seq .trapPDU [ent, addr, .integer .genericTrap p.generic, .integer cs p.specific,
      .integer ct (p.timestamp : Int), .seq .varBindList ys] ∧
    Denotes reg (.oid p.enterprise) ent ∧ Denotes reg (.string .ipAddress p.agent) addr ∧
    Denotes reg (.integer p.specific) (.integer cs p.specific) ∧
    Denotes reg (.unsigned .timeTicks p.timestamp) (.integer ct (p.timestamp : Int)) ∧ Carries reg p.bindings ys

/-- The module that defines each manager class. -/
def moduleOf : Kind → Module
  | .v1 => .v1
  | .v2 => .v2
  | .sm => .snmpmanager

/-- The registry of a program that uses this manager class, whatever else it imports and in whatever order. -/
def RegistryFor (k : Kind) (reg : Reg) : Prop := ∃ l, moduleOf k ∈ l ∧ reg = (imports l).reg

end Spec
