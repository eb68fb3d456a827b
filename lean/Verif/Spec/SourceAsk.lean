import Verif.Spec.SourceMgr

/-!
# How the request methods are called

What the arguments of a call of a request method are, for a call of the model (`Model/Manager.lean`): the name of the method and the
values passed.  The community may be left out if it is 'public'.
-/

namespace Libsnmp.Src
open Libsnmp

/-- A text in an argument has no numeral that `int` refuses for its length. -/
def FineArg (cfg : Cfg) (arg : Arg) : Prop := ∀ s, arg = .str s → Short cfg s

/-- The arguments end with the community, or it is left out and is 'public'. -/
def Community (t : Str) (front args : List V) : Prop := args = front ++ [.str t] ∨ args = front ∧ t = lit "public"

/-- A call of a request method of v1.SNMP. -/
def AskV1 (nm : Names) (cfg : Cfg) (h : Heap) (name : String) (args : List V) : V1Call → Prop
  | .get oid remote cb t => name = "snmpGet" ∧ FineArg cfg oid ∧
    ∃ x, ArgAt h oid x ∧ Community t [x, nm.addr remote, nm.fn cb] args
  | .getNext vbs remote cb t => name = "snmpGetNext" ∧ ∃ x, RepVbs h vbs x ∧ Community t [x, nm.addr remote, nm.fn cb] args
  | .set vbs remote cb t => name = "snmpSet" ∧ ∃ x, RepVbs h vbs x ∧ Community t [x, nm.addr remote, nm.fn cb] args
  | .trap remote pdu t => name = "snmpTrap" ∧ ∃ x, Rep 9 h pdu x ∧ Community t [nm.addr remote, x] args

/-- A call of a request method of v2.SNMP. -/
def AskV2 (nm : Names) (cfg : Cfg) (h : Heap) (name : String) (args : List V) : V2Call → Prop
  | .get oids remote cb t => name = "snmpGet" ∧ (∀ oid ∈ oids, FineArg cfg oid) ∧
    ∃ x, RepOids h oids x ∧ Community t [x, nm.addr remote, nm.fn cb] args
  | .getNext _ remote cb t => name = "snmpGetNext" ∧ ∃ x, Community t [x, nm.addr remote, nm.fn cb] args
  | .set _ remote cb t => name = "snmpSet" ∧ ∃ x, Community t [x, nm.addr remote, nm.fn cb] args
  | .trap remote pdu t => name = "snmpTrap" ∧ ∃ x, Rep 9 h pdu x ∧ Community t [nm.addr remote, x] args

/-- The registry of the process: `tagDecodeDict`. -/
def Registry (cfg : Cfg) (reg : Reg) : Prop := ∀ n : Int, cfg.tag n = if n < 0 then none else (reg n.toNat).map cid

/-- An argument that is None, a number, a text or an object, as a value. -/
def Arg.val? : Arg → Option Val
  | .none => some .none
  | .int n => some (.int n)
  | .str s => some (.str s)
  | .obj v => some v
  | _ => none

/-- The values that `snmpSet` is proved for, by the class of the tag: for an Integer class anything but bytes, lists and tuples, for an
OctetString a text, for an address anything but lists and objects, for an ObjectID anything, for a Null anything. -/
def Settable (cfg : Cfg) (value : Arg) : Cls → Prop
  | .int _ => (Arg.val? value).isSome
  | .oct c => (c = .octetString ∨ c = .opaque) ∧ (∃ s, value = .str s) ∨
    (c = .ipAddress ∨ c = .networkAddress) ∧ (∀ l, value ≠ .list l) ∧ (∀ v, value ≠ .obj v) ∧ FineArg cfg value
  | .oid => FineArg cfg value
  | .null _ => True
  | _ => False

/-- The arguments end with the community and the version, or the version is left out and is 2, or both are left out. -/
def Versioned (t : Str) (v : Int) (front args : List V) : Prop :=
  args = front ++ [.str t, .int v] ∨ args = front ++ [.str t] ∧ v = 2 ∨ args = front ∧ t = lit "public" ∧ v = 2

/-- A call of a request method of snmpManager. -/
def AskSm (nm : Names) (cfg : Cfg) (reg : Reg) (h : Heap) (name : String) (args : List V) : SmCall → Prop
  | .get oid remote cb t v => name = "snmpGet" ∧ FineArg cfg oid ∧
    ∃ x, ArgAt h oid x ∧ Versioned t v [x, nm.addr remote, nm.fn cb] args
  | .getNext vbs remote cb t v => name = "snmpGetNext" ∧ ∃ x, RepVbs h vbs x ∧ Versioned t v [x, nm.addr remote, nm.fn cb] args
  | .set oid valtype value remote cb t v => name = "snmpSet" ∧ FineArg cfg oid ∧ (∀ cls, reg valtype.toNat = some cls → Settable cfg value cls) ∧
    ∃ x y, ArgAt h oid x ∧ ArgAt h value y ∧ Versioned t v [x, .int valtype, y, nm.addr remote, nm.fn cb] args
  | .trap remote _ t v => name = "snmpTrap" ∧ ∃ x, Versioned t v [nm.addr remote, x] args

/-- A call of a request method of a manager: the name of the method and the arguments, for a call of the model. -/
def Ask (nm : Names) (cfg : Cfg) (reg : Reg) (h : Heap) (name : String) (args : List V) : (k : Libsnmp.Kind) → k.Call → Prop
  | .v1, c => AskV1 nm cfg h name args c
  | .v2, c => AskV2 nm cfg h name args c
  | .sm, c => AskSm nm cfg reg h name args c

/-- Calls of request methods one after another, whatever each returns or raises: each does what the model's call does. -/
def AllDo (nm : Names) (env : Libsnmp.Env) (cfg : Cfg) (a : Nat) {k : Libsnmp.Kind} : Heap → Mgr k → List (k.Call × String × List V) → Prop
  | _, _, [] => True
  | h, s, (c, name, args) :: rest =>
    ∃ h', Only a h h' ∧ MgrRep nm env h' a (callBody env k c s).2 ∧
      Outcome (Rep 9) h' (callMethod cfg (.ref a) name args h) (callBody env k c s).1 ∧ AllDo nm env cfg a h' (callBody env k c s).2 rest

end Libsnmp.Src
