import Verif.Model.Process
import Mathlib.Logic.Relation

/-!
# What names and attributes mean in a Python process

Written for the process of `Model/Process.lean`: modules with the names they bound and the classes they created.
-/

namespace Spec.Py
open Libsnmp Libsnmp.Names

/-- The source of `m` has an import statement for `m'`. -/
def Imports (m m' : Module) : Prop := m' ∈ importsOf (body m)

/-- Importing the modules in `l` makes Python execute `m`: it is one of them or they import it, directly or not. -/
def Needed (l : List Module) (m : Module) : Prop := ∃ m' ∈ l, Relation.ReflTransGen Imports m' m

/-- `m` has been executed. -/
def Executed (p : Process) (m : Module) : Prop := ∃ d, p.lookup m = some d

/-- `m.n` is `o`; in the functions of `m`, the global name `n` is `o`. -/
def Global (p : Process) (m : Module) (n : String) (o : Obj) : Prop := ∃ d, p.lookup m = some d ∧ d.names.lookup n = some o

/-- `o` is a class, created by the class statement with these bases and members. -/
def IsClass (p : Process) (o : Obj) (r : ClassRec) : Prop :=
  ∃ m line d, o = .cls m line ∧ p.lookup m = some d ∧ d.classes.find? (·.line == line) = some r

/-- `issubclass(o, o')`. -/
inductive IsSubclass (p : Process) : Obj → Obj → Prop
  | refl {o} : IsSubclass p o o
  | base {o r b o'} : IsClass p o r → b ∈ r.bases → IsSubclass p b o' → IsSubclass p o o'

/-- `o.n` is `v`, for a class `o` with at most one base class. -/
inductive HasAttr (p : Process) : Obj → String → Obj → Prop
  | own {o r n v} : IsClass p o r → r.members.lookup n = some v → HasAttr p o n v
  | inherited {o r n b v} : IsClass p o r → r.members.lookup n = none → r.bases = [b] → HasAttr p b n v → HasAttr p o n v

/-- The classes of `Model/Cls.lean` under their Python names. -/
def pyName : Cls → Module × String
  | .asn1Object => (.rfc1155, "Asn1Object")
  | .int .integer => (.rfc1155, "Integer")
  | .int .counter => (.rfc1155, "Counter")
  | .int .guage => (.rfc1155, "Guage")
  | .int .timeTicks => (.rfc1155, "TimeTicks")
  | .int .errorStatus => (.rfc1157, "ErrorStatus")
  | .int .genericTrap => (.rfc1157, "GenericTrap")
  | .int .integer32 => (.rfc1902, "Integer32")
  | .int .counter32 => (.rfc1902, "Counter32")
  | .int .guage32 => (.rfc1902, "Guage32")
  | .int .counter64 => (.rfc1902, "Counter64")
  | .int .errorStatus2 => (.rfc1905, "ErrorStatus")
  | .oct .octetString => (.rfc1155, "OctetString")
  | .oct .opaque => (.rfc1155, "Opaque")
  | .oct .ipAddress => (.rfc1155, "IPAddress")
  | .oct .networkAddress => (.rfc1155, "NetworkAddress")
  | .oct .octetString2 => (.rfc1902, "OctetString")
  | .oid => (.rfc1155, "ObjectID")
  | .null .null => (.rfc1155, "Null")
  | .null .noSuchObject => (.rfc1905, "NoSuchObject")
  | .null .noSuchInstance => (.rfc1905, "NoSuchInstance")
  | .null .endOfMibView => (.rfc1905, "EndOfMibView")
  | .seq .sequence => (.rfc1155, "Sequence")
  | .seq .sequenceOf => (.rfc1155, "SequenceOf")
  | .seq .varBind => (.rfc1157, "VarBind")
  | .seq .varBindList => (.rfc1157, "VarBindList")
  | .seq .message => (.rfc1157, "Message")
  | .seq .pdu => (.rfc1157, "PDU")
  | .seq .get => (.rfc1157, "Get")
  | .seq .getNext => (.rfc1157, "GetNext")
  | .seq .response => (.rfc1157, "Response")
  | .seq .set => (.rfc1157, "Set")
  | .seq .trapPDU => (.rfc1157, "TrapPDU")
  | .seq .varBind2 => (.rfc1905, "VarBind")
  | .seq .varBindList2 => (.rfc1905, "VarBindList")
  | .seq .message2 => (.rfc1905, "Message")
  | .seq .pdu2 => (.rfc1905, "PDU")
  | .seq .bulkPDU => (.rfc1905, "BulkPDU")
  | .seq .get2 => (.rfc1905, "Get")
  | .seq .getNext2 => (.rfc1905, "GetNext")
  | .seq .response2 => (.rfc1905, "Response")
  | .seq .set2 => (.rfc1905, "Set")
  | .seq .getBulk => (.rfc1905, "GetBulk")
  | .seq .inform => (.rfc1905, "Inform")
  | .seq .trapV2 => (.rfc1905, "TrapV2")
  | .seq .report => (.rfc1905, "Report")

/-- All classes. -/
def allCls : List Cls :=
  [.asn1Object, .oid] ++
  [IntCls.integer, .counter, .guage, .timeTicks, .errorStatus, .genericTrap, .integer32, .counter32, .guage32, .counter64,
    .errorStatus2].map .int ++
  [OctCls.octetString, .opaque, .ipAddress, .networkAddress, .octetString2].map .oct ++
  [NullCls.null, .noSuchObject, .noSuchInstance, .endOfMibView].map .null ++
  [SeqCls.sequence, .sequenceOf, .varBind, .varBindList, .message, .pdu, .get, .getNext, .response, .set, .trapPDU, .varBind2,
    .varBindList2, .message2, .pdu2, .bulkPDU, .get2, .getNext2, .response2, .set2, .getBulk, .inform, .trapV2, .report].map .seq

/-- The Python class behind a class of the model. -/
def Denotes (p : Process) (c : Cls) (o : Obj) : Prop := Global p (pyName c).1 (pyName c).2 o

/-- The class whose method runs when this method is called on an object of class `c`; none if that is an AttributeError (or,
for `__init__`, `__str__` and `__hash__`, the one of `object`). -/
def definer : String → Cls → Option Cls
  | "encode", _ => some .asn1Object
  | "decode", .seq .message | "decode", .seq .message2 => some (.seq .message)
  | "decode", _ => some .asn1Object
  | "encodeContents", .int _ => some (.int .integer)
  | "encodeContents", .oct _ => some (.oct .octetString)
  | "encodeContents", .oid => some .oid
  | "encodeContents", .null _ => some (.null .null)
  | "encodeContents", .seq .message | "encodeContents", .seq .message2 => some (.seq .message)
  | "encodeContents", .seq _ => some (.seq .sequence)
  | "encodeContents", .asn1Object => some .asn1Object
  | "decodeContents", .int .counter | "decodeContents", .int .counter32 | "decodeContents", .int .counter64 => some (.int .counter)
  | "decodeContents", .int _ => some (.int .integer)
  | "decodeContents", .oct .ipAddress | "decodeContents", .oct .networkAddress => some (.oct .ipAddress)
  | "decodeContents", .oct _ => some (.oct .octetString)
  | "decodeContents", .oid => some .oid
  | "decodeContents", .null _ => some (.null .null)
  | "decodeContents", .seq c => match c with
    | .sequence | .sequenceOf | .varBind | .varBind2 | .varBindList | .varBindList2 | .message | .message2 => some (.seq .sequence)
    | .pdu | .get | .getNext | .response | .set => some (.seq .pdu)
    | .pdu2 | .get2 | .getNext2 | .response2 | .set2 | .inform | .trapV2 | .report => some (.seq .pdu)
    | .trapPDU => some (.seq .trapPDU)
    | .bulkPDU | .getBulk => some (.seq .bulkPDU)
  | "decodeContents", .asn1Object => none
  | "__eq__", .int _ => some (.int .integer)
  | "__eq__", _ => some .asn1Object
  | "__ne__", _ => some .asn1Object
  | "__add__", .int .counter | "__add__", .int .counter32 | "__add__", .int .counter64 => some (.int .counter)
  | "__add__", .int .guage | "__add__", .int .guage32 => some (.int .guage)
  | "__add__", .int _ => some (.int .integer)
  | "__sub__", .int .guage | "__sub__", .int .guage32 => some (.int .guage)
  | "__sub__", .int _ => some (.int .integer)
  | "__hash__", .int _ => some (.int .integer)
  | "__init__", .int .timeTicks => some (.int .timeTicks)
  | "__init__", .int .errorStatus2 => some (.int .errorStatus2)
  | "__init__", .int _ => some (.int .integer)
  | "__init__", .oct .ipAddress | "__init__", .oct .networkAddress => some (.oct .ipAddress)
  | "__init__", .oct .octetString2 => some (.oct .octetString2)
  | "__init__", .oct _ => some (.oct .octetString)
  | "__init__", .oid => some .oid
  | "__init__", .null _ => some .asn1Object
  | "__init__", .asn1Object => some .asn1Object
  | "__init__", .seq c => match c with
    | .varBind | .varBind2 => some (.seq .varBind)
    | .pdu | .get | .getNext | .response | .set => some (.seq .pdu)
    | .pdu2 | .get2 | .getNext2 | .response2 | .set2 | .inform | .trapV2 | .report => some (.seq .pdu2)
    | .bulkPDU | .getBulk => some (.seq .bulkPDU)
    | c => some (.seq c)
  | "__str__", .int .errorStatus | "__str__", .int .errorStatus2 => some (.int .errorStatus)
  | "__str__", .int .genericTrap => some (.int .genericTrap)
  | "__str__", .int _ => some (.int .integer)
  | "__str__", .oct .ipAddress | "__str__", .oct .networkAddress => some (.oct .ipAddress)
  | "__str__", .oct _ => some (.oct .octetString)
  | "__str__", .oid => some .oid
  | "__str__", .null c => some (.null c)
  | "__str__", .seq .message | "__str__", .seq .message2 => some (.seq .message)
  | "__str__", .seq _ => some (.seq .sequence)
  | "append", .oid => some .oid
  | "append", .seq .sequenceOf | "append", .seq .varBindList | "append", .seq .varBindList2 => some (.seq .sequenceOf)
  | "append", .seq _ => some (.seq .sequence)
  | "toObjectID", .int _ => some (.int .integer)
  | "toObjectID", .oct .ipAddress | "toObjectID", .oct .networkAddress => some (.oct .ipAddress)
  | "toObjectID", .oct _ => some (.oct .octetString)
  | "toObjectID", .oid => some .oid
  | "toObjectID", _ => some .asn1Object
  | _, _ => none

/-- The methods above. -/
def methods : List String :=
  ["encode", "decode", "encodeContents", "decodeContents", "__eq__", "__ne__", "__add__", "__sub__", "__hash__", "__init__",
   "__str__", "append", "toObjectID"]

/-- The classes that a class statement in `m` creates, by name. -/
def ownClasses (m : Module) : List (String × Cls) := (allCls.filter fun c => (pyName c).1 == m).map fun c => ((pyName c).2, c)

/-- The classes that a module has under a name: its own come before those it takes over by `from ... import *`. -/
def visible : Module → List (String × Cls)
  | .rfc1155 => ownClasses .rfc1155
  | .rfc1157 => ownClasses .rfc1157 ++ ownClasses .rfc1155
  | .rfc1902 => ownClasses .rfc1902 ++ ownClasses .rfc1155
  | .rfc1905 => ownClasses .rfc1905 ++ ownClasses .rfc1902 ++ ownClasses .rfc1155
  | .v1 => ownClasses .rfc1157 ++ ownClasses .rfc1155
  | _ => []

/-- The uses `module.name` in function bodies that find no such name: the line, the module, the name. -/
def missingNames : Module → List (Nat × String × String)
  | .v2 => [(119, "rfc1157", "GetNextRequestPDU")]
  | .snmpmanager => [(166, "v1", "createTrapMessage"), (168, "v2", "createTrapMessage"), (309, "rfc1905", "TrapPDU")]
  | _ => []

/-- The attributes that methods assign to `self`, by class. -/
def assigned : Obj → List String
  | .cls m line => (((selfUses m).lookup line).map (·.2)).getD []
  | _ => []

/-- What the classes outside the package provide that classes of the package derive from. -/
def provided : Obj → List String
  | .extAttr "asyncore" "dispatcher" => dispatcherAttrs
  | .extAttr "logging" "Logger" => ["addHandler"]
  | _ => []

/-- The attribute `n` of an object of class `o` is there: from the class or a base class, assigned to `self` by some method
of one of these classes, from the class outside the package that they derive from, or from `object`. -/
inductive HasSelf (p : Process) (o : Obj) (n : String) : Prop
  | attr {v} : HasAttr p o n v → HasSelf p o n
  | assigned {o'} : IsSubclass p o o' → n ∈ assigned o' → HasSelf p o n
  | provided {o'} : IsSubclass p o o' → n ∈ provided o' → HasSelf p o n
  | object : n = "__class__" → HasSelf p o n

/-- The uses `self.name` that find no such attribute: the class, the first line, the name. -/
def missingSelf : Module → List (Nat × Nat × String)
  | .v1 => [(19, 93, "getsockname")]
  | .v2 => [(24, 56, "createGetNextRequest"), (24, 71, "getsockname")]
  | .snmpmanager => [(37, 176, "getsockname")]
  | _ => []

end Spec.Py
