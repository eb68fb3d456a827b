import Verif.Spec.Asn
import Verif.Model.Obj

/-!
# How library objects stand for SNMP values
-/

namespace Spec
open Libsnmp

/-- Classes whose objects stand for an ASN.1 INTEGER. -/
def signedClasses : List IntCls := [.integer, .integer32, .errorStatus, .errorStatus2, .genericTrap]

/-- Classes whose objects stand for an unsigned type.  (Counter64 is missing: it is emitted with a wrong identifier,
see C05.) -/
def unsignedClasses : UKind → List IntCls
  | .counter => [.counter, .counter32]
  | .gauge => [.guage, .guage32]
  | .timeTicks => [.timeTicks]
  | .counter64 => []

/-- Classes whose objects stand for a string type.  (Opaque is missing, see C05.) -/
def stringClasses : SKind → List OctCls
  | .octetString => [.octetString, .octetString2]
  | .ipAddress => [.ipAddress, .networkAddress]
  | .opaque => []

/-- Classes whose objects stand for a SEQUENCE. -/
def sequenceClasses : List SeqCls := [.sequence, .sequenceOf, .varBind, .varBindList, .varBind2, .varBindList2]

mutual
/-- The object `x` is a well-formed library object standing for the abstract value `a`: a tree of Integers (any class
in `signedClasses`, value outside the failing bands of C08), unsigned types, strings, Null, ObjectIDs that are valid
object identifiers, and sequences, to any depth. -/
inductive Represents : Val → Asn → Prop
  | integer (c : IntCls) (v : Int) (hc : c ∈ signedClasses) (hv : OutOfBand v) :
      Represents (.integer c v) (.integer v)
  | unsigned (k : UKind) (c : IntCls) (n : Nat) (hc : c ∈ unsignedClasses k) :
      Represents (.integer c (n : Int)) (.unsigned k n)
  | string (k : SKind) (c : OctCls) (s : List Nat) (hc : c ∈ stringClasses k) :
      Represents (.octets c s) (.string k s)
  | null : Represents (.null .null) (.null .null)
  | oid (a b : Nat) (rest : List Nat) (ha : a ≤ 2) (hb : a < 2 → b < 40) :
      Represents (.oid (some (ints (a :: b :: rest)))) (.oid (a :: b :: rest))
  | seq (c : SeqCls) (xs : List Val) (as : List Asn) (hc : c ∈ sequenceClasses) (h : RepresentsList xs as) :
      Represents (.seq c xs) (.seq as)
/-- Element by element. -/
inductive RepresentsList : List Val → List Asn → Prop
  | nil : RepresentsList [] []
  | cons {x a xs as} : Represents x a → RepresentsList xs as → RepresentsList (x :: xs) (a :: as)
end

mutual
/-- What the library returns for the abstract value `a` when its tag registry is `reg`: the class is the one the
registry assigns to the identifier octet.  Object identifiers are restricted to a second arc below 40 (see C11). -/
inductive Denotes (reg : Reg) : Asn → Val → Prop
  | integer (v : Int) (c : IntCls) (h : reg 0x02 = some (.int c)) (hc : c ∈ signedClasses) :
      Denotes reg (.integer v) (.integer c v)
  | unsigned (k : UKind) (n : Nat) (c : IntCls) (h : reg k.tag = some (.int c)) :
      Denotes reg (.unsigned k n) (.integer c (n : Int))
  | string (k : SKind) (s : List Nat) (c : OctCls) (h : reg k.tag = some (.oct c)) :
      Denotes reg (.string k s) (.octets c s)
  | null (k : NKind) (c : NullCls) (h : reg k.tag = some (.null c)) : Denotes reg (.null k) (.null c)
  | oid (a b : Nat) (rest : List Nat) (h : reg 0x06 = some .oid) (hb : b < 40) :
      Denotes reg (.oid (a :: b :: rest)) (.oid (some (ints (a :: b :: rest))))
  | seq (as : List Asn) (ys : List Val) (h : reg 0x30 = some (.seq .sequence)) (hl : DenotesList reg as ys) :
      Denotes reg (.seq as) (.seq .sequence ys)
/-- Element by element. -/
inductive DenotesList (reg : Reg) : List Asn → List Val → Prop
  | nil : DenotesList reg [] []
  | cons {a y as ys} : Denotes reg a y → DenotesList reg as ys → DenotesList reg (a :: as) (y :: ys)
end

mutual
/-- Every object identifier in the value has a second arc below 40 (always true under the arcs 0 and 1). -/
def SmallArcs : Asn → Prop
  | .oid ids => ∀ b, ids[1]? = some b → b < 40
  | .seq items => SmallArcsList items
  | _ => True
def SmallArcsList : List Asn → Prop
  | [] => True
  | a :: as => SmallArcs a ∧ SmallArcsList as
end

/-- The registry knows the types of RFC 1155, each under its own identifier octet. -/
structure Understands1155 (reg : Reg) : Prop where
  integer : ∃ c, reg 0x02 = some (.int c) ∧ c ∈ signedClasses
  counter : ∃ c, reg 0x41 = some (.int c) ∧ c ∈ unsignedClasses .counter
  gauge : ∃ c, reg 0x42 = some (.int c) ∧ c ∈ unsignedClasses .gauge
  timeTicks : ∃ c, reg 0x43 = some (.int c) ∧ c ∈ unsignedClasses .timeTicks
  octetString : ∃ c, reg 0x04 = some (.oct c) ∧ c ∈ stringClasses .octetString
  ipAddress : ∃ c, reg 0x40 = some (.oct c) ∧ c ∈ stringClasses .ipAddress
  null : reg 0x05 = some (.null .null)
  oid : reg 0x06 = some .oid
  sequence : reg 0x30 = some (.seq .sequence)

/-- A complete element: identifier field, length field, and exactly the announced number of contents octets. -/
inductive Element : List Nat → Prop
  | mk {tag : Nat} {idf f : List Nat} (c : List Nat) : IdentifierField tag idf → LengthField c.length f →
      Element (idf ++ f ++ c)

/-- A concatenation of complete elements. -/
inductive Elements : List Nat → Prop
  | nil : Elements []
  | cons {s t : List Nat} : Element s → Elements t → Elements (s ++ t)

/-- Variable bindings `(name, value)`: `xs` as the sender builds them (VarBind objects holding an ObjectID and any
well-formed value), `ys` as a receiver with registry `reg` gets them, holding the same names and values.  `cb` is the
VarBind class the receiver uses. -/
inductive Bindings (reg : Reg) (cb : SeqCls) : List Val → List Val → Prop
  | nil : Bindings reg cb [] []
  | cons {ids : List Nat} {name value value' : Val} {a : Asn} {c : SeqCls} {xs ys : List Val}
      (hc : c = .varBind ∨ c = .varBind2)
      (hn : Represents name (.oid ids)) (hn' : Denotes reg (.oid ids) name)
      (hv : Represents value a) (hv' : Denotes reg a value') (h : Bindings reg cb xs ys) :
      Bindings reg cb (.seq c [name, value] :: xs) (.seq cb [name, value'] :: ys)

/-- `y` is a PDU object of class `c` with these three integers and these variable bindings, in these places. -/
def PduFields (y : Val) (c : SeqCls) (r e i : Int) (vbs : List Val) : Prop :=
  ∃ (c1 c2 c3 : IntCls) (cl : SeqCls), (cl = .varBindList ∨ cl = .varBindList2) ∧
    y = .seq c [.integer c1 r, .integer c2 e, .integer c3 i, .seq cl vbs]

/-- `y` is a component of `x`, at any depth (or `x` itself). -/
inductive Component : Val → Val → Prop
  | refl (x : Val) : Component x x
  | step {x y : Val} {c : SeqCls} {items : List Val} : x ∈ items → Component x y → Component (.seq c items) y

/-- The PDU classes other than the SNMPv1 trap. -/
def pduClasses : List SeqCls :=
  [.pdu, .get, .getNext, .response, .set, .pdu2, .get2, .getNext2, .response2, .set2, .inform, .trapV2, .report,
    .bulkPDU, .getBulk]

/-- `y` is inside `x`, reached through sequences that are neither PDUs nor traps. -/
inductive Inside : Val → Val → Prop
  | refl (x : Val) : Inside x x
  | step {x y : Val} {c : SeqCls} {items : List Val} : c ∉ pduClasses → c ≠ .trapPDU → x ∈ items → Inside x y →
      Inside (.seq c items) y

/-- A variable binding: a pair of a name and a value.  The name is an ObjectID unless it is an empty or zero object. -/
def IsBinding (x : Val) : Prop :=
  ∃ (cb : SeqCls) (name value : Val), (cb = .varBind ∨ cb = .varBind2) ∧ x = .seq cb [name, value] ∧
    (name.truthy = true → ∃ ids, name = .oid ids)

/-- `p` is a well-formed PDU of class `c`: three integers in 32-bit range (the upper bound of an SNMPv2 request ID is
2^31) and a list of variable bindings. -/
def WellFormedPdu (c : SeqCls) (p : Val) : Prop :=
  ∃ r e i vbs, PduFields p c r e i vbs ∧
    -2147483648 ≤ r ∧ r ≤ 2147483648 ∧ -2147483648 ≤ e ∧ e ≤ 2147483647 ∧ -2147483648 ≤ i ∧ i ≤ 2147483647 ∧
    ∀ vb ∈ vbs, IsBinding vb

/-- `p` is a well-formed SNMPv1 trap: six components, the third a GenericTrap, the last a list of bindings. -/
def WellFormedTrap (p : Val) : Prop :=
  ∃ ent addr gt spec ts vbs, p = .seq .trapPDU [ent, addr, .integer .genericTrap gt, spec, ts, .seq .varBindList vbs] ∧
    -2147483648 ≤ gt ∧ gt ≤ 2147483647 ∧ ∀ vb ∈ vbs, IsBinding vb

mutual
/-- Every string inside the object consists of octets. -/
def StringsOctets : Val → Prop
  | .str s => Octets s
  | .octets _ s => Octets s
  | .seq _ items => StringsOctetsList items
  | _ => True
def StringsOctetsList : List Val → Prop
  | [] => True
  | x :: xs => StringsOctets x ∧ StringsOctetsList xs
end

end Spec
