import Verif.Spec.Represents

/-!
# The language `decode` accepts, and what it makes of it

A declarative grammar, written from the intended reading of the stream: identifier field, length field, contents.  It is
more generous than BER in the places marked (*).
-/

namespace Spec
open Libsnmp

/-- A length field as the library reads it: short form, or `128 + k` followed by `k` octets.  (*) `k = 0` is accepted and
means 0. -/
inductive LengthRead : Nat → List Nat → Prop
  | short (n : Nat) (h : n < 128) : LengthRead n [n]
  | long (ds : List Nat) (h : ds.length < 128) : LengthRead (unsigned ds) ((128 + ds.length) :: ds)

/-- What the announced length `n` cuts off: `n` octets, or (*) all there is if there is less. -/
def Cut (n : Nat) (contents rest : List Nat) : Prop :=
  contents.length = n ∨ (contents.length < n ∧ rest = [])

/-- The counter classes. -/
def counterClasses : List IntCls := [.counter, .counter32, .counter64]

/-- What one component of a received variable-binding list is turned into: (*) of a sequence, the first two components
are taken, the others ignored; the name is an ObjectID or (*) an empty sequence.  (*) Instead of a sequence there may be
an ObjectID that starts `0.0`. -/
inductive BindingOf (cb : SeqCls) : Val → Val → Prop
  | pair (c : SeqCls) (ids : Option (List Int)) (value : Val) (ignored : List Val) :
      BindingOf cb (.seq c (.oid ids :: value :: ignored)) (.seq cb [.oid ids, value])
  | emptyName (c c' : SeqCls) (value : Val) (ignored : List Val) :
      BindingOf cb (.seq c (.seq c' [] :: value :: ignored)) (.seq cb [.seq c' [], value])
  | zeroArcs (ignored : List Int) : BindingOf cb (.oid (some (0 :: 0 :: ignored))) (.seq cb [.int 0, .int 0])

/-- Signed 32-bit range. -/
def Int32 (v : Int) : Prop := -2147483648 ≤ v ∧ v ≤ 2147483647

/-- The range of an SNMPv2 request ID in this library. -/
def Request2 (v : Int) : Prop := -2147483648 ≤ v ∧ v ≤ 2147483648

/-- PDU classes by the constructor they inherit. -/
def v1Pdus : List SeqCls := [.pdu, .get, .getNext, .response, .set]
def v2Pdus : List SeqCls := [.pdu2, .get2, .getNext2, .response2, .set2, .inform, .trapV2, .report]
def bulkPdus : List SeqCls := [.bulkPDU, .getBulk]

/-- What a PDU of class `c` with these decoded components becomes.  (*) The three integers may be of any integer class,
the bindings in any kind of sequence. -/
inductive PduOf : SeqCls → List Val → Val → Prop
  | v1 (c cl : SeqCls) (k0 k1 k2 : IntCls) (r e i : Int) (items vbs : List Val) (hc : c ∈ v1Pdus)
      (hr : Int32 r) (he : Int32 e) (hi : Int32 i) (hb : List.Forall₂ (BindingOf .varBind) items vbs) :
      PduOf c [.integer k0 r, .integer k1 e, .integer k2 i, .seq cl items]
        (.seq c [.integer .integer r, .integer .errorStatus e, .integer .integer i, .seq .varBindList vbs])
  | v2 (c cl : SeqCls) (k0 k1 k2 : IntCls) (r e i : Int) (items vbs : List Val) (hc : c ∈ v2Pdus)
      (hr : Request2 r) (he : Int32 e) (hi : Int32 i) (hb : List.Forall₂ (BindingOf .varBind) items vbs)
      (hl : vbs.length ≤ 2147483647) :
      PduOf c [.integer k0 r, .integer k1 e, .integer k2 i, .seq cl items]
        (.seq c [.integer .integer32 r, .integer .errorStatus2 e, .integer .integer i, .seq .varBindList2 vbs])
  | bulk (c cl : SeqCls) (k0 k1 k2 : IntCls) (r n m : Int) (items vbs : List Val) (hc : c ∈ bulkPdus)
      (hr : Request2 r) (hn : Int32 n) (hm : Int32 m) (hb : List.Forall₂ (BindingOf .varBind2) items vbs)
      (hl : vbs.length ≤ 2147483647) :
      PduOf c [.integer k0 r, .integer k1 n, .integer k2 m, .seq cl items]
        (.seq c [.integer .integer32 r, .integer .integer n, .integer .integer m, .seq .varBindList2 vbs])
  | trap (cl : SeqCls) (k : IntCls) (g : Int) (ent addr spec ts : Val) (items vbs : List Val)
      (hg : Int32 g) (hb : List.Forall₂ (BindingOf .varBind) items vbs) :
      PduOf .trapPDU [ent, addr, .integer k g, spec, ts, .seq cl items]
        (.seq .trapPDU [ent, addr, .integer .genericTrap g, spec, ts, .seq .varBindList vbs])

mutual
/-- `Parses reg s objs`: the stream `s` is a concatenation of elements that stand for the objects `objs`. -/
inductive Parses (reg : Reg) : List Nat → List Val → Prop
  | nil : Parses reg [] []
  | cons {tag n : Nat} {idf lf contents rest : List Nat} {cls : Cls} {v : Val} {vs : List Val}
      (hi : IdentifierField tag idf) (hl : LengthRead n lf) (hc : Cut n contents rest) (hr : reg tag = some cls)
      (hv : Contents reg cls contents v) (hs : Parses reg rest vs) :
      Parses reg (idf ++ lf ++ contents ++ rest) (v :: vs)
/-- `Contents reg cls s v`: the contents octets `s` of an element of class `cls` stand for the object `v`. -/
inductive Contents (reg : Reg) : Cls → List Nat → Val → Prop
  | integer (c : IntCls) (s : List Nat) (hc : c ∉ counterClasses) (hne : s ≠ []) :
      Contents reg (.int c) s (.integer c (twos s))
  | counter (c : IntCls) (s : List Nat) (hc : c ∈ counterClasses) (hne : s ≠ []) :
      Contents reg (.int c) s (.integer c (if twos s < 0 then twos s + 2 ^ 32 else twos s))
  | string (c : OctCls) (s : List Nat) : Contents reg (.oct c) s (.octets c s)
  | null (c : NullCls) : Contents reg (.null c) [] (.null c)
  | oid (b : Nat) (t ns : List Nat) (hb : b < 128) (ht : Base128List ns t) :
      Contents reg .oid (b :: t) (.oid (some (ints (b / 40 :: b % 40 :: ns))))
  | sequence (c : SeqCls) (s : List Nat) (items : List Val) (hc : c ∈ sequenceClasses) (h : Parses reg s items) :
      Contents reg (.seq c) s (.seq c items)
  | pdu (c : SeqCls) (s : List Nat) (items : List Val) (v : Val) (h : Parses reg s items) (hp : PduOf c items v) :
      Contents reg (.seq c) s v
end

end Spec
