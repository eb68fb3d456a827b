import Verif.Spec.Source
import Verif.Model.Graph

/-!
# A graph of objects in the heap

How the memory of `Model/Graph.lean`, where objects and lists have addresses and everything may share everything, lies in the heap of
the interpreter.
-/

namespace Libsnmp

/-- The attribute, as the source text spells it. -/
def Attr.name : Attr → String
  | .requestID => "requestID" | .errorStatus => "errorStatus" | .errorIndex => "errorIndex" | .varBindList => "varBindList"
  | .nonRepeaters => "nonRepeaters" | .maxRepetitions => "maxRepetitions" | .objectID => "objectID" | .objectValue => "objectValue"
  | .version => "version" | .community => "community" | .data => "data" | .enterprise => "enterprise" | .agentAddr => "agentAddr"
  | .genericTrap => "genericTrap" | .specificTrap => "specificTrap" | .timestamp => "timestamp"

end Libsnmp

namespace Libsnmp.Src
open Libsnmp

/-- Where the objects and the lists of the graph are. -/
structure Layout where
  objs : List Nat
  lists : List Nat

/-- The value of the interpreter that stands for a value of the graph. -/
def RefAt (φ : Layout) : Ref → V → Prop
  | .none, x => x = .none
  | .int n, x => x = .int n
  | .str s, x => x = .str s
  | .bytes _, _ => False
  | .obj a, x => ∃ p, φ.objs[a]? = some p ∧ x = .ref p
  | .list a, x => ∃ p, φ.lists[a]? = some p ∧ x = .ref p

/-- The attribute `value`. -/
def SlotAt (U : Nat → Prop) (φ : Layout) (h : Heap) (attrs : List (String × V)) : Cls → Slot → Prop
  | .int _, .num n => attrs.lookup "value" = some (.int n)
  | .oct _, .text s => attrs.lookup "value" = some (.str s)
  | .oid, .ids none => attrs.lookup "value" = some .none
  | .oid, .ids (some l) => ∃ b, attrs.lookup "value" = some (.ref b) ∧ ¬ U b ∧ b ∉ φ.lists ∧ h[b]? = some (.list (l.map V.int))
  | .null _, .nothing => True
  | .seq _, .items l => ∃ b, φ.lists[l]? = some b ∧ attrs.lookup "value" = some (.ref b)
  | _, _ => False

/-- An object of the graph. -/
structure NodeAt (U : Nat → Prop) (φ : Layout) (h : Heap) (o : Node) (p : Nat) (attrs : List (String × V)) : Prop where
  cell : h[p]? = some (.inst (cid o.cls) attrs)
  plain : Plain attrs
  value : SlotAt U φ h attrs o.cls o.value
  has : ∀ f r, o.attrs f = some r → ∃ x, attrs.lookup f.name = some x ∧ RefAt φ r x
  lacks : ∀ f, o.attrs f = none → attrs.lookup f.name = none
  message : o.cls.isSubclass (.seq .message) = true →
    (∃ v, o.attrs .version = some v) ∧ (∃ c, o.attrs .community = some c) ∧ ∃ d, o.attrs .data = some d
  component : o.cls.isSubclass (.seq .varBindList) = true → attrs.lookup "componentType" = some (.cls (cid (.seq .varBind)))

/-- The graph lies in the heap, and uses none of the cells `U`. -/
structure Lays (U : Nat → Prop) (φ : Layout) (m : Mem) (h : Heap) : Prop where
  objs : φ.objs.length = m.objs.length
  lists : φ.lists.length = m.lists.length
  apart : φ.objs.Nodup
  apart' : φ.lists.Nodup
  free : ∀ p ∈ φ.objs, ¬ U p
  free' : ∀ b ∈ φ.lists, ¬ U b
  node : ∀ (a : Nat) (o : Node) (p : Nat), m.objs[a]? = some o → φ.objs[a]? = some p → ∃ attrs, NodeAt U φ h o p attrs
  list : ∀ (l : Nat) (rs : List Ref) (b : Nat), m.lists[l]? = some rs → φ.lists[l]? = some b → ∃ xs, h[b]? = some (.list xs) ∧ List.Forall₂ (RefAt φ) rs xs

/-- The cell is no message. -/
def Apart (c : Cell) : Prop := ∀ attrs, c ≠ .inst (cid (.seq .message)) attrs ∧ c ≠ .inst (cid (.seq .message2)) attrs

/-- Later: the objects are where they were, there may be more lists, and only messages of the graph have changed. -/
structure Later (φ φ' : Layout) (h h' : Heap) : Prop where
  objs : φ'.objs = φ.objs
  lists : ∃ t, φ'.lists = φ.lists ++ t
  len : h.length ≤ h'.length
  same : ∀ (q : Nat) (c : Cell), h[q]? = some c → Apart c ∨ q ∉ φ.objs → h'[q]? = some c

mutual
/-- No string of octets that `encode` joins on its way is longer than 10^640. -/
def Modest : Nat → Mem → Ref → Prop
  | depth + 1, m, .obj a =>
    match m.objs[a]? with
    | none => True
    | some o => match o.cls, o.value with
      | .int _, .num n => (intEncode n).length < 10 ^ 640
      | .oct _, .text s => s.length < 10 ^ 640
      | .oid, .ids v => ∀ s, oidEncode v = .ok s → s.length < 10 ^ 640
      | .seq c, v =>
        if (Cls.seq c).isSubclass (.seq .message) then
          match m.loadMessage a o with
          | (m1, .ok l) => ModestRefs depth m1 l ∧ ∀ s, (encodeRefs (gEncode depth) m1 l).2 = .ok s → s.length < 10 ^ 640
          | (_, .error _) => True
        else match v with
          | .items l => ModestRefs depth m (m.lists.getD l []) ∧
            ∀ s, (encodeRefs (gEncode depth) m (m.lists.getD l [])).2 = .ok s → s.length < 10 ^ 640
          | _ => True
      | _, _ => True
  | _, _, _ => True
  termination_by d _ _ => (d, 0)
def ModestRefs : Nat → Mem → List Ref → Prop
  | _, _, [] => True
  | d, m, r :: rs => Modest d m r ∧ ModestRefs d (gEncode d m r).1 rs
  termination_by d _ rs => (d, rs.length + 1)
end

end Libsnmp.Src
