import Verif.Model.Manager

/-!
# Objects as a graph

In `Model/Obj.lean` an SNMP object is a value: its fields and its `value` list cannot differ, and nobody can change an
object behind another object's back.  Here objects have identity.  An object has a class, a `value` attribute and its
other attributes (`requestID`, `objectID`, `data`, ...), which are references; Python lists have identity too.  A program
names objects by variables, and can read, assign and change in place whatever its variables lead to.

Simplifications: an Integer's `value` is only ever assigned an int, an OctetString's a `str`, an ObjectID's a list of
its own (C38), a Sequence's a list; the list inside an IPAddress is not shared; `self.outbound` and `self.callbacks` are
not touched by the program; garbage (the four objects that rfc1905.py:106 builds and drops) is not allocated.
-/

namespace Libsnmp

/-- A Python value held in a variable, an attribute or a list. -/
inductive Ref where
  | none
  | int (n : Int)
  | str (s : Str)
  | bytes (b : Str)
  | obj (a : Nat)     -- the SNMP object at address `a`
  | list (a : Nat)    -- the list at address `a`
deriving DecidableEq

/-- The attributes other than `value`: rfc1157.py:71-72 (VarBind), 93-95 (Message), 146-149 (PDU), 237-242 (TrapPDU),
rfc1905.py:152-155 (BulkPDU). -/
inductive Attr where
  | requestID | errorStatus | errorIndex | varBindList | nonRepeaters | maxRepetitions
  | objectID | objectValue
  | version | community | data
  | enterprise | agentAddr | genericTrap | specificTrap | timestamp
deriving DecidableEq

/-- The attribute `value`. -/
inductive Slot where
  | num (n : Int)                   -- Integer classes
  | text (s : Str)                  -- OctetString classes
  | addr (v : Raw)                  -- an IPAddress built from a list, an OctetString from something else than a str
  | ids (l : Option (List Int))     -- ObjectID
  | nothing                         -- Null classes
  | items (l : Nat)                 -- Sequence classes: the address of the list
deriving DecidableEq

/-- An SNMP object. -/
structure Node where
  cls : Cls
  value : Slot
  attrs : Attr → Option Ref

/-- Memory: the objects and the lists created so far; an address is an index. -/
structure Mem where
  objs : List Node := []
  lists : List (List Ref) := []

/-- The attributes a constructor sets, given the components in order.  The class decides through the MRO:
rfc1157.py:71-72, 93-95, 146-149 (rfc1905.py:111-114), 237-242, rfc1905.py:152-155. -/
def attrsOf (c : SeqCls) (l : List Ref) : Attr → Option Ref := fun f =>
  if (Cls.seq c).isSubclass (.seq .varBind) then
    match f with
    | .objectID => l[0]? | .objectValue => l[1]? | _ => Option.none
  else if (Cls.seq c).isSubclass (.seq .message) then
    match f with
    | .version => l[0]? | .community => l[1]? | .data => l[2]? | _ => Option.none
  else if (Cls.seq c).isSubclass (.seq .pdu) then
    match f with
    | .requestID => l[0]? | .errorStatus => l[1]? | .errorIndex => l[2]? | .varBindList => l[3]? | _ => Option.none
  else if (Cls.seq c).isSubclass (.seq .bulkPDU) then
    match f with
    | .requestID => l[0]? | .nonRepeaters => l[1]? | .maxRepetitions => l[2]? | .varBindList => l[3]?
    | _ => Option.none
  else if (Cls.seq c).isSubclass (.seq .trapPDU) then
    match f with
    | .enterprise => l[0]? | .agentAddr => l[1]? | .genericTrap => l[2]? | .specificTrap => l[3]?
    | .timestamp => l[4]? | .varBindList => l[5]? | _ => Option.none
  else Option.none

/-! ## Memory operations -/

/-- A new object. -/
def Mem.newNode (m : Mem) (o : Node) : Mem × Ref :=
  ({ m with objs := m.objs ++ [o] }, .obj m.objs.length)

/-- A new list. -/
def Mem.newList (m : Mem) (l : List Ref) : Mem × Nat :=
  ({ m with lists := m.lists ++ [l] }, m.lists.length)

/-- A new object of a primitive class. -/
def Mem.newPrim (m : Mem) (c : Cls) (v : Slot) : Mem × Ref := m.newNode ⟨c, v, fun _ => Option.none⟩

/-- A new Sequence object holding a new list of the components `l`, each also an attribute as its class says. -/
def Mem.newSeq (m : Mem) (c : SeqCls) (l : List Ref) : Mem × Ref :=
  let (m1, a) := m.newList l
  m1.newNode ⟨.seq c, .items a, attrsOf c l⟩

/-- Change the object at `a`. -/
def Mem.update (m : Mem) (a : Nat) (f : Node → Node) : Mem := { m with objs := m.objs.modify a f }

/-- `obj.f = x`, for an attribute other than `value`. -/
def Mem.setAttr (m : Mem) (a : Nat) (f : Attr) (x : Ref) : Mem :=
  m.update a fun o => { o with attrs := fun g => if g = f then some x else o.attrs g }

/-- `obj.value = x`. -/
def Mem.setValue (m : Mem) (a : Nat) (v : Slot) : Mem := m.update a fun o => { o with value := v }

/-- Change the list at `a` in place. -/
def Mem.setList (m : Mem) (a : Nat) (l : List Ref) : Mem := { m with lists := m.lists.set a l }

/-- `obj.f`. -/
def Mem.attr (m : Mem) (a : Nat) (f : Attr) : Option Ref :=
  match m.objs[a]? with
  | Option.none => Option.none
  | some o => o.attrs f

/-- `isinstance(r, d)`. -/
def Mem.isInstance (m : Mem) (r : Ref) (d : Cls) : Bool :=
  match r with
  | .obj a => match m.objs[a]? with
    | some o => o.cls.isSubclass d
    | Option.none => false
  | _ => false

/-- The elements of a list or of a Sequence object's list (rfc1155.py:815-819: `len()`, `[i]` and iteration go to the
list). -/
def Mem.items (m : Mem) (r : Ref) : Option (List Ref) :=
  match r with
  | .list l => m.lists[l]?
  | .obj a => match m.objs[a]? with
    | some o => match o.value with
      | .items l => m.lists[l]?
      | _ => Option.none
    | Option.none => Option.none
  | _ => Option.none

/-- `bool(r)`. -/
def Mem.truthy (m : Mem) (r : Ref) : Bool :=
  match r with
  | .none => false
  | .int n => n ≠ 0
  | .str s => s ≠ []
  | .bytes s => s ≠ []
  | .list l => (m.lists.getD l []) ≠ []
  | .obj a => match m.objs[a]? with
    | some o => match o.value with
      | .items l => (m.lists.getD l []) ≠ []
      | .ids l => (l.getD []) ≠ []
      | _ => true
    | Option.none => false

/-! ## Encoding -/

/-- The encoder of a list's elements, in order, stopping at the first exception (rfc1155.py:827-840). -/
def encodeRefs (enc : Mem → Ref → Mem × Except Exc Str) : Mem → List Ref → Mem × Except Exc Str
  | m, [] => (m, .ok [])
  | m, r :: rs => match enc m r with
    | (m1, .error e) => (m1, .error e)
    | (m1, .ok s) => match encodeRefs enc m1 rs with
      | (m2, .error e) => (m2, .error e)
      | (m2, .ok t) => (m2, .ok (s ++ t))

/-- rfc1155.py:82-95 after the contents are known. -/
def finishTlv (c : Cls) : Mem × Except Exc Str → Mem × Except Exc Str
  | (m, .error e) => (m, .error e)
  | (m, .ok contents) => (m, tlv c contents)

/-- rfc1157.py:103-107: `self.value = []` and the three `append`s (AttributeError if an attribute is missing). -/
def Mem.loadMessage (m : Mem) (a : Nat) (o : Node) : Mem × Except Exc (List Ref) :=
  match o.attrs .version, o.attrs .community, o.attrs .data with
  | some v, some c, some d =>
    let (m1, l) := m.newList [v, c, d]
    (m1.setValue a (.items l), .ok [v, c, d])
  | _, _, _ => (m, .error .attributeError)

/-- `r.encode()` as Sequence.encodeContents calls it (rfc1155.py:835: a `str` element stands for itself) with at most
`depth` nested objects before Python's recursion limit strikes.  rfc1155.py:82-95 `encode` with the `encodeContents` of
the class: 360 (Integer), 527 (OctetString), 663 (ObjectID), 772 (Null), 827 (Sequence), rfc1157.py:103-108 (Message).
Neither None nor an int, `bytes` or a list has a suitable `encode`.  Only a Message reads its other attributes, and only
a Message changes anything: its own `value`. -/
def gEncode : Nat → Mem → Ref → Mem × Except Exc Str
  | _, m, .none => (m, .error .attributeError)
  | _, m, .int _ => (m, .error .attributeError)
  | _, m, .bytes _ => (m, .error .attributeError)
  | _, m, .list _ => (m, .error .attributeError)
  | _, m, .str s => (m, .ok s)
  | 0, m, .obj _ => (m, .error .recursionError)
  | depth + 1, m, .obj a =>
    match m.objs[a]? with
    | Option.none => (m, .error .attributeError)
    | some o =>
      match o.cls with
      | .int c => match o.value with
        | .num v => (m, tlv (.int c) (intEncode v))
        | _ => (m, .error .typeError)
      | .oct c => match o.value with
        | .text s => (m, tlv (.oct c) s)
        | _ => (m, .error .typeError)
      | .oid => match o.value with
        | .ids v => match oidEncode v with
          | .error e => (m, .error e)
          | .ok contents => (m, tlv .oid contents)
        | _ => (m, .error .typeError)
      | .null c => (m, tlv (.null c) [])
      | .asn1Object => (m, .error .notImplementedError)
      | .seq c =>
        if (Cls.seq c).isSubclass (.seq .message) then
          match m.loadMessage a o with
          | (m1, .error e) => (m1, .error e)
          | (m1, .ok l) => finishTlv (.seq c) (encodeRefs (gEncode depth) m1 l)
        else match o.value with
          | .items l => finishTlv (.seq c) (encodeRefs (gEncode depth) m (m.lists.getD l []))
          | _ => (m, .error .typeError)

/-! ## Constructors -/

/-- `Integer(n)` for any Integer class (rfc1155.py:297-305). -/
def Mem.mkInteger (m : Mem) (c : IntCls) (n : Int) : Mem × Except Exc Ref :=
  if c.minVal ≤ n ∧ n ≤ c.maxVal then
    let (m1, r) := m.newPrim (.int c) (.num n)
    (m1, .ok r)
  else (m, .error .valueError)

/-- rfc1157.py:63-73 `VarBind.__init__`. -/
def Mem.mkVarBind (m : Mem) (c : SeqCls) (name value : Ref) : Mem × Except Exc Ref :=
  if m.truthy name && !m.isInstance name .oid then (m, .error .valueError)
  else if m.truthy value && !m.isInstance value .asn1Object then (m, .error .valueError)
  else
    let (m1, r) := m.newSeq c [name, value]
    (m1, .ok r)

/-- What `VarBindList.__init__` raises on an argument that is neither a list nor a Sequence object, if anything.
rfc1155.py:872-874: what is false gives an empty list; the characters of a str, the octets of bytes and the numbers of an ObjectID
(rfc1155.py:604-619; none if it has no value) are no VarBinds, a ValueError (rfc1155.py:880-882); over the rest one cannot iterate.
rfc1905.py:53 takes the length first (`v2`). -/
def Mem.notBindings (m : Mem) (v2 : Bool) : Ref → Option Exc
  | .none => if v2 then some .typeError else Option.none
  | .int n => if v2 || n != 0 then some .typeError else Option.none
  | .str s | .bytes s => if s.isEmpty then Option.none else some .valueError
  | .list _ => some .typeError  -- no such list
  | .obj a => match (m.objs[a]?).map Node.value with
    | some (.ids ids) => if (ids.getD []).isEmpty then Option.none else some .valueError
    | _ => some .typeError

/-- rfc1157.py:80-82, rfc1905.py:52-55 `VarBindList.__init__`. -/
def Mem.mkVarBindList (m : Mem) (c : SeqCls) (value : Ref) : Mem × Except Exc Ref :=
  match m.items value with
  | Option.none => match m.notBindings ((Cls.seq c).isSubclass (.seq .varBindList2)) value with
    | some e => (m, .error e)
    | Option.none =>
      let (m1, r) := m.newSeq c []
      (m1, .ok r)
  | some l =>
    if (Cls.seq c).isSubclass (.seq .varBindList2) && decide (2147483647 < l.length) then (m, .error .valueError)
    else if l.all (m.isInstance · (.seq .varBind)) then
      let (m1, r) := m.newSeq c l
      (m1, .ok r)
    else (m, .error .valueError)

/-- The class of the first three components and of the variable-binding list of a PDU, by the MRO of its class:
rfc1905.py:111-114, 152-155, rfc1157.py:146-149. -/
def pduParts (c : SeqCls) : IntCls × IntCls × IntCls × SeqCls :=
  if (Cls.seq c).isSubclass (.seq .pdu2) then (.integer32, .errorStatus2, .integer, .varBindList2)
  else if (Cls.seq c).isSubclass (.seq .bulkPDU) then (.integer32, .integer, .integer, .varBindList2)
  else (.integer, .errorStatus, .integer, .varBindList)

/-- The PDU constructors: rfc1157.py:138-151, rfc1905.py:105-121, 144-162.  (The extra bounds of rfc1905.py:108-109,
147-150 coincide with that of `Integer`, so they need no step of their own here.)  Objects built before an exception
are garbage. -/
def Mem.mkPDU (m : Mem) (c : SeqCls) (a b d : Int) (vbs : Ref) : Mem × Except Exc Ref :=
  let (c1, c2, c3, cl) := pduParts c
  match m.mkInteger c1 a with
  | (_, .error e) => (m, .error e)
  | (m1, .ok r1) => match m1.mkInteger c2 b with
    | (_, .error e) => (m, .error e)
    | (m2, .ok r2) => match m2.mkInteger c3 d with
      | (_, .error e) => (m, .error e)
      | (m3, .ok r3) => match m3.mkVarBindList cl vbs with
        | (_, .error e) => (m, .error e)
        | (m4, .ok r4) =>
          let (m5, r) := m4.newSeq c [r1, r2, r3, r4]
          (m5, .ok r)

/-- rfc1157.py:233-250 `TrapPDU.__init__`. -/
def Mem.mkTrap (m : Mem) (e a g s t v : Ref) : Mem × Ref := m.newSeq .trapPDU [e, a, g, s, t, v]

/-- rfc1157.py:91-95 `Message.__init__`: `value` is a new empty list (rfc1155.py:798-800). -/
def Mem.mkMessage (m : Mem) (c : SeqCls) (version : Int) (community : Str) (data : Ref) : Mem × Except Exc Ref :=
  match m.mkInteger .integer version with
  | (_, .error e) => (m, .error e)
  | (m1, .ok v) =>
    let (m2, co) := m1.newPrim (.oct .octetString) (.text community)
    let (m3, l) := m2.newList []
    let (m4, r) := m3.newNode ⟨.seq c, .items l, attrsOf c [v, co, data]⟩
    (m4, .ok r)

mutual
/-- New objects for a decoded value: `decode()` builds every object it returns itself (rfc1155.py:173-177). -/
def Mem.alloc (m : Mem) : Val → Mem × Ref
  | .none => (m, .none)
  | .int n => (m, .int n)
  | .str s => (m, .str s)
  | .bytes b => (m, .bytes b)
  | .integer c n => m.newPrim (.int c) (.num n)
  | .octets c s => m.newPrim (.oct c) (.text s)
  | .raw c l => m.newPrim (.oct c) (.addr l)
  | .oid l => m.newPrim .oid (.ids l)
  | .null c => m.newPrim (.null c) .nothing
  | .seq c items =>
    let (m1, rs) := m.allocItems items
    m1.newSeq c rs
def Mem.allocItems (m : Mem) : List Val → Mem × List Ref
  | [] => (m, [])
  | v :: vs =>
    let (m1, r) := m.alloc v
    let (m2, rs) := m1.allocItems vs
    (m2, r :: rs)
end

/-- rfc1157.py:110-125 `Message().decode(stream)`: a new Message whose attributes are the decoded objects; `value`, set
by the constructor, stays an empty list. -/
def Mem.decodeMessage (m : Mem) (reg : Reg) (c : SeqCls) (stream : Str) : Mem × Except Exc Ref :=
  match msgDecode reg c (.str stream) with
  | .error e => (m, .error e)
  | .ok msg =>
    let (m1, v) := m.alloc msg.version
    let (m2, co) := m1.alloc msg.community
    let (m3, d) := m2.alloc msg.data
    let (m4, l) := m3.newList []
    let (m5, r) := m4.newNode ⟨.seq c, .items l, attrsOf c [v, co, d]⟩
    (m5, .ok r)

/-! ## Values seen through a reference -/

/-- The elements' values, if all can be formed. -/
def viewRefs (view : Ref → Option Val) : List Ref → Option (List Val)
  | [] => some []
  | r :: rs => match view r, viewRefs view rs with
    | some v, some vs => some (v :: vs)
    | _, _ => Option.none

/-- The value (in the sense of `Model/Obj.lean`) of the object graph below `r`, unfolded to `depth` levels, reading
the `value` attribute of every object (as `==`, `len()` and `[i]` do). -/
def Mem.byValue (m : Mem) : Nat → Ref → Option Val
  | _, .none => some .none
  | _, .int n => some (.int n)
  | _, .bytes b => some (.bytes b)
  | _, .list _ => Option.none
  | _, .str s => some (.str s)
  | 0, .obj _ => Option.none
  | depth + 1, .obj a =>
    match m.objs[a]? with
    | Option.none => Option.none
    | some o =>
      match o.cls, o.value with
      | .int c, .num v => some (.integer c v)
      | .oct c, .text s => some (.octets c s)
      | .oct c, .addr l => some (.raw c l)
      | .oid, .ids v => some (.oid v)
      | .null c, .nothing => some (.null c)
      | .seq c, .items l => (viewRefs (m.byValue depth) (m.lists.getD l [])).map (Val.seq c)
      | _, _ => Option.none

/-- The same, but of a Message the three fields are read (and not `value`), as `encode()` does. -/
def Mem.onWire (m : Mem) : Nat → Ref → Option Val
  | _, .none => some .none
  | _, .int n => some (.int n)
  | _, .bytes b => some (.bytes b)
  | _, .list _ => Option.none
  | _, .str s => some (.str s)
  | 0, .obj _ => Option.none
  | depth + 1, .obj a =>
    match m.objs[a]? with
    | Option.none => Option.none
    | some o =>
      match o.cls with
      | .int c => match o.value with
        | .num v => some (.integer c v)
        | _ => Option.none
      | .oct c => match o.value with
        | .text s => some (.octets c s)
        | .addr l => some (.raw c l)
        | _ => Option.none
      | .oid => match o.value with
        | .ids v => some (.oid v)
        | _ => Option.none
      | .null c => some (.null c)
      | .asn1Object => Option.none
      | .seq c =>
        if (Cls.seq c).isSubclass (.seq .message) then
          match o.attrs .version, o.attrs .community, o.attrs .data with
          | some v, some co, some d => (viewRefs (m.onWire depth) [v, co, d]).map (Val.seq c)
          | _, _, _ => Option.none
        else match o.value with
          | .items l => (viewRefs (m.onWire depth) (m.lists.getD l [])).map (Val.seq c)
          | _ => Option.none

/-- `r == s` (rfc1155.py:262-268, 332-340): both operands are compared through `value`, at every level. -/
def Mem.eq (m : Mem) (depth : Nat) (r s : Ref) : Except Exc Bool :=
  match m.byValue depth r, m.byValue depth s with
  | some v, some w => pyEq v w
  | _, _ => .error .recursionError

end Libsnmp
