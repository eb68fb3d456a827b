import Verif.Model.Cls

/-!
# Objects: `Asn1Object.encode` / `decode`, constructors of the rfc1155, rfc1157, rfc1902 and rfc1905 classes
-/

namespace Libsnmp

/-- What an OctetString holds that was made from something else than a `str`: rfc1155.py:519-522 `copy.copy(value)` takes
anything (and rfc1155.py:912-915 keeps the list an IPAddress is made from).  Simplification: of SNMP objects, only those that
hold no others. -/
inductive Raw where
  | none
  | int (n : Int)
  | bytes (b : Str)
  | list (l : List Int)
  | tuple (l : List Int)
  | integer (c : IntCls) (v : Int)
  | octets (c : OctCls) (v : Str)
  | oid (v : Option (List Int))
  | null (c : NullCls)
deriving DecidableEq, Repr

/-- A Python value as it occurs in this library.  Instances of the SNMP classes carry their class and the `value`
attribute.  Simplification: the fields of PDU, TrapPDU and VarBind (`requestID`, `objectID`, ...) are the
components of `value`, as set by the constructors; code that reassigns one of the two without the other is
not modelled here (see `Model/Graph.lean`, C68).  `Message` objects are modelled by `Msg` below. -/
inductive Val where
  | none
  | int (n : Int)
  | str (s : Str)
  | bytes (b : Str)
  | integer (c : IntCls) (v : Int)
  | octets (c : OctCls) (v : Str)
  | raw (c : OctCls) (v : Raw)             -- an OctetString (of any class) whose value is not a `str`
  | oid (v : Option (List Int))            -- `none`: ObjectID() with value None
  | null (c : NullCls)
  | seq (c : SeqCls) (items : List Val)
deriving Repr

/-- `type(v)` for SNMP objects. -/
def Val.cls? : Val → Option Cls
  | .integer c _ => some (.int c)
  | .octets c _ => some (.oct c)
  | .raw c _ => some (.oct c)
  | .oid _ => some .oid
  | .null c => some (.null c)
  | .seq c _ => some (.seq c)
  | _ => Option.none

/-- `isinstance(v, d)`. -/
def Val.isInstance (v : Val) (d : Cls) : Bool :=
  match v.cls? with
  | some c => c.isSubclass d
  | Option.none => false

/-- `bool(v)`: ObjectID and Sequence define `__len__` (rfc1155.py:604-612, 815-816), the other SNMP classes define
neither `__len__` nor `__bool__`. -/
def Val.truthy : Val → Bool
  | .none => false
  | .int n => n ≠ 0
  | .str s => s ≠ []
  | .bytes s => s ≠ []
  | .integer _ _ => true
  | .octets _ _ => true
  | .raw _ _ => true
  | .oid v => (v.getD []) ≠ []
  | .null _ => true
  | .seq _ items => !items.isEmpty

/-- `len(v)`. -/
def Val.len : Val → Except Exc Nat
  | .str s => .ok s.length
  | .bytes s => .ok s.length
  | .oid v => .ok (v.getD []).length
  | .seq _ items => .ok items.length
  | _ => .error .typeError

/-- `v[i]` for a non-negative int `i`: rfc1155.py:614-619 (ObjectID), 818-819 (Sequence). -/
def Val.getItem (v : Val) (i : Nat) : Except Exc Val :=
  match v with
  | .seq _ items => match items[i]? with
    | some x => .ok x
    | Option.none => .error .indexError
  | .oid (some ids) => match ids[i]? with
    | some x => .ok (.int x)
    | Option.none => .error .indexError
  | .oid Option.none => .error .attributeError
  | .str s => match s[i]? with
    | some x => .ok (.str [x])
    | Option.none => .error .indexError
  | .bytes s => match s[i]? with
    | some x => .ok (.int x)
    | Option.none => .error .indexError
  | _ => .error .typeError

/-- `list(iter(v))`: Sequence and ObjectID are iterated through `__getitem__`. -/
def Val.iter (v : Val) : Except Exc (List Val) :=
  match v with
  | .seq _ items => .ok items
  | .oid (some ids) => .ok (ids.map Val.int)
  | .oid Option.none => .error .attributeError
  | .str s => .ok (s.map fun c => .str [c])
  | .bytes s => .ok (s.map fun (c : Nat) => .int (c : Int))
  | _ => .error .typeError

/-- `int(v)`: rfc1155.py:310-311 `Integer.__int__`; the other SNMP classes have no `__int__`. -/
def Val.toInt (v : Val) : Except Exc Int :=
  match v with
  | .integer _ n => .ok n
  | .int n => .ok n
  | .str s => pyInt s
  | .bytes s => pyInt s
  | _ => .error .typeError

/-! ## Encoding -/

/-- rfc1155.py:82-95 `Asn1Object.encode`, given the encoded contents. -/
def tlv (c : Cls) (contents : Str) : Except Exc Str :=
  match c.identifier with
  | .error e => .error e
  | .ok ident => .ok (ident ++ encodeLength contents.length ++ contents)

mutual
/-- rfc1155.py:835 `elem.encode() if type(elem) is not str else elem`; on an SNMP object this is `encode()`
(rfc1155.py:82-95) with the class's `encodeContents` (rfc1155.py:360, 527, 663, 772, 827).
`None`, ints and bytes have no suitable `encode` method: `AttributeError`.  An OctetString that does not hold a `str`
fails in `len` or in `''.join` (lines 90, 93). -/
def Val.encode : Val → Except Exc Str
  | .none => .error .attributeError
  | .int _ => .error .attributeError
  | .bytes _ => .error .attributeError
  | .str s => .ok s
  | .integer c v => tlv (.int c) (intEncode v)
  | .octets c v => tlv (.oct c) v
  | .raw _ _ => .error .typeError
  | .oid v => match oidEncode v with
    | .error e => .error e
    | .ok contents => tlv .oid contents
  | .null c => tlv (.null c) []
  | .seq c items => match encodeItems items with
    | .error e => .error e
    | .ok contents => tlv (.seq c) contents
/-- rfc1155.py:827-840 `Sequence.encodeContents`. -/
def encodeItems : List Val → Except Exc Str
  | [] => .ok []
  | v :: vs => match v.encode with
    | .error e => .error e
    | .ok s => match encodeItems vs with
      | .error e => .error e
      | .ok t => .ok (s ++ t)
end

/-! ## Constructors -/

/-- rfc1155.py:297-305 `Integer.__init__` with an int argument, for any subclass (the subclasses' `__init__` only
add fields: rfc1155.py:1047-1052, rfc1905.py:68-97). -/
def mkInteger (c : IntCls) (v : Int) : Except Exc Val :=
  if c.minVal ≤ v ∧ v ≤ c.maxVal then .ok (.integer c v) else .error .valueError

/-- rfc1157.py:63-73 `VarBind.__init__` (also rfc1905.VarBind). -/
def mkVarBind (c : SeqCls) (name value : Val) : Except Exc Val :=
  if name.truthy && !name.isInstance .oid then .error .valueError
  else if value.truthy && !value.isInstance .asn1Object then .error .valueError
  else .ok (.seq c [name, value])

/-- rfc1157.py:80-82 `VarBindList.__init__` = rfc1155.py:864-884 with component type `rfc1157.VarBind`;
for rfc1905.py:52-55 the length is checked first.  `value` is the iterable's elements. -/
def mkVarBindList (c : SeqCls) (value : List Val) : Except Exc Val :=
  if (Cls.seq c).isSubclass (.seq .varBindList2) && decide (2147483647 < value.length) then .error .valueError
  else if value.all (·.isInstance (.seq .varBind)) then .ok (.seq c value)
  else .error .valueError

/-- rfc1157.py:138-151 `PDU.__init__`. -/
def mkPDU1 (c : SeqCls) (requestID errorStatus errorIndex : Int) (vbs : List Val) : Except Exc Val := do
  let r ← mkInteger .integer requestID
  let es ← mkInteger .errorStatus errorStatus
  let ei ← mkInteger .integer errorIndex
  let l ← mkVarBindList .varBindList vbs
  .ok (.seq c [r, es, ei, l])

/-- rfc1905.py:105-121 `PDU.__init__` (SNMPv2). -/
def mkPDU2 (c : SeqCls) (requestID errorStatus errorIndex : Int) (vbs : List Val) : Except Exc Val :=
  if errorIndex > 2147483647 then .error .valueError
  else do
    let r ← mkInteger .integer32 requestID
    let es ← mkInteger .errorStatus2 errorStatus
    let ei ← mkInteger .integer errorIndex
    let l ← mkVarBindList .varBindList2 vbs
    .ok (.seq c [r, es, ei, l])

/-- rfc1905.py:144-162 `BulkPDU.__init__`. -/
def mkBulk (c : SeqCls) (requestID nonRepeaters maxRepetitions : Int) (vbs : List Val) : Except Exc Val :=
  if nonRepeaters > 2147483647 then .error .valueError
  else if maxRepetitions > 2147483647 then .error .valueError
  else do
    let r ← mkInteger .integer32 requestID
    let nr ← mkInteger .integer nonRepeaters
    let mr ← mkInteger .integer maxRepetitions
    let l ← mkVarBindList .varBindList2 vbs
    .ok (.seq c [r, nr, mr, l])

/-- The `__init__` a PDU class inherits: rfc1905.PDU, rfc1905.BulkPDU or rfc1157.PDU. -/
def mkPDU (c : SeqCls) (a b d : Int) (vbs : List Val) : Except Exc Val :=
  if (Cls.seq c).isSubclass (.seq .pdu2) then mkPDU2 c a b d vbs
  else if (Cls.seq c).isSubclass (.seq .bulkPDU) then mkBulk c a b d vbs
  else mkPDU1 c a b d vbs

/-- rfc1157.py:233-250 `TrapPDU.__init__`: nothing is checked. -/
def mkTrap (enterprise agentAddr genericTrap specificTrap timestamp varBindList : Val) : Val :=
  .seq .trapPDU [enterprise, agentAddr, genericTrap, specificTrap, timestamp, varBindList]

/-! ## Decoding -/

/-- A tag registry (`tagDecodeDict`). -/
abbrev Reg := Nat → Option Cls

/-- rfc1157.py:162-163 (265-266, rfc1905.py:173-174): `VarBind(item[0], item[1])` for each item. -/
def mkVarBinds (c : SeqCls) : List Val → Except Exc (List Val)
  | [] => .ok []
  | item :: rest => do
    let name ← item.getItem 0
    let value ← item.getItem 1
    let vb ← mkVarBind c name value
    let vbs ← mkVarBinds c rest
    .ok (vb :: vbs)

/-- rfc1157.py:157-165 `PDU.decodeContents` and rfc1905.py:168-176 `BulkPDU.decodeContents`, after the components
have been decoded. -/
def finishPDU (c : SeqCls) (items : List Val) : Except Exc Val :=
  let bulk := (Cls.seq c).isSubclass (.seq .bulkPDU)
  match items with
  | [o0, o1, o2, o3] => do
    let l ← o3.iter
    let vbs ← mkVarBinds (if bulk then .varBind2 else .varBind) l
    let a ← o0.toInt
    let b ← o1.toInt
    let d ← o2.toInt
    mkPDU c a b d vbs
  | _ => .error (if bulk then .pduError2 else .pduError)

/-- rfc1157.py:260-269 `TrapPDU.decodeContents`, after the components have been decoded. -/
def finishTrap (items : List Val) : Except Exc Val :=
  match items with
  | [o0, o1, o2, o3, o4, o5] => do
    let l ← o5.iter
    let vbs ← mkVarBinds .varBind l
    let g ← o2.toInt
    let gt ← mkInteger .genericTrap g
    .ok (mkTrap o0 o1 gt o3 o4 (.seq .varBindList vbs))
  | _ => .error .pduError

/-- The rest of `decodeContents` of a Sequence class (rfc1155.py:842-850, rfc1157.py:153-165, 255-269,
rfc1905.py:164-176), chosen by the MRO.  (`Message.decodeContents` cannot be reached through a registry.) -/
def finishSeq (c : SeqCls) (items : List Val) : Except Exc Val :=
  if (Cls.seq c).isSubclass (.seq .pdu) || (Cls.seq c).isSubclass (.seq .bulkPDU) then finishPDU c items
  else if (Cls.seq c).isSubclass (.seq .trapPDU) then finishTrap items
  else .ok (.seq c items)

theorem decodeTagLoop_index {stream : Str} {tag n t m : Nat}
    (h : decodeTagLoop stream tag n = .ok (t, m)) : n < m ∧ m ≤ stream.length := by
  fun_induction decodeTagLoop stream tag n with
  | case1 => simp at h
  | case2 tag n byte hb _ _ =>
    simp only [Except.ok.injEq, Prod.mk.injEq] at h
    obtain ⟨hn, _⟩ := List.getElem?_eq_some_iff.mp hb
    omega
  | case3 tag n byte hb _ _ ih =>
    have := ih h
    omega

theorem decodeTag_length {stream : Str} {t : Nat} {r : Str} (h : decodeTag stream = .ok (t, r)) :
    r.length < stream.length := by
  unfold decodeTag at h
  split at h
  · simp at h
  · next tag h0 =>
    obtain ⟨h0', _⟩ := List.getElem?_eq_some_iff.mp h0
    split at h
    · split at h
      · simp at h
      · next tag' n hl =>
        have := decodeTagLoop_index hl
        simp only [Except.ok.injEq, Prod.mk.injEq] at h
        obtain ⟨_, rfl⟩ := h
        simp; omega
    · simp only [Except.ok.injEq, Prod.mk.injEq] at h
      obtain ⟨_, rfl⟩ := h
      simp; omega

theorem decodeLengthLoop_index {stream : Str} {run len n l m : Nat}
    (h : decodeLengthLoop stream run len n = .ok (l, m)) : n ≤ m := by
  induction run generalizing len n with
  | zero => simp [decodeLengthLoop] at h; omega
  | succ run ih =>
    rw [decodeLengthLoop] at h
    split at h
    · simp at h
    · have := ih h; omega

theorem decodeLength_length {stream : Str} {t : Nat} {r : Str} (h : decodeLength stream = .ok (t, r)) :
    r.length < stream.length := by
  unfold decodeLength at h
  split at h
  · simp at h
  · next tag h0 =>
    obtain ⟨h0', _⟩ := List.getElem?_eq_some_iff.mp h0
    split at h
    · split at h
      · simp at h
      · next l n hl =>
        have := decodeLengthLoop_index hl
        simp only [Except.ok.injEq, Prod.mk.injEq] at h
        obtain ⟨_, rfl⟩ := h
        simp; omega
    · simp only [Except.ok.injEq, Prod.mk.injEq] at h
      obtain ⟨_, rfl⟩ := h
      simp; omega

mutual
/-- rfc1155.py:150-180 `Asn1Object.decode` on a `str` (the type check of line 160 is in `decode` below).
Simplification: Python's recursion limit is not modelled. -/
def decodeAll (reg : Reg) (stream : Str) : Except Exc (List Val) :=
  if stream = [] then .ok []
  else
    match h1 : decodeTag stream with
    | .error e => .error e
    | .ok (tag, s1) =>
      match h2 : decodeLength s1 with
      | .error e => .error e
      | .ok (length, s2) =>
        let objectData := s2.take length
        let rest := s2.drop length
        match reg tag with
        | none => .error .valueError
        | some cls =>
          match decodeContents reg cls objectData with
          | .error e => .error e
          | .ok obj =>
            match decodeAll reg rest with
            | .error e => .error e
            | .ok objects => .ok (obj :: objects)
termination_by 2 * stream.length
decreasing_by
  all_goals
    have := decodeTag_length h1
    have := decodeLength_length h2
    simp only [List.length_take, List.length_drop]
    omega
/-- `tagDecodeDict[tag]().decodeContents(objectData)` (rfc1155.py:173-177), by class: Integer (401-434), Counter
(977-991), OctetString (532-536), IPAddress (921-926), ObjectID (696-754), Null (775-778), Sequence and its
subclasses (842-850, rfc1157.py:153-165, 255-269, rfc1905.py:164-176). -/
def decodeContents (reg : Reg) (cls : Cls) (data : Str) : Except Exc Val :=
  match cls with
  | .asn1Object => .error .attributeError
  | .int c =>
    match (if (Cls.int c).isSubclass (.int .counter) then counterDecode data else intDecode data) with
    | .error e => .error e
    | .ok v => .ok (.integer c v)
  | .oct c => .ok (.octets c data)
  | .oid => match oidDecode data with
    | .error e => .error e
    | .ok ids => .ok (.oid (some ids))
  | .null c => if data ≠ [] then .error .valueError else .ok (.null c)
  | .seq c => match decodeAll reg data with
    | .error e => .error e
    | .ok items => finishSeq c items
termination_by 2 * data.length + 1
end

/-- rfc1155.py:150-180 `Asn1Object.decode` on any Python value: line 160-161 rejects everything but `str`. -/
def decode (reg : Reg) (stream : Val) : Except Exc (List Val) :=
  match stream with
  | .str s => decodeAll reg s
  | _ => .error .typeError

/-! ## The registry -/

/-- rfc1155.py:1086-1102. -/
def reg1155 : Reg
  | 0x02 => some (.int .integer)
  | 0x04 => some (.oct .octetString)
  | 0x05 => some (.null .null)
  | 0x06 => some .oid
  | 0x30 => some (.seq .sequence)
  | 0x40 => some (.oct .ipAddress)
  | 0x41 => some (.int .counter)
  | 0x42 => some (.int .guage)
  | 0x43 => some (.int .timeTicks)
  | 0x44 => some (.oct .opaque)
  | _ => none

/-- `d[k] = v` on the shared dictionary. -/
def Reg.set (r : Reg) (k : Nat) (v : Cls) : Reg := fun t => if t = k then some v else r t

/-- rfc1157.py:273-277: effect of importing rfc1157. -/
def addReg1157 (r : Reg) : Reg :=
  ((((r.set 0xa0 (.seq .get)).set 0xa1 (.seq .getNext)).set 0xa2 (.seq .response)).set 0xa3 (.seq .set)).set
    0xa4 (.seq .trapPDU)

/-- rfc1902.py:70-73: effect of importing rfc1902. -/
def addReg1902 (r : Reg) : Reg :=
  (((r.set 0x02 (.int .integer32)).set 0x41 (.int .counter32)).set 0x42 (.int .guage32)).set
    0x46 (.int .counter64)

/-- rfc1905.py:234-243: effect of importing rfc1905 (which imports rfc1157 and rfc1902 first, lines 9-10). -/
def addReg1905 (r : Reg) : Reg :=
  (((((((r.set 0xa2 (.seq .response2)).set 0xa5 (.seq .getBulk)).set 0xa6 (.seq .inform)).set
    0xa7 (.seq .trapV2)).set 0xa8 (.seq .report)).set 0x80 (.null .noSuchObject)).set
    0x81 (.null .noSuchInstance)).set 0x82 (.null .endOfMibView)

/-- The registry of a program that imported only `v1` (rfc1155 and rfc1157). -/
def regV1 : Reg := addReg1157 reg1155

/-- The registry of a program that imported `v2`, `snmpmanager` or rfc1905. -/
def regFull : Reg := addReg1905 (addReg1902 (addReg1157 reg1155))

/-! ## Messages -/

/-- A `Message` object (rfc1157.py:87, rfc1905.py:58): class and the three fields. -/
structure Msg where
  cls : SeqCls
  version : Val
  community : Val
  data : Val
deriving Repr

/-- rfc1157.py:91-95 `Message.__init__` (rfc1905.py:60-61 only changes the default version).  `OctetString(community)`
is rfc1155.OctetString in both. -/
def mkMessage (c : SeqCls) (version : Int) (community : Str) (data : Val) : Except Exc Msg :=
  match mkInteger .integer version with
  | .error e => .error e
  | .ok v => .ok { cls := c, version := v, community := .octets .octetString community, data := data }

/-- rfc1157.py:103-108 with rfc1155.py:82-95: `Message.encode()`. -/
def Msg.encode (m : Msg) : Except Exc Str :=
  match encodeItems [m.version, m.community, m.data] with
  | .error e => .error e
  | .ok contents => tlv (.seq m.cls) contents

/-- rfc1157.py:110-125 `Message.decode`.  The first `raise` applies `%` to a string without a conversion, which is
itself a `TypeError`. -/
def msgDecode (reg : Reg) (c : SeqCls) (stream : Val) : Except Exc Msg := do
  let objectList ← decode reg stream
  match objectList with
  | [o] =>
    let n ← o.len
    if n ≠ 3 then .error .messageError
    else
      let version ← o.getItem 0
      let community ← o.getItem 1
      let data ← o.getItem 2
      .ok { cls := c, version := version, community := community, data := data }
  | _ => .error .typeError

end Libsnmp
