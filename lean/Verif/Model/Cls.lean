import Verif.Model.Ber

/-!
# The class hierarchy and its class attributes

Every class of `rfc1155.py`, `rfc1157.py`, `rfc1902.py` and `rfc1905.py` that derives from `Asn1Object`.
All inheritance is single, so Python's method resolution order is the chain of parents.
-/

namespace Libsnmp

/-- Classes derived from `rfc1155.Integer`. -/
inductive IntCls where
  | integer        -- rfc1155.py:288
  | counter        -- rfc1155.py:952
  | guage          -- rfc1155.py:996
  | timeTicks      -- rfc1155.py:1033
  | errorStatus    -- rfc1157.py:20
  | genericTrap    -- rfc1157.py:197
  | integer32      -- rfc1902.py:27
  | counter32      -- rfc1902.py:34
  | guage32        -- rfc1902.py:40
  | counter64      -- rfc1902.py:46
  | errorStatus2   -- rfc1905.py:64
deriving DecidableEq, Repr

/-- Classes derived from `rfc1155.OctetString`. -/
inductive OctCls where
  | octetString     -- rfc1155.py:513
  | opaque          -- rfc1155.py:1065
  | ipAddress       -- rfc1155.py:889
  | networkAddress  -- rfc1155.py:943
  | octetString2    -- rfc1902.py:55
deriving DecidableEq, Repr

/-- Classes derived from `rfc1155.Null`. -/
inductive NullCls where
  | null            -- rfc1155.py:762
  | noSuchObject    -- rfc1905.py:30
  | noSuchInstance  -- rfc1905.py:36
  | endOfMibView    -- rfc1905.py:42
deriving DecidableEq, Repr

/-- Classes derived from `rfc1155.Sequence`. -/
inductive SeqCls where
  | sequence      -- rfc1155.py:785
  | sequenceOf    -- rfc1155.py:855
  | varBind       -- rfc1157.py:58
  | varBindList   -- rfc1157.py:76
  | message       -- rfc1157.py:87
  | pdu           -- rfc1157.py:133
  | get           -- rfc1157.py:173
  | getNext       -- rfc1157.py:179
  | response      -- rfc1157.py:185
  | set           -- rfc1157.py:191
  | trapPDU       -- rfc1157.py:227
  | varBind2      -- rfc1905.py:22
  | varBindList2  -- rfc1905.py:48
  | message2      -- rfc1905.py:58
  | pdu2          -- rfc1905.py:100
  | bulkPDU       -- rfc1905.py:137
  | get2          -- rfc1905.py:179
  | getNext2      -- rfc1905.py:185
  | response2     -- rfc1905.py:191
  | set2          -- rfc1905.py:197
  | getBulk       -- rfc1905.py:203
  | inform        -- rfc1905.py:209
  | trapV2        -- rfc1905.py:215
  | report        -- rfc1905.py:221
deriving DecidableEq, Repr

/-- Any class of the hierarchy. -/
inductive Cls where
  | asn1Object    -- rfc1155.py:64
  | int (c : IntCls)
  | oct (c : OctCls)
  | oid           -- rfc1155.py:550 ObjectID
  | null (c : NullCls)
  | seq (c : SeqCls)
deriving DecidableEq, Repr

/-- The base class named in each `class` statement (lines as in the declarations above). -/
def Cls.parent : Cls → Option Cls
  | .asn1Object => none
  | .int .integer => some .asn1Object
  | .int .counter => some (.int .integer)
  | .int .guage => some (.int .integer)
  | .int .timeTicks => some (.int .integer)
  | .int .errorStatus => some (.int .integer)
  | .int .genericTrap => some (.int .integer)
  | .int .integer32 => some (.int .integer)
  | .int .counter32 => some (.int .counter)
  | .int .guage32 => some (.int .guage)
  | .int .counter64 => some (.int .counter)
  | .int .errorStatus2 => some (.int .errorStatus)
  | .oct .octetString => some .asn1Object
  | .oct .opaque => some (.oct .octetString)
  | .oct .ipAddress => some (.oct .octetString)
  | .oct .networkAddress => some (.oct .ipAddress)
  | .oct .octetString2 => some (.oct .octetString)
  | .oid => some .asn1Object
  | .null .null => some .asn1Object
  | .null .noSuchObject => some (.null .null)
  | .null .noSuchInstance => some (.null .null)
  | .null .endOfMibView => some (.null .null)
  | .seq .sequence => some .asn1Object
  | .seq .sequenceOf => some (.seq .sequence)
  | .seq .varBind => some (.seq .sequence)
  | .seq .varBindList => some (.seq .sequenceOf)
  | .seq .message => some (.seq .sequence)
  | .seq .pdu => some (.seq .sequence)
  | .seq .get => some (.seq .pdu)
  | .seq .getNext => some (.seq .pdu)
  | .seq .response => some (.seq .pdu)
  | .seq .set => some (.seq .pdu)
  | .seq .trapPDU => some (.seq .sequence)
  | .seq .varBind2 => some (.seq .varBind)
  | .seq .varBindList2 => some (.seq .varBindList)
  | .seq .message2 => some (.seq .message)
  | .seq .pdu2 => some (.seq .pdu)
  | .seq .bulkPDU => some (.seq .sequence)
  | .seq .get2 => some (.seq .pdu2)
  | .seq .getNext2 => some (.seq .pdu2)
  | .seq .response2 => some (.seq .pdu2)
  | .seq .set2 => some (.seq .pdu2)
  | .seq .getBulk => some (.seq .bulkPDU)
  | .seq .inform => some (.seq .pdu2)
  | .seq .trapV2 => some (.seq .pdu2)
  | .seq .report => some (.seq .pdu2)

/-- The method resolution order, as the chain of parents (the hierarchy is five deep). -/
def Cls.chain : Nat → Cls → List Cls
  | 0, c => [c]
  | n + 1, c => match c.parent with
    | none => [c]
    | some p => c :: Cls.chain n p

def Cls.mro (c : Cls) : List Cls := c.chain 8

/-- `issubclass(c, d)`. -/
def Cls.isSubclass (c d : Cls) : Bool := c.mro.contains d

/-- Class attribute lookup: the first class in the MRO that defines the attribute. -/
def Cls.attr {α : Type} (own : Cls → Option α) (c : Cls) : Option α := c.mro.findSome? own

/-- `asnTagClass` as written in each class body (rfc1155.py:34-39 for the names;
rfc1902.py:52 sets the *class* of Counter64 to `asnTagNumbers['Counter64']`, i.e. 0x06). -/
def ownTagClass : Cls → Option Nat
  | .asn1Object => some 0x00
  | .int .integer => some 0x00
  | .int .counter | .int .guage | .int .timeTicks => some 0x40
  | .int .counter64 => some 0x06
  | .oct .octetString => some 0x00
  | .oct .ipAddress => some 0x40
  | .oid => some 0x00
  | .null .null => some 0x00
  | .seq .sequence | .seq .sequenceOf => some 0x00
  | .seq .pdu | .seq .trapPDU | .seq .pdu2 | .seq .bulkPDU => some 0x80
  | _ => none

/-- `asnTagFormat` as written in each class body (rfc1155.py:41-44). -/
def ownTagFormat : Cls → Option Nat
  | .asn1Object => some 0x00
  | .int .counter | .int .guage | .int .timeTicks => some 0x00
  | .oct .ipAddress => some 0x00
  | .oid => some 0x00
  | .null .null => some 0x00
  | .seq .sequence | .seq .sequenceOf => some 0x20
  | _ => none

/-- `asnTagNumber` as written in each class body (rfc1155.py:46-61, rfc1157.py:13-17, rfc1902.py:24,
rfc1905.py:14-17); `Asn1Object.asnTagNumber` is `None`.  rfc1157.py:188 gives Response the number of Get. -/
def ownTagNumber : Cls → Option Nat
  | .int .integer => some 0x02
  | .int .counter => some 0x01
  | .int .guage => some 0x02
  | .int .timeTicks => some 0x03
  | .oct .octetString => some 0x04
  | .oct .ipAddress => some 0x00
  | .oid => some 0x06
  | .null .null => some 0x05
  | .seq .sequence | .seq .sequenceOf => some 0x10
  | .seq .get => some 0x00
  | .seq .getNext => some 0x01
  | .seq .response => some 0x00
  | .seq .set => some 0x03
  | .seq .trapPDU => some 0x04
  | .seq .get2 => some 0x00
  | .seq .getNext2 => some 0x01
  | .seq .response2 => some 0x02
  | .seq .set2 => some 0x03
  | .seq .getBulk => some 0x05
  | .seq .inform => some 0x06
  | .seq .trapV2 => some 0x07
  | .seq .report => some 0x08
  | _ => none

/-- `MINVAL` as written in each class body (rfc1155.py:294, 961, 1005, 1042; rfc1902.py:30, 49). -/
def ownMinVal : Cls → Option Int
  | .int .integer => some (-2147483648)
  | .int .counter | .int .guage | .int .timeTicks => some 0
  | .int .integer32 => some (-2147483648)
  | .int .counter64 => some 0
  | _ => none

/-- `MAXVAL` as written in each class body (rfc1155.py:295, 962, 1006, 1043; rfc1902.py:31, 50). -/
def ownMaxVal : Cls → Option Int
  | .int .integer => some 2147483647
  | .int .counter | .int .guage | .int .timeTicks => some 4294967295
  | .int .integer32 => some 2147483648
  | .int .counter64 => some 18446744073709551615
  | _ => none

/-- `self.MINVAL` (attribute lookup; every Integer class inherits one). -/
def IntCls.minVal (c : IntCls) : Int := ((Cls.int c).attr ownMinVal).getD 0

/-- `self.MAXVAL`. -/
def IntCls.maxVal (c : IntCls) : Int := ((Cls.int c).attr ownMaxVal).getD 0

/-- `self.encodeIdentifier()` (rfc1155.py:189-217) for an object of class `c`.  `TypeError` for a class without a
tag number (`None < 0x1F`); `diverges` if the loop of lines 210-213 is entered (it never ends, see C05). -/
def Cls.identifier (c : Cls) : Except Exc Str :=
  match c.attr ownTagNumber with
  | none => .error .typeError
  | some num =>
    match encodeIdentifier 0 ((c.attr ownTagClass).getD 0) ((c.attr ownTagFormat).getD 0) num with
    | some s => .ok s
    | none => .error .diverges

end Libsnmp
