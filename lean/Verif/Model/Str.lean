import Verif.Model.Manager

/-!
# `str()` of SNMP objects, and the error texts shared by all ErrorStatus classes

`ErrorStatus.errString` is a class attribute: one dictionary for the process, which rfc1905's constructor extends.
-/

namespace Libsnmp

/-- A dictionary with int keys, as the list of its items. -/
abbrev Table := List (Int × Str)

/-- `d[k]`. -/
def Table.get (d : Table) (k : Int) : Except Exc Str :=
  match d.find? fun p => p.1 == k with
  | none => .error .keyError
  | some p => .ok p.2

/-- `d[k] = v`. -/
def Table.put (d : Table) (k : Int) (v : Str) : Table :=
  if d.any fun p => p.1 == k then d.map fun p => if p.1 == k then (k, v) else p else d ++ [(k, v)]

/-- rfc1157.py:24-31 `ErrorStatus.errString`. -/
def errString1 : Table :=
  [(0, lit "No Error"), (1, lit "Response message would have been too large"),
   (2, lit "There is no such variable name in this MIB"), (3, lit "The value given has the wrong type"),
   (4, lit "Object is Read Only"), (5, lit "An unknown error occurred")]

/-- rfc1905.py:71-83: the assignments of `rfc1905.ErrorStatus.__init__` to `self.errString`, which is the dictionary of
rfc1157.ErrorStatus. -/
def extendErrString (d : Table) : Table :=
  ((((((((((((d.put 6 (lit "Access is not permitted")).put 7 (lit "Type is incorrect")).put 8 (lit "Length is incorrect")).put
    9 (lit "Encoding is incorrect")).put 10 (lit "Value is incorrect")).put 11 (lit "No creation")).put
    12 (lit "Value is inconsistent")).put 13 (lit "Resourse Unavailable")).put 14 (lit "Commit Failed")).put
    15 (lit "Undo Failed")).put 16 (lit "Authorization Error")).put 17 (lit "Not Writable")).put
    18 (lit "Inconsistent Name")

/-- rfc1905.py:68-83 `rfc1905.ErrorStatus.__init__`: the range check of Integer comes first.  (The dictionary `errNum` of
lines 85-97 is not modelled: nothing can read it, see C52.) -/
def newErrorStatus2 (v : Int) (d : Table) : Except Exc Val × Table :=
  match mkInteger .errorStatus2 v with
  | .error e => (.error e, d)
  | .ok x => (.ok x, extendErrString d)

/-- rfc1905.py:105-121 `rfc1905.PDU.__init__`, with its effect on the error texts: an exception after line 112 leaves the
texts extended. -/
def newPDU2 (c : SeqCls) (requestID errorStatus errorIndex : Int) (vbs : List Val) (d : Table) : Except Exc Val × Table :=
  if errorIndex > 2147483647 then (.error .valueError, d)
  else match mkInteger .integer32 requestID with
    | .error e => (.error e, d)
    | .ok r => match newErrorStatus2 errorStatus d with
      | (.error e, d) => (.error e, d)
      | (.ok es, d) => match mkInteger .integer errorIndex with
        | .error e => (.error e, d)
        | .ok ei => match mkVarBindList .varBindList2 vbs with
          | .error e => (.error e, d)
          | .ok l => (.ok (.seq c [r, es, ei, l]), d)

/-- A PDU constructor, with its effect on the error texts (rfc1157.PDU and BulkPDU have none). -/
def newPDU (c : SeqCls) (a b x : Int) (vbs : List Val) (d : Table) : Except Exc Val × Table :=
  if (Cls.seq c).isSubclass (.seq .pdu2) then newPDU2 c a b x vbs d else (mkPDU c a b x vbs, d)

/-- The object creations that matter for the error texts; decoding a PDU ends in such a creation (rfc1157.py:165). -/
inductive Creation where
  | status1 (v : Int)                                           -- rfc1157.ErrorStatus(v)
  | status2 (v : Int)                                           -- rfc1905.ErrorStatus(v)
  | pdu (c : SeqCls) (a b x : Int) (vbs : List Val)             -- any PDU class

/-- One creation: the error texts afterwards (whether or not the constructor raised). -/
def Creation.run : Creation → Table → Table
  | .status1 _, d => d
  | .status2 v, d => (newErrorStatus2 v d).2
  | .pdu c a b x vbs, d => (newPDU c a b x vbs d).2

/-- A history of creations in a new process. -/
def errTexts (h : List Creation) : Table := h.foldl (fun d c => c.run d) errString1

/-- rfc1157.py:42-45 `ErrorStatus.__str__` (also of rfc1905.ErrorStatus). -/
def errorStatusStr (d : Table) (v : Int) : Except Exc Str :=
  match d.get v with
  | .error e => .error e
  | .ok t => .ok (pyStrInt v ++ lit ": " ++ t)

/-- rfc1157.py:47-55 `ErrorStatus.enum`: line 55 calls a dictionary. -/
def errorStatusEnum (_num : Option Int) : Except Exc Str := .error .typeError

/-- rfc1157.py:201-209 `GenericTrap.genericTraps`. -/
def genericTraps : Table :=
  [(0, lit "coldStart"), (1, lit "warmStart"), (2, lit "linkDown"), (3, lit "linkUp"), (4, lit "authenticationFailure"),
   (5, lit "egpNeighborLoss"), (6, lit "enterpriseSpecific")]

/-- rfc1157.py:211-214 `GenericTrap.__str__`. -/
def genericTrapStr (v : Int) : Except Exc Str :=
  match genericTraps.get v with
  | .error e => .error e
  | .ok t => .ok (lit "GenericTrap: " ++ pyStrInt v ++ lit " (" ++ t ++ lit ")")

/-- rfc1157.py:216-224 `GenericTrap.enum`. -/
def genericTrapEnum (value : Int) (num : Option Int) : Except Exc Str := genericTraps.get (num.getD value)

/-- One octet in `repr()` of bytes. -/
def reprByte (quote c : Nat) : Str :=
  if c = 92 ∨ c = quote then [92, c]
  else if c = 9 then lit "\\t" else if c = 10 then lit "\\n" else if c = 13 then lit "\\r"
  else if c < 32 ∨ 126 < c then lit "\\x" ++ hex2 c
  else [c]

/-- `'%s' % b` for bytes: `repr(b)`. -/
def reprBytes (b : Str) : Str :=
  let quote := if b.contains 39 && !b.contains 34 then 34 else 39
  98 :: quote :: (b.flatMap (reprByte quote) ++ [quote])

mutual
/-- `'%s' % v` / `str(v)`: rfc1155.py:307-308 Integer, 524-525 OctetString, 595-602 ObjectID, 769-770 Null, 803-813
Sequence, 928-933 IPAddress; rfc1905.py:32-45; rfc1157.py:42-45, 211-214.  An OctetString that does not hold a `str`
is a TypeError (`__str__ returned non-string`), and so is `'%d' % ord(item)` of an address built from a list. -/
def valStr (d : Table) : Val → Except Exc Str
  | .none => .ok (lit "None")
  | .int n => .ok (pyStrInt n)
  | .str s => .ok s
  | .bytes b => .ok (reprBytes b)
  | .integer c v =>
    if c = .errorStatus ∨ c = .errorStatus2 then errorStatusStr d v
    else if c = .genericTrap then genericTrapStr v
    else .ok (pyStrInt v)
  | .octets c v => if (Cls.oct c).isSubclass (.oct .ipAddress) then .ok (ipStr v) else .ok v
  | .raw _ _ => .error .typeError
  | .oid v => .ok (oidStr v)
  | .null .null => .ok (lit "<Null>")
  | .null .noSuchObject => .ok (lit "No Such Object")
  | .null .noSuchInstance => .ok (lit "No Such Instance")
  | .null .endOfMibView => .ok (lit "EndOfMibView")
  | .seq _ items => match itemsStr d items with
    | .error e => .error e
    | .ok ts => .ok (lit "[" ++ pyJoin (lit ", ") ts ++ lit "]")
/-- rfc1155.py:806-808: the loop over the items. -/
def itemsStr (d : Table) : List Val → Except Exc (List Str)
  | [] => .ok []
  | x :: xs => match valStr d x with
    | .error e => .error e
    | .ok t => match itemsStr d xs with
      | .error e => .error e
      | .ok ts => .ok (t :: ts)
end

/-- rfc1157.py:97-101 `Message.__str__`. -/
def msgStr (d : Table) (m : Msg) : Except Exc Str :=
  match valStr d m.version with
  | .error e => .error e
  | .ok v => match valStr d m.community with
    | .error e => .error e
    | .ok c => match valStr d m.data with
      | .error e => .error e
      | .ok p => .ok (lit "[" ++ v ++ lit ", " ++ c ++ lit ", " ++ p ++ lit "]")

/-! ## Small helpers of the manager classes -/

/-- v1.py:210-214 `enterpriseOID`. -/
def enterpriseOID (partialOID : Str) : Str := lit ".1.3.6.1.2.1." ++ partialOID

/-- snmpmanager.py:26-34 `typeValDict`, 361-368 `typeSetter`. -/
def typeSetter (typestring : Str) : Except Exc Int :=
  if typestring = lit "i" then .ok 0x02
  else if typestring = lit "s" then .ok 0x04
  else if typestring = lit "o" then .ok 0x06
  else if typestring = lit "t" then .ok 0x43
  else if typestring = lit "a" then .ok 0x40
  else if typestring = lit "c" then .ok 0x41
  else if typestring = lit "C" then .ok 0x46
  else .error .keyError

/-- v1.py:87-101 `createTrapPDU`, v2.py:65-78 `createTrap`, snmpmanager.py:170-197 `createTrapPDU`.  Without an agent
address the method `getsockname` is called, which no class of the library or asyncore.dispatcher defines; v1 and v2 test
`not agentAddr`, snmpManager `is None`; v1 and v2 look at the enterprise first, snmpManager last.  `varbindlist` is not
checked; `uptime` is what `getSysUptime` returned (a number of hundredths of a second).  For snmpManager with a version
other than 1 and 2 the local `pdu` is unbound. -/
def createTrapPDU (k : Kind) (varbindlist : Val) (version : Int) (enterprise agentAddr : Arg) (genericTrap specificTrap : Int)
    (uptime : Int) : Except Exc Val :=
  let absent : Bool := match agentAddr with
    | .none => true
    | .str s => if k = .sm then false else s.isEmpty
    | .bytes s => if k = .sm then false else s.isEmpty
    | .int n => if k = .sm then false else n == 0
    | .list l => if k = .sm then false else l.isEmpty
    | .tuple l => if k = .sm then false else l.isEmpty
    | .obj v => if k = .sm then false else !v.truthy
  let build : Except Exc Val := do
    let ent ← mkOid enterprise
    if absent then .error .attributeError
    else do
      let agent ← mkIPAddress .networkAddress agentAddr
      let gTrap ← mkInteger .genericTrap genericTrap
      let sTrap ← mkInteger .integer specificTrap
      let ts ← mkInteger .timeTicks uptime
      .ok (mkTrap (.oid ent) agent gTrap sTrap ts varbindlist)
  match k with
  | .v1 => build
  | .v2 => build
  | .sm =>
    if absent then .error .attributeError
    else if version = 1 ∨ version = 2 then build
    else .error .unboundLocalError

end Libsnmp
