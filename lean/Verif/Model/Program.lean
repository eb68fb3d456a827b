import Verif.Model.Graph

/-!
# Programs over the object graph

A program holds references in variables (never removed, so an operation may use any reference the program ever had).
It builds objects, reads and assigns attributes, changes objects and lists in place, and calls the request methods; the
main loop takes messages from the queue and encodes them only when it sends them.
-/

namespace Libsnmp

/-- The manager methods that build a Get message: `v1.SNMP`, `v2.SNMP` (any number of names), `snmpManager` with version
1 or 2. -/
inductive Api where
  | v1 | v2 | sm1 | sm2
deriving DecidableEq

/-- The classes used: variable binding, list, Get PDU, GetNext PDU, message; and the version number.
v1.py:64-79, v2.py:36-50, snmpmanager.py:103-136. -/
def Api.varBind : Api → SeqCls
  | .v1 | .v2 | .sm1 => .varBind
  | .sm2 => .varBind2
def Api.varBindList : Api → SeqCls
  | .v1 | .sm1 => .varBindList
  | .v2 | .sm2 => .varBindList2
def Api.get : Api → SeqCls
  | .v1 | .sm1 => .get
  | .v2 | .sm2 => .get2
def Api.getNext : Api → SeqCls
  | .v1 | .sm1 => .getNext
  | .v2 | .sm2 => .getNext2
def Api.message : Api → SeqCls
  | .v1 | .sm1 => .message
  | .v2 | .sm2 => .message2
def Api.version : Api → Int
  | .v1 | .sm1 => 0
  | .v2 | .sm2 => 1

/-- The state: memory, the program's variables, the manager's queue of messages (their addresses as references) and its
request counter. -/
structure Prog where
  mem : Mem := {}
  vars : List Ref := []
  queue : List Ref := []
  nextID : Nat := 0

/-- What a program can do.  Numbers `v`, `w` name variables; every result becomes a new variable. -/
inductive POp where
  | constNone
  | constInt (n : Int)
  | constStr (s : Str)
  | list (vs : List Nat)                                  -- [x, y, ...]
  | setList (v : Nat) (vs : List Nat)                     -- l[:] = [x, y, ...]: any change of a list in place
  | integer (c : IntCls) (n : Int)                        -- Integer(n), Counter(n), ...
  | octets (c : OctCls) (s : Str)                         -- OctetString(s), ...
  | oid (arg : Arg)                                       -- ObjectID(arg)
  | null (c : NullCls)
  | sequence (v : Nat)                                    -- Sequence(l): keeps the list itself
  | varBind (c : SeqCls) (v w : Nat)
  | varBindList (c : SeqCls) (v : Nat)
  | pdu (c : SeqCls) (a b d : Int) (v : Nat)              -- Get(a, b, d, l), GetBulk(a, b, d, l), ...
  | trap (e a g s t v : Nat)
  | message (c : SeqCls) (version : Int) (community : Str) (v : Nat)
  | arrive (reg : Reg) (c : SeqCls) (stream : Str)        -- Message().decode(stream)
  | attr (v : Nat) (f : Attr)                             -- x.f
  | item (v i : Nat)                                      -- x[i]
  | value (v : Nat)                                       -- x.value of a Sequence
  | setAttr (v : Nat) (f : Attr) (w : Nat)                -- x.f = y
  | setNum (v : Nat) (n : Int)                            -- x.value = n of an Integer
  | setText (v : Nat) (s : Str)                           -- x.value = s of an OctetString
  | setIds (v : Nat) (ids : List Int)                     -- any change of an ObjectID in place
  | setItems (v w : Nat)                                  -- x.value = l of a Sequence
  | append (v w : Nat)                                    -- x.append(y)
  | encode (depth v : Nat)                                -- x.encode()
  | snmpGet (k : Api) (oids : List Arg) (community : Str)
  | snmpGetNext (k : Api) (v : Nat) (community : Str)     -- also v1.SNMP.snmpSet (v1.py:140-142)
  | snmpTrap (k : Api) (v : Nat) (community : Str)        -- v1.SNMP and v2.SNMP only
  | send (depth : Nat)                                    -- one message leaves the queue

/-- `p` with a new variable. -/
def Prog.bind (p : Prog) (m : Mem) (r : Ref) : Prog := { p with mem := m, vars := p.vars ++ [r] }

/-- The end of an operation that returns a reference or raises. -/
def Prog.finish (p : Prog) : Mem × Except Exc Ref → Prog × Except Exc Ref
  | (m, .ok r) => (p.bind m r, .ok r)
  | (m, .error e) => ({ p with mem := m }, .error e)

/-- The references in the variables `vs`. -/
def Prog.refs (p : Prog) : List Nat → Option (List Ref)
  | [] => some []
  | v :: vs => match p.vars[v]?, p.refs vs with
    | some r, some rs => some (r :: rs)
    | _, _ => Option.none

/-- The variable bindings of a Get message, one per name: v1.py:68-70, v2.py:43-47, snmpmanager.py:108-110, 115-117. -/
def Mem.getBinds (m : Mem) (c : SeqCls) : List Arg → Mem × Except Exc (List Ref)
  | [] => (m, .ok [])
  | arg :: args => match mkOid arg with
    | .error e => (m, .error e)
    | .ok ids =>
      let (m1, o) := m.newPrim .oid (.ids ids)
      let (m2, z) := m1.newPrim (.null .null) .nothing
      match m2.mkVarBind c o z with
      | (m3, .error e) => (m3, .error e)
      | (m3, .ok vb) => match m3.getBinds c args with
        | (m4, .error e) => (m4, .error e)
        | (m4, .ok vbs) => (m4, .ok (vb :: vbs))

/-- The `requestID` attribute of a new PDU. -/
def Mem.requestIDOf (m : Mem) : Ref → Option Ref
  | .obj a => m.attr a .requestID
  | _ => Option.none

/-- v1.py:54-57, 68-72, 109-116; v2.py:26-29, 43-50, 87-94; snmpmanager.py:70-79, 103-124, 206-213 `snmpGet`: build the
message, queue it, return the request ID object inside it. -/
def Prog.snmpGet (p : Prog) (k : Api) (oids : List Arg) (community : Str) : Prog × Except Exc Ref :=
  match p.mem.getBinds k.varBind oids with
  | (m, .error e) => ({ p with mem := m }, .error e)
  | (m, .ok vbs) =>
    let (m0, l) := m.newList vbs
    match m0.mkVarBindList k.varBindList (.list l) with
    | (m1, .error e) => ({ p with mem := m1 }, .error e)
    | (m1, .ok vbl) => match m1.mkPDU k.get p.nextID 0 0 vbl with
      | (m2, .error e) => ({ p with mem := m2, nextID := p.nextID + 1 }, .error e)
      | (m2, .ok pdu) => match m2.mkMessage k.message k.version community pdu with
        | (m3, .error e) => ({ p with mem := m3, nextID := p.nextID + 1 }, .error e)
        | (m3, .ok msg) => match m3.requestIDOf pdu with
          | Option.none => ({ p with mem := m3, nextID := p.nextID + 1, queue := p.queue ++ [msg] }, .error .attributeError)
          | some r => ({ p with mem := m3, nextID := p.nextID + 1, queue := p.queue ++ [msg], vars := p.vars ++ [r] },
              .ok r)

/-- v1.py:59-62, 74-79, 118-131 (133-149); snmpmanager.py:81-90, 126-136, 215-228 `snmpGetNext`.  `v2.SNMP.snmpGetNext`
always raises (C52). -/
def Prog.snmpGetNext (p : Prog) (k : Api) (vbs : Ref) (community : Str) : Prog × Except Exc Ref :=
  if k = .v2 then (p, .error .attributeError)
  else match p.mem.mkPDU k.getNext p.nextID 0 0 vbs with
    | (m2, .error e) => ({ p with mem := m2, nextID := p.nextID + 1 }, .error e)
    | (m2, .ok pdu) => match m2.mkMessage k.message k.version community pdu with
      | (m3, .error e) => ({ p with mem := m3, nextID := p.nextID + 1 }, .error e)
      | (m3, .ok msg) => match m3.requestIDOf pdu with
        | Option.none => ({ p with mem := m3, nextID := p.nextID + 1, queue := p.queue ++ [msg] }, .error .attributeError)
        | some r => ({ p with mem := m3, nextID := p.nextID + 1, queue := p.queue ++ [msg], vars := p.vars ++ [r] },
            .ok r)

/-- v1.py:81-85, 151-156; v2.py:59-63, 129-134 `snmpTrap`.  `snmpManager.snmpTrap` builds no message (C52). -/
def Prog.snmpTrap (p : Prog) (k : Api) (pdu : Ref) (community : Str) : Prog × Except Exc Ref :=
  if k = .sm1 ∨ k = .sm2 then (p, .error .attributeError)
  else match p.mem.mkMessage k.message k.version community pdu with
    | (m3, .error e) => ({ p with mem := m3 }, .error e)
    | (m3, .ok msg) => ({ p with mem := m3, queue := p.queue ++ [msg], vars := p.vars ++ [.none] }, .ok .none)

/-- `x.append(y)`: rfc1155.py:824-825 (Sequence), 879-884 (VarBindList, which accepts only rfc1157.VarBind). -/
def Mem.append (m : Mem) (r x : Ref) : Mem × Except Exc Ref :=
  match r with
  | .list l => match m.lists[l]? with
    | some xs => (m.setList l (xs ++ [x]), .ok .none)
    | Option.none => (m, .error .attributeError)
  | .obj a => match m.objs[a]? with
    | some o => match o.value with
      | .items l =>
        if o.cls.isSubclass (.seq .varBindList) && !m.isInstance x (.seq .varBind) then (m, .error .valueError)
        else (m.setList l (m.lists.getD l [] ++ [x]), .ok .none)
      | _ => (m, .error .attributeError)
    | Option.none => (m, .error .attributeError)
  | _ => (m, .error .attributeError)

/-- `x.value = v`, allowed here only if `v` suits the class of `x` (`ok`). -/
def Mem.assign (m : Mem) (r : Ref) (v : Slot) (ok : Cls → Bool) : Mem × Except Exc Ref :=
  match r with
  | .obj a => match m.objs[a]? with
    | some o => if ok o.cls then (m.setValue a v, .ok .none) else (m, .error .typeError)
    | Option.none => (m, .error .attributeError)
  | _ => (m, .error .attributeError)

def Cls.isInt : Cls → Bool
  | .int _ => true
  | _ => false
def Cls.isOct : Cls → Bool
  | .oct _ => true
  | _ => false
def Cls.isOid : Cls → Bool
  | .oid => true
  | _ => false
def Cls.isSeq : Cls → Bool
  | .seq _ => true
  | _ => false

/-- What `.value` of a new OctetString, Opaque, IPAddress or NetworkAddress of a str holds: rfc1155.py:519-522, 898-919
(the addresses parse it), rfc1902.py:60-64. -/
def octText (c : OctCls) (s : Str) : Except Exc Str :=
  match (if (Cls.oct c).isSubclass (.oct .ipAddress) then mkIPAddress c (.str s) else mkOctetString c s) with
  | .error e => .error e
  | .ok (.octets _ t) => .ok t
  | .ok _ => .error .typeError  -- does not happen

/-- The constructors, by the variables that hold their arguments.  A missing variable is a NameError of the program
(written `indexError`), and nothing happens. -/
def Prog.step (p : Prog) : POp → Prog × Except Exc Ref
  | .constNone => p.finish (p.mem, .ok .none)
  | .constInt n => p.finish (p.mem, .ok (.int n))
  | .constStr s => p.finish (p.mem, .ok (.str s))
  | .list vs => match p.refs vs with
    | some rs =>
      let (m, l) := p.mem.newList rs
      p.finish (m, .ok (.list l))
    | Option.none => (p, .error .indexError)
  | .setList v vs => match p.vars[v]?, p.refs vs with
    | some (.list l), some rs => p.finish (p.mem.setList l rs, .ok .none)
    | _, _ => (p, .error .indexError)
  | .integer c n => p.finish (p.mem.mkInteger c n)
  | .octets c s => match octText c s with
    | .error e => (p, .error e)
    | .ok t =>
      let (m, r) := p.mem.newPrim (.oct c) (.text t)
      p.finish (m, .ok r)
  | .oid arg => match mkOid arg with
    | .error e => (p, .error e)
    | .ok ids =>
      let (m, r) := p.mem.newPrim .oid (.ids ids)
      p.finish (m, .ok r)
  | .null c =>
    let (m, r) := p.mem.newPrim (.null c) .nothing
    p.finish (m, .ok r)
  | .sequence v => match p.vars[v]? with
    | some (.list l) =>
      let (m, r) := p.mem.newNode ⟨.seq .sequence, .items l, fun _ => Option.none⟩
      p.finish (m, .ok r)
    | _ => (p, .error .indexError)
  | .varBind c v w =>
    if (Cls.seq c).isSubclass (.seq .varBind) then
      match p.vars[v]?, p.vars[w]? with
      | some r, some s => p.finish (p.mem.mkVarBind c r s)
      | _, _ => (p, .error .indexError)
    else (p, .error .typeError)
  | .varBindList c v =>
    if (Cls.seq c).isSubclass (.seq .varBindList) then
      match p.vars[v]? with
      | some r => p.finish (p.mem.mkVarBindList c r)
      | _ => (p, .error .indexError)
    else (p, .error .typeError)
  | .pdu c a b d v =>
    if (Cls.seq c).isSubclass (.seq .pdu) || (Cls.seq c).isSubclass (.seq .bulkPDU) then
      match p.vars[v]? with
      | some r => p.finish (p.mem.mkPDU c a b d r)
      | _ => (p, .error .indexError)
    else (p, .error .typeError)
  | .trap e a g s t v => match p.refs [e, a, g, s, t, v] with
    | some [e, a, g, s, t, v] =>
      let (m, r) := p.mem.mkTrap e a g s t v
      p.finish (m, .ok r)
    | _ => (p, .error .indexError)
  | .message c version community v =>
    if (Cls.seq c).isSubclass (.seq .message) then
      match p.vars[v]? with
      | some r => p.finish (p.mem.mkMessage c version community r)
      | _ => (p, .error .indexError)
    else (p, .error .typeError)
  | .arrive reg c stream =>
    if (Cls.seq c).isSubclass (.seq .message) then p.finish (p.mem.decodeMessage reg c stream)
    else (p, .error .typeError)
  | .attr v f => match p.vars[v]? with
    | some (.obj a) => match p.mem.attr a f with
      | some r => p.finish (p.mem, .ok r)
      | Option.none => (p, .error .attributeError)
    | _ => (p, .error .attributeError)
  | .item v i => match p.vars[v]? with
    | some r => match p.mem.items r with
      | some l => match l[i]? with
        | some x => p.finish (p.mem, .ok x)
        | Option.none => (p, .error .indexError)
      | Option.none => (p, .error .typeError)
    | _ => (p, .error .indexError)
  | .value v => match p.vars[v]? with
    | some (.obj a) => match p.mem.objs[a]? with
      | some ⟨_, .items l, _⟩ => p.finish (p.mem, .ok (.list l))
      | _ => (p, .error .attributeError)
    | _ => (p, .error .attributeError)
  | .setAttr v f w => match p.vars[v]?, p.vars[w]? with
    | some (.obj a), some x => p.finish (p.mem.setAttr a f x, .ok .none)
    | _, _ => (p, .error .indexError)
  | .setNum v n => match p.vars[v]? with
    | some r => p.finish (p.mem.assign r (.num n) Cls.isInt)
    | _ => (p, .error .indexError)
  | .setText v s => match p.vars[v]? with
    | some r => p.finish (p.mem.assign r (.text s) Cls.isOct)
    | _ => (p, .error .indexError)
  | .setIds v ids => match p.vars[v]? with
    | some r => p.finish (p.mem.assign r (.ids (some ids)) Cls.isOid)
    | _ => (p, .error .indexError)
  | .setItems v w => match p.vars[v]?, p.vars[w]? with
    | some r, some (.list l) => p.finish (p.mem.assign r (.items l) Cls.isSeq)
    | _, _ => (p, .error .indexError)
  | .append v w => match p.vars[v]?, p.vars[w]? with
    | some r, some x => p.finish (p.mem.append r x)
    | _, _ => (p, .error .indexError)
  | .encode depth v => match p.vars[v]? with
    | some (.obj a) => match gEncode depth p.mem (.obj a) with
      | (m, .ok s) => p.finish (m, .ok (.str s))
      | (m, .error e) => p.finish (m, .error e)
    | _ => (p, .error .attributeError)
  | .snmpGet k oids community => p.snmpGet k oids community
  | .snmpGetNext k v community => match p.vars[v]? with
    | some r => p.snmpGetNext k r community
    | _ => (p, .error .indexError)
  | .snmpTrap k v community => match p.vars[v]? with
    | some r => p.snmpTrap k r community
    | _ => (p, .error .indexError)
  | .send depth => match p.queue with
    | [] => (p, .error .queueEmpty)
    | msg :: rest => match gEncode depth p.mem msg with
      | (m, .ok s) => ({ p with mem := m, queue := rest }, .ok (.str s))
      | (m, .error e) => ({ p with mem := m, queue := rest }, .error e)

/-- The state after a history. -/
def Prog.run (p : Prog) (ops : List POp) : Prog := ops.foldl (fun p op => (p.step op).1) p

/-! ## The callback table of `snmpManager`, whose keys are objects -/

/-- A dictionary entry: the hash stored when the key was inserted, the key object, the callback (snmpmanager.py:211, 227,
244).  `v1.SNMP` and `v2.SNMP` use plain ints as keys. -/
structure Entry where
  hash : Int
  key : Nat
  cb : Nat

/-- The current value of an Integer object. -/
def Mem.num (m : Mem) (a : Nat) : Option Int :=
  match m.objs[a]? with
  | some ⟨_, .num n, _⟩ => some n
  | _ => Option.none

/-- `d[msg.data.requestID]` with a request ID object decoded from a datagram (so it is not one of the keys), of value
`n`: the stored hash must be that of `n`, and the key must now equal `n` (rfc1155.py:332-340, 354-358). -/
def lookupEntry (d : List Entry) (m : Mem) (n : Int) : Option Nat :=
  (d.find? fun e => decide (e.hash = intHash n) && decide (m.num e.key = some n)).map (·.cb)

end Libsnmp
