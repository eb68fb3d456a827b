import Verif.Model.Text

/-!
# Objects in memory: which Python list does each object hold?

Python lists are mutable and shared by reference, so here an object holds the *address* of its list.  A heap is the list
of all list objects ever created; an address is an index into it.
-/

namespace Libsnmp

/-- All Python list objects created so far. -/
abbrev Cells (α : Type) := List (List α)

/-- The contents of the list at address `a`. -/
def Cells.read {α} (cells : Cells α) (a : Nat) : List α := cells.getD a []

/-! ## ObjectIDs -/

/-- Memory of a program that uses ObjectIDs and lists of ints.  `objs`: the ObjectIDs created so far, each with the
address of its `value` list (`none`: `value` is None).  `lists`: the caller's own lists. -/
structure OidMem where
  cells : Cells Int := []
  objs : List (Option Nat) := []
  lists : List Nat := []

/-- A fresh list. -/
def OidMem.alloc (s : OidMem) (l : List Int) : OidMem := { s with cells := s.cells ++ [l] }

/-- A new ObjectID holding a fresh list with contents `l`. -/
def OidMem.newObj (s : OidMem) (l : List Int) : OidMem :=
  { s with cells := s.cells ++ [l], objs := s.objs ++ [some s.cells.length] }

/-- A new ObjectID whose value is None. -/
def OidMem.newUnset (s : OidMem) : OidMem := { s with objs := s.objs ++ [none] }

/-- Change the list at address `a` in place. -/
def OidMem.write (s : OidMem) (a : Nat) (l : List Int) : OidMem := { s with cells := s.cells.set a l }

/-- What a program can do with ObjectIDs (numbered in order of creation) and its own lists. -/
inductive OidOp where
  | newList (l : List Int)              -- the caller makes a list
  | setList (i : Nat) (l : List Int)    -- the caller changes its list i in place, in any way
  | construct (a : Arg)                 -- ObjectID(text / tuple / int / None)
  | fromList (i : Nat)                  -- ObjectID(list i)
  | fromObj (j : Nat)                   -- ObjectID(obj j)
  | copy (j : Nat)                      -- obj.copy()
  | slice (j : Nat) (start stop : Int)  -- obj[start:stop]
  | toObjectID (j : Nat)                -- obj.toObjectID()
  | decoded (stream : Str)              -- an ObjectID decoded from contents octets
  | append (j : Nat) (n : Int)          -- obj.append(n)
  | appendOther (j : Nat)               -- obj.append(anything but an int)
  | extend (j k : Nat)                  -- obj.extend(obj k)
  | extendList (j i : Nat)              -- obj.extend(list i)
  | delItem (j : Nat) (i : Int)         -- del obj[i]

/-- Python's clamping of a slice bound. -/
def sliceBound (len : Nat) (i : Int) : Nat := (if i < 0 then max 0 (i + len) else min i len).toNat

/-- `l[start:stop]`. -/
def pySlice {α} (l : List α) (start stop : Int) : List α :=
  (l.take (sliceBound l.length stop)).drop (sliceBound l.length start)

/-- A list index as an offset from the start, if it exists. -/
def pyIndex (len : Nat) (i : Int) : Option Nat :=
  if 0 ≤ i ∧ i < len then some i.toNat
  else if i < 0 ∧ 0 ≤ i + len then some (i + len).toNat
  else none

/-- One operation.  A program naming an object or list that does not exist is given `indexError`, nothing changes
(it stands for a NameError in the calling program).  Lines in rfc1155.py: constructor 557-595, `__getitem__` 614-619,
`__delitem__` 621-623, `copy` 625-629, `append` 631-636, `extend` 638-644, `toObjectID` 756-757. -/
def OidMem.step (s : OidMem) : OidOp → OidMem × Except Exc Unit
  | .newList l => ({ s with cells := s.cells ++ [l], lists := s.lists ++ [s.cells.length] }, .ok ())
  | .setList i l => match s.lists[i]? with
    | none => (s, .error .indexError)
    | some a => (s.write a l, .ok ())
  | .construct arg => match mkOid arg with
    | .error e => (s, .error e)
    | .ok none => (s.newUnset, .ok ())
    | .ok (some l) => (s.newObj l, .ok ())
  | .fromList i => match s.lists[i]? with
    | none => (s, .error .indexError)
    | some a => (s.newObj (s.cells.read a), .ok ())              -- copy.copy(value)
  | .fromObj j => match s.objs[j]? with
    | none => (s, .error .indexError)
    | some none => (s, .error .typeError)                        -- None[:]
    | some (some a) => (s.newObj (s.cells.read a), .ok ())       -- value.value[:]
  | .copy j => match s.objs[j]? with
    | none => (s, .error .indexError)
    | some none => (s.newUnset, .ok ())
    | some (some a) => (s.newObj (s.cells.read a), .ok ())       -- ObjectID(self.value) copies it
  | .slice j start stop => match s.objs[j]? with
    | none => (s, .error .indexError)
    | some none => (s, .error .attributeError)
    | some (some a) => (s.newObj (pySlice (s.cells.read a) start stop), .ok ())
  | .toObjectID j => match s.objs[j]? with
    | none => (s, .error .indexError)
    | some none => (s.newUnset, .ok ())
    | some (some a) => (s.newObj (s.cells.read a), .ok ())
  | .decoded stream => match oidDecode stream with
    | .error e => (s, .error e)
    | .ok l => (s.newObj l, .ok ())
  | .append j n => match s.objs[j]? with
    | none => (s, .error .indexError)
    | some none => (s, .error .attributeError)
    | some (some a) => (s.write a (s.cells.read a ++ [n]), .ok ())
  | .appendOther j => match s.objs[j]? with
    | none => (s, .error .indexError)
    | some _ => (s, .error .typeError)
  | .extend j k => match s.objs[j]?, s.objs[k]? with
    | some none, some _ => (s, .error .attributeError)
    | some (some _), some none => (s, .error .typeError)
    | some (some a), some (some b) => (s.write a (s.cells.read a ++ s.cells.read b), .ok ())
    | _, _ => (s, .error .indexError)
  | .extendList j i => match s.objs[j]?, s.lists[i]? with
    | some none, some _ => (s, .error .attributeError)
    | some (some a), some b => (s.write a (s.cells.read a ++ s.cells.read b), .ok ())
    | _, _ => (s, .error .indexError)
  | .delItem j i => match s.objs[j]? with
    | none => (s, .error .indexError)
    | some none => (s, .error .attributeError)
    | some (some a) => match pyIndex (s.cells.read a).length i with
      | none => (s, .error .indexError)
      | some n => (s.write a ((s.cells.read a).eraseIdx n), .ok ())

/-- The memory after a history. -/
def OidMem.run (ops : List OidOp) : OidMem := ops.foldl (fun s op => (s.step op).1) {}

/-- The value of object `k` as seen through the object (`none`: no such object; `some none`: value None). -/
def OidMem.obj (s : OidMem) (k : Nat) : Option (Option (List Int)) :=
  s.objs[k]?.map fun o => o.map s.cells.read

/-- The contents of the caller's list `i`. -/
def OidMem.list (s : OidMem) (i : Nat) : Option (List Int) := s.lists[i]?.map s.cells.read

/-! ## Sequences, variable-binding lists and PDUs -/

/-- An element of a Python list of SNMP values: a value that is never changed, or a sequence object of `SeqMem`. -/
inductive Elem where
  | val (v : Val)
  | ref (k : Nat)

/-- A sequence object: its class, the component type if it is a SequenceOf, and the address of its `value` list. -/
structure SeqObj where
  cls : SeqCls
  comp : Option Cls
  addr : Nat

/-- Addresses of the five default-argument lists, created when the modules are imported: `VarBindList.__init__`
(rfc1157.py:80), `PDU.__init__` (rfc1157.py:138), and in rfc1905.py lines 52, 105, 144. -/
def defaultVbl1 : Nat := 0
def defaultPdu1 : Nat := 1
def defaultVbl2 : Nat := 2
def defaultPdu2 : Nat := 3
def defaultBulk : Nat := 4

/-- Memory of a program that uses sequence objects and lists. -/
structure SeqMem where
  cells : Cells Elem := [[], [], [], [], []]
  objs : List SeqObj := []
  lists : List Nat := []

def SeqMem.write (s : SeqMem) (a : Nat) (l : List Elem) : SeqMem := { s with cells := s.cells.set a l }

/-- A new object holding a fresh list. -/
def SeqMem.newObj (s : SeqMem) (c : SeqCls) (comp : Option Cls) (l : List Elem) : SeqMem :=
  { s with cells := s.cells ++ [l], objs := s.objs ++ [⟨c, comp, s.cells.length⟩] }

/-- `isinstance(e, t)`. -/
def SeqMem.isInstance (s : SeqMem) (e : Elem) (t : Cls) : Bool :=
  match e with
  | .val v => v.isInstance t
  | .ref k => match s.objs[k]? with
    | none => false
    | some o => (Cls.seq o.cls).isSubclass t

/-- What a program can do. -/
inductive SeqOp where
  | newList (l : List Elem)
  | setList (i : Nat) (l : List Elem)                       -- the caller changes its list i in place, in any way
  | sequence (arg : Option Nat)                             -- Sequence() / Sequence(list i)
  | sequenceOf (t : Cls) (arg : Option Nat)                 -- SequenceOf(t) / SequenceOf(t, list i)
  | varBindList (v2 : Bool) (arg : Option Nat)              -- VarBindList() / VarBindList(list i)
  | pdu (c : SeqCls) (a b d : Int) (arg : Option Nat)       -- Get(a, b, d) / Get(a, b, d, list i), ...
  | append (k : Nat) (e : Elem)                             -- obj.append(e)

/-- rfc1155.py:864-884 `SequenceOf.__init__`: a fresh list, filled item by item from the list at address `src`
(`none`: no value given) with a type check. -/
def SeqMem.newSequenceOf (s : SeqMem) (c : SeqCls) (t : Cls) (src : Option Nat) : SeqMem × Except Exc Unit :=
  let items := match src with
    | none => []
    | some a => s.cells.read a
  if items.all (s.isInstance · t) then (s.newObj c (some t) items, .ok ())
  else (s, .error .valueError)

/-- rfc1157.py:80-82, rfc1905.py:52-55 `VarBindList.__init__` on the list at address `src`. -/
def SeqMem.newVarBindList (s : SeqMem) (v2 : Bool) (src : Nat) : SeqMem × Except Exc Unit :=
  if v2 && decide ((s.cells.read src).length > 2147483647) then (s, .error .valueError)
  else s.newSequenceOf (if v2 then .varBindList2 else .varBindList) (.seq .varBind) (some src)

/-- The address of the list passed to a parameter with a default: the caller's list, or the default's own list. -/
def SeqMem.argAddr (s : SeqMem) (arg : Option Nat) (dflt : Nat) : Option Nat :=
  match arg with
  | none => some dflt
  | some i => s.lists[i]?

/-- One operation.  rfc1155.py:796-801 `Sequence.__init__`, 824-825 `Sequence.append`, 880-887 `SequenceOf.append`;
rfc1157.py:138-151, rfc1905.py:105-121, 144-162 the PDU constructors: the variable-binding list becomes an object of
its own, which is then also the fourth element of the PDU's list. -/
def SeqMem.step (s : SeqMem) : SeqOp → SeqMem × Except Exc Unit
  | .newList l => ({ s with cells := s.cells ++ [l], lists := s.lists ++ [s.cells.length] }, .ok ())
  | .setList i l => match s.lists[i]? with
    | none => (s, .error .indexError)
    | some a => (s.write a l, .ok ())
  | .sequence none => (s.newObj .sequence none [], .ok ())                -- value = []
  | .sequence (some i) => match s.lists[i]? with
    | none => (s, .error .indexError)
    | some a => ({ s with objs := s.objs ++ [⟨.sequence, none, a⟩] }, .ok ())   -- self.value = value
  | .sequenceOf t none => s.newSequenceOf .sequenceOf t none
  | .sequenceOf t (some i) => match s.lists[i]? with
    | none => (s, .error .indexError)
    | some a => s.newSequenceOf .sequenceOf t (some a)
  | .varBindList v2 arg => match s.argAddr arg (if v2 then defaultVbl2 else defaultVbl1) with
    | none => (s, .error .indexError)
    | some a => s.newVarBindList v2 a
  | .pdu c a b d arg =>
    let v2 := (Cls.seq c).isSubclass (.seq .pdu2)
    let bulk := (Cls.seq c).isSubclass (.seq .bulkPDU)
    match s.argAddr arg (if v2 then defaultPdu2 else if bulk then defaultBulk else defaultPdu1) with
    | none => (s, .error .indexError)
    | some src => match mkPDU c a b d [] with
      | .ok (.seq _ (x :: y :: z :: _)) => match s.newVarBindList (v2 || bulk) src with
        | (_, .error e) => (s, .error e)
        | (s', .ok ()) => (s'.newObj c none [.val x, .val y, .val z, .ref s.objs.length], .ok ())
      | .ok _ => (s, .error .valueError)      -- not reached
      | .error e => (s, .error e)
  | .append k e => match s.objs[k]? with
    | none => (s, .error .indexError)
    | some o => match o.comp with
      | none => (s.write o.addr (s.cells.read o.addr ++ [e]), .ok ())
      | some t =>
        if s.isInstance e t then (s.write o.addr (s.cells.read o.addr ++ [e]), .ok ())
        else (s, .error .valueError)

def SeqMem.runFrom (s : SeqMem) (ops : List SeqOp) : SeqMem := ops.foldl (fun s op => (s.step op).1) s

/-- The memory after a history. -/
def SeqMem.run (ops : List SeqOp) : SeqMem := SeqMem.runFrom {} ops

/-- The elements of object `k`, as seen through the object. -/
def SeqMem.elems (s : SeqMem) (k : Nat) : Option (List Elem) := s.objs[k]?.map fun o => s.cells.read o.addr

/-- The contents of the caller's list `i`. -/
def SeqMem.list (s : SeqMem) (i : Nat) : Option (List Elem) := s.lists[i]?.map s.cells.read

end Libsnmp
