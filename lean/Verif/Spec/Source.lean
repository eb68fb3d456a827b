import Verif.Model.SourceData
import Verif.Model.Interp
import Verif.Model.LongInts
import Verif.Model.Str

/-!
# What it means that the source text does what the model says

The interpreter of `Model/Interp.lean` runs the text of the package (`Model/SourceData.lean`) on a heap of Python objects; the
model computes with values of `Model/Obj.lean`.  `Rep` says when an object in the heap is a value of the model, `Raised` when an
exception object is an exception of the model; `Kept` says what a call leaves alone.
-/

namespace Libsnmp.Src
open Libsnmp

/-- `x.name(args)`: the attribute is looked up, on the object and then on its classes, and called. -/
def callMethod (cfg : Cfg) (x : V) (name : String) (args : List V) (h : Heap) : R V :=
  bindR (orRaise (getattr program h x name) "AttributeError" h) fun f h => call program cfg f args h

/-- The name of the built-in exception class. -/
def excName : Exc → String
  | .valueError => "ValueError" | .typeError => "TypeError" | .indexError => "IndexError" | .keyError => "KeyError"
  | .attributeError => "AttributeError" | .notImplementedError => "NotImplementedError" | .overflowError => "OverflowError"
  | .unboundLocalError => "UnboundLocalError" | .recursionError => "RecursionError" | .osError => "OSError"
  | .queueEmpty => "queue.Empty" | .unicodeDecodeError => "UnicodeDecodeError" | .systemExit => "SystemExit"
  | .user _ => "user"                          -- the exception classes of the user's code: one name for all
  | _ => ""

/-- The outcome of a function of the model, as an outcome of the interpreter; exceptions of Python's own operations. -/
def outR {α} (r : Except Exc α) (f : α → V) (h : Heap) : R V :=
  match r with
  | .ok a => okR (f a) h
  | .error e => excR (.exc (excName e) []) h

/-- Where the `class` statement of a class stands. -/
def cid : Cls → CId
  | .asn1Object => (.rfc1155, 64)
  | .int .integer => (.rfc1155, 288)
  | .int .counter => (.rfc1155, 952)
  | .int .guage => (.rfc1155, 996)
  | .int .timeTicks => (.rfc1155, 1033)
  | .int .errorStatus => (.rfc1157, 20)
  | .int .genericTrap => (.rfc1157, 197)
  | .int .integer32 => (.rfc1902, 27)
  | .int .counter32 => (.rfc1902, 34)
  | .int .guage32 => (.rfc1902, 40)
  | .int .counter64 => (.rfc1902, 46)
  | .int .errorStatus2 => (.rfc1905, 64)
  | .oct .octetString => (.rfc1155, 513)
  | .oct .opaque => (.rfc1155, 1065)
  | .oct .ipAddress => (.rfc1155, 889)
  | .oct .networkAddress => (.rfc1155, 943)
  | .oct .octetString2 => (.rfc1902, 55)
  | .oid => (.rfc1155, 550)
  | .null .null => (.rfc1155, 762)
  | .null .noSuchObject => (.rfc1905, 30)
  | .null .noSuchInstance => (.rfc1905, 36)
  | .null .endOfMibView => (.rfc1905, 42)
  | .seq .sequence => (.rfc1155, 785)
  | .seq .sequenceOf => (.rfc1155, 855)
  | .seq .varBind => (.rfc1157, 58)
  | .seq .varBindList => (.rfc1157, 76)
  | .seq .message => (.rfc1157, 87)
  | .seq .pdu => (.rfc1157, 133)
  | .seq .get => (.rfc1157, 173)
  | .seq .getNext => (.rfc1157, 179)
  | .seq .response => (.rfc1157, 185)
  | .seq .set => (.rfc1157, 191)
  | .seq .trapPDU => (.rfc1157, 227)
  | .seq .varBind2 => (.rfc1905, 22)
  | .seq .varBindList2 => (.rfc1905, 48)
  | .seq .message2 => (.rfc1905, 58)
  | .seq .pdu2 => (.rfc1905, 100)
  | .seq .bulkPDU => (.rfc1905, 137)
  | .seq .get2 => (.rfc1905, 179)
  | .seq .getNext2 => (.rfc1905, 185)
  | .seq .response2 => (.rfc1905, 191)
  | .seq .set2 => (.rfc1905, 197)
  | .seq .getBulk => (.rfc1905, 203)
  | .seq .inform => (.rfc1905, 209)
  | .seq .trapV2 => (.rfc1905, 215)
  | .seq .report => (.rfc1905, 221)

/-- A table of the model, as a dictionary. -/
def dictOfTable (d : Table) : Cell := .dict (d.map fun p => (V.int p.1, V.str p.2))

/-- What the `class` statements and the default arguments made: the dictionary of error texts is that of rfc1157 or, after an
ErrorStatus of rfc1905 was made, the longer one; the dictionary of trap names is as it was; the lists that are default arguments
are empty. -/
structure Base (h : Heap) : Prop where
  strings : h[1]? = some (dictOfTable errString1) ∨ h[1]? = some (dictOfTable (extendErrString errString1))
  numbers : ∃ d, h[2]? = some (.dict d)
  traps : h[5]? = some (dictOfTable genericTraps)
  list3 : h[3]? = some (.list [])
  list4 : h[4]? = some (.list [])
  list6 : h[6]? = some (.list [])
  list7 : h[7]? = some (.list [])
  list8 : h[8]? = some (.list [])

/-- From the heap `h` to `h'`: the objects before `n` are as they were; the error texts are as they were, or the long ones. -/
structure Kept (n : Nat) (h h' : Heap) : Prop where
  base : Base h'
  len : h.length ≤ h'.length
  same : ∀ b, 9 ≤ b → b < n → h'[b]? = h[b]?
  texts : h'[1]? = h[1]? ∨ h'[1]? = some (dictOfTable (extendErrString errString1))

/-- The names of the attributes that the code gives its objects. -/
def dataNames : List String :=
  ["value", "epoch", "componentType", "objectID", "objectValue", "requestID", "errorStatus", "errorIndex", "varBindList",
   "nonRepeaters", "maxRepetitions", "enterprise", "agentAddr", "genericTrap", "specificTrap", "timestamp", "version",
   "community", "data"]

/-- No attribute hides a method. -/
def Plain (attrs : List (String × V)) : Prop := ∀ p ∈ attrs, p.1 ∈ dataNames

/-- The attributes that a constructor sets beside `value`, one for each of the first components. -/
def fieldNames : SeqCls → List String
  | .varBind | .varBind2 => ["objectID", "objectValue"]
  | .pdu | .get | .getNext | .response | .set | .pdu2 | .get2 | .getNext2 | .response2 | .set2 | .inform | .trapV2 | .report =>
    ["requestID", "errorStatus", "errorIndex", "varBindList"]
  | .bulkPDU | .getBulk => ["requestID", "nonRepeaters", "maxRepetitions", "varBindList"]
  | .trapPDU => ["enterprise", "agentAddr", "genericTrap", "specificTrap", "timestamp", "varBindList"]
  | .sequence | .sequenceOf | .varBindList | .varBindList2 | .message | .message2 => []

/-- The fields are the components. -/
def Fields (c : SeqCls) (attrs : List (String × V)) (l : List V) : Prop :=
  (fieldNames c).map (fun f => attrs.lookup f) = (l.take (fieldNames c).length).map some

mutual
/-- The object `x` in the heap is the value of the model; all its parts are at `lo` or beyond. -/
def Rep (lo : Nat) (h : Heap) : Val → V → Prop
  | .none, x => x = .none
  | .int n, x => x = .int n
  | .str s, x => x = .str s
  | .bytes _, _ => False
  | .raw _ _, _ => False
  | .integer c n, x => ∃ a attrs, x = .ref a ∧ lo ≤ a ∧ h[a]? = some (.inst (cid (.int c)) attrs) ∧ Plain attrs ∧
      attrs.lookup "value" = some (.int n)
  | .octets c s, x => ∃ a attrs, x = .ref a ∧ lo ≤ a ∧ h[a]? = some (.inst (cid (.oct c)) attrs) ∧ Plain attrs ∧
      attrs.lookup "value" = some (.str s)
  | .oid none, x => ∃ a attrs, x = .ref a ∧ lo ≤ a ∧ h[a]? = some (.inst (cid .oid) attrs) ∧ Plain attrs ∧
      attrs.lookup "value" = some .none
  | .oid (some ids), x => ∃ a attrs b, x = .ref a ∧ lo ≤ a ∧ h[a]? = some (.inst (cid .oid) attrs) ∧ Plain attrs ∧
      attrs.lookup "value" = some (.ref b) ∧ lo ≤ b ∧ h[b]? = some (.list (ids.map V.int))
  | .null c, x => ∃ a attrs, x = .ref a ∧ lo ≤ a ∧ h[a]? = some (.inst (cid (.null c)) attrs) ∧ Plain attrs ∧
      attrs.lookup "value" = none
  | .seq c items, x => ∃ a attrs b l, x = .ref a ∧ lo ≤ a ∧ h[a]? = some (.inst (cid (.seq c)) attrs) ∧ Plain attrs ∧
      attrs.lookup "value" = some (.ref b) ∧ lo ≤ b ∧ h[b]? = some (.list l) ∧ Fields c attrs l ∧ RepAll lo h items l
def RepAll (lo : Nat) (h : Heap) : List Val → List V → Prop
  | [], l => l = []
  | v :: vs, l => ∃ x xs, l = x :: xs ∧ Rep lo h v x ∧ RepAll lo h vs xs
end

/-- The exception that the model names. -/
def Raised (h : Heap) (e : Exc) (x : V) : Prop :=
  match e with
  | .pduError => ∃ a attrs, x = .ref a ∧ h[a]? = some (.inst (.rfc1157, 168) attrs)
  | .pduError2 => ∃ a attrs, x = .ref a ∧ h[a]? = some (.inst (.rfc1905, 227) attrs)
  | .messageError => ∃ a attrs, x = .ref a ∧ h[a]? = some (.inst (.rfc1157, 128) attrs)
  | e => ∃ args, x = .exc (excName e) args

/-- The limit on numerals is one that Python accepts. -/
def Limits (cfg : Cfg) : Prop := cfg.digits = 0 ∨ 640 ≤ cfg.digits

/-- The decimal digits that debugging output allows. -/
def Cfg.limit (cfg : Cfg) : Nat := if cfg.debug then cfg.digits else 0

/-- What code that decodes must do: an object that stands for the value of the model, or its exception; and nothing happens to the
objects before `n`. -/
def Decodes (n : Nat) (h : Heap) (r : R V) (m : Except Exc Val) : Prop :=
  match m with
  | .ok v => ∃ h' x, r = okR x h' ∧ Kept n h h' ∧ Rep n h' v x
  | .error e => ∃ h' x, r = excR x h' ∧ Kept n h h' ∧ Raised h' e x

/-- The classes that a registry of the package may name. -/
def Decodable : Cls → Bool
  | .asn1Object => false
  | .int c => c ≠ .errorStatus2
  | .oct c => c ≠ .octetString2
  | .oid => true
  | .null _ => true
  | .seq .sequence => true
  | .seq .trapPDU => true
  | .seq c => (Cls.seq c).isSubclass (.seq .pdu) || (Cls.seq c).isSubclass (.seq .bulkPDU)

/-- What `decode` must do: a new list of objects that stand for the values of the model, or its exception. -/
def DecodesAll (h : Heap) (r : R V) (m : Except Exc (List Val)) : Prop :=
  match m with
  | .ok vs => ∃ h' b l, r = okR (.ref b) h' ∧ Kept h.length h h' ∧ h.length ≤ b ∧ h'[b]? = some (.list l) ∧
      RepAll h.length h' vs l
  | .error e => ∃ h' x, r = excR x h' ∧ Kept h.length h h' ∧ Raised h' e x

/-- What `Message.decode` must do to the message `a`. -/
def MsgDecodes (h : Heap) (a : Nat) (c : SeqCls) (r : R V) (m : Except Exc Msg) : Prop :=
  match m with
  | .ok m => ∃ h' attrs x y z, r = okR (.ref a) h' ∧ Base h' ∧ (∀ b, 9 ≤ b → b < h.length → b ≠ a → h'[b]? = h[b]?) ∧
      h'[a]? = some (.inst (cid (.seq c)) attrs) ∧ m.cls = c ∧ attrs.lookup "version" = some x ∧
      attrs.lookup "community" = some y ∧ attrs.lookup "data" = some z ∧ Rep h.length h' m.version x ∧
      Rep h.length h' m.community y ∧ Rep h.length h' m.data z ∧
      ∀ c0 attrs0 k, h[a]? = some (.inst c0 attrs0) → k ≠ "version" → k ≠ "community" → k ≠ "data" → attrs.lookup k = attrs0.lookup k
  | .error e => ∃ h' x, r = excR x h' ∧ Kept h.length h h' ∧ Raised h' e x

/-- The object at `a` is the message `m`: its fields are the values of the model, and its list of components is the one
that the constructor or the last `encode` left. -/
def RepMsg (lo : Nat) (h : Heap) (m : Msg) (a : Nat) : Prop :=
  ∃ attrs b l x y z, lo ≤ a ∧ h[a]? = some (.inst (cid (.seq m.cls)) attrs) ∧ Plain attrs ∧
    attrs.lookup "value" = some (.ref b) ∧ lo ≤ b ∧ h[b]? = some (.list l) ∧ l.length ≤ 3 ∧
    attrs.lookup "version" = some x ∧ attrs.lookup "community" = some y ∧ attrs.lookup "data" = some z ∧
    Rep lo h m.version x ∧ Rep lo h m.community y ∧ Rep lo h m.data z

mutual
/-- No part of the value is a message (whose `encode` makes new components), and no part takes 10^640 octets (the limit
on numerals, which the debugging records of `encodeLength` meet, is at least 640 digits). -/
def Sane : Val → Prop
  | .integer _ n => (intEncode n).length < 10 ^ 640
  | .octets _ s => s.length < 10 ^ 640
  | .oid v => ∀ s, oidEncode v = .ok s → s.length < 10 ^ 640
  | .seq c items => c ≠ .message ∧ c ≠ .message2 ∧ (∀ s, encodeItems items = .ok s → s.length < 10 ^ 640) ∧ SaneAll items
  | _ => True
def SaneAll : List Val → Prop
  | [] => True
  | v :: vs => Sane v ∧ SaneAll vs
end

mutual
/-- No part of the value is a message. -/
def NoMessage : Val → Prop
  | .seq c items => c ≠ .message ∧ c ≠ .message2 ∧ NoMessages items
  | _ => True
def NoMessages : List Val → Prop
  | [] => True
  | v :: vs => NoMessage v ∧ NoMessages vs
end

mutual
/-- No text in the value has more digits than `int()` accepts. -/
def Numerals (cfg : Cfg) : Val → Prop
  | .str s => cfg.digits = 0 ∨ (s.filter isDigit).length ≤ cfg.digits
  | .seq _ items => NumeralsAll cfg items
  | _ => True
def NumeralsAll (cfg : Cfg) : List Val → Prop
  | [] => True
  | v :: vs => Numerals cfg v ∧ NumeralsAll cfg vs
end

/-- The objects of the package's classes. -/
def Obj : Val → Bool
  | .integer _ _ | .octets _ _ | .oid _ | .null _ | .seq _ _ => true
  | _ => false

/-- The object, a list or an instance, has the elements `l`. -/
structure Items (h : Heap) (x : V) (l : List V) : Prop where
  iter : ∃ f : Nat → It, ∀ h', Kept h.length h h' → iterOf program h' x = some (f 0) ∧
    ∀ cfg i, next program cfg (f i) h' = okR (l[i]?.map fun y => (y, f (i + 1))) h'
  truth : ∀ h', Kept h.length h h' → ∀ cfg, truth program cfg x h' = okR (!l.isEmpty) h'
  len : ∀ h', Kept h.length h h' → ∀ cfg, len program cfg x h' = okR (.int l.length) h'

/-- What a constructor must do: the object of the model, or its exception. -/
def Makes (lo : Nat) (h : Heap) (r : R V) (m : Except Exc Val) : Prop :=
  match m with
  | .ok v => ∃ h', r = okR (.ref h.length) h' ∧ Kept h.length h h' ∧ Rep lo h' v (.ref h.length)
  | .error e => ∃ args h', r = excR (.exc (excName e) args) h' ∧ Kept h.length h h' ∧ e = .valueError

end Libsnmp.Src
