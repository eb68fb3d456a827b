import Verif.Spec.SourceOps
import Verif.Model.Manager

/-!
# A manager object in the heap

`MgrRep` says when an object in the heap is a manager of the model (`Model/Manager.lean`): its counter, its queue, its dictionary of
callbacks and its two functions are those of the model's state.  `Does` says what a call of a request method must do.
-/

namespace Libsnmp.Src
open Libsnmp

/-- Where the `class` statement of a manager class stands. -/
def mgrCid : Libsnmp.Kind → CId
  | .v1 => (.v1, 19)
  | .v2 => (.v2, 24)
  | .sm => (.snmpmanager, 37)

/-- The attributes of manager objects: what the package's code sets, and what `asyncore.dispatcher` sets. -/
def mgrNames : List String :=
  ["queueEmpty", "outbound", "callbacks", "trapCallback", "nextRequestID", "cb_fun", "cb_ctx", "timeout", "manager",
   "_map", "_fileno", "socket", "connected", "accepting", "connecting", "closing", "addr"]

/-- What the model's names of addresses and functions stand for. -/
structure Names where
  addr : Nat → V
  fn : Nat → V

def Names.opt (nm : Names) : Option Nat → V
  | none => .none
  | some n => nm.fn n

/-- An item of the queue: a message, or None, and an address. -/
def QItem (nm : Names) (h : Heap) : Option Msg × Nat → V → Prop
  | (none, n), x => x = .tuple [.none, nm.addr n]
  | (some m, n), x => ∃ b, x = .tuple [.ref b, nm.addr n] ∧ RepMsg 9 h m b

/-- The keys that the methods of a class put into `callbacks`: numbers, or (snmpManager) Integer objects. -/
def GoodKey : Libsnmp.Kind → Val → Prop
  | .sm, v => ∃ c n, v = .integer c n
  | _, v => ∃ n, v = .int n

/-- The object at `a`, with the queue at `q` and the dictionary at `d`, is a manager in the state `s`. -/
structure MgrAt (nm : Names) (env : Libsnmp.Env) (h : Heap) (a : Nat) {k : Libsnmp.Kind} (s : Mgr k) (attrs : List (String × V))
    (q d : Nat) : Prop where
  low : 9 ≤ a
  cell : h[a]? = some (.inst (mgrCid k) attrs)
  names : ∀ p ∈ attrs, p.1 ∈ mgrNames
  next : attrs.lookup "nextRequestID" = some (.int s.nextRequestID) ∨
    attrs.lookup "nextRequestID" = none ∧ s.nextRequestID = 0        -- the class attribute
  outbound : attrs.lookup "outbound" = some (.ref q)
  qlow : 9 ≤ q
  queue : ∃ l, h[q]? = some (.queue l) ∧ List.Forall₂ (QItem nm h) s.outbound l
  callbacks : attrs.lookup "callbacks" = some (.ref d)
  dlow : 9 ≤ d
  dict : ∃ es, h[d]? = some (.dict es) ∧ List.Forall₂ (fun p e => Rep 9 h p.1 e.1 ∧ e.2 = nm.fn p.2) s.callbacks es
  keys : ∀ p ∈ s.callbacks, GoodKey k p.1
  once : s.callbacks.Pairwise fun p p' => sameKey p.1 p'.1 = false
  trap : attrs.lookup "trapCallback" = some (nm.opt env.trapCallback)
  empty : attrs.lookup "queueEmpty" = some (nm.opt env.queueEmpty)

/-- The object at `a` is a manager in the state `s`. -/
def MgrRep (nm : Names) (env : Libsnmp.Env) (h : Heap) (a : Nat) {k : Libsnmp.Kind} (s : Mgr k) : Prop :=
  ∃ attrs q d, MgrAt nm env h a s attrs q d

/-- The object at `a` is still of its class, and has all its attributes apart from `nextRequestID`: the same queue, the same dictionary,
the same functions, and what `asynrole.Manager.__init__` set. -/
def Wires (a : Nat) (h h' : Heap) : Prop :=
  ∀ c attrs, h[a]? = some (.inst c attrs) → ∃ attrs', h'[a]? = some (.inst c attrs') ∧
    ∀ name, name ≠ "nextRequestID" → attrs'.lookup name = attrs.lookup name

/-- From the heap `h` to `h'`, only the manager at `a`, its queue and its dictionary have changed, and of its attributes only
`nextRequestID`. -/
structure Only (a : Nat) (h h' : Heap) : Prop where
  base : Base h'
  len : h.length ≤ h'.length
  same : ∀ b, 9 ≤ b → b < h.length → h'[b]? = h[b]? ∨ b = a ∨
    ∃ c attrs, h[a]? = some (.inst c attrs) ∧ (attrs.lookup "outbound" = some (.ref b) ∨ attrs.lookup "callbacks" = some (.ref b))
  wires : Wires a h h'

/-- What a call made: a result that `T` relates to the model's, or the model's exception; `h'` is the heap afterwards. -/
def Outcome {α : Type} (T : Heap → α → V → Prop) (h' : Heap) (r : R V) : Except Exc α → Prop
  | .ok v => ∃ x, r = okR x h' ∧ T h' v x
  | .error e => ∃ x, r = excR x h' ∧ Raised h' e x

/-- What a request method of the manager at `a` must do. -/
def Does (nm : Names) (env : Libsnmp.Env) (h : Heap) (a : Nat) {k : Libsnmp.Kind} (r : R V) (m : Except Exc Val × Mgr k) : Prop :=
  ∃ h', Only a h h' ∧ MgrRep nm env h' a m.2 ∧ Outcome (Rep 9) h' r m.1

/-- A list of variable bindings, as an argument: a list, or an object of a class of sequences. -/
def RepVbs (h : Heap) (vs : List Val) (x : V) : Prop :=
  (∃ b l, x = .ref b ∧ 9 ≤ b ∧ h[b]? = some (.list l) ∧ RepAll 9 h vs l) ∨ ∃ c, Rep 9 h (.seq c vs) x

/-- An argument of a constructor whose list, if it is one, is no part of the fixed objects. -/
def ArgAt (h : Heap) (arg : Arg) (x : V) : Prop := RepArg 9 h arg x ∧ ∀ b, x = .ref b → 9 ≤ b

/-- A list of object identifiers, as an argument: a list, a tuple, or a text, which is taken for its characters. -/
def RepOids (h : Heap) (args : List Arg) (x : V) : Prop :=
  (∃ b l, x = .ref b ∧ 9 ≤ b ∧ h[b]? = some (.list l) ∧ List.Forall₂ (ArgAt h) args l) ∨
  (∃ l, x = .tuple l ∧ List.Forall₂ (ArgAt h) args l) ∨
  ∃ t : Str, x = .str t ∧ args = t.map fun c => .str [c]

end Libsnmp.Src
