import Verif.Spec.SourceGraph
import Verif.Spec.SourceMgr
import Verif.Model.Program

/-!
# Programs that make, change and encode objects, on the source text

The operations of `Model/Program.lean`, each executed by the interpreter.
-/

namespace Libsnmp.Src
open Libsnmp

/-- The argument of `ObjectID` as a value: None, an int, a str or a tuple. -/
def argAt : Arg → Option V
  | .none => some .none
  | .int n => some (.int n)
  | .str s => some (.str s)
  | .tuple l => some (.tuple (l.map V.int))
  | _ => none

/-- The package is loaded, and the graph lies in the heap. -/
structure Lies (φ : Layout) (m : Mem) (h : Heap) : Prop where
  base : Base h
  lays : Lays (· < 9) φ m h

/-- `x.name = y`. -/
def setField (cfg : Cfg) (x : V) (name : String) (y : V) (h : Heap) : R V :=
  match block program cfg .v1 [("x", some x), ("y", some y)] [.assign (.attr (.loc "x") name) (.loc "y")] h with
  | some (h', _, .next) => okR .none h'
  | some (h', _, .exc e) => excR e h'
  | _ => stuckR h

/-- `x.name`. -/
def getField (x : V) (name : String) (h : Heap) : R V := orRaise (getattr program h x name) "AttributeError" h

/-- What the variables hold. -/
def valsOf (vals : List V) : List Nat → Option (List V)
  | [] => some []
  | v :: vs => match vals[v]?, valsOf vals vs with
    | some x, some xs => some (x :: xs)
    | _, _ => none

/-- Python's `l[:] = [x, ...]` for a list. -/
def setAll (x : V) (ys : List V) (h : Heap) : R V :=
  match x with
  | .ref b => match h[b]? with
    | some (.list _) => okR .none (h.set b (.list ys))
    | _ => stuckR h
  | _ => stuckR h

/-- An operation of a program whose variables hold `vals`, executed on the source text. -/
def perform (cfg : Cfg) (vals : List V) (op : POp) (h : Heap) : R V :=
  match op with
  | .constNone => okR .none h
  | .constInt n => okR (.int n) h
  | .constStr s => okR (.str s) h
  | .list vs => match valsOf vals vs with
    | some xs => okR (.ref h.length) (h ++ [.list xs])
    | none => stuckR h
  | .integer c n => call program cfg (.cls (cid (.int c))) [.int n] h
  | .octets c s => call program cfg (.cls (cid (.oct c))) [.str s] h
  | .oid arg => match argAt arg with
    | some x => call program cfg (.cls (cid .oid)) [x] h
    | none => stuckR h
  | .null c => call program cfg (.cls (cid (.null c))) [] h
  | .sequence v => match vals[v]? with
    | some x => call program cfg (.cls (cid (.seq .sequence))) [x] h
    | none => stuckR h
  | .varBind c v w => match vals[v]?, vals[w]? with
    | some x, some y => call program cfg (.cls (cid (.seq c))) [x, y] h
    | _, _ => stuckR h
  | .varBindList c v => match vals[v]? with
    | some x => call program cfg (.cls (cid (.seq c))) [x] h
    | none => stuckR h
  | .pdu c a b d v => match vals[v]? with
    | some x => call program cfg (.cls (cid (.seq c))) [.int a, .int b, .int d, x] h
    | none => stuckR h
  | .trap e a g s t v => match valsOf vals [e, a, g, s, t, v] with
    | some xs => call program cfg (.cls (cid (.seq .trapPDU))) xs h
    | none => stuckR h
  | .message c version community v => match vals[v]? with
    | some x => call program cfg (.cls (cid (.seq c))) [.int version, .str community, x] h
    | none => stuckR h
  | .attr v f => match vals[v]? with
    | some x => getField x f.name h
    | none => stuckR h
  | .item v i => match vals[v]? with
    | some x => getitem program cfg x (.int i) h
    | none => stuckR h
  | .value v => match vals[v]? with
    | some x => getField x "value" h
    | none => stuckR h
  | .setAttr v f w => match vals[v]?, vals[w]? with
    | some x, some y => setField cfg x f.name y h
    | _, _ => stuckR h
  | .setNum v n => match vals[v]? with
    | some x => setField cfg x "value" (.int n) h
    | none => stuckR h
  | .setText v s => match vals[v]? with
    | some x => setField cfg x "value" (.str s) h
    | none => stuckR h
  | .setIds v ids => match vals[v]? with
    | some x => setField cfg x "value" (.ref h.length) (h ++ [.list (ids.map V.int)])
    | none => stuckR h
  | .setList v vs => match vals[v]?, valsOf vals vs with
    | some x, some ys => setAll x ys h
    | _, _ => stuckR h
  | .setItems v w => match vals[v]?, vals[w]? with
    | some x, some y => setField cfg x "value" y h
    | _, _ => stuckR h
  | .append v w => match vals[v]?, vals[w]? with
    | some x, some y => callMethod cfg x "append" [y] h
    | _, _ => stuckR h
  | .encode _ v => match vals[v]? with
    | some x => callMethod cfg x "encode" [] h
    | none => stuckR h
  | _ => stuckR h

/-- The variable holds an object of such a class. -/
def _root_.Libsnmp.Prog.holds (p : Prog) (v : Nat) (ok : Cls → Bool) : Prop :=
  ∃ a o, p.vars[v]? = some (.obj a) ∧ p.mem.objs[a]? = some o ∧ ok o.cls = true

/-- The Sequences except `SequenceOf` itself, which the programs do not make. -/
def _root_.Libsnmp.Cls.takes : Cls → Bool
  | .seq c => c != .sequenceOf
  | _ => false

/-- The operations that the theorem speaks of, in the state `p`. -/
def Spoken (cfg : Cfg) (p : Prog) : POp → Prop
  | .constNone | .constInt _ | .constStr _ | .integer _ _ | .null _ => True
  | .list vs => ∃ rs, p.refs vs = some rs
  | .octets c s => c = .octetString ∨ c = .opaque ∨ ((c = .ipAddress ∨ c = .networkAddress) ∧ Short cfg s)
  | .oid arg => (∃ x, argAt arg = some x) ∧ ∀ s, arg = .str s → Short cfg s
  | .sequence v => ∃ l, p.vars[v]? = some (.list l)
  | .varBind c v w => (Cls.seq c).isSubclass (.seq .varBind) = true ∧ (∃ r, p.vars[v]? = some r) ∧ ∃ s, p.vars[w]? = some s
  | .varBindList c v => (Cls.seq c).isSubclass (.seq .varBindList) = true ∧ ∃ r, p.vars[v]? = some r
  | .pdu c _ _ _ v => ((Cls.seq c).isSubclass (.seq .pdu) || (Cls.seq c).isSubclass (.seq .bulkPDU)) = true ∧
      ∃ r, p.vars[v]? = some r
  | .trap e a g s t v => ∃ rs, p.refs [e, a, g, s, t, v] = some rs
  | .message c _ _ v => (Cls.seq c).isSubclass (.seq .message) = true ∧ ∃ r, p.vars[v]? = some r
  | .attr v _ => p.holds v fun _ => true
  | .item v _ => ∃ r l, p.vars[v]? = some r ∧ p.mem.items r = some l
  | .value v => p.holds v Cls.isSeq
  | .setAttr v _ w => p.holds v (fun _ => true) ∧ ∃ r, p.vars[w]? = some r
  | .setNum v _ => p.holds v Cls.isInt
  | .setText v _ => p.holds v Cls.isOct
  | .setIds v _ => p.holds v Cls.isOid
  | .setList v vs => (∃ l, p.vars[v]? = some (.list l)) ∧ ∃ rs, p.refs vs = some rs
  | .setItems v w => p.holds v Cls.isSeq ∧ ∃ l, p.vars[w]? = some (.list l)
  | .append v w => ((∃ l, p.vars[v]? = some (.list l)) ∨ p.holds v Cls.takes) ∧ ∃ r, p.vars[w]? = some r
  | .encode d v => ∃ a, p.vars[v]? = some (.obj a) ∧ (gEncode d p.mem (.obj a)).2 ≠ .error .recursionError ∧ Modest d p.mem (.obj a)
  | _ => False

/-- The state of a program of the model lies in the heap, and its variables hold these values. -/
def Sim (p : Prog) (vals : List V) (h : Heap) : Prop := ∃ φ, Lies φ p.mem h ∧ List.Forall₂ (RefAt φ) p.vars vals

/-- The outcome of an operation, as the caller sees it. -/
def Seen (r : R V) : Except Exc Ref → Prop
  | .ok x => ∃ y h, r = okR y h ∧ (x = .none → y = .none) ∧ (∀ n, x = .int n → y = .int n) ∧ (∀ s, x = .str s → y = .str s) ∧
      (∀ a, x = .obj a ∨ x = .list a → ∃ q, y = .ref q)
  | .error e => ∃ args h, r = excR (.exc (excName e) args) h

/-- The outcomes of a history of the model. -/
def _root_.Libsnmp.Prog.trace (p : Prog) : List POp → List (Except Exc Ref)
  | [] => []
  | op :: ops => (p.step op).2 :: Prog.trace (p.step op).1 ops

/-- The outcomes of a history, executed on the source text; the program goes on after an exception. -/
def performAll (cfg : Cfg) (vals : List V) (h : Heap) : List POp → List (R V)
  | [] => []
  | op :: ops => perform cfg vals op h :: match perform cfg vals op h with
    | some (h', .ok x) => performAll cfg (vals ++ [x]) h' ops
    | some (h', .exc _) => performAll cfg vals h' ops
    | _ => []

/-- Every operation of the history is one that the theorem speaks of. -/
def SpokenAll (cfg : Cfg) (p : Prog) : List POp → Prop
  | [] => True
  | op :: ops => Spoken cfg p op ∧ SpokenAll cfg (p.step op).1 ops

end Libsnmp.Src
