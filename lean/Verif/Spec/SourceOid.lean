import Verif.Spec.Source
import Verif.Model.Heap

/-!
# A program that uses ObjectIDs, on the source text

The operations are those of `OidOp` (`Model/Heap.lean`); here each is a piece of client code that the interpreter runs on the
source text.
-/

namespace Libsnmp.Src
open Libsnmp

/-- The heap, and where the client's ObjectIDs and lists are. -/
structure SrcMem where
  heap : Heap
  objs : List Nat
  lists : List Nat

/-- A constructor argument that is not an object of the heap. -/
def argV : Arg → V
  | .str s => .str s
  | .int n => .int n
  | .tuple l => .tuple (l.map V.int)
  | _ => .none

/-- With the object `i` of the client; the client has an IndexError if there is none. -/
def withAddr (l : List Nat) (i : Nat) (h : Heap) (f : V → R V) : R V :=
  match l[i]? with
  | some a => f (.ref a)
  | none => raiseR "IndexError" h

/-- The code of the client. -/
def clientCode (cfg : Cfg) (m : SrcMem) : OidOp → R V
  | .newList l => alloc (.list (l.map V.int)) m.heap
  | .setList i l => match m.lists[i]? with
    | some a => okR .none (m.heap.set a (.list (l.map V.int)))
    | none => raiseR "IndexError" m.heap
  | .construct arg => call program cfg (.cls (cid .oid)) [argV arg] m.heap
  | .fromList i => withAddr m.lists i m.heap fun x => call program cfg (.cls (cid .oid)) [x] m.heap
  | .fromObj j => withAddr m.objs j m.heap fun x => call program cfg (.cls (cid .oid)) [x] m.heap
  | .copy j => withAddr m.objs j m.heap fun x => callMethod cfg x "copy" [] m.heap
  | .slice j start stop => withAddr m.objs j m.heap fun x => slice program cfg x (.int start) (.int stop) m.heap
  | .toObjectID j => withAddr m.objs j m.heap fun x => callMethod cfg x "toObjectID" [] m.heap
  | .decoded s => bindR (call program cfg (.cls (cid .oid)) [] m.heap) fun x h => callMethod cfg x "decodeContents" [.str s] h
  | .append j n => withAddr m.objs j m.heap fun x => callMethod cfg x "append" [.int n] m.heap
  | .appendOther j => withAddr m.objs j m.heap fun x => callMethod cfg x "append" [.none] m.heap
  | .extend j k => withAddr m.objs j m.heap fun x => withAddr m.objs k m.heap fun y => callMethod cfg x "extend" [y] m.heap
  | .extendList j i => withAddr m.objs j m.heap fun x => withAddr m.lists i m.heap fun y => callMethod cfg x "extend" [y] m.heap
  | .delItem j i => withAddr m.objs j m.heap fun x => callMethod cfg x "__delitem__" [.int i] m.heap

/-- Operations that give the client a new object. -/
def makesOid : OidOp → Bool
  | .construct _ | .fromList _ | .fromObj _ | .copy _ | .slice _ _ _ | .toObjectID _ | .decoded _ => true
  | _ => false

/-- The client remembers where its new list or its new ObjectID is. -/
def SrcMem.keep (m : SrcMem) (op : OidOp) (v : V) (h : Heap) : SrcMem :=
  match op, v with
  | .newList _, .ref a => { heap := h, objs := m.objs, lists := m.lists ++ [a] }
  | op, .ref a => { heap := h, objs := if makesOid op then m.objs ++ [a] else m.objs, lists := m.lists }
  | _, _ => { m with heap := h }

/-- One operation: what the client has afterwards, and the exception if there was one.  `none`: it does not end, or the
interpreter does not know what to do. -/
def SrcMem.step (cfg : Cfg) (m : SrcMem) (op : OidOp) : Option (SrcMem × Option V) :=
  match clientCode cfg m op with
  | some (h, .ok v) => some (m.keep op v h, none)
  | some (h, .exc e) => some ({ m with heap := h }, some e)
  | _ => none

/-- A history. -/
def SrcMem.run (cfg : Cfg) (m : SrcMem) : List OidOp → Option SrcMem
  | [] => some m
  | op :: ops => match m.step cfg op with
    | some (m, _) => SrcMem.run cfg m ops
    | none => none

/-- Texts have no more digits than `int()` accepts; lists and objects go to the constructor by `fromList` and `fromObj`, and bytes
are not in the interpreter's language. -/
def Fits (cfg : Cfg) : OidOp → Prop
  | .construct (.str s) => cfg.digits = 0 ∨ (s.filter isDigit).length ≤ cfg.digits
  | .construct (.list _) | .construct (.obj _) | .construct (.bytes _) => False
  | _ => True

/-- What the client sees is what the model says. -/
structure SameOids (s : OidMem) (m : SrcMem) : Prop where
  objs : m.objs.length = s.objs.length
  lists : m.lists.length = s.lists.length
  obj : ∀ j a : Nat, m.objs[j]? = some a → ∃ v, s.obj j = some v ∧ Rep 9 m.heap (.oid v) (.ref a)
  list : ∀ i a : Nat, m.lists[i]? = some a → ∃ l, s.list i = some l ∧ m.heap[a]? = some (.list (l.map V.int))

/-- The outcome of an operation: no exception, or the exception of the model. -/
def SameEnd : Except Exc Unit → Option V → Prop
  | .ok _, r => r = none
  | .error e, r => ∃ args, r = some (.exc (excName e) args)

end Libsnmp.Src
