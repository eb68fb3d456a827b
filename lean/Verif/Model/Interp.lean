import Verif.Model.Lang
import Verif.Model.Eq

/-!
# The interpreter

All functions are defined together, as least fixed points: an equation per construct, and `none` for a run that never ends.
-/

namespace Libsnmp.Src
open Lean.Order

section mono
universe u
variable {α β : Type} {γ : Sort u} [Lean.Order.PartialOrder γ]

private theorem some_le {δ : Type} {x : Option δ} {y : δ} (h : (some y) ⊑ x) : x = some y := by
  cases h; rfl

@[partial_fixpoint_monotone]
theorem bindR_mono (x : γ → R α) (f : γ → α → Heap → R β) (hx : monotone x) (hf : monotone f) :
    monotone fun c => bindR (x c) (f c) := by
  intro a b hab
  have h1 := hx a b hab
  dsimp only
  cases hxa : x a with
  | none => exact FlatOrder.rel.bot
  | some r =>
    rw [hxa] at h1
    rw [some_le h1]
    obtain ⟨h, o⟩ := r
    cases o with
    | ok v => exact hf a b hab v h
    | exc e => exact FlatOrder.rel.refl
    | stuck => exact FlatOrder.rel.refl

@[partial_fixpoint_monotone]
theorem bindE_mono (x : γ → R α) (env : Env) (f : γ → α → Heap → S) (hx : monotone x) (hf : monotone f) :
    monotone fun c => bindE (x c) env (f c) := by
  intro a b hab
  have h1 := hx a b hab
  dsimp only
  cases hxa : x a with
  | none => exact FlatOrder.rel.bot
  | some r =>
    rw [hxa] at h1
    rw [some_le h1]
    obtain ⟨h, o⟩ := r
    cases o with
    | ok v => exact hf a b hab v h
    | exc e => exact FlatOrder.rel.refl
    | stuck => exact FlatOrder.rel.refl

@[partial_fixpoint_monotone]
theorem bindS_mono (x : γ → S) (f : γ → Env → Heap → S) (hx : monotone x) (hf : monotone f) :
    monotone fun c => bindS (x c) (f c) := by
  intro a b hab
  have h1 := hx a b hab
  dsimp only
  cases hxa : x a with
  | none => exact FlatOrder.rel.bot
  | some r =>
    rw [hxa] at h1
    rw [some_le h1]
    obtain ⟨h, env, o⟩ := r
    cases o with
    | next => exact hf a b hab env h
    | _ => exact FlatOrder.rel.refl

@[partial_fixpoint_monotone]
theorem bindLoop_mono (x : γ → S) (f : γ → Env → Heap → S) (hx : monotone x) (hf : monotone f) :
    monotone fun c => bindLoop (x c) (f c) := by
  intro a b hab
  have h1 := hx a b hab
  dsimp only
  cases hxa : x a with
  | none => exact FlatOrder.rel.bot
  | some r =>
    rw [hxa] at h1
    rw [some_le h1]
    obtain ⟨h, env, o⟩ := r
    cases o with
    | next => exact hf a b hab env h
    | _ => exact FlatOrder.rel.refl

@[partial_fixpoint_monotone]
theorem bindTry_mono (x : γ → S) (k : V → Heap → Bool) (f : γ → V → Env → Heap → S) (hx : monotone x) (hf : monotone f) :
    monotone fun c => bindTry (x c) k (f c) := by
  intro a b hab
  have h1 := hx a b hab
  dsimp only
  cases hxa : x a with
  | none => exact FlatOrder.rel.bot
  | some r =>
    rw [hxa] at h1
    rw [some_le h1]
    obtain ⟨h, env, o⟩ := r
    cases o with
    | exc e =>
      simp only [bindTry]
      split
      · exact hf a b hab e env h
      · exact FlatOrder.rel.refl
    | _ => exact FlatOrder.rel.refl

@[partial_fixpoint_monotone]
theorem bindAll_mono (x : γ → R α) (f : γ → α → Heap → R β) (g : γ → V → Heap → R β) (hx : monotone x) (hf : monotone f)
    (hg : monotone g) : monotone fun c => bindAll (x c) (f c) (g c) := by
  intro a b hab
  have h1 := hx a b hab
  dsimp only
  cases hxa : x a with
  | none => exact FlatOrder.rel.bot
  | some r =>
    rw [hxa] at h1
    rw [some_le h1]
    obtain ⟨h, o⟩ := r
    cases o with
    | ok v => exact hf a b hab v h
    | exc e => exact hg a b hab e h
    | stuck => exact FlatOrder.rel.refl

@[partial_fixpoint_monotone]
theorem result_mono (x : γ → S) (hx : monotone x) : monotone fun c => result (x c) := by
  intro a b hab
  have h1 := hx a b hab
  dsimp only
  cases hxa : x a with
  | none => exact FlatOrder.rel.bot
  | some r =>
    rw [hxa] at h1
    rw [some_le h1]
    exact FlatOrder.rel.refl

@[partial_fixpoint_monotone]
theorem branch_mono {δ : Type} [Lean.Order.PartialOrder δ] (c : Bool) (x y : γ → δ) (hx : monotone x) (hy : monotone y) :
    monotone fun s => branch c (x s) (y s) := by
  cases c
  · exact hy
  · exact hx

end mono

/-- Turns an optional value into an outcome. -/
def orRaise {α} (x : Option α) (name : String) (h : Heap) : R α :=
  match x with
  | some a => okR a h
  | none => raiseR name h

def orStuck {α} (x : Option α) (h : Heap) : R α :=
  match x with
  | some a => okR a h
  | none => stuckR h

/-- What a value is, for the operations that treat instances of the package's classes differently. -/
inductive Kind where
  | inst (c : CId) | list (l : List V) | dict (l : List (V × V)) | other

def kind (h : Heap) : V → Kind
  | .ref a => match h[a]? with
    | some (.inst c _) => .inst c
    | some (.list l) => .list l
    | some (.dict l) => .dict l
    | _ => .other
  | _ => .other

variable (P : Program) (cfg : Cfg)

mutual

/-- The value of an expression. -/
def eval (m : Module) (env : Env) (e : Expr) (h : Heap) : R V :=
  match e with
  | .none => okR .none h
  | .bool b => okR (.bool b) h
  | .int n => okR (.int n) h
  | .str s => okR (.str s) h
  | .loc x => orRaise (env.get x) "UnboundLocalError" h
  | .glob x => orRaise (P.glob cfg m x) "NameError" h
  | .attr e a => bindR (eval m env e h) fun v h => orRaise (getattr P h v a) "AttributeError" h
  | .index e i => bindR (eval m env e h) fun v h => bindR (eval m env i h) fun w h => getitem v w h
  | .slice e lo hi => bindR (eval m env e h) fun v h => bindR (eval m env lo h) fun i h =>
      bindR (eval m env hi h) fun j h => slice v i j h
  | .call f args => bindR (eval m env f h) fun v h => bindR (evals m env args h) fun vs h => call v vs h
  | .bin op a b => bindR (eval m env a h) fun v h => bindR (eval m env b h) fun w h => binop op v w h
  | .neg e => bindR (eval m env e h) fun v h => match v with
    | .int n => okR (.int (-n)) h
    | _ => stuckR h
  | .not e => bindR (eval m env e h) fun v h => bindR (truth v h) fun b h => okR (.bool (!b)) h
  | .and a b => bindR (eval m env a h) fun v h => bindR (truth v h) fun t h => branch t (eval m env b h) (okR v h)
  | .or a b => bindR (eval m env a h) fun v h => bindR (truth v h) fun t h => branch t (okR v h) (eval m env b h)
  | .cmp op a b => bindR (eval m env a h) fun v h => bindR (eval m env b h) fun w h => compare op v w h
  | .cmp2 op1 op2 a b c => bindR (eval m env a h) fun v h => bindR (eval m env b h) fun w h =>
      bindR (compare op1 v w h) fun r h => bindR (truth r h) fun t h =>
        branch t (bindR (eval m env c h) fun x h => compare op2 w x h) (okR r h)
  | .ife c a b => bindR (eval m env c h) fun v h => bindR (truth v h) fun t h => branch t (eval m env a h) (eval m env b h)
  | .comp elt x it => bindR (eval m env it h) fun v h => bindR (orRaise (iterOf P h v) "TypeError" h) fun i h =>
      bindR (comp m ((x, none) :: env) elt x i [] h) fun l h => alloc (.list l) h
  | .lam ps body => okR (.lam ps body m env) h
  | .tuple es => bindR (evals m env es h) fun vs h => okR (.tuple vs) h
  | .list es => bindR (evals m env es h) fun vs h => alloc (.list vs) h
  | .callK f args ks vs => bindR (eval m env f h) fun v h => bindR (evals m env args h) fun ws h =>
      bindR (evals m env vs h) fun xs h => bindR (orRaise (P.place v ws (ks.zip xs)) "TypeError" h) fun all h => call v all h
  | .emptyDict => alloc (.dict []) h
  | .float a b => okR (.quot a b) h
partial_fixpoint

/-- The values of several expressions. -/
def evals (m : Module) (env : Env) (es : List Expr) (h : Heap) : R (List V) :=
  match es with
  | [] => okR [] h
  | e :: es => bindR (eval m env e h) fun v h => bindR (evals m env es h) fun vs h => okR (v :: vs) h
partial_fixpoint

/-- The elements of a comprehension, after `acc`. -/
def comp (m : Module) (env : Env) (elt : Expr) (x : String) (it : It) (acc : List V) (h : Heap) : R (List V) :=
  bindR (next it h) fun o h => match o with
    | none => okR acc h
    | some (v, it) => bindR (eval m (env.set x v) elt h) fun w h => comp m env elt x it (acc ++ [w]) h
partial_fixpoint

/-- The next element of an iterator. -/
def next (it : It) (h : Heap) : R (Option (V × It)) :=
  match it with
  | .vals [] => okR none h
  | .vals (v :: l) => okR (some (v, .vals l)) h
  | .list a i => match h[a]? with
    | some (.list l) => match l[i]? with
      | some v => okR (some (v, .list a (i + 1))) h
      | none => okR none h
    | _ => stuckR h
  | .inst self i => bindAll (getitem self (.int i) h) (fun v h => okR (some (v, .inst self (i + 1))) h)
      fun e h => branch (caught (some "IndexError") e h) (okR none h) (excR e h)
partial_fixpoint

/-- All elements of an iterator, after `acc`. -/
def drain (it : It) (acc : List V) (h : Heap) : R (List V) :=
  bindR (next it h) fun o h => match o with
    | none => okR acc h
    | some (v, it) => drain it (acc ++ [v]) h
partial_fixpoint

/-- `map(f, it)`, after `acc`. -/
def mapAll (f : V) (it : It) (acc : List V) (h : Heap) : R (List V) :=
  bindR (next it h) fun o h => match o with
    | none => okR acc h
    | some (v, it) => bindR (call f [v] h) fun w h => mapAll f it (acc ++ [w]) h
partial_fixpoint

/-- `reduce(f, it, acc)`. -/
def reduce (f : V) (it : It) (acc : V) (h : Heap) : R V :=
  bindR (next it h) fun o h => match o with
    | none => okR acc h
    | some (v, it) => bindR (call f [acc, v] h) fun w h => reduce f it w h
partial_fixpoint

/-- `v[i]`. -/
def getitem (v i : V) (h : Heap) : R V :=
  match v with
  | .str s => match i with
    | .int n => orRaise ((itemAt s n).map fun c => V.str [c]) "IndexError" h
    | _ => raiseR "TypeError" h
  | .tuple l => match i with
    | .int n => orRaise (itemAt l n) "IndexError" h
    | _ => raiseR "TypeError" h
  | .registry => match i with
    | .int n => orRaise ((cfg.tag n).map V.cls) "KeyError" h
    | _ => stuckR h
  | .ref _ => match kind h v with
    | .list l => match i with
      | .int n => orRaise (itemAt l n) "IndexError" h
      | .slc lo hi => bindR (orStuck (sliceL l lo hi) h) fun l h => alloc (.list l) h
      | _ => raiseR "TypeError" h
    | .dict l => match i with
      | .ref _ => bindR (findKey l i h) fun o h => orRaise (o.bind fun n => l[n]?.map (·.2)) "KeyError" h
      | _ => orRaise (getKey l i) "KeyError" h
    | .inst c => match P.attr c "__getitem__" with
      | some (.func m l) => call (.func m l) [v, i] h
      | _ => raiseR "TypeError" h
    | .other => stuckR h
  | _ => raiseR "TypeError" h
partial_fixpoint

/-- `hash(v)` for a key of a dictionary.  (A class that defines `__eq__` and not `__hash__` makes its objects unhashable, and all
classes of ASN.1 objects do unless they come from Integer.) -/
def hashOf (v : V) (h : Heap) : R Int :=
  match v with
  | .int n => okR (intHash n) h
  | .ref _ => match kind h v with
    | .inst c => match P.attr c "__hash__" with
      | some (.func m l) => bindR (call (.func m l) [v] h) fun w h => match w with
        | .int n => okR n h
        | _ => raiseR "TypeError" h
      | _ => raiseR "TypeError" h
    | .other => stuckR h
    | _ => raiseR "TypeError" h
  | _ => stuckR h
partial_fixpoint

/-- The place of a key in a dictionary.  Simplification: the hashes of the stored keys are computed again. -/
def findKey (l : List (V × V)) (k : V) (h : Heap) : R (Option Nat) :=
  bindR (hashOf k h) fun x h => findFrom l 0 k x h
partial_fixpoint

def findFrom (l : List (V × V)) (n : Nat) (k : V) (x : Int) (h : Heap) : R (Option Nat) :=
  match l with
  | [] => okR none h
  | p :: l =>
    if identical p.1 k = some true then okR (some n) h
    else bindR (hashOf p.1 h) fun y h =>
      if x = y then bindR (equal p.1 k h) fun r h => bindR (truth r h) fun t h =>
        branch t (okR (some n) h) (findFrom l (n + 1) k x h)
      else findFrom l (n + 1) k x h
partial_fixpoint

/-- `v[i] = w`. -/
def store (v i w : V) (h : Heap) : R Unit :=
  match i with
  | .ref _ => match v with
    | .ref r => match kind h v with
      | .dict l => bindR (findKey l i h) fun o h => okR () (h.set r (.dict (match o with
          | some n => l.modify n fun p => (p.1, w)
          | none => l ++ [(i, w)])))
      | _ => setitem v i w h
    | _ => setitem v i w h
  | _ => setitem v i w h
partial_fixpoint

/-- `del v[i]`, for a dictionary. -/
def remove (v i : V) (h : Heap) : R Unit :=
  match v with
  | .ref r => match kind h v with
    | .dict l => match i with
      | .ref _ => bindR (findKey l i h) fun o h => match o with
        | some n => okR () (h.set r (.dict (l.eraseIdx n)))
        | none => raiseR "KeyError" h
      | _ => if (getKey l i).isSome then okR () (h.set r (.dict (l.filter fun p => !keyEq p.1 i))) else raiseR "KeyError" h
    | _ => stuckR h
  | _ => stuckR h
partial_fixpoint

/-- `v[i:j]`. -/
def slice (v i j : V) (h : Heap) : R V :=
  match v with
  | .str s => orStuck ((sliceL s i j).map V.str) h
  | .ref _ => match kind h v with
    | .list l => bindR (orStuck (sliceL l i j) h) fun l h => alloc (.list l) h
    | .inst c => match P.attr c "__getitem__" with
      | some (.func m l) => call (.func m l) [v, .slc i j] h
      | _ => raiseR "TypeError" h
    | _ => stuckR h
  | .none => raiseR "TypeError" h
  | _ => stuckR h
partial_fixpoint

/-- `bool(v)`. -/
def truth (v : V) (h : Heap) : R Bool :=
  match v with
  | .none => okR false h
  | .bool b => okR b h
  | .int n => okR (n != 0) h
  | .str s => okR (!s.isEmpty) h
  | .tuple l => okR (!l.isEmpty) h
  | .ref _ => match kind h v with
    | .list l => okR (!l.isEmpty) h
    | .dict l => okR (!l.isEmpty) h
    | .inst c => match P.attr c "__len__" with
      | some (.func m l) => bindR (call (.func m l) [v] h) fun w h => match w with
        | .int n => okR (n != 0) h
        | _ => stuckR h
      | _ => okR true h
    | .other => stuckR h
  | .func _ _ => okR true h
  | .meth _ _ _ => okR true h
  | .cls _ => okR true h
  | .ext _ => okR true h
  | _ => stuckR h
partial_fixpoint

/-- `len(v)`. -/
def len (v : V) (h : Heap) : R V :=
  match v with
  | .str s => okR (.int s.length) h
  | .tuple l => okR (.int l.length) h
  | .ref _ => match kind h v with
    | .list l => okR (.int l.length) h
    | .dict l => okR (.int l.length) h
    | .inst c => match P.attr c "__len__" with
      | some (.func m l) => call (.func m l) [v] h
      | _ => raiseR "TypeError" h
    | .other => stuckR h
  | _ => raiseR "TypeError" h
partial_fixpoint

/-- `str(v)`. -/
def toStr (v : V) (h : Heap) : R Str :=
  match v with
  | .none => okR (lit "None") h
  | .int n => branch (tooLong cfg.digits n) (raiseR "ValueError" h) (okR (pyStrInt n) h)
  | .str s => okR s h
  | .ref _ => match kind h v with
    | .inst c => match P.attr c "__str__" with
      | some (.func m l) => bindR (call (.func m l) [v] h) fun w h => match w with
        | .str s => okR s h
        | _ => raiseR "TypeError" h
      | _ => branch (P.isExc 8 c) (okR (cfg.repr v h) h) (stuckR h)
    | _ => stuckR h
  | .exc _ _ => okR (cfg.repr v h) h          -- the text of an exception: any
  | .builtin n => okR (lit "<class '" ++ lit n ++ lit "'>") h
  | _ => stuckR h
partial_fixpoint

/-- `int(v)`. -/
def toInt (v : V) (h : Heap) : R V :=
  match v with
  | .int n => okR (.int n) h
  | .quot a b => intOfFloat a b h
  | .str s => intOfStr cfg s h
  | .ref _ => match kind h v with
    | .inst c => match P.attr c "__int__" with
      | some (.func m l) => bindR (call (.func m l) [v] h) fun w h => match w with
        | .int n => okR (.int n) h
        | _ => stuckR h
      | _ => raiseR "TypeError" h
    | _ => raiseR "TypeError" h
  | .none => raiseR "TypeError" h
  | .tuple _ => raiseR "TypeError" h
  | _ => stuckR h
partial_fixpoint

/-- The text of a format, after its pieces are known. -/
def format (ps : List Piece) (args : List V) (h : Heap) : R Str :=
  match ps with
  | [] => match args with
    | [] => okR [] h
    | _ => raiseR "TypeError" h               -- not all arguments converted
  | .text s :: ps => bindR (format ps args h) fun t h => okR (s ++ t) h
  | .conv w p c :: ps => match args with
    | [] => raiseR "TypeError" h
    | v :: vs =>
      bindR
        (if c = 115 then bindR (toStr v h) fun s h => okR (convStr w p s) h
         else match v with
          | .int n => convInt cfg w p c n h
          | .str _ => raiseR "TypeError" h
          | .none => raiseR "TypeError" h
          | .ref _ => match kind h v with
            | .inst k => match P.attr k "__int__" with
              | some (.func m l) => if c = 100 then bindR (call (.func m l) [v] h) fun x h => match x with
                  | .int n => convInt cfg w p c n h
                  | _ => stuckR h
                else stuckR h
              | _ => raiseR "TypeError" h
            | _ => stuckR h
          | _ => stuckR h) fun s h =>
      bindR (format ps vs h) fun t h => okR (s ++ t) h
partial_fixpoint

/-- `a op b`. -/
def binop (op : BinOp) (a b : V) (h : Heap) : R V :=
  match a with
  | .int x => match b with
    | .int y => intOp op x y h
    | .str _ => raiseR "TypeError" h
    | .none => raiseR "TypeError" h
    | .ref _ => match kind h b with
      | .inst _ => raiseR "TypeError" h          -- no class of the package has `__radd__` and the like
      | _ => stuckR h
    | _ => stuckR h
  | .str s => match op with
    | .add => match b with
      | .str t => okR (.str (s ++ t)) h
      | _ => raiseR "TypeError" h
    | .mod => bindR (orStuck (pieces (s.length + 1) s) h) fun ps h =>
        bindR (format ps (match b with | .tuple l => l | b => [b]) h) fun t h => okR (.str t) h
    | _ => stuckR h
  | .none => raiseR "TypeError" h
  | .ref _ => match kind h a with
    | .inst c => match op with
      | .add => match P.attr c "__add__" with
        | some (.func m l) => call (.func m l) [a, b] h
        | _ => raiseR "TypeError" h
      | .sub => match P.attr c "__sub__" with
        | some (.func m l) => call (.func m l) [a, b] h
        | _ => raiseR "TypeError" h
      | _ => raiseR "TypeError" h
    | _ => stuckR h
  | .quot x y => match b with
    | .int n => match op with
      | .mul => floatTimes x y n h
      | _ => stuckR h
    | _ => stuckR h
  | _ => stuckR h
partial_fixpoint

/-- `a op b` for a comparison. -/
def compare (op : CmpOp) (a b : V) (h : Heap) : R V :=
  match op with
  | .is => bindR (orStuck (identical a b) h) fun t h => okR (.bool t) h
  | .isNot => bindR (orStuck (identical a b) h) fun t h => okR (.bool (!t)) h
  | .eq => equal a b h
  | .ne => match kind h a with
    | .inst c => match P.attr c "__ne__" with
      | some (.func m l) => match kind h b with
        | .inst d =>
          if d != c && P.sub d c then match P.attr d "__ne__" with
            | some (.func m' l') => call (.func m' l') [b, a] h
            | _ => stuckR h
          else call (.func m l) [a, b] h
        | _ => call (.func m l) [a, b] h
      | _ => stuckR h
    | _ => match kind h b with
      | .inst c => match P.attr c "__ne__" with
        | some (.func m l) => call (.func m l) [b, a] h
        | _ => stuckR h
      | _ => bindR (equal a b h) fun r h => bindR (truth r h) fun t h => okR (.bool (!t)) h
  | op => match a with
    | .int x => match b with
      | .int y => bindR (orStuck (intCmp op x y) h) fun t h => okR (.bool t) h
      | .str _ => raiseR "TypeError" h
      | .none => raiseR "TypeError" h
      | .tuple _ => raiseR "TypeError" h
      | .ref _ => match kind h b with
        | .other => stuckR h
        | _ => raiseR "TypeError" h              -- no class of the package has an order
      | _ => stuckR h
    | .none => raiseR "TypeError" h
    | .str _ => match b with
      | .int _ => raiseR "TypeError" h
      | .none => raiseR "TypeError" h
      | _ => stuckR h
    | _ => stuckR h
partial_fixpoint

/-- `a == b`. -/
def equal (a b : V) (h : Heap) : R V :=
  match a with
  | .none => match b with
    | .none => okR (.bool true) h
    | .int _ => okR (.bool false) h
    | .str _ => okR (.bool false) h
    | .ref _ => match kind h b with
      | .list _ => okR (.bool false) h
      | .dict _ => okR (.bool false) h
      | .inst c => match P.attr c "__eq__" with
        | some (.func m l) => call (.func m l) [b, a] h
        | _ => stuckR h
      | .other => stuckR h
    | _ => stuckR h
  | .int x => match b with
    | .int y => okR (.bool (x == y)) h
    | .none => okR (.bool false) h
    | .str _ => okR (.bool false) h
    | .ref _ => match kind h b with
      | .list _ => okR (.bool false) h
      | .dict _ => okR (.bool false) h
      | .inst c => match P.attr c "__eq__" with
        | some (.func m l) => call (.func m l) [b, a] h
        | _ => stuckR h
      | .other => stuckR h
    | _ => stuckR h
  | .str s => match b with
    | .str t => okR (.bool (s == t)) h
    | .int _ => okR (.bool false) h
    | .none => okR (.bool false) h
    | .ref _ => match kind h b with
      | .list _ => okR (.bool false) h
      | .dict _ => okR (.bool false) h
      | .inst c => match P.attr c "__eq__" with
        | some (.func m l) => call (.func m l) [b, a] h
        | _ => stuckR h
      | .other => stuckR h
    | _ => stuckR h
  | .cls x => match b with
    | .cls y => okR (.bool (x == y)) h
    | .builtin _ => okR (.bool false) h
    | _ => stuckR h
  | .builtin x => match b with
    | .builtin y => okR (.bool (x == y)) h
    | .cls _ => okR (.bool false) h
    | _ => stuckR h
  | .ref _ => match kind h a with
    | .inst c => match P.attr c "__eq__" with
      | some (.func m l) => match kind h b with
        | .inst d =>
          -- a right operand of a proper subclass is asked first
          if d != c && P.sub d c then match P.attr d "__eq__" with
            | some (.func m' l') => call (.func m' l') [b, a] h
            | _ => stuckR h
          else call (.func m l) [a, b] h
        | _ => call (.func m l) [a, b] h
      | _ => stuckR h
    | .list l => match kind h b with
      | .list l' => if l.length = l'.length then equalAll l l' h else okR (.bool false) h
      | .inst c => match P.attr c "__eq__" with
        | some (.func m l) => call (.func m l) [b, a] h
        | _ => stuckR h
      | .dict _ => okR (.bool false) h
      | .other => match b with
        | .none => okR (.bool false) h
        | .int _ => okR (.bool false) h
        | .str _ => okR (.bool false) h
        | _ => stuckR h
    | _ => stuckR h
  | _ => stuckR h
partial_fixpoint

/-- Lists of the same length, element by element; the same object is taken to be equal to itself. -/
def equalAll (l l' : List V) (h : Heap) : R V :=
  match l, l' with
  | a :: l, b :: l' =>
    if identical a b = some true then equalAll l l' h
    else bindR (equal a b h) fun r h => bindR (truth r h) fun t h => branch t (equalAll l l' h) (okR (.bool false) h)
  | _, _ => okR (.bool true) h
partial_fixpoint

/-- `f(args)`. -/
def call (f : V) (args : List V) (h : Heap) : R V :=
  match f with
  | .func m l => match P.code m l with
    | some fn => match fn.enter args with
      | some env => result (block m env fn.body h)
      | none => raiseR "TypeError" h
    | none => stuckR h
  | .meth self m l => call (.func m l) (self :: args) h
  | .lam ps body m env =>
    if ps.length = args.length then eval m (ps.zip (args.map some) ++ env) body h else raiseR "TypeError" h
  | .cls c => match P.attr c "__init__" with
    | some (.func m l) =>
      bindR (call (.func m l) (.ref h.length :: args) (h ++ [.inst c (if P.isExc 8 c then [("args", .tuple args)] else [])]))
        fun _ h' => okR (.ref h.length) h'
    | _ => stuckR h
  | .builtin name => builtin name args h
  | .bmeth self name => method self name args h
  | .ref _ => match kind h f with
    | .inst c => match P.attr c "__call__" with
      | some (.func m l) => call (.func m l) (f :: args) h
      | _ => raiseR "TypeError" h
    | _ => raiseR "TypeError" h
  | .none => raiseR "TypeError" h
  | .int _ => raiseR "TypeError" h
  | .str _ => raiseR "TypeError" h
  | .ext n => cfg.ext n args h
  | _ => stuckR h
partial_fixpoint

/-- A built-in function, type or exception class. -/
def builtin (name : String) (args : List V) (h : Heap) : R V :=
  match name, args with
  | "log", _ => okR .none h
  | "ord", [v] => pyOrd v h
  | "chr", [v] => pyChrV v h
  | "len", [v] => len v h
  | "int", [v] => toInt v h
  | "str", [v] => bindR (toStr v h) fun s h => okR (.str s) h
  | "list", [v] => bindR (orRaise (iterOf P h v) "TypeError" h) fun it h =>
      bindR (drain it [] h) fun l h => alloc (.list l) h
  | "map", [f, v] => bindR (orRaise (iterOf P h v) "TypeError" h) fun it h =>
      bindR (mapAll f it [] h) fun l h => okR (.iter l) h
  | "reduce", [f, v, a] => bindR (orRaise (iterOf P h v) "TypeError" h) fun it h => reduce f it a h
  | "range", [.int n] => okR (.iter ((List.range n.toNat).map fun i : Nat => V.int i)) h
  | "range", [.int a, .int n] => okR (.iter ((List.range (n - a).toNat).map fun i : Nat => V.int (a + i))) h
  | "isinstance", [v, k] => bindR (orStuck (isInst P h v k) h) fun b h => okR (.bool b) h
  | "type", [v] => orStuck (typeOf h v) h
  | "copy.copy", [v] => match v with
    | .ref _ => match kind h v with
      | .list l => alloc (.list l) h
      | _ => stuckR h
    | .none => okR v h
    | .int _ => okR v h
    | .str _ => okR v h
    | .tuple _ => okR v h
    | _ => stuckR h
  | "oct", [.int n] => if 0 ≤ n then okR (.str (lit "0o" ++ (digits 8 n.toNat).map (· + 48))) h
      else okR (.str (lit "-0o" ++ (digits 8 n.natAbs).map (· + 48))) h
  | "hex", [.int n] => if 0 ≤ n then okR (.str (lit "0x" ++ (digits 16 n.toNat).map hexDigit)) h
      else okR (.str (lit "-0x" ++ (digits 16 n.natAbs).map hexDigit)) h
  | "ValueError", args => okR (.exc "ValueError" args) h
  | "TypeError", args => okR (.exc "TypeError" args) h
  | "NotImplementedError", args => okR (.exc "NotImplementedError" args) h
  | "KeyError", args => okR (.exc "KeyError" args) h
  | "IndexError", args => okR (.exc "IndexError" args) h
  | "UnicodeDecodeError", args => branch (args.length == 5) (okR (.exc "UnicodeDecodeError" args) h) (raiseR "TypeError" h)
  | "queue.Queue", [] => alloc (.queue []) h
  | "callable", [v] => bindR (orStuck (pyCallable P h v) h) fun b h => okR (.bool b) h
  | "issubclass", [c, d] => bindR (orStuck (pySubclass c d) h) fun b h => okR (.bool b) h
  | "float", [.int n] => floatOfInt n h
  | "float", [.str s] => floatOfStr s h
  | _, _ => stuckR h
partial_fixpoint

/-- A method of a list or a text. -/
def method (self : V) (name : String) (args : List V) (h : Heap) : R V :=
  if name = "__repr__" then match args with
    | [] => okR (.str (cfg.repr self h)) h
    | _ => raiseR "TypeError" h
  else match self with
  | .int n => if name = "__hash__" then okR (.int (intHash n)) h else stuckR h
  | .str s =>
    if name = "join" then match args with
      | [v] => bindR (orRaise (iterOf P h v) "TypeError" h) fun it h => bindR (drain it [] h) fun l h =>
          bindR (orRaise (allStr l) "TypeError" h) fun ss h => okR (.str (pyJoin s ss)) h
      | _ => raiseR "TypeError" h
    else strMethod s name args h
  | .ref a => match kind h self with
    | .list l =>
      if name = "extend" then match args with
        | [v] => bindR (orRaise (iterOf P h v) "TypeError" h) fun it h => bindR (drain it [] h) fun l' h =>
            okR .none (h.set a (.list (l ++ l')))
        | _ => raiseR "TypeError" h
      else listMethod a l name args h
    | .inst _ => cfg.ext name (self :: args) h     -- a method from outside the package
    | _ => match h[a]? with
      | some (.queue l) => queueMethod a l name args h
      | _ => stuckR h
  | _ => stuckR h
partial_fixpoint

/-- One statement. -/
def exec (m : Module) (env : Env) (s : Stmt) (h : Heap) : S :=
  match s with
  | .expr e => bindE (eval m env e h) env fun _ h => some (h, env, .next)
  | .assign t e => bindE (eval m env e h) env fun v h => assign m env t v h
  | .aug t op e => match t with
    | .loc x => bindE (orRaise (env.get x) "UnboundLocalError" h) env fun v h => bindE (eval m env e h) env fun w h =>
        bindE (binop op v w h) env fun r h => some (h, env.set x r, .next)
    | .attr o a => bindE (eval m env o h) env fun self h =>
        bindE (orRaise (getattr P h self a) "AttributeError" h) env fun v h => bindE (eval m env e h) env fun w h =>
        bindE (binop op v w h) env fun r h => bindE (setattr P self a r h) env fun _ h => some (h, env, .next)
    | _ => some (h, env, .stuck)
  | .ret e => bindE (eval m env e h) env fun v h => some (h, env, .ret v)
  | .raise e => bindE (eval m env e h) env fun v h => match v with
    | .exc _ _ => some (h, env, .exc v)
    | .builtin n => some (h, env, .exc (.exc n []))
    | .ref _ => match kind h v with
      | .inst c => branch (P.isExc 8 c) (some (h, env, .exc v)) (some (h, env, .exc (.exc "TypeError" [])))
      | _ => some (h, env, .exc (.exc "TypeError" []))
    | _ => some (h, env, .stuck)
  | .reraise => match env.get "$exc" with
    | some e => some (h, env, .exc e)
    | none => bindE (cfg.ext "sys.exc_info" [] h) env fun v h => match v with    -- the exception that a caller is handling
      | .tuple [_, e, _] => some (h, env, .exc e)
      | _ => some (h, env, .stuck)
  | .pass => some (h, env, .next)
  | .brk => some (h, env, .brk)
  | .ifS c a b => bindE (eval m env c h) env fun v h => bindE (truth v h) env fun t h =>
      branch t (block m env a h) (block m env b h)
  | .whileS c body => whileL m env c body h
  | .forS x it body => bindE (eval m env it h) env fun v h =>
      bindE (orRaise (iterOf P h v) "TypeError" h) env fun i h => forL m env x i body h
  | .tryS body name handler => bindTry (block m env body h) (caught name) fun e env' h =>
      bindS (block m (("$exc", some e) :: env') handler h) fun env'' h => some (h, env''.drop 1, .next)
  | .del e i => bindE (eval m env e h) env fun o h => bindE (eval m env i h) env fun k h =>
      bindE (remove o k h) env fun _ h => some (h, env, .next)
  | .tryAs body name x handler other => bindTry (block m env body h) (fun _ _ => true) fun e env' h =>
      bindS (branch (caught name e h)
        (block m (("$exc", some e) :: (match x with | some x => env'.set x e | none => env')) handler h)
        (block m (("$exc", some e) :: env') other h)) fun env'' h => some (h, env''.drop 1, .next)
partial_fixpoint

/-- An assignment. -/
def assign (m : Module) (env : Env) (t : Target) (v : V) (h : Heap) : S :=
  match t with
  | .loc x => some (h, env.set x v, .next)
  | .attr e a => bindE (eval m env e h) env fun self h => bindE (setattr P self a v h) env fun _ h => some (h, env, .next)
  | .index e i => bindE (eval m env e h) env fun o h => bindE (eval m env i h) env fun k h =>
      bindE (store o k v h) env fun _ h => some (h, env, .next)
  | .tuple xs => match v with
    | .tuple vs => if xs.length = vs.length then some (h, env.setAll xs vs, .next) else some (h, env, .exc (.exc "ValueError" []))
    | _ => some (h, env, .stuck)
partial_fixpoint

/-- Several statements. -/
def block (m : Module) (env : Env) (ss : List Stmt) (h : Heap) : S :=
  match ss with
  | [] => some (h, env, .next)
  | s :: ss => bindS (exec m env s h) fun env h => block m env ss h
partial_fixpoint

/-- `while c: body`. -/
def whileL (m : Module) (env : Env) (c : Expr) (body : List Stmt) (h : Heap) : S :=
  bindE (eval m env c h) env fun v h => bindE (truth v h) env fun t h =>
    branch t (bindLoop (block m env body h) fun env h => whileL m env c body h) (some (h, env, .next))
partial_fixpoint

/-- `for x in it: body`. -/
def forL (m : Module) (env : Env) (x : String) (it : It) (body : List Stmt) (h : Heap) : S :=
  bindE (next it h) env fun o h => match o with
    | none => some (h, env, .next)
    | some (v, it) => bindLoop (block m (env.set x v) body h) fun env h => forL m env x it body h
partial_fixpoint

end

end Libsnmp.Src
