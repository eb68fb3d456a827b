import Verif.Lemmas.SrcAttr
import Verif.Model.Interp
import Verif.Model.SourceData

/-!
# Running code: equations for the simplifier
-/

namespace Libsnmp.Src

/-! ## Sequencing -/

section
variable {α β : Type}

@[src ↓] theorem bindR_ok (a : α) (h : Heap) (f : α → Heap → R β) : bindR (okR a h) f = f a h := rfl
@[src ↓] theorem bindR_exc (e : V) (h : Heap) (f : α → Heap → R β) : bindR (excR e h) f = excR e h := rfl
@[src ↓] theorem bindR_none (f : α → Heap → R β) : bindR none f = none := rfl
@[src ↓] theorem bindE_ok (a : α) (h : Heap) (env : Env) (f : α → Heap → S) : bindE (okR a h) env f = f a h := rfl
@[src ↓] theorem bindE_exc (e : V) (h : Heap) (env : Env) (f : α → Heap → S) :
    bindE (excR e h) env f = some (h, env, .exc e) := rfl
@[src ↓] theorem bindE_none (env : Env) (f : α → Heap → S) : bindE none env f = none := rfl
@[src ↓] theorem bindS_next (h : Heap) (env : Env) (f : Env → Heap → S) : bindS (some (h, env, .next)) f = f env h := rfl
@[src ↓] theorem bindS_brk (h : Heap) (env : Env) (f : Env → Heap → S) :
    bindS (some (h, env, .brk)) f = some (h, env, .brk) := rfl
@[src ↓] theorem bindS_ret (h : Heap) (env : Env) (v : V) (f : Env → Heap → S) :
    bindS (some (h, env, .ret v)) f = some (h, env, .ret v) := rfl
@[src ↓] theorem bindS_exc (h : Heap) (env : Env) (e : V) (f : Env → Heap → S) :
    bindS (some (h, env, .exc e)) f = some (h, env, .exc e) := rfl
@[src ↓] theorem bindS_none (f : Env → Heap → S) : bindS none f = none := rfl
@[src ↓] theorem bindLoop_next (h : Heap) (env : Env) (f : Env → Heap → S) :
    bindLoop (some (h, env, .next)) f = f env h := rfl
@[src ↓] theorem bindLoop_brk (h : Heap) (env : Env) (f : Env → Heap → S) :
    bindLoop (some (h, env, .brk)) f = some (h, env, .next) := rfl
@[src ↓] theorem bindLoop_ret (h : Heap) (env : Env) (v : V) (f : Env → Heap → S) :
    bindLoop (some (h, env, .ret v)) f = some (h, env, .ret v) := rfl
@[src ↓] theorem bindLoop_exc (h : Heap) (env : Env) (e : V) (f : Env → Heap → S) :
    bindLoop (some (h, env, .exc e)) f = some (h, env, .exc e) := rfl
@[src ↓] theorem bindLoop_none (f : Env → Heap → S) : bindLoop none f = none := rfl
@[src ↓] theorem bindTry_next (h : Heap) (env : Env) (k : V → Heap → Bool) (f : V → Env → Heap → S) :
    bindTry (some (h, env, .next)) k f = some (h, env, .next) := rfl
@[src ↓] theorem bindTry_ret (h : Heap) (env : Env) (v : V) (k : V → Heap → Bool) (f : V → Env → Heap → S) :
    bindTry (some (h, env, .ret v)) k f = some (h, env, .ret v) := rfl
@[src ↓] theorem bindTry_exc (h : Heap) (env : Env) (e : V) (k : V → Heap → Bool) (f : V → Env → Heap → S) :
    bindTry (some (h, env, .exc e)) k f = if k e h then f e env h else some (h, env, .exc e) := rfl
@[src ↓] theorem bindAll_ok (a : α) (h : Heap) (f : α → Heap → R β) (g : V → Heap → R β) :
    bindAll (okR a h) f g = f a h := rfl
@[src ↓] theorem bindAll_exc (e : V) (h : Heap) (f : α → Heap → R β) (g : V → Heap → R β) :
    bindAll (excR e h) f g = g e h := rfl
@[src] theorem result_ret (h : Heap) (env : Env) (v : V) : result (some (h, env, .ret v)) = okR v h := rfl
@[src] theorem result_next (h : Heap) (env : Env) : result (some (h, env, .next)) = okR .none h := rfl
@[src] theorem result_exc (h : Heap) (env : Env) (e : V) : result (some (h, env, .exc e)) = excR e h := rfl
@[src] theorem result_none : result none = none := rfl
@[src ↓] theorem branch_true (x y : α) : branch true x y = x := rfl
@[src ↓] theorem branch_false (x y : α) : branch false x y = y := rfl
@[src] theorem raiseR_eq (n : String) (h : Heap) : (raiseR n h : R α) = excR (.exc n []) h := rfl
@[src] theorem orRaise_some (a : α) (n : String) (h : Heap) : orRaise (some a) n h = okR a h := rfl
@[src] theorem orRaise_none (n : String) (h : Heap) : (orRaise none n h : R α) = excR (.exc n []) h := rfl
@[src] theorem orStuck_some (a : α) (h : Heap) : orStuck (some a) h = okR a h := rfl

end

/-! ## Names -/

@[src] theorem Env.get_cons (y x : String) (w : Option V) (env : Env) :
    Env.get ((y, w) :: env) x = if x = y then w else Env.get env x := by
  unfold Env.get
  rw [List.lookup_cons]
  by_cases h : x = y
  · simp [h]
  · simp [h, beq_eq_false_iff_ne.2 h]

attribute [src] Env.set Env.setAll List.zip_cons_cons List.zip_nil_left List.zip_nil_right

/-! ## Constructs: an equation for each -/

attribute [src] eval evals exec assign block next truth getitem slice len toStr toInt binop compare equal format builtin method store remove
  call.eq_2 call.eq_3 call.eq_4 call.eq_5 call.eq_6 call.eq_7

/-- Run the code as far as it goes without knowing more. -/
syntax "runs" ("[" Lean.Parser.Tactic.simpLemma,* "]")? (Lean.Parser.Tactic.location)? : tactic

macro_rules
  | `(tactic| runs $[$loc]?) =>
    `(tactic| simp only [src, ↓runR, ↓runE, ↓runS, ↓runLoop, ↓runTry, ↓runAll, ↓runBranch, ↓reduceIte, reduceCtorEq,
      String.reduceEq, String.reduceBEq, String.reduceBNe] $[$loc]?)
  | `(tactic| runs [$ls,*] $[$loc]?) =>
    `(tactic| simp only [src, ↓runR, ↓runE, ↓runS, ↓runLoop, ↓runTry, ↓runAll, ↓runBranch, ↓reduceIte, reduceCtorEq,
      String.reduceEq, String.reduceBEq, String.reduceBNe, $ls,*] $[$loc]?)

end Libsnmp.Src
