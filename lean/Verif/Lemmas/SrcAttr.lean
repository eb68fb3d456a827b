import Lean.Meta.Tactic.Simp.RegisterCommand
import Verif.Model.Interp

/-!
# Running code with the simplifier

In `bindR x f` and its relatives only `x` is simplified: the rest of a program is not looked at before the first part has ended.
-/

/-- Equations for running code of `Model/SourceData.lean` step by step. -/
register_simp_attr src

/-- The places of the classes that the code itself calls. -/
register_simp_attr cids

namespace Libsnmp.Src
open Lean Meta

theorem bindR_congr {α β} {x y : R α} (f : α → Heap → R β) (h : x = y) : bindR x f = bindR y f := by rw [h]
theorem bindE_congr {α} {x y : R α} (env : Env) (f : α → Heap → S) (h : x = y) : bindE x env f = bindE y env f := by
  rw [h]
theorem bindS_congr {x y : S} (f : Env → Heap → S) (h : x = y) : bindS x f = bindS y f := by rw [h]
theorem bindLoop_congr {x y : S} (f : Env → Heap → S) (h : x = y) : bindLoop x f = bindLoop y f := by rw [h]
theorem bindTry_congr {x y : S} (k : V → Heap → Bool) (f : V → Env → Heap → S) (h : x = y) :
    bindTry x k f = bindTry y k f := by rw [h]
theorem bindAll_congr {α β} {x y : R α} (f : α → Heap → R β) (g : V → Heap → R β) (h : x = y) :
    bindAll x f g = bindAll y f g := by rw [h]
theorem branch_congr {α : Type} {b c : Bool} (x y : α) (h : b = c) : branch b x y = branch c x y := by rw [h]

/-- An outcome that is known. -/
def isOutcome (e : Lean.Expr) : Bool :=
  e.isAppOf ``okR || e.isAppOf ``excR || e.isAppOf ``stuckR || e.isAppOf ``Option.some || e.isAppOf ``Option.none ||
    e.isConstOf ``Bool.true || e.isConstOf ``Bool.false

/-- Simplify the argument at position `i` only; `thm` is the congruence theorem and `rest` its explicit arguments. -/
def stepAt (e : Lean.Expr) (i : Nat) (thm : Name) (rest : Array Lean.Expr) : SimpM Simp.Step := do
  let x := e.getAppArgs[i]!
  if isOutcome x then return .continue
  let r ← Simp.simp x
  let prf ← mkAppM thm (rest.push (← r.getProof))
  let e' := mkAppN e.getAppFn (e.getAppArgs.set! i r.expr)
  let s : Simp.Result := { expr := e', proof? := some prf }
  if isOutcome r.expr then return .visit s else return .done s

simproc_decl runR (bindR _ _) := fun e => do stepAt e 2 ``bindR_congr #[e.getAppArgs[3]!]
simproc_decl runE (bindE _ _ _) := fun e => do stepAt e 1 ``bindE_congr #[e.getAppArgs[2]!, e.getAppArgs[3]!]
simproc_decl runS (bindS _ _) := fun e => do stepAt e 0 ``bindS_congr #[e.getAppArgs[1]!]
simproc_decl runLoop (bindLoop _ _) := fun e => do stepAt e 0 ``bindLoop_congr #[e.getAppArgs[1]!]
simproc_decl runTry (bindTry _ _ _) := fun e => do stepAt e 0 ``bindTry_congr #[e.getAppArgs[1]!, e.getAppArgs[2]!]
simproc_decl runAll (bindAll _ _ _) := fun e => do stepAt e 2 ``bindAll_congr #[e.getAppArgs[3]!, e.getAppArgs[4]!]
simproc_decl runBranch (branch _ _ _) := fun e => do stepAt e 1 ``branch_congr #[e.getAppArgs[2]!, e.getAppArgs[3]!]

end Libsnmp.Src
