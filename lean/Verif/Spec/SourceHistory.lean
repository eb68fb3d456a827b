import Verif.Spec.SourceAsk
import Verif.Spec.SourceInit
import Verif.Model.Run

/-!
# Histories of a manager

What happens to a manager object after it was made: calls of its request methods, and turns of `run()`, each in a world of its own, in
any order.  `History` executes the source text step after step; beside the heap it carries the state of the model, which the
assumptions about the world mention (what the socket does with the octets of the queue's first message, and so on).
-/

namespace Libsnmp.Src
open Libsnmp

/-- Where the manager stands, its `role.manager`, its socket, its timeout, and the objects that belong to the user's code. -/
structure Site where
  a : Nat
  g : Nat
  w : String
  size : Int
  timeout : V
  U : Nat → Prop

/-- One thing that happens to a manager: a call of a request method, or a turn of `run()` (where `x` is the variable `request` as the turn
before has left it). -/
inductive Step (k : Libsnmp.Kind) where
  | ask (cfg : Cfg) (name : String) (args : List V) (c : k.Call)
  | turn (cfg inner : Cfg) (x : Option V) (t : Option Str) (socket : Except Exc Unit) (user : Nat → Option Msg → Act k)

/-- What the source text does. -/
def Step.run (a : Nat) {k : Libsnmp.Kind} : Step k → Heap → R V
  | .ask cfg name args _, h => callMethod cfg (.ref a) name args h
  | .turn cfg _ x _ _ _, h => match oneTurn cfg k a x h with
    | some (h', _, .next) => okR .none h'
    | some (h', _, .exc y) => excR y h'
    | some (h', _, _) => stuckR h'
    | none => none

/-- What the model does. -/
def Step.model (env : Libsnmp.Env) {k : Libsnmp.Kind} : Step k → Mgr k → Except Exc Val × Mgr k
  | .ask _ _ _ c, s => doCall env c s
  | .turn _ _ _ t socket user, s =>
    let (r, s') := iterate env k (fun cb m => (user cb m).exec env) socket (t.map .str) s
    (r.map fun _ => Val.none, s')

/-- The queue when `send` takes from it: snmpManager polls first. -/
def queueAt (env : Libsnmp.Env) : (k : Libsnmp.Kind) → User k → Option Str → Mgr k → List (Option Msg × Nat)
  | .sm, user, t, s => (poll env .sm user (t.map .str) s).2.outbound
  | _, _, _, s => s.outbound

/-- A turn that the theorems speak of: the world as in C99, the callbacks as programs of the model, messages of moderate size, and a
datagram in which no number is longer than the process allows. -/
structure FitTurn (nm : Names) (env : Libsnmp.Env) (S : Site) {k : Libsnmp.Kind} (cfg inner : Cfg) (t : Option Str) (socket : Except Exc Unit)
    (user : Nat → Option Msg → Act k) (h : Heap) (s : Mgr k) : Prop where
  limits : Limits cfg
  limits' : Limits inner
  registry : Registry inner env.reg
  prints : k = .v2 → ∀ h, inner.ext "traceback.print_exc" [] h = okR .none h
  obeys : Obeys inner nm env S.U h.length S.a fun cb m => (user cb m).exec env
  heeds : Heeds cfg nm env S.U h.length S.a fun cb m => (user cb m).exec env
  around : Around cfg inner S.a S.w S.size S.timeout t
  short : ∀ x, t = some x → x.length < 10 ^ 640
  sends : SendsTo cfg nm S.w socket (queueAt env k (fun cb m => (user cb m).exec env) t s)
  fine : ∀ m n, (some m, n) ∈ queueAt env k (fun cb m => (user cb m).exec env) t s → Fine m
  digits : ∀ x, t = some x → decode311 env.reg inner.limit x = decode env.reg (.str x)

/-- A step that the theorems speak of. -/
def Step.Fits (nm : Names) (env : Libsnmp.Env) (S : Site) {k : Libsnmp.Kind} : Step k → Heap → Mgr k → Prop
  | .ask cfg name args c, h, _ => Limits cfg ∧ Registry cfg env.reg ∧ Ask nm cfg env.reg h name args k c
  | .turn cfg inner _ t socket user, h, s => FitTurn nm env S cfg inner t socket user h s

/-- The history of a manager that is in the heap `h0` when it has just been made: the steps, each with the heap after it and what came
out. -/
inductive History (nm : Names) (env : Libsnmp.Env) (S : Site) {k : Libsnmp.Kind} (h0 : Heap) :
    List (Step k × Heap × Out V) → Heap → Mgr k → Prop
  | new : History nm env S h0 [] h0 {}
  | step {l : List (Step k × Heap × Out V)} {h h' : Heap} {s : Mgr k} {st : Step k} {o : Out V} : History nm env S h0 l h s → st.Fits nm env S h s →
      st.run S.a h = some (h', o) → History nm env S h0 (l ++ [(st, h', o)]) h' (st.model env s).2

/-- The heap just after the constructor has returned (compare `NewManager`). -/
structure JustMade (nm : Names) (env : Libsnmp.Env) (k : Libsnmp.Kind) (S : Site) (h : Heap) : Prop where
  base : Base h
  mgr : ∃ attrs q d, MgrAt nm env h S.a ({} : Mgr k) attrs q d ∧ Wired k S.a S.g S.timeout attrs
  line : Line h S.g S.w S.size
  own : ¬ S.U S.g

/-- The number in the Integer object that a call of a request method has returned. -/
def idOf {k : Libsnmp.Kind} (e : Step k × Heap × Out V) : Option Int :=
  match e with
  | (.ask .., h, .ok (.ref b)) => match h[b]? with
    | some (.inst _ attrs) => match attrs.lookup "value" with
      | some (.int n) => some n
      | _ => none
    | _ => none
  | _ => none

end Libsnmp.Src
