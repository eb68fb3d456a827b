import Verif.Model.Threads

/-! # What is said about schedules -/

namespace Spec.Threads
open Libsnmp.Threads

/-- The IDs handed out, in order. -/
def assignedIds (log : List Event) : List Nat :=
  log.filterMap fun
    | .assigned _ _ r => some r
    | _ => none

/-- The IDs handed out to one thread, in order. -/
def assignedTo (t : Nat) (log : List Event) : List Nat :=
  log.filterMap fun
    | .assigned t' _ r => if t' = t then some r else none
    | _ => none

/-- The IDs returned by request methods, in order. -/
def returnedIds (log : List Event) : List Nat :=
  log.filterMap fun
    | .returned _ _ r => some r
    | _ => none

/-- The thread is inside `assignRequestID`, between its first load and its store. -/
def Inside : Pc → Prop
  | .loadAgain _ _ => True
  | .store _ _ _ => True
  | _ => False

/-- No two calls of `assignRequestID` overlap: a thread that enters it finds no other thread inside.  (A lock around the
method, or using the request methods from one thread only, gives exactly these schedules.) -/
def NoOverlap (sched : List Step) : Prop :=
  ∀ a t b cb, sched = a ++ .run t :: b → (run a).pc t = .load cb → ∀ t', ¬ Inside ((run a).pc t')

/-- The increment alone is atomic: a thread that has done the load of `+= 1` does the store next. -/
def AtomicIncrement (sched : List Step) : Prop :=
  ∀ a t b cb r, sched = a ++ .run t :: b → (run a).pc t = .loadAgain cb r → ∃ b', b = .run t :: b' ∨ b = []

/-- All steps that involve a request method are of one thread. -/
def OneThread (t : Nat) (sched : List Step) : Prop :=
  ∀ o ∈ sched, ∀ t', (∃ cb, o = .begin t' cb) ∨ o = .run t' → t' = t

end Spec.Threads
