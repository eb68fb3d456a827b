import Verif.Model.Manager

/-!
# The request methods called from several threads

A small-step model of `v1.SNMP.snmpGet` and its siblings (v1.py:47-52, 103-149; v2.py:80-94; snmpmanager.py:63-68, 199-245)
when any number of threads call them on one manager while the main thread runs the loop.  Each shared access of the code is
one step: the two loads and the store of `assignRequestID`, `Queue.put`, the store into `callbacks`; the lookup, the
invocation and the deletion in `receiveData`.  A schedule is any sequence of steps; a step that is not possible does nothing.

Simplifications: arguments are acceptable and IDs are within range (C43, C44, C50 treat failures); a step of `Queue` or
`dict` is atomic, as under CPython's interpreter lock with `int` keys; memory is sequentially consistent.
-/

namespace Libsnmp.Threads

/-- Where a thread is in its current call; `cb` is the callback it was given. -/
inductive Pc where
  | idle
  | load (cb : Nat)                -- v1.py:50 `reqID = self.nextRequestID`
  | loadAgain (cb r : Nat)         -- v1.py:51, the load of `self.nextRequestID += 1`
  | store (cb r v : Nat)           -- v1.py:51, the store (of `v + 1`)
  | put (cb r : Nat)               -- v1.py:112 `self.outbound.put(...)`
  | register (cb r : Nat)          -- v1.py:115 `self.callbacks[...] = callback`
deriving DecidableEq, Repr

/-- What can be observed. -/
inductive Event where
  | assigned (thread cb id : Nat)  -- `assignRequestID` returned
  | returned (thread cb id : Nat)  -- the request method returned `id`
  | sent (id : Nat)                -- the loop sent the request
  | invoked (id cb : Nat)          -- a response was handed to a callback
  | keyError (id : Nat)            -- a response found no callback
  | deleted (id : Nat)             -- the callback returned and its entry was removed
deriving DecidableEq, Repr

/-- A manager used by several threads. -/
structure State where
  counter : Nat := 0
  pc : Nat → Pc := fun _ => .idle
  queue : List Nat := []
  table : Nat → Option Nat := fun _ => none
  running : Option Nat := none     -- the ID of the response whose callback is running in the main thread
  log : List Event := []

/-- A step of the schedule. -/
inductive Step where
  | begin (thread cb : Nat)        -- an idle thread calls a request method
  | run (thread : Nat)             -- a thread performs its next shared access
  | send                           -- the loop takes a request from the queue and sends it
  | response (id : Nat)            -- the loop receives a response
  | finish                         -- the running callback returns
  | fail                           -- the running callback raises
deriving DecidableEq, Repr

/-- A function changed at one place. -/
def upd {α : Type} (f : Nat → α) (i : Nat) (a : α) : Nat → α := fun j => if j = i then a else f j

/-- One step.  v1.py:47-52 and 111-116 (`run`), 223-224 (`send`), 189-195 (`response`, `finish`). -/
def step (s : State) : Step → State
  | .begin t cb => match s.pc t with
    | .idle => { s with pc := upd s.pc t (.load cb) }
    | _ => s
  | .run t => match s.pc t with
    | .idle => s
    | .load cb => { s with pc := upd s.pc t (.loadAgain cb s.counter) }
    | .loadAgain cb r => { s with pc := upd s.pc t (.store cb r s.counter) }
    | .store cb r v =>
      { s with pc := upd s.pc t (.put cb r), counter := v + 1, log := s.log ++ [.assigned t cb r] }
    | .put cb r => { s with pc := upd s.pc t (.register cb r), queue := s.queue ++ [r] }
    | .register cb r =>
      { s with pc := upd s.pc t .idle, table := upd s.table r (some cb), log := s.log ++ [.returned t cb r] }
  | .send => match s.queue with
    | [] => s
    | r :: rest => { s with queue := rest, log := s.log ++ [.sent r] }
  | .response n => match s.running with
    | some _ => s
    | none => match s.table n with
      | none => { s with log := s.log ++ [.keyError n] }
      | some cb => { s with running := some n, log := s.log ++ [.invoked n cb] }
  | .finish => match s.running with
    | none => s
    | some n => { s with running := none, table := upd s.table n none, log := s.log ++ [.deleted n] }
  | .fail => { s with running := none }

/-- A schedule, from a new manager. -/
def run (sched : List Step) : State := sched.foldl step {}

end Libsnmp.Threads
