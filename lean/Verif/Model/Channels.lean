import Verif.Py

/-!
# Descriptors, sockets and `asyncore.socket_map`: opening and closing managers

An `asynrole.Manager` is known to asyncore by a descriptor number, and refers to sockets twice: `self.socket` of the
dispatcher and `self.manager.socket` of its `role.manager`.  The numbers the operating system gives out are parameters of the
operations.  asyncore.py is that of CPython 3.11 (the parts used are the same since 3.2).

Simplifications: `bind`, `setsockopt` and `close` of the operating system succeed (C58 treats failures); a constructor that
fails leaves nothing behind; the socket objects are kept, so that none is closed by the garbage collector.
-/

namespace Libsnmp

/-- An `asynrole.Manager`: `_fileno` and `socket` of the dispatcher, `socket` of the `role.manager` (sockets are numbered). -/
structure Chan where
  fileno : Option Nat
  disp : Nat
  role : Option Nat
deriving DecidableEq, Repr

/-- A process: the descriptor of each socket ever made (`none`: closed), the descriptors used by other things,
`asyncore.socket_map` in order of insertion, the managers ever made. -/
structure Fds where
  fds : List (Option Nat) := []
  foreign : List Nat := []
  map : List (Nat × Nat) := []
  chans : List Chan := []
deriving DecidableEq, Repr

/-- The descriptor number is taken. -/
def Fds.inUse (p : Fds) (f : Nat) : Bool := p.foreign.contains f || p.fds.contains (some f)

/-- `map.get(fd)`. -/
def mapGet (f : Nat) : List (Nat × Nat) → Option Nat
  | [] => none
  | (g, i) :: m => if g = f then some i else mapGet f m

/-- `map[fd] = obj`. -/
def mapSet (f i : Nat) : List (Nat × Nat) → List (Nat × Nat)
  | [] => [(f, i)]
  | (g, j) :: m => if g = f then (f, i) :: m else (g, j) :: mapSet f i m

/-- `if fd in map: del map[fd]`. -/
def mapDel (f : Nat) (m : List (Nat × Nat)) : List (Nat × Nat) := m.filter (·.1 ≠ f)

/-- `socket.close()`. -/
def closeSocket (s : Nat) (l : List (Option Nat)) : List (Option Nat) := l.set s none

/-- asynrole.py:15-31 `__init__`: role.py:32-38 `open`, then `set_socket` of asyncore.py (`_fileno`, `map[_fileno] = self`).
`f` is the descriptor of the new socket. -/
def chanCreate (f : Nat) (p : Fds) : Fds :=
  { p with
    fds := p.fds ++ [some f]
    map := mapSet f p.chans.length p.map
    chans := p.chans ++ [{ fileno := some f, disp := p.fds.length, role := some p.fds.length }] }

/-- `sendto` on socket `s`: a closed socket is an OSError; otherwise the datagram leaves from its descriptor, where answers
to it will arrive. -/
def sendFrom (s : Nat) (p : Fds) : Except Exc Nat :=
  match p.fds[s]?.join with
  | none => .error .osError
  | some f => .ok f

/-- asynrole.py:33-35 `send`, role.py:40-45: without a socket one is opened (`f` is its descriptor); the dispatcher does not
hear of it. -/
def chanSend (i f : Nat) (p : Fds) : Except Exc Nat × Fds :=
  match p.chans[i]? with
  | none => (.error .attributeError, p)
  | some c => match c.role with
    | some s => (sendFrom s p, p)
    | none =>
      let p := { p with fds := p.fds ++ [some f], chans := p.chans.set i { c with role := some p.fds.length } }
      (sendFrom (p.fds.length - 1) p, p)

/-- asynrole.py:48-50 `handle_close`, role.py:55-60: the `role.manager` closes and forgets its socket; the dispatcher does not
hear of it. -/
def chanHandleClose (i : Nat) (p : Fds) : Fds :=
  match p.chans[i]? with
  | none => p
  | some c => match c.role with
    | none => p
    | some s => { p with fds := closeSocket s p.fds, chans := p.chans.set i { c with role := none } }

/-- `close()`, inherited from asyncore.py's dispatcher: `del_channel`, then `self.socket.close()`; the `role.manager` (and
role.py:29-30 `get_socket`) keeps the closed socket. -/
def chanClose (i : Nat) (p : Fds) : Fds :=
  match p.chans[i]? with
  | none => p
  | some c =>
    { p with
      map := match c.fileno with
        | none => p.map
        | some f => mapDel f p.map
      fds := closeSocket c.disp p.fds
      chans := p.chans.set i { c with fileno := none } }

/-- asyncore.py `poll` up to `select.select(r, [], e, timeout)`: every object is readable() and none is writable()
(asynrole.py:42-43), so all descriptors in the map are asked for; one that is not open is an OSError (EBADF).  An empty map is
not even polled. -/
def pollSelect (p : Fds) : Except Exc Unit := if p.map.all fun e => p.inUse e.1 then .ok () else .error .osError

/-- asyncore.py `poll` for a descriptor reported readable: `obj = map.get(fd)`, and `read(obj)` (asynrole.py:37-40, role.py:47-53)
reads from the socket of the `role.manager`: the manager, and the descriptor read from or the exception (ValueError without a
socket, OSError if closed).  (Nobody is connecting, so asynrole.py:45-46 `handle_connect` is never called.) -/
def pollRead (fd : Nat) (p : Fds) : Option (Nat × Except Exc Nat) :=
  match mapGet fd p.map with
  | none => none
  | some i => match p.chans[i]? with
    | none => none
    | some c => match c.role with
      | none => some (i, .error .valueError)
      | some s => some (i, sendFrom s p)

/-- What happens in a process.  `f` is the number the operating system gives to a new socket. -/
inductive ChanOp where
  | create (f : Nat)
  | send (i f : Nat)
  | handleClose (i : Nat)
  | close (i : Nat)
  | otherOpen (f : Nat)
  | otherClose (f : Nat)
deriving DecidableEq, Repr

def ChanOp.run : ChanOp → Fds → Fds
  | .create f, p => chanCreate f p
  | .send i f, p => (chanSend i f p).2
  | .handleClose i, p => chanHandleClose i p
  | .close i, p => chanClose i p
  | .otherOpen f, p => { p with foreign := f :: p.foreign }
  | .otherClose f, p => { p with foreign := p.foreign.filter (· ≠ f) }

end Libsnmp
