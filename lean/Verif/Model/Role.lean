import Verif.Model.Manager

/-!
# `role.manager` and `asynrole.Manager`: sockets and error hand-over

The operating system's answers (a new socket or an exception, the outcome of bind, sendto, recvfrom, close) are parameters
of each call.  Sockets are numbered in the order of their creation.
-/

namespace Libsnmp

/-- A `role.manager` object and the process's sockets: `current` is `self.socket`, `live` are the sockets created by this
object and not closed by it.  (CPython closes an unreachable socket when it is collected; that is not modelled.) -/
structure Role where
  current : Option Nat := none
  live : List Nat := []
  created : Nat := 0
deriving DecidableEq, Repr

/-- What the operating system answers to `socket.socket`, `bind` and `setsockopt` in one call of `open`. -/
structure OpenOS where
  socket : Except Exc Unit := .ok ()
  bind : Except Exc Unit := .ok ()
  option : Except Exc Unit := .ok ()

/-- role.py:34-38 (lines of `open`): `self.socket` is assigned before `bind` and `setsockopt` are tried. -/
def roleOpen (os : OpenOS) (s : Role) : Except Exc Nat × Role :=
  match os.socket with
  | .error e => (.error e, s)
  | .ok () =>
    let s : Role := { current := some s.created, live := s.live ++ [s.created], created := s.created + 1 }
    match os.bind with
    | .error e => (.error e, s)
    | .ok () => match os.option with
      | .error e => (.error e, s)
      | .ok () => (.ok (s.created - 1), s)

/-- `socket.sendto(request, dst)`: a `str` (or anything but bytes) is a TypeError; `os` is the outcome for bytes. -/
def sendto (request : Val) (os : Except Exc Unit) : Except Exc Unit :=
  match request with
  | .bytes _ => os
  | _ => .error .typeError

/-- role.py:40-45 `send`: a socket object is always true, so only None counts as "not open". -/
def roleSend (request : Val) (osOpen : OpenOS) (osSend : Except Exc Unit) (s : Role) : Except Exc Unit × Role :=
  match s.current with
  | some _ => (sendto request osSend, s)
  | none => match roleOpen osOpen s with
    | (.error e, s) => (.error e, s)
    | (.ok _, s) => (sendto request osSend, s)

/-- role.py:47-53 `read`: `os` is the outcome of `recvfrom`, which delivers bytes. -/
def roleRead (os : Except Exc Str) (s : Role) : Except Exc Val × Role :=
  match s.current with
  | none => (.error .valueError, s)
  | some _ => match os with
    | .error e => (.error e, s)
    | .ok b => (.ok (.bytes b), s)

/-- role.py:55-60 `close` (also `__del__`, role.py:25-27): if the socket's own `close` raises, `self.socket` stays. -/
def roleClose (os : Except Exc Unit) (s : Role) : Except Exc Unit × Role :=
  match s.current with
  | none => (.ok (), s)
  | some n => match os with
    | .error e => (.error e, s)
    | .ok () => (.ok (), { s with current := none, live := s.live.filter (· ≠ n) })

/-- A call of one of the methods, with the operating system's answers. -/
inductive RoleOp where
  | open (os : OpenOS)
  | send (request : Val) (osOpen : OpenOS) (osSend : Except Exc Unit)
  | read (os : Except Exc Str)
  | close (os : Except Exc Unit)

/-- The state after a call. -/
def RoleOp.run : RoleOp → Role → Role
  | .open os, s => (roleOpen os s).2
  | .send r o1 o2, s => (roleSend r o1 o2 s).2
  | .read os, s => (roleRead os s).2
  | .close os, s => (roleClose os s).2

/-- A history of calls on a new object (role.py:15-23 `__init__`: no socket). -/
def roleRun (h : List RoleOp) : Role := h.foldl (fun s o => o.run s) {}

/-! ## asynrole.Manager -/

/-- The callback function of an `asynrole.Manager`: called with data and no exception, or with no data and an exception. -/
structure CbFun (σ : Type) where
  data : Val → σ → Except Exc Unit × σ
  exc : Exc → σ → Except Exc Unit × σ

/-- asynrole.py:52-61 `handle_error`, called by asyncore with no arguments, so that the exception is `sys.exc_info()`.
(`type(exc_type) == type` holds for every exception class without a metaclass of its own.) -/
def asynHandleError {σ : Type} (cb : CbFun σ) (e : Exc) (s : σ) : Except Exc Unit × σ :=
  if e.isValueError then cb.exc e s else (.error e, s)

/-- asyncore.py `read(obj)` with asynrole.py:37-40 `handle_read`: SystemExit and KeyboardInterrupt pass, everything else
goes to `handle_error`.  `read` is the outcome of `role.manager.read`. -/
def asynRead {σ : Type} (cb : CbFun σ) (read : Except Exc Val) (s : σ) : Except Exc Unit × σ :=
  let r : Except Exc Unit × σ := match read with
    | .error e => (.error e, s)
    | .ok d => cb.data d s
  match r with
  | (.ok (), s) => (.ok (), s)
  | (.error e, s) => if e.isException then asynHandleError cb e s else (.error e, s)

/-- The callback function that the three manager classes pass: their own `receiveData` (v1.py:39, snmpmanager.py:55), which
re-raises an exception it is given (v1.py:169-170, v2.py:147-148, snmpmanager.py:260-261). -/
def managerCbFun (env : Env) (k : Kind) (user : User k) : CbFun (Mgr k) where
  data d := receiveData env k user d
  exc e s := (.error (reraiseAs e), s)

end Libsnmp
