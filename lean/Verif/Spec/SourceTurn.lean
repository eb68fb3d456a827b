import Verif.Spec.SourceRecv
import Verif.Model.Turn311

/-!
# What one turn of `run()` must do in the heap

Around the package's code are the socket, `asyncore`, `sys.exc_info` and `time.sleep`.  `Around` says what they do during one turn.
The socket's `sendto` is described for the octets and the address that the model sends, and for no others.
-/

namespace Libsnmp.Src
open Libsnmp

/-- Where `receiveData` of a class of managers stands. -/
def recvFn : Libsnmp.Kind → Module × Nat
  | .v1 => (.v1, 163)
  | .v2 => (.v2, 141)
  | .sm => (.snmpmanager, 254)

/-- The object at `g` is a `role.manager` with the open socket `w`. -/
def Line (h : Heap) (g : Nat) (w : String) (size : Int) : Prop :=
  9 ≤ g ∧ ∃ attrs, h[g]? = some (.inst (.role, 13) attrs) ∧ (∀ p ∈ attrs, p.1 ∈ ["dest", "interface", "socket", "socksize", "request_id"]) ∧
    attrs.lookup "socket" = some (.ext w) ∧ attrs.lookup "socksize" = some (.int size)

/-- The attributes that `asynrole.Manager.__init__` sets: the callback is the manager's own `receiveData`. -/
structure Wired (k : Libsnmp.Kind) (a g : Nat) (timeout : V) (attrs : List (String × V)) : Prop where
  callback : attrs.lookup "cb_fun" = some (.meth (.ref a) (recvFn k).1 (recvFn k).2)
  context : attrs.lookup "cb_ctx" = some .none
  timeout : attrs.lookup "timeout" = some timeout
  manager : attrs.lookup "manager" = some (.ref g)

/-- While the exception `e` is handled, `sys.exc_info()` is its class, itself and a traceback. -/
def handling (cfg : Cfg) (e : V) : Cfg :=
  { cfg with ext := fun n args h =>
      if n = "sys.exc_info" then (match typeOf h e with
        | some t => okR (.tuple [t, e, .ext "traceback"]) h
        | none => stuckR h)
      else cfg.ext n args h }

/-- asyncore.py `read(obj)`: `handle_read`; an exception, unless SystemExit, goes to `handle_error`. -/
def readEvent (cfg : Cfg) (a : Nat) (h : Heap) : R V :=
  bindAll (callMethod cfg (.ref a) "handle_read" [] h) (fun _ h => okR .none h) fun e h =>
    match e with
    | .exc "SystemExit" _ => excR e h
    | _ => bindR (callMethod (handling cfg e) (.ref a) "handle_error" [] h) fun _ h => okR .none h

/-- The world during one turn: `asyncore.poll` finds nothing, or a datagram in the socket `w` of the manager at `a`, which it reads in
the world `inner`. -/
structure Around (cfg inner : Cfg) (a : Nat) (w : String) (size : Int) (timeout : V) (datagram : Option Str) : Prop where
  quiet : datagram = none → ∀ h, cfg.ext "asyncore.poll" [timeout] h = okR .none h
  event : datagram ≠ none → ∀ h, cfg.ext "asyncore.poll" [timeout] h = readEvent inner a h
  read : ∀ s, datagram = some s → ∃ src, ∀ h, inner.ext (w ++ ".recvfrom") [.int size] h = okR (.tuple [.str s, src]) h
  sleep : ∀ h, cfg.ext "time.sleep" [.quot 3602879701896397 36028797018963968] h = okR .none h

/-- The socket's `sendto` ends as `socket` says, for the octets and the address of the first item of the queue. -/
def SendsTo (cfg : Cfg) (nm : Names) (w : String) (socket : Except Exc Unit) (outbound : List (Option Msg × Nat)) : Prop :=
  ∀ m remote rest octets, outbound = (some m, remote) :: rest → m.encode = .ok octets →
    ∀ h, Ends h (cfg.ext (w ++ ".sendto") [.str octets, nm.addr remote] h) socket

/-- The queueEmpty callback, called with the manager, does what the model's function says. -/
def Heeds (cfg : Cfg) (nm : Names) (env : Libsnmp.Env) (U : Nat → Prop) (n a : Nat) {k : Libsnmp.Kind} (user : User k) : Prop :=
  ∀ cb, env.queueEmpty = some cb → (∃ f, nm.fn cb = .ext f ∨ ∃ m l, nm.fn cb = .func m l) ∧
    ∀ (s : Mgr k) h attrs q d, n ≤ h.length → Base h → MgrAt nm env h a s attrs q d →
      ∃ h' attrs', Leaves U a q d h h' ∧ MgrAt nm env h' a (user cb none s).2 attrs' q d ∧
        Ends h' (call program cfg (nm.fn cb) [.ref a] h) (user cb none s).1

/-- A message of moderate size, with no message in it. -/
def Fine (m : Msg) : Prop :=
  (m.cls = .message ∨ m.cls = .message2) ∧ SaneAll [m.version, m.community, m.data] ∧
    ∀ s, encodeItems [m.version, m.community, m.data] = .ok s → s.length < 10 ^ 640

/-- From the heap `h` to `h'`, only the manager at `a`, its queue at `q`, its dictionary at `d`, the user's own objects `U`, and the
attribute `value` of messages have changed; of the manager's attributes only `nextRequestID`. -/
structure Turned (U : Nat → Prop) (a q d : Nat) (h h' : Heap) : Prop where
  base : Base h'
  len : h.length ≤ h'.length
  same : ∀ b, 9 ≤ b → b < h.length → b ≠ a → b ≠ q → b ≠ d → ¬ U b → h'[b]? = h[b]? ∨
    ∃ c attrs attrs', (c = .message ∨ c = .message2) ∧ h[b]? = some (.inst (cid (.seq c)) attrs) ∧
      h'[b]? = some (.inst (cid (.seq c)) attrs') ∧ ∀ name, name ≠ "value" → attrs'.lookup name = attrs.lookup name
  wires : Wires a h h'

/-- The variables of `run`: `request` is `x`. -/
def runEnv (a : Nat) (x : Option V) : Env := [("self", some (.ref a)), ("request", x)]

/-- The body of the loop of `run()`. -/
def oneTurn (cfg : Cfg) (k : Libsnmp.Kind) (a : Nat) (x : Option V) (h : Heap) : S :=
  match k with
  | .sm => block program cfg .snmpmanager (runEnv a x) snmpmanager_327 h
  | _ => block program cfg .v1 (runEnv a x) v1_220 h

/-- The rest of `run()`, from the top of the loop. -/
def looping (cfg : Cfg) (k : Libsnmp.Kind) (a : Nat) (x : Option V) (h : Heap) : R V :=
  match k with
  | .sm => result (whileL program cfg .snmpmanager (runEnv a x) (.int 1) snmpmanager_327 h)
  | _ => result (whileL program cfg .v1 (runEnv a x) (.bool true) v1_220 h)

/-- What a turn of the loop must do: it comes to its end, or raises the model's exception. -/
def Turns (cfg : Cfg) (nm : Names) (env : Libsnmp.Env) (U : Nat → Prop) (h : Heap) (a q d : Nat) {k : Libsnmp.Kind} (x : Option V)
    (m : Except Exc Unit × Mgr k) : Prop :=
  ∃ h' attrs' x', Turned U a q d h h' ∧ MgrAt nm env h' a m.2 attrs' q d ∧
    match m.1 with
    | .ok () => oneTurn cfg k a x h = some (h', runEnv a x', .next)
    | .error e => e ≠ .diverges ∧ ∃ y E, oneTurn cfg k a x h = some (h', E, .exc y) ∧ Raised h' e y

end Libsnmp.Src
