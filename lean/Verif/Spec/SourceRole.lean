import Verif.Spec.SourceRecv
import Verif.Model.Role

/-!
# What `role.manager` must do in the heap

The calls of the standard library's `socket` are from outside the package: a world says how each of them ends.
-/

namespace Libsnmp.Src
open Libsnmp

/-- The value of the attribute `socket`; `sock n` is the name of the socket that the object has created as its `n`-th. -/
def socketV (sock : Nat → String) : Option Nat → V
  | none => .none
  | some n => .ext (sock n)

/-- The object at `g` is a `role.manager` in the model's state. -/
def RoleAt (sock : Nat → String) (dest interface size : V) (h : Heap) (g : Nat) (s : Role) : Prop :=
  h[g]? = some (.inst (.role, 13) [("dest", dest), ("interface", interface), ("socket", socketV sock s.current), ("socksize", size), ("request_id", .int 1)])

/-- How a call comes out: with a value or with the exception that the model names; `h'` is the heap afterwards. -/
def ComesTo (h' : Heap) (r : R V) : Except Exc V → Prop
  | .ok v => r = okR v h'
  | .error e => e ≠ .diverges ∧ ∃ x, r = excR x h' ∧ Raised h' e x

/-- How the world answers a call, whatever is in the heap. -/
def Says (cfg : Cfg) (name : String) (args : List V) (o : Except Exc V) : Prop := ∀ h, ComesTo h (cfg.ext name args h) o

/-- The world's answers while a socket is opened, bound to `interface` and given its buffer. -/
structure OpenSays (cfg : Cfg) (w : String) (interface size : V) (os : OpenOS) : Prop where
  socket : Says cfg "socket.socket" [.ext "socket.AF_INET", .ext "socket.SOCK_DGRAM"] (os.socket.map fun _ => .ext w)
  bind : Says cfg (w ++ ".bind") [interface] (os.bind.map fun _ => .none)
  option : Says cfg (w ++ ".setsockopt") [.ext "socket.SOL_SOCKET", .ext "socket.SO_RCVBUF", size] (os.option.map fun _ => .none)

/-- A call of a method: the world it happens in, the method's name, the arguments, the sender of a datagram if one is read, and the
call as the model knows it. -/
structure RoleCall where
  cfg : Cfg
  name : String
  args : List V
  src : V := .none
  op : RoleOp

/-- The call is what the model takes it for.  (`close` is also called as `__del__`; `send` may leave out the destination.  The
language of the source text has no value for `bytes`: the octets of a datagram are a `str`.) -/
def RoleCall.Fits (sock : Nat → String) (interface size : V) (c : RoleCall) (s : Role) : Prop :=
  match c.op with
  | .open os => c.name = "open" ∧ c.args = [] ∧ OpenSays c.cfg (sock s.created) interface size os
  | .send r o1 o2 => c.name = "send" ∧ ∃ v dst, (c.args = [v, dst] ∨ c.args = [v] ∧ dst = .tuple [.none, .int 0]) ∧
      OpenSays c.cfg (sock s.created) interface size o1 ∧
      Says c.cfg (sock (s.current.getD s.created) ++ ".sendto") [v, dst] ((sendto r o2).map fun _ => .none)
  | .read os => c.name = "read" ∧ c.args = [] ∧
      ∀ n, s.current = some n → Says c.cfg (sock n ++ ".recvfrom") [size] (os.map fun b => .tuple [.str b, c.src])
  | .close os => (c.name = "close" ∨ c.name = "__del__") ∧ c.args = [] ∧
      ∀ n, s.current = some n → Says c.cfg (sock n ++ ".close") [] (os.map fun _ => .none)

/-- What the caller must see: a new socket; nothing; the datagram and its sender; nothing. -/
def RoleCall.expect (sock : Nat → String) (c : RoleCall) (s : Role) : Except Exc V :=
  match c.op with
  | .open os => (roleOpen os s).1.map fun n => .ext (sock n)
  | .send r o1 o2 => (roleSend r o1 o2 s).1.map fun _ => .none
  | .read os => (roleRead os s).1.map fun v => .tuple [match v with | .bytes b => .str b | _ => .none, c.src]
  | .close os => (roleClose os s).1.map fun _ => .none

/-- The life of a `role.manager` that has just been made in the heap `h0`: the calls, each with the heap after it and what came out. -/
inductive RoleLife (sock : Nat → String) (interface size : V) (g : Nat) (h0 : Heap) : List (RoleCall × Heap × Out V) → Heap → Prop
  | new : RoleLife sock interface size g h0 [] h0
  | step {l : List (RoleCall × Heap × Out V)} {h h' : Heap} {c : RoleCall} {o : Out V} : RoleLife sock interface size g h0 l h →
      c.Fits sock interface size (roleRun (l.map fun e => e.1.op)) → callMethod c.cfg (.ref g) c.name c.args h = some (h', o) →
      RoleLife sock interface size g h0 (l ++ [(c, h', o)]) h'

end Libsnmp.Src
