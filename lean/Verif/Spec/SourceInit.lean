import Verif.Spec.SourceTurn

/-!
# What making a manager must do in the heap

`asyncore.dispatcher.__init__` and `set_socket` and the calls of the standard library's `socket` are from outside the package.
-/

namespace Libsnmp.Src
open Libsnmp

/-- The attributes that `asyncore.dispatcher` sets. -/
def chanNames : List String := ["_map", "_fileno", "socket", "connected", "accepting", "connecting", "closing", "addr"]

/-- A function of `asyncore.dispatcher` on the object at `a`: it returns, and sets attributes of that object that are its own. -/
def Tunes (a : Nat) (f : Heap → R V) : Prop :=
  ∀ h c attrs, h[a]? = some (.inst c attrs) → ∃ attrs', f h = okR .none (h.set a (.inst c attrs')) ∧
    (∀ p ∈ attrs', p.1 ∈ attrs.map Prod.fst ∨ p.1 ∈ chanNames) ∧ ∀ name, name ∉ chanNames → attrs'.lookup name = attrs.lookup name

/-- The world lets the object at `a` open the socket `w` on `interface`. -/
structure Opens (cfg : Cfg) (a : Nat) (w : String) (interface : V) : Prop where
  channel : Tunes a (cfg.ext "asyncore.dispatcher.__init__" [.ref a])
  socket : ∀ h, cfg.ext "socket.socket" [.ext "socket.AF_INET", .ext "socket.SOCK_DGRAM"] h = okR (.ext w) h
  bind : ∀ h, cfg.ext (w ++ ".bind") [interface] h = okR .none h
  buffer : ∀ h, cfg.ext (w ++ ".setsockopt") [.ext "socket.SOL_SOCKET", .ext "socket.SO_RCVBUF", .int 65536] h = okR .none h
  joins : Tunes a (cfg.ext "asyncore.dispatcher.set_socket" [.ref a, .ext w])

/-- The world refuses: one of the calls on the socket raises `y`. -/
inductive Refuses (cfg : Cfg) (a : Nat) (interface : V) (y : V) : Prop
  | socket : Tunes a (cfg.ext "asyncore.dispatcher.__init__" [.ref a]) →
      (∀ h, cfg.ext "socket.socket" [.ext "socket.AF_INET", .ext "socket.SOCK_DGRAM"] h = excR y h) → Refuses cfg a interface y
  | bind (w : String) : Tunes a (cfg.ext "asyncore.dispatcher.__init__" [.ref a]) →
      (∀ h, cfg.ext "socket.socket" [.ext "socket.AF_INET", .ext "socket.SOCK_DGRAM"] h = okR (.ext w) h) →
      (∀ h, cfg.ext (w ++ ".bind") [interface] h = excR y h) → Refuses cfg a interface y
  | buffer (w : String) : Tunes a (cfg.ext "asyncore.dispatcher.__init__" [.ref a]) →
      (∀ h, cfg.ext "socket.socket" [.ext "socket.AF_INET", .ext "socket.SOCK_DGRAM"] h = okR (.ext w) h) →
      (∀ h, cfg.ext (w ++ ".bind") [interface] h = okR .none h) →
      (∀ h, cfg.ext (w ++ ".setsockopt") [.ext "socket.SOL_SOCKET", .ext "socket.SO_RCVBUF", .int 65536] h = excR y h) →
      Refuses cfg a interface y

/-- A new manager: the result is a new object, a manager with an empty queue, no callbacks and the first request number 0, whose
`receiveData` is the function to call for datagrams, with a `role.manager` that has the open socket; nothing that was there has
changed. -/
def NewManager (nm : Names) (env : Libsnmp.Env) (k : Libsnmp.Kind) (h : Heap) (r : R V) (w : String) (interface timeout : V) : Prop :=
  ∃ h' attrs q d g, r = okR (.ref h.length) h' ∧ (∀ b, b < h.length → h'[b]? = h[b]?) ∧
    MgrAt nm env h' h.length ({} : Mgr k) attrs q d ∧ h.length < q ∧ h.length < d ∧ h.length < g ∧
    Wired k h.length g timeout attrs ∧ Line h' g w 65536 ∧ getattr program h' (.ref g) "interface" = some interface

end Libsnmp.Src
