import Verif.Model.Manager

/-!
# The main loop as a whole
-/

namespace Libsnmp

/-- What the world outside does during one turn of the main loop: the outcome of the socket's `sendto`, the datagram that
waits when the loop polls, and the code of the callbacks. -/
structure Turn (k : Kind) where
  socket : Except Exc Unit := .ok ()
  datagram : Option Val := none
  user : Nat → Option Msg → Act k := fun _ _ => .ret

/-- v1.py:216-234 and snmpmanager.py:322-342 `run`: turn after turn until one raises.  The loop has no other exit, so a call
of `run` is described by its finite prefixes: `run` over the list of the first turns. -/
def run (env : Env) (k : Kind) : List (Turn k) → M k Unit
  | [] => pure ()
  | t :: ts => do
    iterate env k (fun cb m => (t.user cb m).exec env) t.socket t.datagram
    run env k ts

end Libsnmp
