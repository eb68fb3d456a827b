import Verif.Model.LongInts

/-!
# One turn of `run()` under the interpreter's limit on the length of numerals

As in `Model/Manager.lean`, with `receiveData311` of `Model/LongInts.lean`.
-/

namespace Libsnmp

/-- asynrole.py:65-66 `poll` under the limit; as `poll`. -/
def poll311 (env : Env) (D : Nat) (k : Kind) (user : User k) (datagram : Option Val) : M k Unit := fun s =>
  match datagram with
  | none => (.ok (), s)
  | some data => match receiveData311 env D k user data s with
    | (.ok (), s') => (.ok (), s')
    | (.error e, s') => handleError e s'

/-- One turn of the loop of v1.py:216-234 `run` (v2 inherits it) under the limit; as `v1Iterate`. -/
def v1Iterate311 (env : Env) (D : Nat) (k : Kind) (user : User k) (socket : Except Exc Unit) (datagram : Option Val) : M k Unit :=
  fun s =>
    match takeAndSend socket s with
    | (.error .queueEmpty, s') =>
      (do callQueueEmpty env user
          poll311 env D k user datagram : M k Unit) s'
    | r => r

/-- One turn of the loop of snmpmanager.py:322-342 `run` under the limit; as `smIterate`. -/
def smIterate311 (env : Env) (D : Nat) (user : User .sm) (socket : Except Exc Unit) (datagram : Option Val) : M .sm Unit :=
  fun s =>
    match (do poll311 env D .sm user datagram
              takeAndSend socket : M .sm Unit) s with
    | (.error .queueEmpty, s') => callQueueEmpty env user s'
    | r => r

def iterate311 (env : Env) (D : Nat) : (k : Kind) → User k → Except Exc Unit → Option Val → M k Unit
  | .v1, user, socket, datagram => v1Iterate311 env D .v1 user socket datagram
  | .v2, user, socket, datagram => v1Iterate311 env D .v2 user socket datagram
  | .sm, user, socket, datagram => smIterate311 env D user socket datagram

end Libsnmp
