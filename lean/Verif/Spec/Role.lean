import Verif.Model.Role

/-!
# Sockets, in terms of the history of calls

These definitions look only at the calls made and at what the operating system answered.
-/

namespace Spec
open Libsnmp

/-- The call would get a socket from the operating system if it asked for one (only `open` and `send` ever ask). -/
def Grants : RoleOp → Prop
  | .open os => os.socket = .ok ()
  | .send _ os _ => os.socket = .ok ()
  | _ => False

/-- The call closes whatever is open. -/
def Closes (o : RoleOp) : Prop := o = .close (.ok ())

/-- A socket is open after the history `h`: some call obtained one and none since has closed it. -/
def IsOpen (h : List RoleOp) : Prop := ∃ a o b, h = a ++ o :: b ∧ Grants o ∧ ∀ c ∈ b, ¬ Closes c

/-- The program never calls `open` while a socket is open. -/
def Tidy (h : List RoleOp) : Prop := ∀ a os b, h = a ++ .open os :: b → ¬ IsOpen a

end Spec
