import Verif.Spec.Text
import Verif.Spec.Numbers
import Verif.Model.Str

/-!
# Text forms of objects, and what they depend on
-/

namespace Spec
open Libsnmp

/-- The decimal numeral of an integer: `-17` is `"-17"`. -/
inductive Decimal : Int → List Nat → Prop
  | nonneg {n ds} : Numeral 10 n ds → Decimal (n : Nat) (ds.map (· + 48))
  | neg {n ds} : 0 < n → Numeral 10 n ds → Decimal (-(n : Nat)) (45 :: ds.map (· + 48))

/-- Pieces put together with a separator between them. -/
inductive Joined (sep : List Nat) : List (List Nat) → List Nat → Prop
  | nil : Joined sep [] []
  | one {p} : Joined sep [p] p
  | cons {p q ps t} : Joined sep (q :: ps) t → Joined sep (p :: q :: ps) (p ++ sep ++ t)

/-- The error texts of SNMPv1. -/
def statusTexts1 : List (Int × String) :=
  [(0, "No Error"), (1, "Response message would have been too large"), (2, "There is no such variable name in this MIB"),
   (3, "The value given has the wrong type"), (4, "Object is Read Only"), (5, "An unknown error occurred")]

/-- The error texts that SNMPv2 adds. -/
def statusTexts2 : List (Int × String) :=
  [(6, "Access is not permitted"), (7, "Type is incorrect"), (8, "Length is incorrect"), (9, "Encoding is incorrect"),
   (10, "Value is incorrect"), (11, "No creation"), (12, "Value is inconsistent"), (13, "Resourse Unavailable"),
   (14, "Commit Failed"), (15, "Undo Failed"), (16, "Authorization Error"), (17, "Not Writable"), (18, "Inconsistent Name")]

/-- The names of the generic traps. -/
def trapNames : List (Int × String) :=
  [(0, "coldStart"), (1, "warmStart"), (2, "linkDown"), (3, "linkUp"), (4, "authenticationFailure"), (5, "egpNeighborLoss"),
   (6, "enterpriseSpecific")]

/-- The error text of a status; those of SNMPv2 only if they are installed. -/
def StatusText (installed : Prop) (v : Int) (t : String) : Prop :=
  (v, t) ∈ statusTexts1 ∨ installed ∧ (v, t) ∈ statusTexts2

/-- The creation creates an SNMPv2 error status: directly with an allowed value, or as part of an SNMPv2 PDU (other than
GetBulk) that is not rejected earlier (a later rejection, of the error index or the bindings, does not matter). -/
def Installs : Creation → Prop
  | .status1 _ => False
  | .status2 v => InRange .errorStatus2 v
  | .pdu c requestID status index _ =>
    c ∈ [SeqCls.pdu2, .get2, .getNext2, .response2, .set2, .inform, .trapV2, .report] ∧
      index ≤ 2147483647 ∧ InRange .integer32 requestID ∧ InRange .errorStatus2 status

mutual
/-- `Shows installed v t`: the text of `v` is `t`. -/
inductive Shows (installed : Prop) : Val → Str → Prop
  | none : Shows installed .none (lit "None")
  | int {n t} : Decimal n t → Shows installed (.int n) t
  | str {s} : Shows installed (.str s) s
  | bytes {s} : Shows installed (.bytes s) (reprBytes s)       -- what this is: C62_bytes
  | integer {c n t} : c ≠ .errorStatus → c ≠ .errorStatus2 → c ≠ .genericTrap → Decimal n t →
      Shows installed (.integer c n) t
  | status {c n t text} : c = .errorStatus ∨ c = .errorStatus2 → Decimal n t → StatusText installed n text →
      Shows installed (.integer c n) (t ++ lit ": " ++ lit text)
  | trap {n t name} : Decimal n t → (n, name) ∈ trapNames →
      Shows installed (.integer .genericTrap n) (lit "GenericTrap: " ++ t ++ lit " (" ++ lit name ++ lit ")")
  | octets {c s} : c ≠ .ipAddress → c ≠ .networkAddress → Shows installed (.octets c s) s
  | address {c s ts t} : c = .ipAddress ∨ c = .networkAddress → List.Forall₂ (fun (b : Nat) => Decimal b) s ts →
      Joined (lit ".") ts t → Shows installed (.octets c s) t
  | unsetOid : Shows installed (.oid .none) []
  | oid {ids ts t} : List.Forall₂ Decimal ids ts → Joined (lit ".") ts t → Shows installed (.oid (some ids)) (46 :: t)
  | null : Shows installed (.null .null) (lit "<Null>")
  | noSuchObject : Shows installed (.null .noSuchObject) (lit "No Such Object")
  | noSuchInstance : Shows installed (.null .noSuchInstance) (lit "No Such Instance")
  | endOfMibView : Shows installed (.null .endOfMibView) (lit "EndOfMibView")
  | seq {c items ts t} : ShowsAll installed items ts → Joined (lit ", ") ts t →
      Shows installed (.seq c items) (91 :: (t ++ [93]))
/-- The texts of several values. -/
inductive ShowsAll (installed : Prop) : List Val → List Str → Prop
  | nil : ShowsAll installed [] []
  | cons {x xs t ts} : Shows installed x t → ShowsAll installed xs ts → ShowsAll installed (x :: xs) (t :: ts)
end

end Spec
