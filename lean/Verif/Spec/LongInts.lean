import Verif.Spec.Asn
import Verif.Spec.Ber

/-! # The size of the integers in an SNMP value -/

namespace Spec

mutual
/-- Every integer in the value has at most `D` decimal digits (0: no limit). -/
def Asn.fits (D : Nat) : Asn → Bool
  | .integer n => D = 0 || n.natAbs < 10 ^ D
  | .unsigned _ n => D = 0 || n < 10 ^ D
  | .seq items => fitsList D items
  | _ => true
def fitsList (D : Nat) : List Asn → Bool
  | [] => true
  | a :: as => a.fits D && fitsList D as
end

/-- The encoding of an Integer of `n + 1` contents octets, 127 and then 255s: the largest number of that length. -/
def bigInteger (n : Nat) : List Nat := 0x02 :: 0x82 :: ((n + 1) / 256) :: ((n + 1) % 256) :: 0x7f :: List.replicate n 0xff

end Spec
