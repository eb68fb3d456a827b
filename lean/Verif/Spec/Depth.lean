import Verif.Spec.Asn

/-! # How deeply an SNMP value is nested -/

namespace Spec

mutual
/-- Sequences inside one another: 0 for a value that is not a sequence. -/
def Asn.depth : Asn → Nat
  | .seq items => 1 + depthList items
  | _ => 0
def depthList : List Asn → Nat
  | [] => 0
  | a :: as => max a.depth (depthList as)
end

/-- `n` sequence headers, each announcing 65535 octets: 4 octets per level. -/
def bomb : Nat → List Nat
  | 0 => []
  | n + 1 => 0x30 :: 0x82 :: 0xff :: 0xff :: bomb n

end Spec
