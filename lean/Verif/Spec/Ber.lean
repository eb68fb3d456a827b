/-!
# Specification vocabulary for BER contents

Independent of the model: plain arithmetic on lists of numbers.
-/

namespace Spec

/-- A string of octets. -/
def Octets (s : List Nat) : Prop := ∀ b ∈ s, b < 256

instance (s : List Nat) : Decidable (Octets s) := by unfold Octets; infer_instance

/-- The number spelled by digits `s` in base `base`, most significant digit first. -/
def ofDigits (base : Nat) : List Nat → Nat
  | [] => 0
  | d :: ds => d * base ^ ds.length + ofDigits base ds

/-- The same numbers, as integers. -/
def ints (ns : List Nat) : List Int := ns.map (fun n : Nat => (n : Int))

/-- Unsigned big-endian value of an octet string. -/
def unsigned (s : List Nat) : Nat := ofDigits 256 s

/-- Two's complement value of an octet string (X.690, 8.3): the first bit counts negatively. -/
def twos : List Nat → Int
  | [] => 0
  | b :: bs => if b < 128 then (unsigned (b :: bs) : Int) else (unsigned (b :: bs) : Int) - 256 ^ (bs.length + 1)

/-- A definite-length length field announcing `n` (X.690, 8.1.3): short form, or `128 + k` followed by `k ≥ 1`
octets spelling `n`. -/
inductive LengthField : Nat → List Nat → Prop
  | short (n : Nat) (h : n < 128) : LengthField n [n]
  | long (ds : List Nat) (h1 : 1 ≤ ds.length) (h2 : ds.length < 128) (h3 : Octets ds) :
      LengthField (unsigned ds) ((128 + ds.length) :: ds)

/-- One base-128 group (X.690, 8.19.2): continuation octets `128 + d` and a final octet below 128. -/
inductive Base128 : Nat → List Nat → Prop
  | mk (ds : List Nat) (d : Nat) (hds : ∀ x ∈ ds, x < 128) (hd : d < 128) :
      Base128 (ofDigits 128 (ds ++ [d])) (ds.map (128 + ·) ++ [d])

/-- A sequence of groups, spelling a list of numbers. -/
inductive Base128List : List Nat → List Nat → Prop
  | nil : Base128List [] []
  | cons {n s ns t} : Base128 n s → Base128List ns t → Base128List (n :: ns) (s ++ t)

/-- An identifier field as this library reads it: one octet whose low five bits are not all ones, standing for itself,
or an octet whose low five bits are all ones followed by one base-128 group, standing for the number of the group. -/
inductive IdentifierField : Nat → List Nat → Prop
  | low (b : Nat) (h : b % 32 ≠ 31) : IdentifierField b [b]
  | high (b : Nat) (h : b % 32 = 31) {n g} : Base128 n g → IdentifierField n (b :: g)

end Spec
