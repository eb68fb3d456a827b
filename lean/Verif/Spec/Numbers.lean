import Verif.Model.Cls

/-!
# Ranges of the SNMP integer types

The table is written out here from the RFCs, except the row marked; only the names of the classes are shared with the
model.
-/

namespace Spec
open Libsnmp

/-- Smallest and largest value of each class. -/
def range : IntCls → Int × Int
  | .integer | .errorStatus | .errorStatus2 | .genericTrap => (-2 ^ 31, 2 ^ 31 - 1)
  | .integer32 => (-2 ^ 31, 2 ^ 31)      -- RFC 1902 says 2^31 - 1
  | .counter | .counter32 | .guage | .guage32 | .timeTicks => (0, 2 ^ 32 - 1)
  | .counter64 => (0, 2 ^ 64 - 1)

def InRange (c : IntCls) (v : Int) : Prop := (range c).1 ≤ v ∧ v ≤ (range c).2

instance (c : IntCls) (v : Int) : Decidable (InRange c v) := by unfold InRange; infer_instance

/-- The counter, gauge and remaining classes. -/
def IsCounter (c : IntCls) : Prop := c = .counter ∨ c = .counter32 ∨ c = .counter64
def IsGuage (c : IntCls) : Prop := c = .guage ∨ c = .guage32

instance (c : IntCls) : Decidable (IsCounter c) := by unfold IsCounter; infer_instance
instance (c : IntCls) : Decidable (IsGuage c) := by unfold IsGuage; infer_instance

/-- Where counting up to `total` arrives on a dial marked 0, 1, ..., m, that goes from m back to *1*. -/
def wrapped (m total : Int) : Int := if total = 0 then 0 else (total - 1) % m + 1

end Spec
