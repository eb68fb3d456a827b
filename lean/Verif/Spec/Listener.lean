import Verif.Spec.Scripts

/-!
# What traplistener.py should print
-/

namespace Spec
open Libsnmp

/-- The line for a binding: two blanks, name, comma, value. -/
def BindingLine (b : VB) (line : Str) : Prop :=
  ∃ n name t, Displayed (.oid b.name) "ObjectID" n ∧ Displayed b.value name t ∧ line = lit "  " ++ n ++ lit "," ++ t

/-- The first line for a trap: enterprise, agent address, number and name of the generic trap, specific trap, timestamp,
separated by commas. -/
def TrapLine (p : Trap) (line : Str) : Prop :=
  ∃ ent addr g name sp ts, Displayed (.oid p.enterprise) "ObjectID" ent ∧ Displayed (.string .ipAddress p.agent) "IPAddress" addr ∧
    Decimal p.generic g ∧ (p.generic, name) ∈ trapNames ∧ Decimal p.specific sp ∧ Decimal p.timestamp ts ∧
    line = ent ++ lit "," ++ addr ++ lit "," ++ g ++ lit "," ++ lit name ++ lit "," ++ sp ++ lit "," ++ ts

/-- The receiver can hold the trap: the second arc of each name is below 40 (C11), the types of the values are known, the
generic trap number is a 32-bit integer. -/
def HoldableTrap (p : Trap) : Prop :=
  Int32 p.generic ∧ (∃ x, Denotes regFull (.oid p.enterprise) x) ∧ ∀ b ∈ p.bindings, Holdable regFull b

/-- `Listened d lines`: the datagram `d` makes the program print `lines`. -/
inductive Listened : Val → List Str → Prop
  /-- An SNMPv1 trap, in a message of version 0 or 1. -/
  | trap {version com p o l ls} : version = 0 ∨ version = 1 → TrapMessageOctets version com p o → HoldableTrap p → TrapLine p l →
      List.Forall₂ BindingLine p.bindings ls → Listened (.str o) (l :: ls)
  /-- One with a generic trap number other than 0 to 6. -/
  | noName {version com p o} : version = 0 ∨ version = 1 → TrapMessageOctets version com p o → HoldableTrap p →
      ¬ (0 ≤ p.generic ∧ p.generic ≤ 6) → Listened (.str o) []
  /-- One in a message of another version. -/
  | trapVersion {version com p o} : version ≠ 0 → version ≠ 1 → TrapMessageOctets version com p o → HoldableTrap p → Listened (.str o) []
  /-- A message with any other PDU: Get, GetNext, Response, Set, GetBulk, Inform, SNMPv2-Trap, Report. -/
  | pdu {version com p o} : p.tag ∈ [0xa0, 0xa1, 0xa2, 0xa3, 0xa5, 0xa6, 0xa7, 0xa8] → MessageOctets version com p o →
      Int32 p.requestID → Int32 p.errorStatus → Int32 p.errorIndex → (∀ b ∈ p.bindings, Holdable regFull b) →
      p.bindings.length ≤ 2147483647 → Listened (.str o) []
  /-- What the decoder refuses. -/
  | refused {d} : (∀ m, msgDecode regFull .message2 d ≠ .ok m) → Listened d []

end Spec
