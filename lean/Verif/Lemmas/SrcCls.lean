import Verif.Lemmas.SrcBase
import Verif.Model.Obj

/-!
# The classes of the source text and those of the model
-/

namespace Libsnmp.Src
open Libsnmp

@[cids] theorem cid_integer : cid (.int .integer) = (.rfc1155, 288) := rfl
@[cids] theorem cid_errorStatus : cid (.int .errorStatus) = (.rfc1157, 20) := rfl
@[cids] theorem cid_integer32 : cid (.int .integer32) = (.rfc1902, 27) := rfl
@[cids] theorem cid_errorStatus2 : cid (.int .errorStatus2) = (.rfc1905, 64) := rfl
@[cids] theorem cid_genericTrap : cid (.int .genericTrap) = (.rfc1157, 197) := rfl
@[cids] theorem cid_varBind : cid (.seq .varBind) = (.rfc1157, 58) := rfl
@[cids] theorem cid_varBindList : cid (.seq .varBindList) = (.rfc1157, 76) := rfl
@[cids] theorem cid_varBind2 : cid (.seq .varBind2) = (.rfc1905, 22) := rfl
@[cids] theorem cid_varBindList2 : cid (.seq .varBindList2) = (.rfc1905, 48) := rfl
@[cids] theorem cid_sequence : cid (.seq .sequence) = (.rfc1155, 785) := rfl
@[cids] theorem cid_oid : cid .oid = (.rfc1155, 550) := rfl
@[cids] theorem cid_asn1Object : cid .asn1Object = (.rfc1155, 64) := rfl

/-- All classes have an entry. -/
theorem classes_cid (c : Cls) : (program.classes (cid c)).isSome = true := by
  rcases c with _ | c | c | _ | c | c <;> first | rfl | (cases c <;> rfl)

theorem cid_inj {c d : Cls} (h : cid c = cid d) : c = d := by
  have h1 : ∀ c d : Cls, (c = d) ∨ cid c ≠ cid d := by
    intro c d
    rcases c with _ | c | c | _ | c | c <;> rcases d with _ | d | d | _ | d | d <;>
      first
      | exact .inl rfl
      | exact .inr (by decide)
      | (cases c <;> first | exact .inl rfl | exact .inr (by decide) | (cases d <;> first | exact .inl rfl | exact .inr (by decide)))
      | (cases d <;> first | exact .inl rfl | exact .inr (by decide))
  exact (h1 c d).resolve_right (fun k => k h)

/-! ## Methods that all classes share -/

syntax "all_classes" ident : tactic
macro_rules
  | `(tactic| all_classes $x) => `(tactic| rcases $x:ident with _ | d | d | _ | d | d <;> first | rfl | (cases d <;> rfl))

@[src] theorem attr_encode (c : Cls) : program.attr (cid c) "encode" = some (.func .rfc1155 82) := by all_classes c
@[src] theorem attr_decodeTag (c : Cls) : program.attr (cid c) "decodeTag" = some (.func .rfc1155 99) := by all_classes c
@[src] theorem attr_decodeLength (c : Cls) : program.attr (cid c) "decodeLength" = some (.func .rfc1155 126) := by
  all_classes c
@[src] theorem attr_encodeLength (c : Cls) : program.attr (cid c) "encodeLength" = some (.func .rfc1155 219) := by
  all_classes c
@[src] theorem attr_encodeIdentifier (c : Cls) : program.attr (cid c) "encodeIdentifier" = some (.func .rfc1155 189) := by
  all_classes c
@[src] theorem attr_tagClass (c : Cls) :
    program.attr (cid c) "asnTagClass" = some (.int (((c.attr ownTagClass).getD 0 : Nat) : Int)) := by all_classes c
@[src] theorem attr_tagFormat (c : Cls) :
    program.attr (cid c) "asnTagFormat" = some (.int (((c.attr ownTagFormat).getD 0 : Nat) : Int)) := by all_classes c
@[src] theorem attr_tagNumber (c : Cls) : program.attr (cid c) "asnTagNumber" =
    some (match c.attr ownTagNumber with | some n => .int ((n : Nat) : Int) | none => .none) := by all_classes c
theorem isExc_cid (c : Cls) : program.isExc 8 (cid c) = false := by all_classes c

theorem class_of (c : Cls) : ∃ k, program.classes (cid c) = some k ∧ k.base = c.parent.map fun d => V.cls (cid d) := by
  rcases c with _ | c | c | _ | c | c <;> first | exact ⟨_, rfl, rfl⟩ | (cases c <;> exact ⟨_, rfl, rfl⟩)

theorem subFrom_cid (d : Cls) (n : Nat) (c : Cls) : program.subFrom (n + 1) (cid c) (cid d) = (c.chain n).contains d := by
  have hb : ∀ c, (cid c == cid d) = (d == c) := by
    intro c
    by_cases h : d = c
    · subst h; simp
    · rw [beq_eq_false_iff_ne.2 h, beq_eq_false_iff_ne.2 fun k => h (cid_inj k).symm]
  induction n generalizing c with
  | zero =>
    obtain ⟨k, hk, hp⟩ := class_of c
    obtain ⟨_, _, base, _⟩ := k
    rw [Program.subFrom, hb, hk]
    cases hc : c.parent <;> simp only [hc, Option.map_none, Option.map_some] at hp <;> subst hp <;>
      simp [Program.subFrom, Cls.chain] <;> rfl
  | succ n ih =>
    obtain ⟨k, hk, hp⟩ := class_of c
    obtain ⟨_, _, base, _⟩ := k
    rw [Program.subFrom, hb, hk, Cls.chain]
    cases hc : c.parent <;> simp only [hc, Option.map_none, Option.map_some] at hp <;> subst hp
    · simp; rfl
    · simp only [ih]
      rw [List.contains_cons]

/-- `issubclass`. -/
theorem sub_cid (c d : Cls) : program.sub (cid c) (cid d) = c.isSubclass d := by
  rw [Program.sub, subFrom_cid, Cls.isSubclass, Cls.mro]
  congr 1
  all_classes c

end Libsnmp.Src
