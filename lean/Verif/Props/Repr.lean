import Verif.Spec.Repr
import Verif.Props.Text
import Verif.Model.Str

/-!
# C62: bytes shown as text
-/

namespace Libsnmp
open Spec

theorem byteText_iff {q c : Nat} (hc : c < 256) (hq : q = 34 ∨ q = 39) (t : Str) :
    ByteText q c t ↔ t = reprByte q c := by
  have e1 : lit "\\t" = [92, 116] := by decide
  have e2 : lit "\\n" = [92, 110] := by decide
  have e3 : lit "\\r" = [92, 114] := by decide
  have e4 : lit "\\x" = [92, 120] := by decide
  unfold reprByte
  rw [e1, e2, e3, e4, hex2_eq c hc]
  constructor
  · intro h
    cases h with
    | escaped h => rw [if_pos h]
    | tab => rw [if_neg (by omega), if_pos rfl]
    | newline => rw [if_neg (by omega), if_neg (by omega), if_pos rfl]
    | ret => rw [if_neg (by omega), if_neg (by omega), if_neg (by omega), if_pos rfl]
    | plain h1 h2 h3 h4 =>
      rw [if_neg (by omega), if_neg (by omega), if_neg (by omega), if_neg (by omega), if_neg (by omega)]
    | hex h1 h2 =>
      simp only [List.mem_cons, List.not_mem_nil, or_false, not_or] at h2
      rw [if_neg (by omega), if_neg h2.1, if_neg h2.2.1, if_neg h2.2.2, if_pos h1]
      rfl
  · rintro rfl
    split
    · next h => exact .escaped h
    · next h0 =>
      split
      · next h => subst h; exact .tab
      · next h1 =>
        split
        · next h => subst h; exact .newline
        · next h2 =>
          split
          · next h => subst h; exact .ret
          · next h3 =>
            split
            · next h => exact .hex h (by simp [h1, h2, h3])
            · next h4 => exact .plain (by omega) (by omega) (by omega) (by omega)

/-- C62: bytes are shown the way Python writes them, and in no other way. -/
theorem C62_bytes (b t : Str) (hb : Octets b) : BytesText b t ↔ t = reprBytes b := by
  have key : ∀ q, (q = 34 ∨ q = 39) → ∀ b : Str, Octets b → ∀ parts,
      (List.Forall₂ (ByteText q) b parts ↔ parts = b.map (reprByte q)) := by
    intro q hq b
    induction b with
    | nil => intro _ parts; simp
    | cons c b ih =>
      intro hb parts
      have hc : c < 256 := hb c (by simp)
      have hb' : Octets b := fun x hx => hb x (by simp [hx])
      cases parts with
      | nil => simp
      | cons p ps =>
        rw [List.forall₂_cons, byteText_iff hc hq, ih hb' ps]
        simp
  have hquote : ∀ q, (q = 34 ∧ 39 ∈ b ∧ 34 ∉ b ∨ q = 39 ∧ ¬ (39 ∈ b ∧ 34 ∉ b)) ↔
      q = if b.contains 39 && !b.contains 34 then 34 else 39 := by
    intro q
    by_cases h : 39 ∈ b ∧ 34 ∉ b
    · simp [h.1, h.2]
    · by_cases h1 : 39 ∈ b
      · have h2 : 34 ∈ b := by by_contra h2; exact h ⟨h1, h2⟩
        simp [h1, h2]
      · simp [h1]
  constructor
  · rintro ⟨q, parts, hq, hp, rfl⟩
    have hq' : q = 34 ∨ q = 39 := by omega
    rw [key q hq' b hb] at hp
    rw [hquote] at hq
    subst hp
    rw [reprBytes, ← hq, List.flatMap_def]
  · rintro rfl
    refine ⟨_, _, (hquote _).2 rfl, (key _ ?_ b hb _).2 rfl, by rw [reprBytes, List.flatMap_def]⟩
    split <;> simp

-- `repr(b"it's\n\x7f")` is `b"it's\n\x7f"`
example : reprBytes [105, 116, 39, 115, 10, 127] = lit "b\"it's\\n\\x7f\"" := by decide +kernel
example : Octets [105, 116, 39, 115, 10, 127] := by unfold Octets; decide

end Libsnmp
