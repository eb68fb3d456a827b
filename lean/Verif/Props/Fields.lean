import Verif.Lemmas.Length
import Verif.Spec.Tags

/-! # C01 - C05: length and identifier fields -/

namespace Libsnmp
open Spec

/-- C01. Every length survives `encodeLength` / `decodeLength`, and what follows is untouched. -/
theorem C01_length_roundtrip (n : Nat) (h : n < 256 ^ 127) (rest : Str) :
    decodeLength (encodeLength n ++ rest) = .ok (n, rest) :=
  decodeLength_field (encodeLength_field h) rest

example : decodeLength (encodeLength 300 ++ [7]) = .ok (300, [7]) := C01_length_roundtrip 300 (by decide) [7]
example : encodeLength 300 = [0x82, 1, 44] := by decide +kernel

/-- C02. The emitted field is a definite-length field announcing `n`, made of octets, never `0x80`; one octet up to
126, then `128 + k` and exactly `k` octets, the first not zero. -/
theorem C02_length_wellformed (n : Nat) (h : n < 256 ^ 127) :
    LengthField n (encodeLength n) ∧ Octets (encodeLength n) ∧ (encodeLength n).head? ≠ some 0x80 ∧
    (n ≤ 126 → encodeLength n = [n]) ∧
    (127 ≤ n → ∃ k ds, encodeLength n = (128 + k) :: ds ∧ ds.length = k ∧ 1 ≤ k ∧ k ≤ 127 ∧
      ds.head? ≠ some 0 ∧ unsigned ds = n) := by
  refine ⟨encodeLength_field h, ?_, ?_, fun h' => encodeLength_short (by omega), ?_⟩
  all_goals
    by_cases hn : n < 127
    · have e := encodeLength_short hn
      first
        | (rw [e]; simp; omega)
    · obtain ⟨ds, h1, h2, h3, h4, h5⟩ := encodeLength_long (n := n) (by omega)
      have h6 : ds.length ≤ 127 := length_le_of_unsigned_lt h5 (by omega)
      rw [or_80 (by omega), Nat.mod_eq_of_lt (by omega)] at h1
      first
        | (rw [h1]; simp only [octets_cons]; exact ⟨by omega, h3⟩)
        | (rw [h1]; simp; intro h; simp [h] at h4)
        | (intro _; exact ⟨ds.length, ds, h1, rfl, h4, h6, fun hd => h5 0 hd rfl, h2⟩)

example : encodeLength 127 = [0x81, 0x7f] ∧ encodeLength 126 = [126] := by decide +kernel

/-- C02, the bound is tight: the next length already yields the indefinite-form octet `0x80`. -/
theorem C02_bound_tight (n : Nat) (h1 : 256 ^ 127 ≤ n) (h2 : n < 256 ^ 128) :
    (encodeLength n).head? = some 0x80 := by
  have h127 : 127 ≤ n := by
    have : (127 : Nat) ≤ 256 ^ 127 := by decide
    omega
  obtain ⟨ds, e, h3, h4, h5, h6⟩ := encodeLength_long h127
  have h7 : ds.length ≤ 128 := length_le_of_unsigned_lt h6 (by omega)
  have h8 : ¬ ds.length ≤ 127 := by
    intro h9
    have := unsigned_lt h4
    have := Nat.pow_le_pow_right (n := 256) (by decide) h9
    omega
  have h9 : ds.length = 128 := by omega
  rw [e, h9]; rfl

example : ∃ n, 256 ^ 127 ≤ n ∧ n < 256 ^ 128 := ⟨256 ^ 127, by decide, by decide⟩

/-- C03. On any octet stream `decodeLength` reads exactly one length field: `IndexError` when the stream is empty or
ends inside the announced length octets, otherwise the announced number and the rest.  (A first octet `0x80` announces
no length octets and is read as length 0.) -/
theorem C03_decodeLength_exact (s : Str) (h : Octets s) :
    decodeLength s =
      match s with
      | [] => .error .indexError
      | b :: t =>
        if b < 128 then .ok (b, t)
        else if t.length < b - 128 then .error .indexError
        else .ok (unsigned (t.take (b - 128)), t.drop (b - 128)) := by
  cases s with
  | nil => rfl
  | cons b t =>
    simp only [octets_cons] at h
    rw [decodeLength_cons]
    by_cases hb : b < 128
    · simp only [hb, if_true]; rw [if_pos (by omega)]
    · have e : b % 128 = b - 128 := by omega
      simp only [hb, if_false]
      rw [if_neg (by omega), e]
      by_cases hl : t.length < b - 128
      · simp only [hl, if_true]
      · simp only [hl, if_false]
        rw [foldl_shl8 (octets_take h.2 _)]; simp

example : decodeLength [0x82, 1] = .error .indexError ∧ decodeLength [0x82, 1, 0, 9] = .ok (256, [9]) := by
  decide +kernel

/-- C03. The error condition holds for arbitrary characters, octets or not: bit 7 of the first character decides the
form and its low seven bits the number of following characters. -/
theorem C03_decodeLength_error (s : Str) (e : Exc) :
    decodeLength s = .error e ↔
      e = .indexError ∧ (s = [] ∨ ∃ b t, s = b :: t ∧ b / 128 % 2 = 1 ∧ t.length < b % 128) := by
  cases s with
  | nil => simp [decodeLength, eq_comm]
  | cons b t =>
    rw [decodeLength_cons]
    by_cases hb : b / 128 % 2 = 0
    · simp [hb]
    · have hb' : b / 128 % 2 = 1 := by omega
      by_cases hl : t.length < b % 128
      · simp only [hb, hl, if_true, if_false, Except.error.injEq]
        constructor
        · rintro rfl; exact ⟨rfl, Or.inr ⟨b, t, rfl, hb', hl⟩⟩
        · rintro ⟨h, _⟩; exact h.symm
      · simp only [hb, hl, if_false]
        constructor
        · intro h; cases h
        · rintro ⟨_, h | ⟨b', t', h, _, h'⟩⟩
          · cases h
          · cases h; exact absurd h' hl

/-- C04. A complete identifier field is read exactly, whatever follows it. -/
theorem C04_decodeTag_field {tag : Nat} {f : Str} (h : IdentifierField tag f) (rest : Str) :
    decodeTag (f ++ rest) = .ok (tag, rest) := decodeTag_field h rest

/-- C04. On every octet stream, either the stream starts with an identifier field, which is read, or it starts with
none, and `IndexError` is raised. -/
theorem C04_decodeTag_exact (s : Str) (h : Octets s) :
    (∃ tag f rest, s = f ++ rest ∧ IdentifierField tag f ∧ decodeTag s = .ok (tag, rest)) ∨
    ((¬ ∃ tag f rest, s = f ++ rest ∧ IdentifierField tag f) ∧ decodeTag s = .error .indexError) := by
  by_cases hex : ∃ tag f rest, s = f ++ rest ∧ IdentifierField tag f
  · left
    obtain ⟨tag, f, rest, e, hf⟩ := hex
    exact ⟨tag, f, rest, e, hf, by rw [e]; exact C04_decodeTag_field hf rest⟩
  · right
    refine ⟨hex, ?_⟩
    cases s with
    | nil => rfl
    | cons b t =>
      have hb : b % 32 = 31 := by
        by_contra hb
        exact hex ⟨b, [b], t, rfl, .low b hb⟩
      have e : (b &&& 31) = 31 := by rw [and_1f]; exact hb
      have hall : ∀ x ∈ t, x / 128 % 2 = 1 := by
        -- otherwise the first octet below 128 ends a group
        by_contra hne
        apply hex
        have : ∃ (ds : List Nat) (d : Nat) (rest : List Nat), t = ds.map (128 + ·) ++ d :: rest ∧ (∀ x ∈ ds, x < 128) ∧ d < 128 := by
          simp only [octets_cons] at h
          have ht := h.2
          clear h hex hb e
          induction t with
          | nil => simp at hne
          | cons c t ih =>
            simp only [octets_cons] at ht
            by_cases hc : c < 128
            · exact ⟨[], c, t, by simp, by simp, hc⟩
            · have : ¬ ∀ x ∈ t, x / 128 % 2 = 1 := by
                intro h'
                apply hne
                intro x hx
                rcases List.mem_cons.mp hx with rfl | hx
                · omega
                · exact h' x hx
              obtain ⟨ds, d, rest, e, h1, h2⟩ := ih this ht.2
              refine ⟨(c - 128) :: ds, d, rest, ?_, ?_, h2⟩
              · rw [e]; simp; omega
              · intro x hx
                rcases List.mem_cons.mp hx with hx0 | hx
                · omega
                · exact h1 x hx
        obtain ⟨ds, d, rest, e, h1, h2⟩ := this
        exact ⟨_, b :: (ds.map (128 + ·) ++ [d]), rest, by simp [e], .high b hb (.mk ds d h1 h2)⟩
      have := decodeTagLoop_error t [b] 0 hall
      simp only [List.singleton_append, List.length_singleton] at this
      simp [decodeTag, e, this]

example : IdentifierField 201 [0x5f, 0x81, 0x49] := by
  have := IdentifierField.high 0x5f (by decide) (Base128.mk [1] 0x49 (by decide) (by decide))
  simpa [ofDigits] using this
example : Octets [0x1f, 0x80] ∧ decodeTag [0x1f, 0x80] = .error .indexError := by decide +kernel

/-- C04. The class and format bits of a high-form identifier are dropped, so that it aliases a one-octet one: any
`b` with low bits 11111 followed by `n < 128` is read as the one-octet identifier `n`. -/
theorem C04_high_form_aliases (b n : Nat) (rest : Str) (hb : b % 32 = 31) (hn : n < 128) (hn' : n % 32 ≠ 31) :
    decodeTag (b :: n :: rest) = .ok (n, rest) ∧ decodeTag (n :: rest) = .ok (n, rest) := by
  constructor
  · have := C04_decodeTag_field (.high b hb (.mk [] n (by simp) hn)) rest
    simpa using this
  · simpa using C04_decodeTag_field (.low n hn') rest

example : (0x1f : Nat) % 32 = 31 ∧ (2 : Nat) < 128 ∧ (2 : Nat) % 32 ≠ 31 := by decide

/-- C05. Every concrete type but six is encoded with the identifier octet the RFCs assign to it. -/
theorem C05_identifier_table (c : Cls) (t : Nat) (h : rfcTag c = some t)
    (h1 : c ≠ .int .counter64) (h2 : c ≠ .oct .opaque) (h3 : c ≠ .seq .response)
    (h4 : c ≠ .null .noSuchObject) (h5 : c ≠ .null .noSuchInstance) (h6 : c ≠ .null .endOfMibView) :
    c.identifier = .ok [t] := by
  rcases c with _ | c | c | _ | c | c
  all_goals try (cases c)
  all_goals first
    | contradiction
    | (cases h; decide +kernel)

/-- C05. The six exceptions, and what they emit instead. -/
theorem C05_identifier_exceptions :
    (Cls.int .counter64).identifier = .ok [0x07] ∧ (Cls.oct .opaque).identifier = .ok [0x04] ∧
    (Cls.seq .response).identifier = .ok [0xA0] ∧ (Cls.null .noSuchObject).identifier = .ok [0x05] ∧
    (Cls.null .noSuchInstance).identifier = .ok [0x05] ∧ (Cls.null .endOfMibView).identifier = .ok [0x05] := by
  decide +kernel

/-- C05. A user-defined type with a tag number below 31 gets one octet, the sum of its parts. -/
theorem C05_user_low (fuel cls fmt num : Nat) (hc : cls ∈ [0x00, 0x40, 0x80, 0xC0]) (hf : fmt ∈ [0x00, 0x20])
    (hn : num < 31) : encodeIdentifier fuel cls fmt num = some [cls + fmt + num] := by
  have key : ∀ c ∈ [0x00, 0x40, 0x80, 0xC0], ∀ f ∈ [0x00, 0x20], ∀ n < 31, c ||| f ||| n = c + f + n := by
    decide
  unfold encodeIdentifier
  rw [if_pos (by omega), key cls hc fmt hf num hn]

/-- C05. With a tag number of 31 or more `encode()` never returns: after any number of loop iterations the loop of
`encodeIdentifier` is still running. -/
theorem C05_user_high_diverges (cls fmt num : Nat) (hn : 31 ≤ num) :
    ∀ fuel, encodeIdentifier fuel cls fmt num = none := by
  intro fuel
  have key : ∀ (fuel : Nat) (i : Int) (acc : Str), 0 ≤ i → encodeIdentifierLoop fuel i acc = none := by
    intro fuel
    induction fuel with
    | zero => intro i acc hi; unfold encodeIdentifierLoop; rw [if_neg (by omega)]
    | succ fuel ih =>
      intro i acc hi
      unfold encodeIdentifierLoop
      rw [if_neg (by omega)]
      apply ih
      rw [intShr8]; omega
  unfold encodeIdentifier
  rw [if_neg (by omega)]
  exact key fuel _ _ (by omega)

example : rfcTag (.seq .getBulk) = some 0xA5 ∧ (Cls.seq .getBulk).identifier = .ok [0xA5] := by decide +kernel
example : encodeIdentifier 1000 0x40 0x20 5 = some [0x65] := by decide +kernel

end Libsnmp
