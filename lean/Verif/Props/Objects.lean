import Verif.Lemmas.Unique
import Verif.Lemmas.ValEq
import Verif.Props.Fields
import Verif.Props.Imports

/-!
# Whole objects: C18 - C22, C24 - C26, C60
-/

namespace Libsnmp
open Spec

theorem regV1_understands : Understands1155 regV1 := imported_understands imported_v1

theorem regFull_understands : Understands1155 regFull := imported_understands imported_full

/-- C18. An OctetString's contents come out of the encoder as they are, at the end of the encoding, and are read back
as they are, whatever the characters and whatever follows. -/
theorem C18_octetString_transparent (reg : Reg) (hr : reg 0x04 = some (.oct .octetString)) (v : Str)
    (hv : v.length < 256 ^ 127) :
    ∃ pre, (Val.octets .octetString v).encode = .ok (pre ++ v) ∧
      ∀ rest, decode reg (.str (pre ++ v ++ rest)) =
        (decode reg (.str rest)).map (Val.octets .octetString v :: ·) := by
  refine ⟨[0x04] ++ encodeLength v.length, ?_, ?_⟩
  · rw [Val.encode, tlv, string_identifier (k := .octetString) (by decide)]; rfl
  · intro rest
    have h : Tlv 0x04 v ([0x04] ++ encodeLength v.length ++ v) := ⟨encodeLength v.length, encodeLength_field hv, by simp⟩
    simp only [decode]
    rw [decodeAll_tlv reg h (by decide), hr]
    simp only [decodeContents_oct]
    cases decodeAll reg rest <;> rfl

example : (Val.octets .octetString [0, 4, 2, 0, 255, 0x30]).encode = .ok [4, 6, 0, 4, 2, 0, 255, 0x30] := by
  decide +kernel

/-- C19. `decode(x.encode() + rest)` is `x`, in the classes the registry assigns, followed by what is in `rest` (or
fails as `rest` does), for every well-formed tree `x` and every registry that denotes its value. -/
theorem C19_object_roundtrip (reg : Reg) {x y : Val} {a : Asn} (hx : Represents x a) (hy : Denotes reg a y) :
    ∃ s, x.encode = .ok s ∧ (s.length < 256 ^ 127 → ∀ rest,
      decode reg (.str (s ++ rest)) = (decode reg (.str rest)).map (y :: ·)) := by
  obtain ⟨s, h1, h2⟩ := encode_ber x a hx
  refine ⟨s, h1, fun hl rest => ?_⟩
  simp only [decode]
  rw [ber_decode reg a y s (h2 hl) hy]
  cases decodeAll reg rest <;> rfl

/-- C19, applied to the registries that occur: whatever modules were imported, every well-formed tree whose object
identifiers have a second arc below 40 comes back as an object standing for the same value. -/
theorem C19_object_roundtrip_registries (reg : Reg) (hreg : Imported reg) {x : Val} {a : Asn}
    (hx : Represents x a) (ha : SmallArcs a) :
    ∃ y, Represents y a ∧ Denotes reg a y ∧ y.encode = x.encode ∧ ∃ s, x.encode = .ok s ∧ (s.length < 256 ^ 127 →
      decode reg (.str s) = .ok [y]) := by
  have hr : Understands1155 reg := imported_understands hreg
  obtain ⟨y, hy, hy'⟩ := denotes_exists hr x a hx ha
  obtain ⟨s, h1, h2⟩ := C19_object_roundtrip reg hx hy
  refine ⟨y, hy', hy, encode_canonical y x a hy' hx, s, h1, fun hl => ?_⟩
  have := h2 hl []
  simp only [List.append_nil, decode, decodeAll_nil] at this
  simpa [decode, Except.map] using this

/-- C19. The classes for which the registry does not give the same kind of value back: Opaque comes back as an
OctetString, the three exception values as Null, and Counter64 not at all. -/
theorem C19_exceptional_classes (reg : Reg) (hreg : Imported reg) (v : Str) (hv : v.length < 256 ^ 127)
    (n : Int) (hn : (intEncode n).length < 256 ^ 127) :
    (∃ s, (Val.octets .opaque v).encode = .ok s ∧ decode reg (.str s) = .ok [.octets .octetString v]) ∧
    (∀ c : NullCls, ∃ s, (Val.null c).encode = .ok s ∧ decode reg (.str s) = .ok [.null .null]) ∧
    (∃ s, (Val.integer .counter64 n).encode = .ok s ∧ decode reg (.str s) = .error .valueError) := by
  have r4 : reg 0x04 = some (.oct .octetString) := by obtain ⟨b, c, d, rfl⟩ := imported_decoder hreg; rfl
  have r5 : reg 0x05 = some (.null .null) := by obtain ⟨b, c, d, rfl⟩ := imported_decoder hreg; rfl
  have r7 : reg 0x07 = none := by obtain ⟨b, c, d, rfl⟩ := imported_decoder hreg; rfl
  refine ⟨?_, ?_, ?_⟩
  · refine ⟨[0x04] ++ encodeLength v.length ++ v, ?_, ?_⟩
    · rw [Val.encode, tlv, (by decide +kernel : (Cls.oct .opaque).identifier = .ok [0x04])]
    · have h : Tlv 0x04 v ([0x04] ++ encodeLength v.length ++ v) := ⟨_, encodeLength_field hv, by simp⟩
      have := decodeAll_tlv reg h (by decide) []
      rw [List.append_nil, r4, decodeAll_nil] at this
      simp only [decodeContents_oct] at this
      exact this
  · intro c
    refine ⟨[0x05, 0x00], ?_, ?_⟩
    · cases c <;> decide +kernel
    · have h : Tlv 0x05 [] [0x05, 0x00] := ⟨[0], .short 0 (by decide), rfl⟩
      have := decodeAll_tlv reg h (by decide) []
      rw [List.append_nil, r5, decodeAll_nil] at this
      simp only [decodeContents_null, ne_eq, not_true_eq_false, if_false] at this
      exact this
  · refine ⟨[0x07] ++ encodeLength (intEncode n).length ++ intEncode n, ?_, ?_⟩
    · rw [Val.encode, tlv, (by decide +kernel : (Cls.int .counter64).identifier = .ok [0x07])]
    · have h : Tlv 0x07 (intEncode n) ([0x07] ++ encodeLength (intEncode n).length ++ intEncode n) :=
        ⟨_, encodeLength_field hn, by simp⟩
      have := decodeAll_tlv reg h (by decide) []
      rw [List.append_nil, r7] at this
      exact this

/-- A tree used in the examples: a sequence holding an OID, a sequence of a counter and a negative integer, a Null
and a string. -/
def sampleTree : Val :=
  .seq .varBindList [.oid (some [1, 3, 6, 1, 4, 1, 311]),
    .seq .varBind [.integer .counter 4000000000, .integer .integer (-5)], .null .null,
    .octets .octetString [0, 200, 5]]

def sampleAsn : Asn :=
  .seq [.oid [1, 3, 6, 1, 4, 1, 311], .seq [.unsigned .counter 4000000000, .integer (-5)], .null .null,
    .string .octetString [0, 200, 5]]

theorem minusFive_outOfBand : OutOfBand (-5) := by
  rintro k hk ⟨h1, h2⟩
  have : (256 : Int) ^ 1 ≤ 256 ^ k := by exact_mod_cast Nat.pow_le_pow_right (by decide : 0 < 256) hk
  omega

theorem sampleTree_represents : Represents sampleTree sampleAsn :=
  .seq _ _ _ (by decide) (.cons (.oid 1 3 [6, 1, 4, 1, 311] (by decide) (by decide))
    (.cons (.seq _ _ _ (by decide) (.cons (.unsigned .counter .counter 4000000000 (by decide))
      (.cons (.integer .integer (-5) (by decide) minusFive_outOfBand) .nil)))
    (.cons .null (.cons (.string .octetString .octetString _ (by decide)) .nil))))

/-- The hypotheses of C19 are met by the sample tree, and the conclusion is not trivial. -/
example : Represents sampleTree sampleAsn ∧ SmallArcs sampleAsn :=
  ⟨sampleTree_represents, by simp [sampleAsn, SmallArcs, SmallArcsList]⟩

example : sampleTree.encode = .ok [48, 28, 6, 7, 43, 6, 1, 4, 1, 130, 55, 48, 10, 65, 5, 0, 238, 107, 40, 0, 2, 1,
    251, 5, 0, 4, 3, 0, 200, 5] := by decide +kernel

/-- C20. Every definite-length encoding of a value, with any legal length form and any integer padding, is accepted
and gives that value; what follows is decoded as if it stood alone. -/
theorem C20_any_ber_accepted (reg : Reg) {a : Asn} {y : Val} {s : Str} (hs : Ber a s) (hy : Denotes reg a y)
    (rest : Str) : decode reg (.str (s ++ rest)) = (decode reg (.str rest)).map (y :: ·) := by
  simp only [decode]
  rw [ber_decode reg a y s hs hy]
  cases decodeAll reg rest <;> rfl

/-- A non-canonical encoding: long-form length with a leading zero, and a padded integer. -/
example : Ber (.integer 5) [0x02, 0x82, 0, 3, 0, 0, 5] ∧ Denotes regFull (.integer 5) (.integer .integer32 5) := by
  refine ⟨?_, .integer 5 _ rfl (by decide)⟩
  have := Ber.integer [0, 0, 5] [0x02, 0x82, 0, 3, 0, 0, 5] (by simp) (by decide)
    ⟨[0x82, 0, 3], .long [0, 3] (by decide) (by decide) (by decide), rfl⟩
  exact this

/-- C21. What `encode()` returns for a well-formed object is a definite-length BER encoding of its value. -/
theorem C21_encode_is_ber {x : Val} {a : Asn} (hx : Represents x a) :
    ∃ s, x.encode = .ok s ∧ (s.length < 256 ^ 127 → Ber a s) := encode_ber x a hx

/-- C22. No encoding of a well-formed object is a proper prefix of another one's, and equal encodings mean equal
values. -/
theorem C22_encoding_unique {x y : Val} {a b : Asn} (hx : Represents x a) (hy : Represents y b) {s r : Str}
    (h1 : x.encode = .ok s) (h2 : y.encode = .ok (s ++ r)) (hl : (s ++ r).length < 256 ^ 127) :
    r = [] ∧ a = b := by
  obtain ⟨s', e1, b1⟩ := encode_ber x a hx
  obtain ⟨t', e2, b2⟩ := encode_ber y b hy
  rw [h1, Except.ok.injEq] at e1
  rw [h2, Except.ok.injEq] at e2
  subst e1 e2
  exact ber_unique a b s r (b1 (by simp at hl; omega)) (b2 hl)

/-- C22, converse: objects standing for the same value have the same encoding, whatever their classes. -/
theorem C22_encoding_canonical {x y : Val} {a : Asn} (hx : Represents x a) (hy : Represents y a) :
    x.encode = y.encode := encode_canonical x y a hx hy

/-- C24. An identifier that is not registered, with a complete identifier and length field, makes `decode` raise
ValueError, whatever follows. -/
theorem C24_unknown_tag (reg : Reg) {tag n : Nat} {idf f : Str} (hi : IdentifierField tag idf) (hf : LengthField n f)
    (hr : reg tag = none) (rest : Str) : decode reg (.str (idf ++ f ++ rest)) = .error .valueError := by
  simp only [decode]
  rw [decodeAll_eq, if_neg, List.append_assoc, decodeTag_field hi]
  · simp only
    rw [decodeLength_field hf]
    simp only [hr]
  · intro h; cases hi <;> simp at h

example : decode regFull (.str [0x9f, 0x81, 0x00, 0x01, 0x05]) = .error .valueError := by decide +kernel

/-- C25 is false: contents shorter than announced are decoded as if the stream's end were the element's end.  The
announced number `n` may be anything from the number of characters present upwards. -/
theorem C25_truncation_accepted (reg : Reg) {tag n : Nat} {idf f f' contents : Str} (hi : IdentifierField tag idf)
    (hf : LengthField n f) (hn : contents.length ≤ n) (hf' : LengthField contents.length f') :
    decode reg (.str (idf ++ f ++ contents)) = decode reg (.str (idf ++ f' ++ contents)) := by
  have key : ∀ {n : Nat} {f : Str}, LengthField n f → contents.length ≤ n →
      decodeAll reg (idf ++ f ++ contents) = match reg tag with
        | none => .error .valueError
        | some cls => match decodeContents reg cls contents with
          | .error e => .error e
          | .ok obj => .ok [obj] := by
    intro n f hf hn
    rw [decodeAll_eq, if_neg, List.append_assoc, decodeTag_field hi]
    · simp only
      rw [decodeLength_field hf]
      simp only [List.take_of_length_le hn, List.drop_eq_nil_of_le hn, decodeAll_nil]
      rfl
    · intro h; cases hi <;> simp at h
  simp only [decode]
  rw [key hf hn, key hf' (Nat.le_refl _)]

/-- C25, negation of the stated property: a string announcing 5 characters with 2 present is accepted. -/
theorem C25_false : ¬ ∀ (n : Nat) (f contents : Str), LengthField n f → contents.length < n →
    ∃ e, decode regV1 (.str ([0x04] ++ f ++ contents)) = .error e := by
  intro h
  obtain ⟨e, he⟩ := h 5 [5] [65, 66] (.short 5 (by decide)) (by decide)
  have := C25_truncation_accepted regV1 (contents := [65, 66]) (.low 4 (by decide)) (.short 5 (by decide)) (by decide)
    (.short 2 (by decide))
  rw [he] at this
  have e' : decode regV1 (.str ([4] ++ [2] ++ [65, 66])) = .ok [.octets .octetString [65, 66]] := by
    have := C20_any_ber_accepted regV1 (.string .octetString [65, 66] _ ⟨[2], .short 2 (by decide), rfl⟩)
      (.string .octetString _ .octetString rfl) []
    simp only [decode, List.append_nil, decodeAll_nil] at this
    exact this
  rw [e'] at this
  cases this

/-- C26. Decoding complete elements followed by anything is decoding both parts in turn. -/
theorem C26_concatenation (reg : Reg) {s : Str} (hs : Elements s) (t : Str) :
    decode reg (.str (s ++ t)) = (do
      let a ← decode reg (.str s)
      let b ← decode reg (.str t)
      pure (a ++ b)) := by
  simp only [decode]
  induction hs with
  | nil =>
    rw [decodeAll_nil, List.nil_append]
    cases decodeAll reg t <;> rfl
  | @cons s' t' he hs ih =>
    obtain ⟨c, hi, hf⟩ := he
    rename_i tag idf f
    have e1 : idf ++ f ++ c ++ t' ++ t = idf ++ (f ++ (c ++ (t' ++ t))) := by simp
    have e2 : idf ++ f ++ c ++ t' = idf ++ (f ++ (c ++ t')) := by simp
    rw [e1, e2, decodeAll_element reg _ hi hf, decodeAll_element reg _ hi hf, ih]
    cases reg tag with
    | none => rfl
    | some cls =>
      simp only
      cases decodeContents reg cls c with
      | error e => rfl
      | ok obj =>
        simp only
        cases decodeAll reg t' with
        | error e => rfl
        | ok l => cases decodeAll reg t <;> rfl

/-- C26. A sequence's contents is the concatenation of its elements' encodings, in order. -/
theorem C26_sequence_contents (xs ys : List Val) (s t : Str) (h1 : encodeItems xs = .ok s)
    (h2 : encodeItems ys = .ok t) : encodeItems (xs ++ ys) = .ok (s ++ t) := by
  induction xs generalizing s with
  | nil => rw [encodeItems, Except.ok.injEq] at h1; subst h1; simpa using h2
  | cons x xs ih =>
    rw [encodeItems] at h1
    split at h1
    · simp at h1
    · next s1 e1 =>
      split at h1
      · simp at h1
      · next s2 e2 =>
        simp only [Except.ok.injEq] at h1
        subst h1
        rw [List.cons_append, encodeItems, e1]
        simp only [ih s2 e2, List.append_assoc]

example : Elements [0x02, 1, 5, 0x05, 0] :=
  .cons (s := [2, 1, 5]) (.mk [5] (.low 2 (by decide)) (.short 1 (by decide)))
    (.cons (s := [5, 0]) (.mk [] (.low 5 (by decide)) (.short 0 (by decide))) .nil)

end Libsnmp
