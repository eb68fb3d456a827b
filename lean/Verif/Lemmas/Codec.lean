import Verif.Lemmas.Length
import Verif.Lemmas.Int
import Verif.Lemmas.Oid
import Verif.Spec.Represents

/-! Whole objects. -/

namespace Libsnmp
open Spec

/-- `decodeAll` without the termination bookkeeping. -/
theorem decodeAll_eq (reg : Reg) (s : Str) : decodeAll reg s =
    if s = [] then .ok [] else
    match decodeTag s with
    | .error e => .error e
    | .ok (tag, s1) =>
      match decodeLength s1 with
      | .error e => .error e
      | .ok (length, s2) =>
        match reg tag with
        | none => .error .valueError
        | some cls =>
          match decodeContents reg cls (s2.take length) with
          | .error e => .error e
          | .ok obj =>
            match decodeAll reg (s2.drop length) with
            | .error e => .error e
            | .ok objects => .ok (obj :: objects) := by
  rw [decodeAll]
  by_cases hs : s = []
  · simp [hs]
  · simp only [hs, if_false]
    split
    · next e h => rw [h]
    · next tag s1 h =>
      rw [h]
      simp only
      split
      · next e h => rw [h]
      · next l s2 h =>
        rw [h]
        rfl

/-- One element at the front of a stream. -/
theorem decodeAll_element (reg : Reg) {tag : Nat} {idf f contents : Str} (rest : Str)
    (hi : IdentifierField tag idf) (hf : LengthField contents.length f) :
    decodeAll reg (idf ++ (f ++ (contents ++ rest))) =
      match reg tag with
      | none => .error .valueError
      | some cls =>
        match decodeContents reg cls contents with
        | .error e => .error e
        | .ok obj =>
          match decodeAll reg rest with
          | .error e => .error e
          | .ok objects => .ok (obj :: objects) := by
  rw [decodeAll_eq, if_neg, decodeTag_field hi]
  · simp only
    rw [decodeLength_field hf]
    simp
  · intro h
    cases hi <;> simp at h

theorem tlv_append {tag : Nat} {c s : Str} (h : Tlv tag c s) :
    ∃ f, LengthField c.length f ∧ ∀ rest, s ++ rest = [tag] ++ (f ++ (c ++ rest)) := by
  obtain ⟨f, h1, rfl⟩ := h
  exact ⟨f, h1, fun rest => by simp⟩

/-- A complete element with a one-octet identifier. -/
theorem decodeAll_tlv (reg : Reg) {tag : Nat} {c s : Str} (h : Tlv tag c s) (ht : tag % 32 ≠ 31) (rest : Str) :
    decodeAll reg (s ++ rest) =
      match reg tag with
      | none => .error .valueError
      | some cls =>
        match decodeContents reg cls c with
        | .error e => .error e
        | .ok obj =>
          match decodeAll reg rest with
          | .error e => .error e
          | .ok objects => .ok (obj :: objects) := by
  obtain ⟨f, h1, h2⟩ := tlv_append h
  rw [h2, decodeAll_element reg rest (.low tag ht) h1]

theorem decodeAll_nil (reg : Reg) : decodeAll reg [] = .ok [] := by rw [decodeAll_eq]; simp

/-- `decodeContents` at each kind of class. -/
theorem decodeContents_int (reg : Reg) (c : IntCls) (d : Str) : decodeContents reg (.int c) d =
    match (if (Cls.int c).isSubclass (.int .counter) then counterDecode d else intDecode d) with
    | .error e => .error e
    | .ok v => .ok (.integer c v) := by
  rw [decodeContents]
  cases (if (Cls.int c).isSubclass (.int .counter) then counterDecode d else intDecode d) <;> rfl
theorem decodeContents_oct (reg : Reg) (c : OctCls) (d : Str) :
    decodeContents reg (.oct c) d = .ok (.octets c d) := by rw [decodeContents]
theorem decodeContents_oid (reg : Reg) (d : Str) : decodeContents reg .oid d =
    match oidDecode d with
    | .error e => .error e
    | .ok ids => .ok (.oid (some ids)) := by
  rw [decodeContents]
  cases oidDecode d <;> rfl
theorem decodeContents_null (reg : Reg) (c : NullCls) (d : Str) : decodeContents reg (.null c) d =
    if d ≠ [] then .error .valueError else .ok (.null c) := by rw [decodeContents]
theorem decodeContents_seq (reg : Reg) (c : SeqCls) (d : Str) : decodeContents reg (.seq c) d =
    match decodeAll reg d with
    | .error e => .error e
    | .ok items => finishSeq c items := by
  rw [decodeContents]
  cases decodeAll reg d <;> rfl
theorem decodeContents_asn1 (reg : Reg) (d : Str) :
    decodeContents reg .asn1Object d = .error .attributeError := by rw [decodeContents]

theorem ne_nil_cases {c : Str} (h : c ≠ []) : ∃ b t, c = b :: t := by
  cases c with
  | nil => exact absurd rfl h
  | cons b t => exact ⟨b, t, rfl⟩

theorem intDecode_ok {c : Str} (hne : c ≠ []) (ho : Octets c) : intDecode c = .ok (twos c) := by
  obtain ⟨b, t, rfl⟩ := ne_nil_cases hne
  exact intDecode_eq ho

theorem counterDecode_nonneg {c : Str} (hne : c ≠ []) (ho : Octets c) {n : Nat} (hv : twos c = n) :
    counterDecode c = .ok (n : Int) := by
  unfold counterDecode
  rw [intDecode_ok hne ho, hv]
  simp only
  rw [if_neg (by omega)]

theorem oidContents_decode {a b : Nat} {rest c : List Nat} (h : OidContents (a :: b :: rest) c) (hb : b < 40) :
    oidDecode c = .ok (ints (a :: b :: rest)) := by
  cases h with
  | mk _ _ _ g t ha hb' hg hmin ht =>
    have hlt : 40 * a + b < 128 := by omega
    have hgs := group_minimal hg hmin
    have e : subidEncode ((40 * a + b : Nat) : Int) = [40 * a + b] := by
      unfold subidEncode
      rw [if_pos (by omega), land_7f]
      congr 1; omega
    rw [hgs, e, List.singleton_append, oidDecode, if_pos hlt, oidDecodeLoop_groups ht]
    have e1 : (40 * a + b) / 40 = a := by omega
    have e2 : (40 * a + b) % 40 = b := by omega
    rw [e1, e2]; rfl

theorem ukind_tag (k : UKind) : k.tag % 32 ≠ 31 := by cases k <;> decide
theorem skind_tag (k : SKind) : k.tag % 32 ≠ 31 := by cases k <;> decide
theorem nkind_tag (k : NKind) : k.tag % 32 ≠ 31 := by cases k <;> decide

theorem signed_not_counter {c : IntCls} (h : c ∈ signedClasses) : (Cls.int c).isSubclass (.int .counter) = false := by
  revert c; decide

theorem finishSeq_sequence (items : List Val) : finishSeq .sequence items = .ok (.seq .sequence items) := by
  unfold finishSeq
  have h1 : (Cls.seq .sequence).isSubclass (.seq .pdu) = false := by decide
  have h2 : (Cls.seq .sequence).isSubclass (.seq .bulkPDU) = false := by decide
  have h3 : (Cls.seq .sequence).isSubclass (.seq .trapPDU) = false := by decide
  simp [h1, h2, h3]

mutual
/-- Decoding any encoding of `a` at the front of a stream. -/
theorem ber_decode (reg : Reg) : (a : Asn) → ∀ (y : Val) (s : Str), Ber a s → Denotes reg a y → ∀ rest,
    decodeAll reg (s ++ rest) = match decodeAll reg rest with
      | .error e => .error e
      | .ok objects => .ok (y :: objects)
  | .integer _, _, _, .integer c s hne ho h, .integer _ cl hr hc, rest => by
      rw [decodeAll_tlv reg h (by decide), hr]
      simp only [decodeContents_int, signed_not_counter hc, intDecode_ok hne ho]
      rfl
  | .unsigned k n, _, _, .unsigned _ _ c s hne ho hv h, .unsigned _ _ cl hr, rest => by
      rw [decodeAll_tlv reg h (ukind_tag k), hr]
      simp only [decodeContents_int, intDecode_ok hne ho, counterDecode_nonneg hne ho hv, hv, ite_self]
  | .string k _, _, _, .string _ c s h, .string _ _ cl hr, rest => by
      rw [decodeAll_tlv reg h (skind_tag k), hr]
      simp only [decodeContents_oct]
  | .null k, _, _, .null _ s h, .null _ cl hr, rest => by
      rw [decodeAll_tlv reg h (nkind_tag k), hr]
      simp [decodeContents_null]
  | .oid (_ :: _ :: _), _, _, .oid _ c s hc h, .oid _ _ _ hr hb, rest => by
      rw [decodeAll_tlv reg h (by decide), hr]
      simp only [decodeContents_oid, oidContents_decode hc hb]
  | .seq as, _, _, .seq _ c s hc h, .seq _ ys hr hl, rest => by
      rw [decodeAll_tlv reg h (by decide), hr]
      simp only [decodeContents_seq]
      have := berList_decode reg as ys c hc hl []
      rw [List.append_nil, decodeAll_nil] at this
      rw [this]
      simp only [List.append_nil, finishSeq_sequence]
/-- The same for concatenations. -/
theorem berList_decode (reg : Reg) : (as : List Asn) → ∀ (ys : List Val) (s : Str), BerList as s →
    DenotesList reg as ys → ∀ rest,
    decodeAll reg (s ++ rest) = match decodeAll reg rest with
      | .error e => .error e
      | .ok objects => .ok (ys ++ objects)
  | [], _, _, .nil, .nil, rest => by
      simp only [List.nil_append]
      cases decodeAll reg rest <;> rfl
  | a :: as, _, _, .cons h1 h2, .cons d1 d2, rest => by
      rw [List.append_assoc, ber_decode reg a _ _ h1 d1, berList_decode reg as _ _ h2 d2]
      cases decodeAll reg rest <;> rfl
end

/-! ### Encoding -/

theorem tlv_ok {c : Cls} {t : Nat} (contents : Str) (hi : c.identifier = .ok [t]) :
    ∃ s, tlv c contents = .ok s ∧ contents.length < s.length ∧
      (s.length < 256 ^ 127 → Tlv t contents s) := by
  refine ⟨_, by unfold tlv; rw [hi], by simp; omega, fun h => ⟨encodeLength contents.length, encodeLength_field ?_, by simp⟩⟩
  refine Nat.lt_of_le_of_lt ?_ h
  simp only [List.length_append]; omega

theorem signed_identifier {c : IntCls} (h : c ∈ signedClasses) : (Cls.int c).identifier = .ok [0x02] := by
  revert c; decide +kernel
theorem unsigned_identifier {k : UKind} {c : IntCls} (h : c ∈ unsignedClasses k) :
    (Cls.int c).identifier = .ok [k.tag] := by
  cases k <;> revert c <;> decide +kernel
theorem string_identifier {k : SKind} {c : OctCls} (h : c ∈ stringClasses k) :
    (Cls.oct c).identifier = .ok [k.tag] := by
  cases k <;> revert c <;> decide +kernel
theorem oid_identifier : Cls.oid.identifier = .ok [0x06] := by decide +kernel
theorem null_identifier : (Cls.null .null).identifier = .ok [NKind.null.tag] := by decide +kernel
theorem sequence_identifier {c : SeqCls} (h : c ∈ sequenceClasses) : (Cls.seq c).identifier = .ok [0x30] := by
  revert c; decide +kernel

theorem intEncode_outOfBand {v : Int} (h : OutOfBand v) : twos (intEncode v) = v := by
  rcases twos_intEncode v with ⟨h1, _⟩ | ⟨k, hk, h1, h2, _⟩
  · exact h1
  · exact absurd ⟨h1, h2⟩ (h k hk)

theorem outOfBand_nonneg {v : Int} (h : 0 ≤ v) : OutOfBand v := by
  rintro k _ ⟨_, h2⟩
  have : (0 : Int) < 256 ^ k := by positivity
  omega

theorem oidContents_encode {a b : Nat} (rest : List Nat) (ha : a ≤ 2) (hb : a < 2 → b < 40) :
    ∃ c, oidEncode (some (ints (a :: b :: rest))) = .ok c ∧ OidContents (a :: b :: rest) c := by
  refine ⟨_, oidEncode_nats a b rest, ?_⟩
  exact .mk a b rest _ _ ha hb (subidEncode_group _) (subidEncode_head _) (flatMap_subid_groups rest)

mutual
/-- Encoding a well-formed object. -/
theorem encode_ber : (x : Val) → ∀ (a : Asn), Represents x a →
    ∃ s, x.encode = .ok s ∧ (s.length < 256 ^ 127 → Ber a s)
  | .integer c _, _, .integer _ v hc hv => by
      obtain ⟨s, h1, _, h3⟩ := tlv_ok (intEncode v) (signed_identifier hc)
      refine ⟨s, by rw [Val.encode, h1], fun hl => ?_⟩
      have := Ber.integer _ s (intEncode_octets v).2 (intEncode_octets v).1 (h3 hl)
      rwa [intEncode_outOfBand hv] at this
  | .integer c _, _, .unsigned k _ n hc => by
      obtain ⟨s, h1, _, h3⟩ := tlv_ok (intEncode n) (unsigned_identifier hc)
      refine ⟨s, by rw [Val.encode, h1], fun hl => ?_⟩
      exact Ber.unsigned k n _ s (intEncode_octets n).2 (intEncode_octets n).1
        (intEncode_outOfBand (outOfBand_nonneg (by omega))) (h3 hl)
  | .octets c _, _, .string k _ v hc => by
      obtain ⟨s, h1, _, h3⟩ := tlv_ok v (string_identifier hc)
      exact ⟨s, by rw [Val.encode, h1], fun hl => .string k v s (h3 hl)⟩
  | .null _, _, .null => by
      obtain ⟨s, h1, _, h3⟩ := tlv_ok [] null_identifier
      exact ⟨s, by rw [Val.encode, h1], fun hl => .null _ s (h3 hl)⟩
  | .oid _, _, .oid a b rest ha hb => by
      obtain ⟨c, h1, h2⟩ := oidContents_encode rest ha hb
      obtain ⟨s, h3, _, h4⟩ := tlv_ok c oid_identifier
      exact ⟨s, by rw [Val.encode, h1]; exact h3, fun hl => .oid _ c s h2 (h4 hl)⟩
  | .seq c xs, _, .seq _ _ as hc h => by
      obtain ⟨t, h1, h2⟩ := encodeItems_ber xs as h
      obtain ⟨s, h3, h4, h5⟩ := tlv_ok t (sequence_identifier hc)
      exact ⟨s, by rw [Val.encode, h1]; exact h3, fun hl => .seq as t s (h2 (by omega)) (h5 hl)⟩
/-- The same for the elements of a sequence. -/
theorem encodeItems_ber : (xs : List Val) → ∀ (as : List Asn), RepresentsList xs as →
    ∃ s, encodeItems xs = .ok s ∧ (s.length < 256 ^ 127 → BerList as s)
  | [], _, .nil => ⟨[], by rw [encodeItems], fun _ => .nil⟩
  | x :: xs, _, .cons h1 h2 => by
      obtain ⟨s, e1, b1⟩ := encode_ber x _ h1
      obtain ⟨t, e2, b2⟩ := encodeItems_ber xs _ h2
      refine ⟨s ++ t, by rw [encodeItems, e1]; simp only [e2], fun hl => ?_⟩
      simp only [List.length_append] at hl
      exact .cons (b1 (by omega)) (b2 (by omega))
end

end Libsnmp
