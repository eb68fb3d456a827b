import Verif.Lemmas.Codec

/-! Unambiguity of BER, existence of decodings. -/

namespace Libsnmp
open Spec

theorem tlv_unique {t t' : Nat} {c c' s r : Str} (h : Tlv t c s) (h' : Tlv t' c' (s ++ r)) :
    t = t' ∧ c = c' ∧ r = [] := by
  obtain ⟨f, h1, h2⟩ := tlv_append h
  obtain ⟨f', h1', h2'⟩ := h'
  rw [h2] at h2'
  simp only [List.singleton_append, List.cons.injEq] at h2'
  obtain ⟨ht, he⟩ := h2'
  have d1 := decodeLength_field h1 (c ++ r)
  rw [he, decodeLength_field h1' c'] at d1
  simp only [Except.ok.injEq, Prod.mk.injEq] at d1
  obtain ⟨d1, d2⟩ := d1
  have hr : r = [] := by
    apply List.eq_nil_of_length_eq_zero
    have := congrArg List.length d2
    simp only [List.length_append] at this; omega
  subst hr
  simp at d2
  exact ⟨ht, d2.symm, rfl⟩

theorem oidContents_unique {ids ids' c : List Nat} (h : OidContents ids c) (h' : OidContents ids' c) : ids = ids' := by
  cases h with
  | mk a b rest g t ha hb hg hmin ht =>
    generalize he : g ++ t = c at h'
    cases h' with
    | mk a' b' rest' g' t' ha' hb' hg' hmin' ht' =>
      obtain ⟨rfl, rfl, e⟩ := base128_prefix_unique hg hg' he
      have h1 : a = a' ∧ b = b' := by omega
      obtain ⟨gs, f1, f2⟩ := base128List_forall2 ht
      obtain ⟨gs', f1', f2'⟩ := base128List_forall2 ht'
      have := forall2_unique f1 f1' (by rw [← f2, ← f2'])
      rw [h1.1, h1.2, this.2]

theorem ukind_tag_inj {k k' : UKind} (h : k.tag = k'.tag) : k = k' := by
  cases k <;> cases k' <;> first | rfl | exact absurd h (by decide)
theorem skind_tag_inj {k k' : SKind} (h : k.tag = k'.tag) : k = k' := by
  cases k <;> cases k' <;> first | rfl | exact absurd h (by decide)
theorem nkind_tag_inj {k k' : NKind} (h : k.tag = k'.tag) : k = k' := by
  cases k <;> cases k' <;> first | rfl | exact absurd h (by decide)

/-- The identifier octet of a value. -/
def asnTag : Asn → Nat
  | .integer _ => 0x02
  | .unsigned k _ => k.tag
  | .string k _ => k.tag
  | .null k => k.tag
  | .oid _ => 0x06
  | .seq _ => 0x30

theorem ber_tag {a : Asn} {s : Str} (h : Ber a s) : ∃ c, Tlv (asnTag a) c s := by
  cases h <;> exact ⟨_, by assumption⟩

set_option linter.unusedSimpArgs false in
mutual
theorem ber_unique : (a b : Asn) → (s r : Str) → Ber a s → Ber b (s ++ r) → r = [] ∧ a = b
  | .integer _, b, s, r, .integer c _ _ _ h, hb => by
      obtain ⟨c', h'⟩ := ber_tag hb
      obtain ⟨ht, _, hr⟩ := tlv_unique h h'
      refine ⟨hr, ?_⟩
      cases hb with
      | integer c2 _ _ _ h2 => rw [(tlv_unique h h2).2.1]
      | unsigned k => cases k <;> simp [asnTag, UKind.tag, SKind.tag, NKind.tag] at ht
      | string k => cases k <;> simp [asnTag, UKind.tag, SKind.tag, NKind.tag] at ht
      | null k => cases k <;> simp [asnTag, UKind.tag, SKind.tag, NKind.tag] at ht
      | oid => simp [asnTag, UKind.tag, SKind.tag, NKind.tag] at ht
      | seq => simp [asnTag, UKind.tag, SKind.tag, NKind.tag] at ht
  | .unsigned k n, b, s, r, .unsigned _ _ c _ _ _ hv h, hb => by
      obtain ⟨c', h'⟩ := ber_tag hb
      obtain ⟨ht, _, hr⟩ := tlv_unique h h'
      refine ⟨hr, ?_⟩
      cases hb with
      | integer => cases k <;> simp [asnTag, UKind.tag, SKind.tag, NKind.tag] at ht
      | unsigned k' n' c2 _ _ _ hv2 h2 =>
        have := (tlv_unique h h2).2.1
        subst this
        rw [ukind_tag_inj ht]
        congr 1
        omega
      | string k' => cases k <;> cases k' <;> simp [asnTag, UKind.tag, SKind.tag, NKind.tag] at ht
      | null k' => cases k <;> cases k' <;> simp [asnTag, UKind.tag, SKind.tag, NKind.tag] at ht
      | oid => cases k <;> simp [asnTag, UKind.tag, SKind.tag, NKind.tag] at ht
      | seq => cases k <;> simp [asnTag, UKind.tag, SKind.tag, NKind.tag] at ht
  | .string k _, b, s, r, .string _ c _ h, hb => by
      obtain ⟨c', h'⟩ := ber_tag hb
      obtain ⟨ht, _, hr⟩ := tlv_unique h h'
      refine ⟨hr, ?_⟩
      cases hb with
      | integer => cases k <;> simp [asnTag, UKind.tag, SKind.tag, NKind.tag] at ht
      | unsigned k' => cases k <;> cases k' <;> simp [asnTag, UKind.tag, SKind.tag, NKind.tag] at ht
      | string k' c2 _ h2 => rw [(tlv_unique h h2).2.1, skind_tag_inj ht]
      | null k' => cases k <;> cases k' <;> simp [asnTag, UKind.tag, SKind.tag, NKind.tag] at ht
      | oid => cases k <;> simp [asnTag, UKind.tag, SKind.tag, NKind.tag] at ht
      | seq => cases k <;> simp [asnTag, UKind.tag, SKind.tag, NKind.tag] at ht
  | .null k, b, s, r, .null _ _ h, hb => by
      obtain ⟨c', h'⟩ := ber_tag hb
      obtain ⟨ht, _, hr⟩ := tlv_unique h h'
      refine ⟨hr, ?_⟩
      cases hb with
      | integer => cases k <;> simp [asnTag, UKind.tag, SKind.tag, NKind.tag] at ht
      | unsigned k' => cases k <;> cases k' <;> simp [asnTag, UKind.tag, SKind.tag, NKind.tag] at ht
      | string k' => cases k <;> cases k' <;> simp [asnTag, UKind.tag, SKind.tag, NKind.tag] at ht
      | null k' => rw [nkind_tag_inj ht]
      | oid => cases k <;> simp [asnTag, UKind.tag, SKind.tag, NKind.tag] at ht
      | seq => cases k <;> simp [asnTag, UKind.tag, SKind.tag, NKind.tag] at ht
  | .oid ids, b, s, r, .oid _ c _ hc h, hb => by
      obtain ⟨c', h'⟩ := ber_tag hb
      obtain ⟨ht, _, hr⟩ := tlv_unique h h'
      refine ⟨hr, ?_⟩
      cases hb with
      | integer => simp [asnTag, UKind.tag, SKind.tag, NKind.tag] at ht
      | unsigned k => cases k <;> simp [asnTag, UKind.tag, SKind.tag, NKind.tag] at ht
      | string k => cases k <;> simp [asnTag, UKind.tag, SKind.tag, NKind.tag] at ht
      | null k => cases k <;> simp [asnTag, UKind.tag, SKind.tag, NKind.tag] at ht
      | oid ids' c2 _ hc2 h2 =>
        have := (tlv_unique h h2).2.1
        subst this
        rw [oidContents_unique hc hc2]
      | seq => simp [asnTag, UKind.tag, SKind.tag, NKind.tag] at ht
  | .seq as, b, s, r, .seq _ c _ hc h, hb => by
      obtain ⟨c', h'⟩ := ber_tag hb
      obtain ⟨ht, _, hr⟩ := tlv_unique h h'
      refine ⟨hr, ?_⟩
      cases hb with
      | integer => simp [asnTag, UKind.tag, SKind.tag, NKind.tag] at ht
      | unsigned k => cases k <;> simp [asnTag, UKind.tag, SKind.tag, NKind.tag] at ht
      | string k => cases k <;> simp [asnTag, UKind.tag, SKind.tag, NKind.tag] at ht
      | null k => cases k <;> simp [asnTag, UKind.tag, SKind.tag, NKind.tag] at ht
      | oid => simp [asnTag, UKind.tag, SKind.tag, NKind.tag] at ht
      | seq bs c2 _ hc2 h2 =>
        have := (tlv_unique h h2).2.1
        subst this
        rw [berList_unique as bs c hc hc2]
theorem berList_unique : (as bs : List Asn) → (s : Str) → BerList as s → BerList bs s → as = bs
  | [], bs, _, .nil, hb => by
      generalize hs : ([] : Str) = s at hb
      cases hb with
      | nil => rfl
      | cons h _ =>
        obtain ⟨c, f, _, h2⟩ := ber_tag h
        rw [h2] at hs; simp at hs
  | a :: as, bs, _, .cons (s := s1) (t := t1) h1 h2, hb => by
      generalize hs : s1 ++ t1 = s' at hb
      cases hb with
      | nil =>
        obtain ⟨c, f, _, h3⟩ := ber_tag h1
        rw [h3] at hs; simp at hs
      | @cons b bs s2 t2 h3 h4 =>
        have key : s1 = s2 := by
          rcases List.append_eq_append_iff.mp hs with ⟨r, e1, e2⟩ | ⟨r, e1, e2⟩
          · subst e1
            have := (ber_unique a b s1 r h1 h3).1
            simp [this]
          · subst e1
            obtain ⟨c, h5⟩ := ber_tag h3
            obtain ⟨c', h5'⟩ := ber_tag h1
            have := (tlv_unique h5 h5').2.2
            simp [this]
        subst key
        have hab := (ber_unique a b s1 [] h1 (by simpa using h3)).2
        have ht := List.append_cancel_left hs
        subst ht
        rw [hab, berList_unique as bs t1 h2 h4]
end

mutual
/-- Anything a well-formed object stands for can be read back. -/
theorem denotes_exists {reg : Reg} (hr : Understands1155 reg) : (x : Val) → (a : Asn) → Represents x a → SmallArcs a →
    ∃ y, Denotes reg a y ∧ Represents y a
  | .integer c _, _, .integer _ v hc hv, _ => by
      obtain ⟨c, h, hc⟩ := hr.integer
      exact ⟨_, .integer v c h hc, .integer c v hc hv⟩
  | .integer c _, _, .unsigned k _ n hc, _ => by
      cases k with
      | counter => obtain ⟨c, h, hc⟩ := hr.counter; exact ⟨_, .unsigned _ n c h, .unsigned _ c n hc⟩
      | gauge => obtain ⟨c, h, hc⟩ := hr.gauge; exact ⟨_, .unsigned _ n c h, .unsigned _ c n hc⟩
      | timeTicks => obtain ⟨c, h, hc⟩ := hr.timeTicks; exact ⟨_, .unsigned _ n c h, .unsigned _ c n hc⟩
      | counter64 => exact absurd hc (by simp [unsignedClasses])
  | .octets c _, _, .string k _ v hc, _ => by
      cases k with
      | octetString => obtain ⟨c, h, hc⟩ := hr.octetString; exact ⟨_, .string _ v c h, .string _ c v hc⟩
      | ipAddress => obtain ⟨c, h, hc⟩ := hr.ipAddress; exact ⟨_, .string _ v c h, .string _ c v hc⟩
      | _ => exact absurd hc (by simp [stringClasses])
  | .null _, _, .null, _ => ⟨_, .null .null .null hr.null, .null⟩
  | .oid _, _, .oid a b rest ha hb, hs => by
      have : b < 40 := by simpa [SmallArcs] using hs
      exact ⟨_, .oid a b rest hr.oid this, .oid a b rest ha hb⟩
  | .seq c xs, _, .seq _ _ as hc h, hs => by
      obtain ⟨ys, h1, h2⟩ := denotesList_exists hr xs as h (by simpa [SmallArcs] using hs)
      exact ⟨_, .seq as ys hr.sequence h1, .seq _ ys as (by decide) h2⟩
theorem denotesList_exists {reg : Reg} (hr : Understands1155 reg) : (xs : List Val) → (as : List Asn) →
    RepresentsList xs as → SmallArcsList as → ∃ ys, DenotesList reg as ys ∧ RepresentsList ys as
  | [], _, .nil, _ => ⟨[], .nil, .nil⟩
  | x :: xs, _, .cons h1 h2, hs => by
      simp only [SmallArcsList] at hs
      obtain ⟨y, e1, e2⟩ := denotes_exists hr x _ h1 hs.1
      obtain ⟨ys, e3, e4⟩ := denotesList_exists hr xs _ h2 hs.2
      exact ⟨y :: ys, .cons e1 e3, .cons e2 e4⟩
end

mutual
/-- The octets emitted depend on the abstract value only, not on the class. -/
theorem encode_canonical : (x y : Val) → (a : Asn) → Represents x a → Represents y a → x.encode = y.encode
  | .integer c _, _, _, .integer _ v hc hv, hy => by
      cases hy with
      | integer c' _ hc' _ => rw [Val.encode, Val.encode, tlv, tlv, signed_identifier hc, signed_identifier hc']
  | .integer c _, _, _, .unsigned k _ n hc, hy => by
      cases hy with
      | unsigned _ c' _ hc' => rw [Val.encode, Val.encode, tlv, tlv, unsigned_identifier hc, unsigned_identifier hc']
  | .octets c _, _, _, .string k _ v hc, hy => by
      cases hy with
      | string _ c' _ hc' => rw [Val.encode, Val.encode, tlv, tlv, string_identifier hc, string_identifier hc']
  | .null _, _, _, .null, hy => by cases hy; rfl
  | .oid _, _, _, .oid a b rest ha hb, hy => by cases hy; rfl
  | .seq c xs, _, _, .seq _ _ as hc h, hy => by
      cases hy with
      | seq c' ys _ hc' h' =>
        rw [Val.encode, Val.encode, encodeItems_canonical xs ys as h h']
        simp only [tlv, sequence_identifier hc, sequence_identifier hc']
theorem encodeItems_canonical : (xs ys : List Val) → (as : List Asn) → RepresentsList xs as → RepresentsList ys as →
    encodeItems xs = encodeItems ys
  | [], _, _, .nil, hy => by cases hy; rfl
  | x :: xs, _, _, .cons h1 h2, hy => by
      cases hy with
      | cons h1' h2' =>
        rw [encodeItems, encodeItems, encode_canonical x _ _ h1 h1', encodeItems_canonical xs _ _ h2 h2']
end

end Libsnmp
