import Verif.Props.Grammar
import Verif.Lemmas.Receive
import Verif.Props.Requests
import Verif.Props.Integers
import Verif.Spec.Size

/-! # C81 (decoding does not amplify), C82 (sizes of encodings) -/

namespace Libsnmp
open Spec

/-! ## C81 -/

theorem weights_forall {cb : SeqCls} {items vbs : List Val} (h : List.Forall₂ (BindingOf cb) items vbs) :
    weights vbs ≤ weights items := by
  induction h with
  | nil => simp
  | @cons x y xs ys h _ ih =>
    have : weight y ≤ weight x := by
      cases h <;> simp only [weight, weights, Option.getD_some, List.length_cons] <;> omega
    simp only [weights]; omega

theorem pduOf_weight {c : SeqCls} {items : List Val} {v : Val} (h : PduOf c items v) : weight v ≤ 1 + weights items := by
  cases h with
  | v1 _ cl k0 k1 k2 r e i items vbs hc hr he hi hb =>
    have := weights_forall hb; simp only [weight, weights]; omega
  | v2 _ cl k0 k1 k2 r e i items vbs hc hr he hi hb hl =>
    have := weights_forall hb; simp only [weight, weights]; omega
  | bulk _ cl k0 k1 k2 r e i items vbs hc hr he hi hb hl =>
    have := weights_forall hb; simp only [weight, weights]; omega
  | trap cl k g ent addr spec ts items vbs hg hb =>
    have := weights_forall hb; simp only [weight, weights]; omega

theorem base128List_length {ns t : List Nat} (h : Base128List ns t) : ns.length ≤ t.length := by
  induction h with
  | nil => simp
  | cons h1 _ ih => cases h1; simp; omega

theorem header_length {tag n : Nat} {idf lf : List Nat} (hi : IdentifierField tag idf) (hl : LengthRead n lf) :
    2 ≤ idf.length + lf.length := by
  cases hi <;> cases hl <;> simp <;> omega

mutual
theorem parses_weight {reg : Reg} {s : List Nat} {objs : List Val} : Parses reg s objs → weights objs ≤ s.length
  | .nil => by simp [weights]
  | .cons hi hl hc hr hv hs => by
    have h1 := contents_weight hv
    have h2 := parses_weight hs
    have h3 := header_length hi hl
    simp only [weights, List.length_append]; omega
theorem contents_weight {reg : Reg} {cls : Cls} {s : List Nat} {v : Val} : Contents reg cls s v → weight v ≤ s.length + 2
  | .integer c s hc hne => by simp only [weight]; omega
  | .counter c s hc hne => by simp only [weight]; omega
  | .string c s => by simp only [weight]; omega
  | .null c => by simp only [weight]; omega
  | .oid b t ns hb ht => by
    have := base128List_length ht
    simp only [weight, ints, List.map_cons, Option.getD_some, List.length_cons, List.length_map]; omega
  | .sequence c s items hc h => by
    have := parses_weight h
    simp only [weight]; omega
  | .pdu c s items v h hp => by
    have := parses_weight h
    have := pduOf_weight hp
    omega
end

/-- C81. What `decode` makes of a stream takes no more space than the stream: objects, characters and sub-identifiers
together are at most as many as its octets. -/
theorem C81_no_amplification {reg : Reg} (hreg : Imported reg) (s : Str) (h : Octets s) (objs : List Val)
    (hd : decode reg (.str s) = .ok objs) : weights objs ≤ s.length :=
  parses_weight ((C65_parse_iff hreg s h objs).mp hd)

theorem contents_object {reg : Reg} {cls : Cls} {s : List Nat} {v : Val} (h : Contents reg cls s v) :
    (∀ t, v ≠ .str t) ∧ (∀ t, v ≠ .bytes t) := by
  cases h with
  | pdu c s items v h hp => cases hp <;> simp
  | _ => simp

theorem parsed_object {reg : Reg} {s : List Nat} {o : Val} (h : Parses reg s [o]) : (∀ t, o ≠ .str t) ∧ (∀ t, o ≠ .bytes t) := by
  cases h with
  | cons hi hl hc hr hv hs => exact contents_object hv

/-- C81. The same for whole messages. -/
theorem C81_message {reg : Reg} (hreg : Imported reg) (c : SeqCls) (s : Str) (h : Octets s) (m : Msg)
    (hd : msgDecode reg c (.str s) = .ok m) : weight m.version + weight m.community + weight m.data < s.length := by
  obtain ⟨s', o, he, hdec, h0, h1, h2, _⟩ := msgDecode_parts hd
  cases he
  have hw := C81_no_amplification hreg s h [o] hdec
  simp only [weights] at hw
  match o, h0, h1, h2, hw with
  | .seq _ (a :: b :: c :: rest), h0, h1, h2, hw =>
    simp [Val.getItem] at h0 h1 h2
    simp only [weight, weights] at hw
    rw [← h0, ← h1, ← h2]; omega
  | .seq _ [a, b], h0, h1, h2, hw => simp [Val.getItem] at h2
  | .seq _ [a], h0, h1, h2, hw => simp [Val.getItem] at h1
  | .seq _ [], h0, h1, h2, hw => simp [Val.getItem] at h0
  | .oid (some (a :: b :: c :: rest)), h0, h1, h2, hw =>
    simp [Val.getItem] at h0 h1 h2
    simp only [weight, Option.getD_some, List.length_cons] at hw
    rw [← h0, ← h1, ← h2]; simp only [weight]; omega
  | .oid (some [a, b]), h0, h1, h2, hw => simp [Val.getItem] at h2
  | .oid (some [a]), h0, h1, h2, hw => simp [Val.getItem] at h1
  | .oid (some []), h0, h1, h2, hw => simp [Val.getItem] at h0
  | .oid Option.none, h0, h1, h2, hw => simp [Val.getItem] at h0
  | .str t, h0, h1, h2, hw => exact absurd rfl ((parsed_object ((C65_parse_iff hreg s h _).mp hdec)).1 t)
  | .bytes t, h0, h1, h2, hw => exact absurd rfl ((parsed_object ((C65_parse_iff hreg s h _).mp hdec)).2 t)
  | .none, h0, _, _, _ => simp [Val.getItem] at h0
  | .int _, h0, _, _, _ => simp [Val.getItem] at h0
  | .integer _ _, h0, _, _, _ => simp [Val.getItem] at h0
  | .octets _ _, h0, _, _, _ => simp [Val.getItem] at h0
  | .raw _ _, h0, _, _, _ => simp [Val.getItem] at h0
  | .null _, h0, _, _, _ => simp [Val.getItem] at h0

theorem Bits.mono {a b : Nat} (hab : a ≤ b) {v : Val} (h : Bits a v) : Bits b v := by
  have hp : 2 ^ a ≤ 2 ^ b := Nat.pow_le_pow_right (by omega) hab
  induction h with
  | none => exact .none
  | int n h => exact .int n (by omega)
  | str s => exact .str s
  | bytes s => exact .bytes s
  | integer c n h => exact .integer c n (by omega)
  | octets c s => exact .octets c s
  | oid ids h => exact .oid ids fun n hn => by have := h n hn; omega
  | unset => exact .unset
  | null c => exact .null c
  | seq c items _ ih => exact .seq c items ih

theorem bits_items {b : Nat} {c : SeqCls} {l : List Val} (h : Bits b (.seq c l)) : ∀ v ∈ l, Bits b v := by
  cases h with | seq _ _ h => exact h

theorem bits_integer {b : Nat} {c : IntCls} {n : Int} (h : Bits b (.integer c n)) : n.natAbs < 2 ^ b := by
  cases h with | integer _ _ h => exact h

theorem bits_forall {b : Nat} {cb : SeqCls} {items vbs : List Val} (h : List.Forall₂ (BindingOf cb) items vbs)
    (hb : ∀ v ∈ items, Bits b v) : ∀ v ∈ vbs, Bits b v := by
  induction h with
  | nil => simp
  | @cons x y xs ys h _ ih =>
    intro v hv
    rcases List.mem_cons.mp hv with rfl | hv
    · have hx := hb x (by simp)
      have hz : (0 : Int).natAbs < 2 ^ b := Nat.pos_of_ne_zero (by simp)
      cases h with
      | pair c ids value ignored =>
        have := bits_items hx
        refine .seq _ _ ?_
        simp only [List.mem_cons, List.not_mem_nil, or_false, forall_eq_or_imp, forall_eq]
        exact ⟨this _ (by simp), this _ (by simp)⟩
      | emptyName c c' value ignored =>
        have := bits_items hx
        refine .seq _ _ ?_
        simp only [List.mem_cons, List.not_mem_nil, or_false, forall_eq_or_imp, forall_eq]
        exact ⟨this _ (by simp), this _ (by simp)⟩
      | zeroArcs ignored =>
        refine .seq _ _ ?_
        simp only [List.mem_cons, List.not_mem_nil, or_false, forall_eq_or_imp, forall_eq]
        exact ⟨.int _ hz, .int _ hz⟩
    · exact ih (fun v hv => hb v (by simp [hv])) v hv

theorem pduOf_bits {b : Nat} {c : SeqCls} {items : List Val} {v : Val} (h : PduOf c items v) (hb : ∀ v ∈ items, Bits b v) :
    Bits b v := by
  cases h with
  | v1 _ cl k0 k1 k2 r e i items vbs hc hr he hi hbb =>
    simp only [List.mem_cons, List.not_mem_nil, or_false, forall_eq_or_imp, forall_eq] at hb
    refine .seq _ _ ?_
    simp only [List.mem_cons, List.not_mem_nil, or_false, forall_eq_or_imp, forall_eq]
    exact ⟨.integer _ _ (bits_integer hb.1), .integer _ _ (bits_integer hb.2.1), .integer _ _ (bits_integer hb.2.2.1),
      .seq _ _ (bits_forall hbb (bits_items hb.2.2.2))⟩
  | v2 _ cl k0 k1 k2 r e i items vbs hc hr he hi hbb hl =>
    simp only [List.mem_cons, List.not_mem_nil, or_false, forall_eq_or_imp, forall_eq] at hb
    refine .seq _ _ ?_
    simp only [List.mem_cons, List.not_mem_nil, or_false, forall_eq_or_imp, forall_eq]
    exact ⟨.integer _ _ (bits_integer hb.1), .integer _ _ (bits_integer hb.2.1), .integer _ _ (bits_integer hb.2.2.1),
      .seq _ _ (bits_forall hbb (bits_items hb.2.2.2))⟩
  | bulk _ cl k0 k1 k2 r e i items vbs hc hr he hi hbb hl =>
    simp only [List.mem_cons, List.not_mem_nil, or_false, forall_eq_or_imp, forall_eq] at hb
    refine .seq _ _ ?_
    simp only [List.mem_cons, List.not_mem_nil, or_false, forall_eq_or_imp, forall_eq]
    exact ⟨.integer _ _ (bits_integer hb.1), .integer _ _ (bits_integer hb.2.1), .integer _ _ (bits_integer hb.2.2.1),
      .seq _ _ (bits_forall hbb (bits_items hb.2.2.2))⟩
  | trap cl k g ent addr spec ts items vbs hg hbb =>
    simp only [List.mem_cons, List.not_mem_nil, or_false, forall_eq_or_imp, forall_eq] at hb
    refine .seq _ _ ?_
    simp only [List.mem_cons, List.not_mem_nil, or_false, forall_eq_or_imp, forall_eq]
    exact ⟨hb.1, hb.2.1, .integer _ _ (bits_integer hb.2.2.1), hb.2.2.2.1, hb.2.2.2.2.1,
      .seq _ _ (bits_forall hbb (bits_items hb.2.2.2.2.2))⟩

theorem base128_bits {n : Nat} {s : List Nat} (h : Base128 n s) : n < 2 ^ (8 * s.length) := by
  cases h with
  | mk ds d hds hd =>
    have h1 := ofDigits_lt (b := 128) (s := ds ++ [d]) fun x hx => by
      rcases List.mem_append.mp hx with hx | hx
      · exact hds x hx
      · simp at hx; omega
    refine h1.trans_le ?_
    rw [show 128 = 2 ^ 7 by rfl, ← Nat.pow_mul]
    exact Nat.pow_le_pow_right (by omega) (by simp)

theorem base128List_bits {ns t : List Nat} (h : Base128List ns t) : ∀ n ∈ ns, n < 2 ^ (8 * t.length) := by
  induction h with
  | nil => simp
  | @cons n s ns t h1 _ ih =>
    intro m hm
    rcases List.mem_cons.mp hm with rfl | hm
    · exact (base128_bits h1).trans_le (Nat.pow_le_pow_right (by omega) (by simp))
    · exact (ih m hm).trans_le (Nat.pow_le_pow_right (by omega) (by simp))

theorem twos_bits {s : List Nat} (h : Octets s) (hne : s ≠ []) : (twos s).natAbs < 2 ^ (8 * s.length) := by
  have := twos_range h hne
  rw [Nat.pow_mul, show 2 ^ 8 = 256 by rfl]
  have h2 : ((256 ^ s.length : Nat) : Int) = 256 ^ s.length := by push_cast; rfl
  have h3 : 0 < 256 ^ s.length := by positivity
  omega

mutual
theorem parses_bits {reg : Reg} {s : List Nat} {objs : List Val} (ho : Octets s) : Parses reg s objs →
    ∀ v ∈ objs, Bits (max 32 (8 * s.length)) v
  | .nil => by simp
  | @Parses.cons _ tag n idf lf contents rest cls v vs hi hl hc hr hv hs => by
    have h1 := contents_bits (fun b hb => ho b (by simp [hb])) hv
    have h2 := parses_bits (fun b hb => ho b (by simp [hb])) hs
    intro w hw
    rcases List.mem_cons.mp hw with rfl | hw
    · exact Bits.mono (by simp; omega) h1
    · exact Bits.mono (by simp; omega) (h2 w hw)
theorem contents_bits {reg : Reg} {cls : Cls} {s : List Nat} {v : Val} (ho : Octets s) : Contents reg cls s v →
    Bits (max 32 (8 * s.length)) v
  | .integer c s hc hne => .integer _ _ ((twos_bits ho hne).trans_le (Nat.pow_le_pow_right (by omega) (by omega)))
  | .counter c s hc hne => by
    have h1 := twos_bits ho hne
    have h2 : 2 ^ (8 * s.length) ≤ 2 ^ (max 32 (8 * s.length)) := Nat.pow_le_pow_right (by omega) (by omega)
    have h3 : 2 ^ 32 ≤ 2 ^ (max 32 (8 * s.length)) := Nat.pow_le_pow_right (by omega) (by omega)
    refine .integer _ _ ?_
    split
    · generalize 2 ^ (max 32 (8 * s.length)) = p at *
      omega
    · omega
  | .string c s => .octets _ _
  | .null c => .null _
  | .oid b t ns hb ht => by
    have h1 := base128List_bits ht
    have h2 : 2 ^ (8 * t.length) ≤ 2 ^ (max 32 (8 * (b :: t).length)) := Nat.pow_le_pow_right (by omega) (by simp)
    have h3 : 2 ^ 32 ≤ 2 ^ (max 32 (8 * (b :: t).length)) := Nat.pow_le_pow_right (by omega) (by omega)
    refine .oid _ ?_
    intro n hn
    simp only [List.mem_cons] at hn
    rcases hn with rfl | rfl | hn
    · omega
    · omega
    · have := h1 n hn; omega
  | .sequence c s items hc h => .seq _ _ (parses_bits ho h)
  | .pdu c s items v h hp => pduOf_bits hp (parses_bits ho h)
end

/-- C81. No integer in the result has more bits than the stream, or 32 if that is more. -/
theorem C81_bits {reg : Reg} (hreg : Imported reg) (s : Str) (h : Octets s) (objs : List Val)
    (hd : decode reg (.str s) = .ok objs) : ∀ v ∈ objs, Bits (max 32 (8 * s.length)) v :=
  parses_bits h ((C65_parse_iff hreg s h objs).mp hd)

/-! ## C82 -/

theorem identifier_length (c : Cls) (s : Str) (h : c.identifier = .ok s) : s.length = 1 := by
  have key : (match c.identifier with | .ok s => decide (s.length = 1) | .error _ => true) = true := by
    rcases c with _ | c | c | _ | c | c
    all_goals try (cases c)
    all_goals decide +kernel
  rw [h] at key
  simpa using key

theorem encodeLength_bounds (n : Nat) : 1 ≤ (encodeLength n).length ∧ (n < 127 → (encodeLength n).length = 1) ∧
    (n < 65536 → (encodeLength n).length ≤ 3) := by
  by_cases h : n < 127
  · rw [encodeLength_short h]; simp
  · obtain ⟨ds, h1, h2, h3, h4, h5⟩ := encodeLength_long (n := n) (by omega)
    rw [h1]
    refine ⟨by simp, by omega, fun hn => ?_⟩
    have := length_le_of_unsigned_lt (m := 2) h5 (by omega)
    simp; omega

theorem tlv_bounds {c : Cls} {contents s : Str} (h : tlv c contents = .ok s) :
    contents.length + 2 ≤ s.length ∧ (contents.length < 127 → s.length = contents.length + 2) ∧
    (contents.length < 65536 → s.length ≤ contents.length + 4) := by
  unfold tlv at h
  cases hi : c.identifier with
  | error e => simp [hi] at h
  | ok ident =>
    simp only [hi, Except.ok.injEq] at h
    subst h
    have h1 := identifier_length c ident hi
    obtain ⟨h2, h3, h4⟩ := encodeLength_bounds contents.length
    simp only [List.length_append]
    refine ⟨by omega, fun h => ?_, fun h => ?_⟩
    · have := h3 h; omega
    · have := h4 h; omega

theorem subid_length (n : Nat) : 1 ≤ (subidEncode (n : Int)).length ∧ (n < 2 ^ 35 → (subidEncode (n : Int)).length ≤ 5) ∧
    (n < 2 ^ 42 → (subidEncode (n : Int)).length ≤ 6) := by
  obtain ⟨ds, d, h1, h2, h3, h4, h5⟩ := subidEncode_spec n
  rw [h1]
  have key : ∀ k, n < 128 ^ (k + 1) → ds.length ≤ k := by
    intro k hk
    cases ds with
    | nil => simp
    | cons e es =>
      have he : e ≠ 0 := by simpa using h5
      have := ofDigits_ge (b := 128) (s := es ++ [d]) he
      rw [List.cons_append] at h4
      have hlt : 128 ^ (es ++ [d]).length < 128 ^ (k + 1) := by omega
      have := (Nat.pow_lt_pow_iff_right (by decide)).mp hlt
      simp at this ⊢; omega
  refine ⟨by simp, fun h => ?_, fun h => ?_⟩
  · have := key 4 (by norm_num at h ⊢; omega); simp; omega
  · have := key 5 (by norm_num at h ⊢; omega); simp; omega

theorem subids_length (ids : List Nat) : ids.length ≤ ((ints ids).flatMap subidEncode).length ∧
    ((∀ n ∈ ids, n < 2 ^ 31) → ((ints ids).flatMap subidEncode).length ≤ 5 * ids.length) := by
  induction ids with
  | nil => simp [ints]
  | cons n ids ih =>
    have h1 := subid_length n
    simp only [ints, List.map_cons, List.flatMap_cons, List.length_append, List.length_cons] at ih ⊢
    refine ⟨by omega, fun h => ?_⟩
    have h2 := ih.2 fun m hm => h m (by simp [hm])
    have h3 := h n (by simp)
    have h4 := h1.2.1 (by omega)
    omega

theorem oidContents_length {ids : List Nat} {s : Str} (h : oidEncode (some (ints ids)) = .ok s) :
    ids.length ≤ s.length + 1 ∧ ((∀ n ∈ ids, n < 2 ^ 31) → s.length ≤ 5 * ids.length) := by
  match ids, h with
  | a :: b :: rest, h =>
    have e := oidEncode_nats a b rest
    have e' : oidEncode (some (ints (a :: b :: rest))) = oidEncode (some ((a : Int) :: (b : Int) :: ints rest)) := rfl
    rw [e', e, Except.ok.injEq] at h
    subst h
    have h1 := subid_length (40 * a + b)
    have h2 := subids_length rest
    simp only [List.length_append, List.length_cons]
    refine ⟨by omega, fun h => ?_⟩
    have ha := h a (by simp)
    have hb := h b (by simp)
    have h3 := h1.2.2 (by omega)
    have h4 := h2.2 fun m hm => h m (by simp [hm])
    omega

theorem integer_length (n : Int) (h : -9223372036854775808 ≤ n ∧ n ≤ 18446744073709551615) :
    (intEncode n).length + 2 ≤ integerRoom n ∧ 1 ≤ (intEncode n).length ∧ (intEncode n).length ≤ 9 := by
  obtain ⟨h1, h2, h3, h4⟩ := C09_int_sizes n
  have h5 := List.length_pos_of_ne_nil (C09_int_minimal n).2.1
  have h9 : (intEncode n).length ≤ 9 := h4 9 (by omega) (by norm_num; omega) (by norm_num; omega)
  unfold integerRoom
  refine ⟨?_, h5, h9⟩
  split
  · rename_i h; have := h1 h.1 h.2; omega
  · split
    · rename_i h; have := h2 h.1 h.2; omega
    · omega

mutual
theorem encode_bounds : ∀ (v : Val) (s : Str), v.encode = .ok s → Moderate v →
    least v ≤ s.length ∧ (room v < 65536 → s.length ≤ room v)
  | .none, s, h, _ => by simp [Val.encode] at h
  | .int _, s, h, _ => by simp [Val.encode] at h
  | .bytes _, s, h, _ => by simp [Val.encode] at h
  | .raw _ _, s, h, _ => by simp [Val.encode] at h
  | .str t, s, h, _ => by
    simp only [Val.encode, Except.ok.injEq] at h
    subst h; simp [least, room]
  | .integer c n, s, h, hm => by
    cases hm with
    | integer _ _ hr =>
      obtain ⟨h1, h2, h3⟩ := integer_length n hr
      obtain ⟨h4, h5, _⟩ := tlv_bounds (by simpa only [Val.encode] using h)
      have := h5 (by omega)
      simp only [least, room]
      omega
  | .octets c t, s, h, _ => by
    obtain ⟨h4, _, h5⟩ := tlv_bounds (by simpa only [Val.encode] using h)
    simp only [least, room]
    exact ⟨by omega, fun hr => by have := h5 (by omega); omega⟩
  | .null c, s, h, _ => by
    obtain ⟨h4, h5, _⟩ := tlv_bounds (by simpa only [Val.encode] using h)
    have := h5 (by simp)
    simp only [List.length_nil] at this
    simp only [least, room]; omega
  | .oid v, s, h, hm => by
    cases hm with
    | oid ids hr =>
      simp only [Val.encode] at h
      split at h
      · cases h
      · rename_i contents hc
        obtain ⟨h1, h2⟩ := oidContents_length hc
        have h3 := h2 hr
        obtain ⟨h4, _, h5⟩ := tlv_bounds h
        simp only [least, room, Option.getD_some, ints, List.length_map]
        exact ⟨by omega, fun hr => by have := h5 (by omega); omega⟩
  | .seq c items, s, h, hm => by
    cases hm with
    | seq _ _ hi =>
      simp only [Val.encode] at h
      split at h
      · cases h
      · rename_i contents hc
        obtain ⟨h1, h2⟩ := encodeItems_bounds items contents hc hi
        obtain ⟨h4, _, h5⟩ := tlv_bounds h
        simp only [least, room]
        refine ⟨by omega, fun hr => ?_⟩
        have := h2 (by omega)
        have := h5 (by omega)
        omega
theorem encodeItems_bounds : ∀ (l : List Val) (s : Str), encodeItems l = .ok s → (∀ v ∈ l, Moderate v) →
    leasts l ≤ s.length ∧ (rooms l < 65536 → s.length ≤ rooms l)
  | [], s, h, _ => by
    simp only [encodeItems, Except.ok.injEq] at h
    subst h; simp [leasts, rooms]
  | v :: vs, s, h, hm => by
    simp only [encodeItems] at h
    split at h
    · cases h
    · rename_i a ha
      split at h
      · cases h
      · rename_i b hb
        simp only [Except.ok.injEq] at h
        subst h
        obtain ⟨h1, h2⟩ := encode_bounds v a ha (hm v (by simp))
        obtain ⟨h3, h4⟩ := encodeItems_bounds vs b hb fun w hw => hm w (by simp [hw])
        simp only [leasts, rooms, List.length_append]
        refine ⟨by omega, fun hr => ?_⟩
        have := h2 (by omega)
        have := h4 (by omega)
        omega
end

/-- C82. An encoding has at least `least` octets, and at most `room`, if that is a size a datagram can have. -/
theorem C82_size (v : Val) (s : Str) (h : v.encode = .ok s) (hm : Moderate v) :
    least v ≤ s.length ∧ (room v ≤ 65507 → s.length ≤ room v) := by
  obtain ⟨h1, h2⟩ := encode_bounds v s h hm
  exact ⟨h1, fun h => h2 (by omega)⟩

/-- C82. The same for messages. -/
theorem C82_message (m : Msg) (s : Str) (h : m.encode = .ok s) (hv : Moderate m.version) (hc : Moderate m.community)
    (hd : Moderate m.data) :
    2 + least m.version + least m.community + least m.data ≤ s.length ∧
    (4 + room m.version + room m.community + room m.data ≤ 65507 →
      s.length ≤ 4 + room m.version + room m.community + room m.data) := by
  have : Val.encode (.seq m.cls [m.version, m.community, m.data]) = .ok s := by
    simpa only [Val.encode, Msg.encode] using h
  have hm : Moderate (.seq m.cls [m.version, m.community, m.data]) := by
    refine .seq _ _ ?_
    simp only [List.mem_cons, List.not_mem_nil, or_false, forall_eq_or_imp, forall_eq]
    exact ⟨hv, hc, hd⟩
  have := C82_size _ s this hm
  simp only [least, leasts, room, rooms] at this
  refine ⟨by omega, fun h => ?_⟩
  have := this.2 (by omega)
  omega

theorem moderate_query {c : SeqCls} {oid : Arg} {vb : Val} {ids : List Nat} (hq : Query c oid vb)
    (hn : mkOid oid = .ok (some (ints ids))) (hb : ∀ n ∈ ids, n < 2 ^ 31) :
    Moderate vb ∧ room vb = 10 + 5 * ids.length ∧ least vb = 5 + ids.length := by
  obtain ⟨v, h1, rfl⟩ := hq
  rw [hn] at h1
  cases h1
  refine ⟨.seq _ _ ?_, ?_, ?_⟩
  · simp only [List.mem_cons, List.not_mem_nil, or_false, forall_eq_or_imp, forall_eq]
    exact ⟨.oid _ hb, .null _⟩
  · simp only [room, rooms, Option.getD_some, ints, List.length_map]; omega
  · simp only [least, leasts, Option.getD_some, ints, List.length_map]; omega

theorem moderate_queries {c : SeqCls} {oids : List Arg} {vbs : List Val} {names : List (List Nat)}
    (hq : List.Forall₂ (Query c) oids vbs)
    (hn : List.Forall₂ (fun oid ids => mkOid oid = .ok (some (ints ids)) ∧ ∀ n ∈ ids, n < 2 ^ 31) oids names) :
    (∀ vb ∈ vbs, Moderate vb) ∧ rooms vbs = (names.map fun ids => 10 + 5 * ids.length).sum ∧
      leasts vbs = (names.map fun ids => 5 + ids.length).sum := by
  induction hq generalizing names with
  | nil => cases hn; simp [rooms, leasts]
  | @cons oid vb oids vbs h1 _ ih =>
    cases hn with
    | cons h2 h3 =>
      obtain ⟨a, b, c⟩ := moderate_query h1 h2.1 h2.2
      obtain ⟨d, e, f⟩ := ih h3
      refine ⟨fun v hv => ?_, ?_, ?_⟩
      · rcases List.mem_cons.mp hv with rfl | hv
        · exact a
        · exact d v hv
      · simp only [rooms, List.map_cons, List.sum_cons]; omega
      · simp only [leasts, List.map_cons, List.sum_cons]; omega

/-- C82. The datagram of an SNMPv2 `snmpGet` (and `snmpManager`'s, with one name): at least 20 octets besides the community
and `5 + k` for each name of `k` sub-identifiers, at most 40 besides the community and `10 + 5 * k` for each name. -/
theorem C82_get (names : List (List Nat)) (oids : List Arg) (vbs : List Val) (c c' : SeqCls) (community : Str) (id : Int)
    (hid : Spec.Int32 id) (hq : List.Forall₂ (Query c) oids vbs)
    (hn : List.Forall₂ (fun oid ids => mkOid oid = .ok (some (ints ids)) ∧ ∀ n ∈ ids, n < 2 ^ 31) oids names) (m : Msg)
    (hm : m = v1Msg c' community id vbs ∨ m = v2Msg c' community id vbs) (s : Str) (h : m.encode = .ok s) :
    20 + community.length + (names.map fun ids => 5 + ids.length).sum ≤ s.length ∧
    (40 + community.length + (names.map fun ids => 10 + 5 * ids.length).sum ≤ 65507 →
      s.length ≤ 40 + community.length + (names.map fun ids => 10 + 5 * ids.length).sum) := by
  obtain ⟨h1, h2, h3⟩ := moderate_queries hq hn
  have hr : integerRoom id = 6 := by
    unfold integerRoom; rw [if_pos]; unfold Spec.Int32 at hid; omega
  have hr0 : integerRoom 0 = 6 := by decide
  have hr1 : integerRoom 1 = 6 := by decide
  unfold Spec.Int32 at hid
  rcases hm with rfl | rfl
  · have := C82_message _ s h (.integer _ _ (by omega)) (.octets _ _) (by
      refine .seq _ _ ?_
      simp only [List.mem_cons, List.not_mem_nil, or_false, forall_eq_or_imp, forall_eq]
      exact ⟨.integer _ _ (by omega), .integer _ _ (by omega), .integer _ _ (by omega), .seq _ _ h1⟩)
    simp only [v1Msg, least, leasts, room, rooms, hr, hr0, h2, h3] at this
    refine ⟨by omega, fun h => ?_⟩
    have := this.2 (by omega)
    omega
  · have := C82_message _ s h (.integer _ _ (by omega)) (.octets _ _) (by
      refine .seq _ _ ?_
      simp only [List.mem_cons, List.not_mem_nil, or_false, forall_eq_or_imp, forall_eq]
      exact ⟨.integer _ _ (by omega), .integer _ _ (by omega), .integer _ _ (by omega), .seq _ _ h1⟩)
    simp only [v2Msg, least, leasts, room, rooms, hr, hr0, hr1, h2, h3] at this
    refine ⟨by omega, fun h => ?_⟩
    have := this.2 (by omega)
    omega

/-! ### Cases that meet the hypotheses -/

/-- Six octets decoding to a Sequence of two Nulls: three objects. -/
example : decode regFull (.str [0x30, 4, 5, 0, 5, 0]) = .ok [.seq .sequence [.null .null, .null .null]] ∧
    weights [.seq .sequence [.null .null, .null .null]] = 3 := ⟨by decide +kernel, by decide⟩

/-- A request for `.1.3.6.1` (four sub-identifiers) with community `public`: 35 octets, the least the bound allows; 76
is the most. -/
example : ∃ s, (v2Msg .get2 (lit "public") 7 [.seq .varBind [.oid (some [1, 3, 6, 1]), .null .null]]).encode = .ok s ∧
    s.length = 35 ∧ 20 + (lit "public").length + ([[1, 3, 6, 1]].map fun ids => 5 + ids.length).sum = 35 ∧
    40 + (lit "public").length + ([[1, 3, 6, 1]].map fun ids => 10 + 5 * ids.length).sum = 76 :=
  ⟨_, rfl, by decide +kernel, by decide +kernel, by decide +kernel⟩

example : List.Forall₂ (Query .varBind) [.str (lit ".1.3.6.1")] [.seq .varBind [.oid (some [1, 3, 6, 1]), .null .null]] ∧
    List.Forall₂ (fun oid ids => mkOid oid = .ok (some (ints ids)) ∧ ∀ n ∈ ids, n < 2 ^ 31) [.str (lit ".1.3.6.1")]
      [[1, 3, 6, 1]] :=
  ⟨.cons ⟨some [1, 3, 6, 1], by decide +kernel, rfl⟩ .nil, .cons ⟨by decide +kernel, by decide⟩ .nil⟩

end Libsnmp
