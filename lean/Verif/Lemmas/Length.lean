import Verif.Lemmas.Digits

/-! Length and identifier fields. -/

namespace Libsnmp
open Spec

theorem encodeLengthLoop_spec (n : Nat) (acc : Str) (k : Nat) :
    ∃ ds, encodeLengthLoop n acc k = (ds ++ acc, k + ds.length) ∧ unsigned ds = n ∧ Octets ds ∧
      (∀ d, ds.head? = some d → d ≠ 0) := by
  induction n using Nat.strong_induction_on generalizing acc k with
  | _ n ih =>
    rw [encodeLengthLoop]
    split
    · next hn =>
      rw [shr8, and_ff]
      obtain ⟨ds, h1, h2, h3, h4⟩ := ih (n / 256) (Nat.div_lt_self hn (by decide)) (n % 256 :: acc) (k + 1)
      refine ⟨ds ++ [n % 256], ?_, ?_, ?_, ?_⟩
      · rw [h1]; simp; omega
      · rw [unsigned, ofDigits_snoc, ← unsigned, h2]; omega
      · simp [h3]; omega
      · intro d hd
        cases ds with
        | nil =>
          simp at hd
          simp [unsigned] at h2
          omega
        | cons e es => exact h4 d (by simpa using hd)
    · next hn =>
      exact ⟨[], by simp, by simp [unsigned]; omega, by simp, by simp⟩

theorem length_le_of_unsigned_lt {ds : List Nat} {m : Nat} (h4 : ∀ d, ds.head? = some d → d ≠ 0)
    (h : unsigned ds < 256 ^ m) : ds.length ≤ m := by
  cases ds with
  | nil => simp
  | cons d ds =>
    have h5 := ofDigits_ge (b := 256) (s := ds) (h4 d rfl)
    rw [unsigned] at h
    have : 256 ^ ds.length < 256 ^ m := by omega
    have := (Nat.pow_lt_pow_iff_right (by decide)).mp this
    simp; omega

theorem decodeLengthLoop_spec (pre : Str) : ∀ (ds rest : Str) (l : Nat),
    decodeLengthLoop (pre ++ (ds ++ rest)) ds.length l pre.length =
      .ok (ds.foldl (fun v b => (v <<< 8) ||| b) l, pre.length + ds.length) := by
  intro ds
  induction ds generalizing pre with
  | nil => intro rest l; simp [decodeLengthLoop]
  | cons d ds ih =>
    intro rest l
    rw [List.length_cons, decodeLengthLoop]
    have : (pre ++ (d :: ds ++ rest))[pre.length]? = some d := by simp
    rw [this]
    have := ih (pre ++ [d]) rest ((l <<< 8) ||| d)
    simp only [List.append_assoc, List.length_append, List.length_singleton, List.singleton_append] at this
    simp only [List.cons_append, this, List.foldl_cons]
    congr 2; omega

theorem decodeLengthLoop_short : ∀ (s : Str) (run l n : Nat), s.length < n + run → n ≤ s.length →
    decodeLengthLoop s run l n = .error .indexError := by
  intro s run
  induction run with
  | zero => intro l n h h'; omega
  | succ run ih =>
    intro l n h h'
    rw [decodeLengthLoop]
    cases hn : s[n]? with
    | none => rfl
    | some b =>
      have := (List.getElem?_eq_some_iff.mp hn).1
      exact ih _ _ (by omega) (by omega)

/-- `decodeLength` on a non-empty stream, for any characters. -/
theorem decodeLength_cons (b : Nat) (t : Str) : decodeLength (b :: t) =
    if b / 128 % 2 = 0 then .ok (b, t)
    else if t.length < b % 128 then .error .indexError
    else .ok ((t.take (b % 128)).foldl (fun v d => (v <<< 8) ||| d) 0, t.drop (b % 128)) := by
  unfold decodeLength
  simp only [List.getElem?_cons_zero, and_80, and_7f]
  by_cases h : b / 128 % 2 = 0
  · simp [h]
  · have h1 : b / 128 % 2 = 1 := by omega
    simp only [h1, Nat.one_mul, ne_eq, OfNat.ofNat_ne_zero, not_false_eq_true, if_true, one_ne_zero, if_false]
    by_cases h2 : t.length < b % 128
    · rw [decodeLengthLoop_short (b :: t) (b % 128) 0 1 (by simp; omega) (by simp)]
      simp [h2]
    · have h3 : (t.take (b % 128)).length = b % 128 := by simp; omega
      have := decodeLengthLoop_spec [b] (t.take (b % 128)) (t.drop (b % 128)) 0
      simp only [List.take_append_drop, List.singleton_append, List.length_singleton, h3] at this
      rw [this]
      simp only [h2, if_false]
      rw [Nat.add_comm, List.drop_succ_cons]

theorem encodeLength_short {n : Nat} (h : n < 127) : encodeLength n = [n] := by
  unfold encodeLength
  rw [if_pos h, and_ff, Nat.mod_eq_of_lt (by omega)]

theorem encodeLength_long {n : Nat} (h : 127 ≤ n) : ∃ ds, encodeLength n = (128 ||| ds.length) % 256 :: ds ∧
    unsigned ds = n ∧ Octets ds ∧ 1 ≤ ds.length ∧ (∀ d, ds.head? = some d → d ≠ 0) := by
  obtain ⟨ds, h1, h2, h3, h4⟩ := encodeLengthLoop_spec n [] 0
  refine ⟨ds, ?_, h2, h3, ?_, h4⟩
  · unfold encodeLength
    rw [if_neg (by omega), h1]
    simp [Nat.or_comm]
    exact and_ff _
  · cases ds with
    | nil => simp [unsigned] at h2; omega
    | cons => simp

theorem decodeLength_field {n : Nat} {f : Str} (h : LengthField n f) (rest : Str) :
    decodeLength (f ++ rest) = .ok (n, rest) := by
  cases h with
  | short _ h =>
    rw [List.singleton_append, decodeLength_cons, if_pos (by omega)]
  | long ds h1 h2 h3 =>
    rw [List.cons_append, decodeLength_cons, if_neg (by omega)]
    have e : (128 + ds.length) % 128 = ds.length := by omega
    rw [e, if_neg (by simp)]
    simp [foldl_shl8 h3]

theorem encodeLength_field {n : Nat} (h : n < 256 ^ 127) : LengthField n (encodeLength n) := by
  by_cases hn : n < 127
  · rw [encodeLength_short hn]; exact .short n (by omega)
  · obtain ⟨ds, h1, h2, h3, h4, h5⟩ := encodeLength_long (n := n) (by omega)
    have h6 : ds.length ≤ 127 := length_le_of_unsigned_lt h5 (by omega)
    rw [h1, or_80 (by omega), Nat.mod_eq_of_lt (by omega), ← h2]
    exact .long ds h4 (by omega) h3

/-! ### Identifier -/

theorem decodeTagLoop_drop (pre : Str) : ∀ (s : Str) (tag : Nat),
    decodeTagLoop (pre ++ s) tag pre.length =
      match s with
      | [] => .error .indexError
      | b :: t => if b / 128 % 2 = 0 then .ok (tag * 128 + b % 128, pre.length + 1)
        else decodeTagLoop (pre ++ s) (tag * 128 + b % 128) (pre.length + 1) := by
  intro s tag
  rw [decodeTagLoop]
  cases s with
  | nil => 
    split
    · rfl
    · next h => simp at h
  | cons b t =>
    split
    · next h => simp at h
    · next b' h =>
      have e : b = b' := by simpa using h
      subst e
      have e1 : tag <<< 7 ||| b &&& 127 = tag * 128 + b % 128 := by
        rw [and_7f, shl7_or (Nat.mod_lt _ (by decide))]
      by_cases hb : b / 128 % 2 = 0
      · simp [hb, and_80, e1]
      · have hb : b / 128 % 2 = 1 := by omega
        simp [hb, and_80, e1]

theorem decodeTagLoop_spec : ∀ (ds : Str) (d : Nat) (pre rest : Str) (tag : Nat),
    (∀ x ∈ ds, x < 128) → d < 128 →
    decodeTagLoop (pre ++ (ds.map (128 + ·) ++ d :: rest)) tag pre.length =
      .ok (tag * 128 ^ (ds.length + 1) + ofDigits 128 (ds ++ [d]), pre.length + ds.length + 1) := by
  intro ds
  induction ds with
  | nil =>
    intro d pre rest tag _ hd
    rw [decodeTagLoop_drop]
    simp only [List.map_nil, List.nil_append]
    rw [if_pos (by omega)]
    simp [Nat.mod_eq_of_lt hd]
  | cons x ds ih =>
    intro d pre rest tag hx hd
    rw [decodeTagLoop_drop]
    have hx0 : x < 128 := hx x (by simp)
    simp only [List.map_cons, List.cons_append]
    rw [if_neg (by omega)]
    have := ih d (pre ++ [128 + x]) rest (tag * 128 + x) (fun y hy => hx y (by simp [hy])) hd
    simp only [List.length_append, List.append_assoc, List.length_singleton, List.singleton_append] at this
    have e : (128 + x) % 128 = x := by omega
    rw [e, this]
    simp only [ofDigits_cons, List.length_cons, List.length_append, Nat.pow_succ, List.length_nil]
    congr 2
    · ring
    · omega

theorem decodeTagLoop_error : ∀ (s pre : Str) (tag : Nat), (∀ x ∈ s, x / 128 % 2 = 1) →
    decodeTagLoop (pre ++ s) tag pre.length = .error .indexError := by
  intro s
  induction s with
  | nil => intro pre tag _; rw [decodeTagLoop_drop]
  | cons b t ih =>
    intro pre tag h
    rw [decodeTagLoop_drop]
    have hb := h b (by simp)
    simp only [hb, one_ne_zero, if_false]
    have := ih (pre ++ [b]) (tag * 128 + b % 128) (fun x hx => h x (by simp [hx]))
    simpa using this

theorem decodeTag_field {tag : Nat} {f : Str} (h : IdentifierField tag f) (rest : Str) :
    decodeTag (f ++ rest) = .ok (tag, rest) := by
  cases h with
  | low _ h =>
    have : (tag &&& 31) ≠ 31 := by rw [and_1f]; exact h
    simp [decodeTag, this]
  | high b h hg =>
    cases hg with
    | mk ds d hds hd =>
      have e : (b &&& 31) = 31 := by rw [and_1f]; exact h
      have := decodeTagLoop_spec ds d [b] rest 0 hds hd
      simp only [List.singleton_append, List.length_singleton] at this
      simp only [decodeTag, List.cons_append, List.append_assoc, List.getElem?_cons_zero, e, if_true, List.nil_append]
      rw [this]
      simp only
      congr 2
      · simp
      · rw [show 1 + ds.length + 1 = (ds.length + 1) + 1 by omega, List.drop_succ_cons]
        have : (List.map (fun x => 128 + x) ds ++ d :: rest) = (List.map (fun x => 128 + x) ds ++ [d]) ++ rest := by
          simp
        rw [this]
        exact List.drop_left' (by simp)

end Libsnmp
