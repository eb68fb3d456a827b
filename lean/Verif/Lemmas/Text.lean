import Verif.Model.Text
import Verif.Spec.Text
import Verif.Lemmas.Digits

namespace Libsnmp
open Spec

theorem head_append {u t : Str} (h : u ≠ []) : (u ++ t).head? = u.head? := by
  cases u with
  | nil => exact absurd rfl h
  | cons => rfl

theorem last_append {u t : Str} (h : t ≠ []) : (u ++ t).getLast? = t.getLast? := by
  induction u with
  | nil => rfl
  | cons c u ih =>
    cases hut : u ++ t with
    | nil => simp at hut; exact absurd hut.2 h
    | cons x xs => rw [List.cons_append, hut, List.getLast?_cons_cons, ← hut, ih]

theorem head_dropWhile {p : Nat → Bool} {s : Str} {c : Nat} (h : (s.dropWhile p).head? = some c) : p c = false := by
  induction s with
  | nil => cases h
  | cons x s ih =>
    rw [List.dropWhile_cons] at h
    split at h
    · exact ih h
    · next hx => simp at h; subst h; simpa using hx

theorem mem_takeWhile {p : Nat → Bool} {s : Str} {c : Nat} (h : c ∈ s.takeWhile p) : p c = true := by
  induction s with
  | nil => cases h
  | cons x s ih =>
    rw [List.takeWhile_cons] at h
    split at h
    · next hx =>
      simp only [List.mem_cons] at h
      rcases h with rfl | h
      · exact hx
      · exact ih h
    · cases h

theorem digits_numeral {b : Nat} (hb : 2 ≤ b) (n : Nat) : Numeral b n (digits b n) := by
  fun_induction digits b n with
  | case1 n h => 
    have : n < b := by omega
    refine ⟨by simpa using this, by simp, by simp, by simp⟩
  | case2 n h1 ih =>
    obtain ⟨h2, h3, h4, h5⟩ := ih
    refine ⟨?_, by simp, ?_, ?_⟩
    · intro d hd
      simp only [List.mem_append, List.mem_singleton] at hd
      rcases hd with hd | rfl
      · exact h2 d hd
      · exact Nat.mod_lt _ (by omega)
    · intro h
      exfalso
      rw [head_append h3] at h
      have := h4 h
      rw [this, ofDigits_singleton] at h5
      have h6 := Nat.div_add_mod n b
      have h7 := Nat.mod_lt n (show b > 0 by omega)
      rw [← h5, Nat.mul_zero] at h6
      omega
    · rw [ofDigits_snoc, h5]
      rw [Nat.mul_comm]; exact Nat.div_add_mod n b

theorem numeral_unique {b n : Nat} {s t : List Nat} (hs : Numeral b n s) (ht : Numeral b n t) : s = t := by
  obtain ⟨s1, s2, s3, s4⟩ := hs
  obtain ⟨t1, t2, t3, t4⟩ := ht
  rcases s with _ | ⟨x, s⟩
  · exact absurd rfl s2
  rcases t with _ | ⟨y, t⟩
  · exact absurd rfl t2
  have hb0 : 0 < b := by have := s1 x (by simp); omega
  have lt1 := ofDigits_lt s1
  have lt2 := ofDigits_lt t1
  by_cases hx : x = 0
  · subst hx
    have := s3 rfl
    simp only [List.cons.injEq, true_and] at this
    subst this
    simp at s4
    subst s4
    by_cases hy : y = 0
    · subst hy
      have := t3 rfl
      rw [this]
    · have := ofDigits_ge (b := b) (s := t) hy
      have := Nat.pow_pos (n := t.length) hb0
      omega
  · by_cases hy : y = 0
    · subst hy
      have := t3 rfl
      simp only [List.cons.injEq, true_and] at this
      subst this
      simp at t4
      subst t4
      have := ofDigits_ge (b := b) (s := s) hx
      have := Nat.pow_pos (n := s.length) hb0
      omega
    · have g1 := ofDigits_ge (b := b) (s := s) hx
      have g2 := ofDigits_ge (b := b) (s := t) hy
      have hlen : s.length = t.length := by
        by_contra hne
        rcases Nat.lt_or_gt_of_ne hne with h | h
        · have := Nat.pow_le_pow_right (n := b) hb0 (show s.length + 1 ≤ t.length by omega)
          simp only [List.length_cons] at lt1
          omega
        · have := Nat.pow_le_pow_right (n := b) hb0 (show t.length + 1 ≤ s.length by omega)
          simp only [List.length_cons] at lt2
          omega
      exact ofDigits_inj s1 t1 (by simp [hlen]) (by rw [s4, t4])

theorem digits_eq {b n : Nat} {ds : List Nat} (h : Numeral b n ds) (hb : 2 ≤ b) : digits b n = ds :=
  numeral_unique (digits_numeral hb n) h

/-! ## `int(text)` -/

theorem parseDigits_iff (s : Str) (acc n : Nat) :
    (parseDigits s acc false = some n ↔ ∃ ds, DigitRun ds s ∧ n = acc * 10 ^ ds.length + ofDigits 10 ds) ∧
    (parseDigits s acc true = some n ↔ (s = [] ∧ n = acc) ∨
      (∃ ds, DigitRun ds s ∧ n = acc * 10 ^ ds.length + ofDigits 10 ds) ∨
      (∃ ds t, s = 95 :: t ∧ DigitRun ds t ∧ n = acc * 10 ^ ds.length + ofDigits 10 ds)) := by
  induction s generalizing acc with
  | nil =>
    constructor
    · simp only [parseDigits, Bool.false_eq_true, if_false, reduceCtorEq, false_iff]
      rintro ⟨ds, h, _⟩; cases h
    · simp only [parseDigits, if_true, Option.some.injEq, true_and]
      constructor
      · intro h; exact Or.inl h.symm
      · rintro (h | ⟨ds, h, _⟩ | ⟨ds, t, h, _⟩)
        · exact h.symm
        · cases h
        · cases h
  | cons c cs ih =>
    have key : ∀ (hc : isDigit c = true), (parseDigits cs (acc * 10 + (c - 48)) true = some n ↔
        ∃ ds, DigitRun ds (c :: cs) ∧ n = acc * 10 ^ ds.length + ofDigits 10 ds) := by
      intro hc
      rw [(ih _).2]
      simp only [isDigit, Bool.and_eq_true, decide_eq_true_eq] at hc
      obtain ⟨d, rfl⟩ : ∃ d, c = d + 48 := ⟨c - 48, by omega⟩
      have hd : d < 10 := by omega
      simp only [Nat.add_sub_cancel]
      constructor
      · rintro (⟨rfl, h⟩ | ⟨ds, h, e⟩ | ⟨ds, t, rfl, h, e⟩)
        · exact ⟨[d], .last hd, by simpa using h⟩
        · exact ⟨d :: ds, .next hd h, by rw [e, ofDigits_cons, List.length_cons, pow_succ]; ring⟩
        · exact ⟨d :: ds, .underscore hd h, by rw [e, ofDigits_cons, List.length_cons, pow_succ]; ring⟩
      · rintro ⟨ds, h, e⟩
        generalize hx : d + 48 = x at h
        generalize hy : x :: cs = y at h
        cases h with
        | last hd' =>
          simp only [List.cons.injEq] at hy
          obtain ⟨h1, h2⟩ := hy
          refine Or.inl ⟨h2, ?_⟩
          simp at e; omega
        | @next d' ds' t' hd' h =>
          simp only [List.cons.injEq] at hy
          obtain ⟨h1, h2⟩ := hy
          have : d = d' := by omega
          subst this h2
          refine Or.inr (Or.inl ⟨ds', h, ?_⟩)
          rw [e, ofDigits_cons, List.length_cons, pow_succ]; ring
        | @underscore d' ds' t' hd' h =>
          simp only [List.cons.injEq] at hy
          obtain ⟨h1, h2⟩ := hy
          have : d = d' := by omega
          subst this
          refine Or.inr (Or.inr ⟨ds', t', h2, h, ?_⟩)
          rw [e, ofDigits_cons, List.length_cons, pow_succ]; ring
    have hstart : ∀ {ds : List Nat} {u : Str}, DigitRun ds u → ∀ {c t}, u = c :: t → isDigit c = true := by
      intro ds u h c t e
      cases h <;> · simp only [List.cons.injEq] at e; simp [isDigit]; omega
    constructor
    · rw [parseDigits]
      by_cases hc : isDigit c = true
      · rw [if_pos hc, key hc]
      · rw [if_neg hc]
        simp only [Bool.and_false, Bool.false_eq_true, if_false, reduceCtorEq, false_iff]
        rintro ⟨ds, h, _⟩
        exact hc (hstart h rfl)
    · rw [parseDigits]
      by_cases hc : isDigit c = true
      · rw [if_pos hc, key hc]
        constructor
        · intro h; exact Or.inr (Or.inl h)
        · rintro (⟨h, _⟩ | h | ⟨ds, t, h, _⟩)
          · cases h
          · exact h
          · simp only [List.cons.injEq] at h
            rw [h.1] at hc
            simp [isDigit] at hc
      · rw [if_neg hc]
        by_cases hu : c = 95
        · subst hu
          simp only [Bool.and_true, decide_true, if_true]
          rw [(ih _).1]
          constructor
          · rintro ⟨ds, h, e⟩; exact Or.inr (Or.inr ⟨ds, cs, rfl, h, e⟩)
          · rintro (⟨h, _⟩ | ⟨ds, h, _⟩ | ⟨ds, t, h, h', e⟩)
            · cases h
            · exact absurd (hstart h rfl) hc
            · simp only [List.cons.injEq, true_and] at h
              subst h
              exact ⟨ds, h', e⟩
        · simp only [hu, decide_false, Bool.false_and, Bool.false_eq_true, if_false, reduceCtorEq, false_iff]
          rintro (⟨h, _⟩ | ⟨ds, h, _⟩ | ⟨ds, t, h, _⟩)
          · cases h
          · exact hc (hstart h rfl)
          · simp only [List.cons.injEq] at h
            exact hu h.1

theorem parseDigits_ok {ds : List Nat} {t : Str} (h : DigitRun ds t) : parseDigits t 0 false = some (ofDigits 10 ds) :=
  ((parseDigits_iff t 0 _).1).mpr ⟨ds, h, by simp⟩

theorem digitRun_of_digits {ds : List Nat} (h : ∀ d ∈ ds, d < 10) (hne : ds ≠ []) : DigitRun ds (ds.map (· + 48)) := by
  induction ds with
  | nil => exact absurd rfl hne
  | cons d ds ih =>
    have hd := h d (by simp)
    rcases ds with _ | ⟨e, ds⟩
    · exact .last hd
    · exact .next hd (ih (fun x hx => h x (by simp [hx])) (by simp))

theorem digitRun_chars {ds : List Nat} {t : Str} (h : DigitRun ds t) :
    ∀ c ∈ t, (48 ≤ c ∧ c ≤ 57) ∨ c = 95 := by
  induction h with
  | last hd => intro c hc; simp at hc; omega
  | next hd _ ih =>
    intro c hc
    simp only [List.mem_cons] at hc
    rcases hc with rfl | hc
    · omega
    · exact ih c hc
  | underscore hd _ ih =>
    intro c hc
    simp only [List.mem_cons] at hc
    rcases hc with rfl | rfl | hc
    · omega
    · omega
    · exact ih c hc

theorem digitRun_ne_nil {ds : List Nat} {t : Str} (h : DigitRun ds t) : t ≠ [] := by cases h <;> simp

theorem isSpace_iff (c : Nat) : isSpace c = true ↔ (9 ≤ c ∧ c ≤ 13) ∨ (28 ≤ c ∧ c ≤ 32) := by
  simp [isSpace]

theorem dropWhile_append_of_all {p : Nat → Bool} {u t : Str} (h : ∀ c ∈ u, p c = true) :
    (u ++ t).dropWhile p = t.dropWhile p := by
  induction u with
  | nil => rfl
  | cons c u ih =>
    rw [List.cons_append, List.dropWhile_cons, if_pos (h c (by simp)), ih (fun x hx => h x (by simp [hx]))]

theorem dropWhile_eq_self {p : Nat → Bool} {t : Str} (h : ∀ c, t.head? = some c → p c = false) :
    t.dropWhile p = t := by
  cases t with
  | nil => rfl
  | cons c t => simp [List.dropWhile_cons, h c rfl]

theorem stripBy_core {p : Nat → Bool} {u t w : Str} (hu : ∀ c ∈ u, p c = true) (hw : ∀ c ∈ w, p c = true)
    (h1 : ∀ c, t.head? = some c → p c = false) (h2 : ∀ c, t.getLast? = some c → p c = false) :
    stripBy p (u ++ t ++ w) = t := by
  unfold stripBy
  by_cases ht : t = []
  · subst ht
    rw [List.append_nil, dropWhile_append_of_all hu]
    have : w.dropWhile p = [] := by
      have := dropWhile_append_of_all (t := []) hw
      simpa using this
    rw [this]; rfl
  · rw [List.append_assoc, dropWhile_append_of_all hu]
    have e : (t ++ w).dropWhile p = t ++ w := by
      apply dropWhile_eq_self
      intro c hc
      rw [head_append ht] at hc
      exact h1 c hc
    rw [e, List.reverse_append, dropWhile_append_of_all (by intro c hc; exact hw c (by simpa using hc)),
      dropWhile_eq_self (by intro c hc; exact h2 c (by simpa using hc)), List.reverse_reverse]

/-- What `stripBy` leaves: the text without the runs at both ends. -/
theorem stripBy_split (p : Nat → Bool) (s : Str) : ∃ u w, s = u ++ stripBy p s ++ w ∧
    (∀ c ∈ u, p c = true) ∧ (∀ c ∈ w, p c = true) := by
  refine ⟨s.takeWhile p, ((s.dropWhile p).reverse.takeWhile p).reverse, ?_, ?_, ?_⟩
  · unfold stripBy
    rw [List.append_assoc, ← List.reverse_append, List.takeWhile_append_dropWhile, List.reverse_reverse,
      List.takeWhile_append_dropWhile]
  · intro c hc; exact mem_takeWhile hc
  · intro c hc; exact mem_takeWhile (List.mem_reverse.mp hc)

theorem stripBy_head {p : Nat → Bool} {s : Str} : ∀ c, (stripBy p s).head? = some c → p c = false := by
  intro c hc
  unfold stripBy at hc
  rw [List.head?_reverse] at hc
  set t := s.dropWhile p with ht
  have hsuf : t.reverse.dropWhile p <:+ t.reverse := List.dropWhile_suffix _
  obtain ⟨v, hv⟩ := hsuf
  have hlast : t.reverse.getLast? = some c := by
    rw [← hv, List.getLast?_append, hc]; rfl
  rw [List.getLast?_reverse] at hlast
  exact head_dropWhile hlast

theorem stripBy_last {p : Nat → Bool} {s : Str} : ∀ c, (stripBy p s).getLast? = some c → p c = false := by
  intro c hc
  unfold stripBy at hc
  rw [List.getLast?_reverse] at hc
  exact head_dropWhile hc

theorem pyInt_iff (s : Str) (n : Int) : pyInt s = .ok n ↔ IntText n s := by
  constructor
  · intro h
    obtain ⟨u, w, hs, hu, hw⟩ := stripBy_split isSpace s
    have hu' : White u := fun c hc => (isSpace_iff c).mp (hu c hc)
    have hw' : White w := fun c hc => (isSpace_iff c).mp (hw c hc)
    unfold pyInt at h
    rw [hs]
    split at h
    · next ds e =>
      rw [e]
      split at h
      · next m hm =>
        obtain ⟨ds', hr, e'⟩ := ((parseDigits_iff ds 0 m).1).mp hm
        cases h
        have : m = ofDigits 10 ds' := by simpa using e'
        subst this
        exact .plus hu' hw' hr
      · cases h
    · next ds e =>
      rw [e]
      split at h
      · next m hm =>
        obtain ⟨ds', hr, e'⟩ := ((parseDigits_iff ds 0 m).1).mp hm
        cases h
        have : m = ofDigits 10 ds' := by simpa using e'
        subst this
        exact .minus hu' hw' hr
      · cases h
    · next ds e =>
      split at h
      · next m hm =>
        obtain ⟨ds', hr, e'⟩ := ((parseDigits_iff _ 0 m).1).mp hm
        cases h
        have : m = ofDigits 10 ds' := by simpa using e'
        subst this
        exact .plain hu' hw' hr
      · cases h
  · have hsp : ∀ {u : Str}, White u → ∀ c ∈ u, isSpace c = true := fun h c hc => (isSpace_iff c).mpr (h c hc)
    have hns : ∀ {ds : List Nat} {t : Str}, DigitRun ds t → ∀ c ∈ t, isSpace c = false := by
      intro ds t h c hc
      have := digitRun_chars h c hc
      cases hb : isSpace c
      · rfl
      · rw [isSpace_iff] at hb; omega
    have hlast : ∀ {ds : List Nat} {t : Str} {x : Nat}, DigitRun ds t → ∀ c, (x :: t).getLast? = some c →
        isSpace c = false := by
      intro ds t x h c hc
      rcases t with _ | ⟨y, t⟩
      · exact absurd rfl (digitRun_ne_nil h)
      · rw [List.getLast?_cons_cons] at hc
        exact hns h c (List.mem_of_getLast? hc)
    intro h
    cases h with
    | @plain u w ds t hu hw hr =>
      unfold pyInt
      rw [stripBy_core (hsp hu) (hsp hw) (fun c hc => hns hr c (List.mem_of_head? hc))
        (fun c hc => hns hr c (List.mem_of_getLast? hc))]
      have hp := parseDigits_ok hr
      split
      · next e => have := digitRun_chars hr 43 (by simp); omega
      · next e => have := digitRun_chars hr 45 (by simp); omega
      · rw [hp]
    | @plus u w ds t hu hw hr =>
      unfold pyInt
      rw [stripBy_core (hsp hu) (hsp hw) (fun c hc => by simp at hc; subst hc; rfl) (hlast hr)]
      simp only [parseDigits_ok hr]
    | @minus u w ds t hu hw hr =>
      unfold pyInt
      rw [stripBy_core (hsp hu) (hsp hw) (fun c hc => by simp at hc; subst hc; rfl) (hlast hr)]
      simp only [parseDigits_ok hr]

theorem pyInt_error {s : Str} {e : Exc} (h : pyInt s = .error e) : e = .valueError := by
  unfold pyInt at h
  split at h <;> split at h <;> cases h <;> rfl

theorem numeral_digitRun {n : Nat} {ds : List Nat} (h : Numeral 10 n ds) : DigitRun ds (ds.map (· + 48)) :=
  digitRun_of_digits h.1 h.2.1

theorem pyInt_numeral {n : Nat} {ds : List Nat} (h : Numeral 10 n ds) : pyInt (ds.map (· + 48)) = .ok (n : Int) := by
  rw [pyInt_iff]
  have := IntText.plain (u := []) (w := []) (by intro c hc; cases hc) (by intro c hc; cases hc) (numeral_digitRun h)
  rw [h.2.2.2] at this
  simpa using this

theorem pyStrInt_numeral {n : Nat} {ds : List Nat} (h : Numeral 10 n ds) : pyStrInt (n : Int) = ds.map (· + 48) := by
  unfold pyStrInt
  rw [if_neg (by omega)]
  simp only [Int.natAbs_natCast]
  rw [digits_eq h (by omega)]

/-! ## `split` -/

theorem pySplit_iff (s : Str) (ps : List Str) : pySplit 46 s = ps ↔ Pieces ps s := by
  constructor
  · rintro rfl
    induction s with
    | nil => exact .one (by simp)
    | cons c s ih =>
      rw [pySplit]
      split
      · next h => subst h; exact .cons (p := []) (by simp) ih
      · next h =>
        cases hs : pySplit 46 s with
        | nil => rw [hs] at ih; cases ih
        | cons w ws =>
          rw [hs] at ih
          simp only
          cases ih with
          | one hp => exact .one (by simp; exact ⟨fun h' => h h'.symm, hp⟩)
          | cons hp ht => exact .cons (p := c :: w) (by simp; exact ⟨fun h' => h h'.symm, hp⟩) ht
  · intro h
    have base : ∀ p : Str, 46 ∉ p → pySplit 46 p = [p] := by
      intro p hp
      induction p with
      | nil => rfl
      | cons c p ih =>
        simp only [List.mem_cons, not_or] at hp
        rw [pySplit, if_neg (fun h' => hp.1 h'.symm), ih hp.2]
    have step : ∀ p t : Str, 46 ∉ p → pySplit 46 (p ++ 46 :: t) = p :: pySplit 46 t := by
      intro p t hp
      induction p with
      | nil => rw [List.nil_append, pySplit, if_pos rfl]
      | cons c p ih =>
        simp only [List.mem_cons, not_or] at hp
        rw [List.cons_append, pySplit, if_neg (fun h' => hp.1 h'.symm), ih hp.2]
    induction h with
    | one hp => exact base _ hp
    | cons hp _ ih => rw [step _ _ hp, ih]

theorem dotted_pieces {ns : List Nat} {t : Str} (h : DottedText ns t) :
    ∃ dss, List.Forall₂ (Numeral 10) ns dss ∧ Pieces (dss.map fun ds => ds.map (· + 48)) t := by
  have hnd : ∀ {n ds}, Numeral 10 n ds → 46 ∉ ds.map (· + 48) := by
    intro n ds _ hm
    simp at hm
  induction h with
  | one h => exact ⟨[_], .cons h .nil, .one (hnd h)⟩
  | cons h _ ih =>
    obtain ⟨dss, h1, h2⟩ := ih
    exact ⟨_ :: dss, .cons h h1, .cons (hnd h) h2⟩

theorem dotted_chars {ns : List Nat} {t : Str} (h : DottedText ns t) :
    (∀ c, t.head? = some c → c ≠ 46) ∧ (∀ c, t.getLast? = some c → c ≠ 46) ∧ t ≠ [] := by
  induction h with
  | @one n ds h =>
    have hm : ∀ c ∈ ds.map (· + 48), c ≠ 46 := by simp
    refine ⟨fun c hc => hm c (List.mem_of_head? hc), fun c hc => hm c (List.mem_of_getLast? hc), ?_⟩
    simpa using h.2.1
  | @cons n ds ns t h _ ih =>
    have hm : ∀ c ∈ ds.map (· + 48), c ≠ 46 := by simp
    refine ⟨?_, ?_, by simp⟩
    · intro c hc
      rw [head_append (by simpa using h.2.1)] at hc
      exact hm c (List.mem_of_head? hc)
    · intro c hc
      rcases t with _ | ⟨y, t⟩
      · exact absurd rfl ih.2.2
      · rw [last_append (by simp), List.getLast?_cons_cons] at hc
        exact ih.2.1 c hc

theorem pyStrip_dotted {ns : List Nat} {t u w : Str} (h : DottedText ns t) (hu : ∀ c ∈ u, c = 46)
    (hw : ∀ c ∈ w, c = 46) : pyStrip 46 (u ++ t ++ w) = t := by
  unfold pyStrip
  have := dotted_chars h
  apply stripBy_core
  · intro c hc; simp [hu c hc]
  · intro c hc; simp [hw c hc]
  · intro c hc; simpa using this.1 c hc
  · intro c hc; simpa using this.2.1 c hc

theorem pyJoin_cons (sep w : Str) {ws : List Str} (h : ws ≠ []) : pyJoin sep (w :: ws) = w ++ sep ++ pyJoin sep ws := by
  cases ws with
  | nil => exact absurd rfl h
  | cons x xs => rfl

theorem join_dotted {ns : List Nat} (h : ns ≠ []) : DottedText ns (pyJoin (lit ".") ((ints ns).map pyStrInt)) := by
  induction ns with
  | nil => exact absurd rfl h
  | cons n ns ih =>
    have hn := digits_numeral (b := 10) (by omega) n
    rcases ns with _ | ⟨m, ns⟩
    · simp only [ints, List.map_cons, List.map_nil, pyJoin, pyStrInt_numeral hn]
      exact .one hn
    · have := ih (by simp)
      rw [show ints (n :: m :: ns) = (n : Int) :: ints (m :: ns) from rfl, List.map_cons,
        pyJoin_cons _ _ (by simp [ints]), pyStrInt_numeral hn]
      have e : (lit ".") = [46] := rfl
      rw [e] at this ⊢
      rw [List.append_assoc]
      exact .cons hn this

theorem dotted_unique {ns : List Nat} {s t : Str} (hs : DottedText ns s) (ht : DottedText ns t) : s = t := by
  induction hs generalizing t with
  | one h => cases ht with
    | one h' => rw [numeral_unique h h']
    | cons _ h' => cases h'
  | cons h _ ih => cases ht with
    | one h' => next h'' => cases h''
    | cons h' ht' => rw [numeral_unique h h', ih ht']

theorem oidParse_numerals {ns : List Nat} {dss : List (List Nat)} (h : List.Forall₂ (Numeral 10) ns dss)
    (hr : ∀ n ∈ ns, n < 2 ^ 31) : oidParse (dss.map fun ds => ds.map (· + 48)) = .ok (ints ns) := by
  induction h with
  | nil => rfl
  | @cons n ds ns dss h1 _ ih =>
    have := hr n (by simp)
    rw [List.map_cons, oidParse, pyInt_numeral h1]
    simp only
    rw [if_neg (by omega), ih (fun m hm => hr m (by simp [hm]))]
    rfl

theorem oidParse_iff (ps : List Str) (v : List Int) : oidParse ps = .ok v ↔
    List.Forall₂ (fun p n => IntText n p ∧ 0 ≤ n ∧ n < 2 ^ 31) ps v := by
  induction ps generalizing v with
  | nil =>
    rw [oidParse]
    constructor
    · intro h; cases h; exact .nil
    · intro h; cases h; rfl
  | cons p ps ih =>
    rw [oidParse]
    constructor
    · intro h
      split at h
      · cases h
      · next n hn =>
        split at h
        · cases h
        · next hr =>
          split at h
          · cases h
          · next w hw =>
            cases h
            exact .cons ⟨(pyInt_iff _ _).mp hn, by omega, by omega⟩ ((ih w).mp hw)
    · intro h
      cases h with
      | cons h1 h2 =>
        rw [(pyInt_iff _ _).mpr h1.1]
        simp only
        rw [if_neg (by omega), (ih _).mpr h2]

theorem oidParse_error {ps : List Str} {e : Exc} (h : oidParse ps = .error e) : e = .valueError := by
  induction ps with
  | nil => cases h
  | cons p ps ih =>
    rw [oidParse] at h
    split at h
    · next e' he =>
      cases h
      exact pyInt_error he
    · split at h
      · cases h; rfl
      · split at h
        · next e' he => cases h; exact ih he
        · cases h

theorem pySplit_ne_nil (s : Str) : pySplit 46 s ≠ [] := by
  have := (pySplit_iff s _).mp rfl
  intro h
  rw [h] at this
  cases this

end Libsnmp
