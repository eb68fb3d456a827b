import Verif.Lemmas.Float
import Verif.Lemmas.Text
import Verif.Spec.Forms
import Verif.Spec.Numbers
import Verif.Props.Helpers

/-! # C79 (hexadecimal, octal and floating-point forms), C80 (uptime) -/

namespace Libsnmp
open Spec

/-! ## C79 -/

theorem map_hexDigit {ds : List Nat} (h : ∀ d ∈ ds, d < 16) : ds.map hexDigit = ds.map fun d => hexChars.getD d 0 := by
  have key : ∀ d < 16, hexDigit d = hexChars.getD d 0 := by decide
  exact List.map_congr_left fun d hd => key d (h d hd)

theorem map_octDigit {ds : List Nat} (h : ∀ d ∈ ds, d < 8) : ds.map (· + 48) = ds.map fun d => hexChars.getD d 0 := by
  have key : ∀ d < 8, d + 48 = hexChars.getD d 0 := by decide
  exact List.map_congr_left fun d hd => key d (h d hd)

/-- C79. `__hex__` and `__oct__` of an integer of any class are its base-16 and base-8 numerals with Python's prefixes. -/
theorem C79_integer (c : IntCls) (n : Int) (t : Str) :
    (valHex (.integer c n) = .ok t ↔ Prefixed 16 120 hexChars n t) ∧
    (valOct (.integer c n) = .ok t ↔ Prefixed 8 111 hexChars n t) := by
  have h16 := digits_numeral (b := 16) (by omega) n.natAbs
  have h8 := digits_numeral (b := 8) (by omega) n.natAbs
  have e1 : pyHexInt n = (if n < 0 then [45] else []) ++ [48, 120] ++ (digits 16 n.natAbs).map fun d => hexChars.getD d 0 := by
    rw [← map_hexDigit h16.1]; rfl
  have e2 : pyOctInt n = (if n < 0 then [45] else []) ++ [48, 111] ++ (digits 8 n.natAbs).map fun d => hexChars.getD d 0 := by
    rw [← map_octDigit h8.1]; rfl
  simp only [valHex, valOct, Except.ok.injEq]
  refine ⟨⟨fun h => ⟨_, h16, h ▸ e1⟩, ?_⟩, ⟨fun h => ⟨_, h8, h ▸ e2⟩, ?_⟩⟩
  · rintro ⟨ds, h, rfl⟩; rw [e1, numeral_unique h16 h]
  · rintro ⟨ds, h, rfl⟩; rw [e2, numeral_unique h8 h]

theorem prefixed_injective {b l : Nat} {m n : Int} {t : List Nat} (hb : 2 ≤ b ∧ b ≤ 16)
    (hm : Prefixed b l hexChars m t) (hn : Prefixed b l hexChars n t) : m = n := by
  obtain ⟨ds, h1, e1⟩ := hm
  obtain ⟨es, h2, e2⟩ := hn
  have inj : ∀ i < 16, ∀ j < 16, hexChars.getD i 0 = hexChars.getD j 0 → i = j := by decide
  have key : ∀ (ds es : List Nat), (∀ d ∈ ds, d < b) → (∀ d ∈ es, d < b) →
      (ds.map fun d => hexChars.getD d 0) = (es.map fun d => hexChars.getD d 0) → ds = es := by
    intro ds
    induction ds with
    | nil => intro es _ _ h; cases es <;> simp_all
    | cons d ds ih =>
      intro es hd he h
      cases es with
      | nil => simp at h
      | cons e es =>
        simp only [List.map_cons, List.cons.injEq] at h
        have hd1 := hd d (by simp)
        have he1 := he e (by simp)
        rw [inj d (by omega) e (by omega) h.1,
          ih es (fun x hx => hd x (by simp [hx])) (fun x hx => he x (by simp [hx])) h.2]
  rw [e1] at e2
  have fin : (m < 0 ↔ n < 0) → ds = es → m = n := by
    intro hs he
    subst he
    have : m.natAbs = n.natAbs := h1.2.2.2.symm.trans h2.2.2.2
    omega
  by_cases hm : m < 0 <;> by_cases hn : n < 0 <;> simp [hm, hn] at e2
  · exact fin (by tauto) (key _ _ h1.1 h2.1 (by simpa using e2))
  · exact fin (by tauto) (key _ _ h1.1 h2.1 (by simpa using e2))

/-- C79. Different integers have different hexadecimal and octal forms. -/
theorem C79_integer_injective (c d : IntCls) (m n : Int) :
    (valHex (.integer c m) = valHex (.integer d n) → m = n) ∧
    (valOct (.integer c m) = valOct (.integer d n) → m = n) := by
  constructor
  · intro h
    exact prefixed_injective (by omega) (((C79_integer c m _).1).mp rfl) (((C79_integer d n _).1).mp h.symm)
  · intro h
    exact prefixed_injective (by omega) (((C79_integer c m _).2).mp rfl) (((C79_integer d n _).2).mp h.symm)

theorem hex2Upper_eq (b : Nat) (h : b < 256) :
    hex2Upper b = [hexCharsUpper.getD (b / 16) 0, hexCharsUpper.getD (b % 16) 0] := by
  have key : ∀ b : Fin 256, hex2Upper b.val = [hexCharsUpper.getD (b.val / 16) 0, hexCharsUpper.getD (b.val % 16) 0] := by
    decide +kernel
  exact key ⟨b, h⟩

/-- The three characters of an octet in octal: blanks in place of leading zeros. -/
theorem oct3_eq (b : Nat) (h : b < 256) :
    oct3 b = [if b < 64 then 32 else b / 64 + 48, if b < 8 then 32 else b / 8 % 8 + 48, b % 8 + 48] := by
  have key : ∀ b : Fin 256, oct3 b.val =
      [if b.val < 64 then 32 else b.val / 64 + 48, if b.val < 8 then 32 else b.val / 8 % 8 + 48, b.val % 8 + 48] := by
    decide +kernel
  exact key ⟨b, h⟩

/-- C79. `__hex__` of a string of octets (of any class) is two upper-case hexadecimal digits per octet; `__oct__` is three
characters per octet, its octal digits with blanks in place of leading zeros. -/
theorem C79_octets (c : OctCls) (s : Str) (h : Octets s) :
    valHex (.octets c s) = .ok (s.flatMap fun b => [hexCharsUpper.getD (b / 16) 0, hexCharsUpper.getD (b % 16) 0]) ∧
    valOct (.octets c s) = .ok (s.flatMap fun b =>
      [if b < 64 then 32 else b / 64 + 48, if b < 8 then 32 else b / 8 % 8 + 48, b % 8 + 48]) := by
  have h1 : s.flatMap hex2Upper = s.flatMap fun b => [hexCharsUpper.getD (b / 16) 0, hexCharsUpper.getD (b % 16) 0] :=
    List.flatMap_congr fun b hb => hex2Upper_eq b (h b hb)
  have h2 : s.flatMap oct3 = s.flatMap fun b =>
      [if b < 64 then 32 else b / 64 + 48, if b < 8 then 32 else b / 8 % 8 + 48, b % 8 + 48] :=
    List.flatMap_congr fun b hb => oct3_eq b (h b hb)
  simp only [valHex, valOct, h1, h2, and_self]

theorem flatMap_injective {f : Nat → Str} {k : Nat} (hk : 0 < k) (hl : ∀ b < 256, (f b).length = k)
    (hi : ∀ a < 256, ∀ b < 256, f a = f b → a = b) :
    ∀ s t : Str, Octets s → Octets t → s.flatMap f = t.flatMap f → s = t := by
  intro s
  induction s with
  | nil =>
    intro t _ ht h
    cases t with
    | nil => rfl
    | cons b t =>
      have := hl b (ht b (by simp))
      have h2 := congrArg List.length h
      simp only [List.flatMap_cons, List.length_append, List.flatMap_nil, List.length_nil] at h2; omega
  | cons a s ih =>
    intro t hs ht h
    cases t with
    | nil =>
      have := hl a (hs a (by simp))
      have h2 := congrArg List.length h
      simp only [List.flatMap_cons, List.length_append, List.flatMap_nil, List.length_nil] at h2; omega
    | cons b t =>
      have ha := hs a (by simp)
      have hb := ht b (by simp)
      simp only [List.flatMap_cons] at h
      obtain ⟨e1, e2⟩ := List.append_inj h ((hl a ha).trans (hl b hb).symm)
      rw [hi a ha b hb e1, ih t (fun x hx => hs x (by simp [hx])) (fun x hx => ht x (by simp [hx])) e2]

/-- C79. Neither form loses anything: different strings of octets have different forms. -/
theorem C79_octets_injective (c d : OctCls) (s t : Str) (hs : Octets s) (ht : Octets t) :
    (valHex (.octets c s) = valHex (.octets d t) → s = t) ∧ (valOct (.octets c s) = valOct (.octets d t) → s = t) := by
  have inj : ∀ i < 16, ∀ j < 16, hexCharsUpper.getD i 0 = hexCharsUpper.getD j 0 → i = j := by decide
  constructor
  · intro h
    rw [(C79_octets c s hs).1, (C79_octets d t ht).1, Except.ok.injEq] at h
    refine flatMap_injective (k := 2) (by omega) (fun _ _ => rfl) ?_ s t hs ht h
    intro a ha b hb h
    simp only [List.cons.injEq, and_true] at h
    have e1 := inj _ (by omega) _ (by omega) h.1
    have e2 := inj _ (by omega) _ (by omega) h.2
    omega
  · intro h
    rw [(C79_octets c s hs).2, (C79_octets d t ht).2, Except.ok.injEq] at h
    refine flatMap_injective (k := 3) (by omega) (fun _ _ => rfl) ?_ s t hs ht h
    intro a ha b hb h
    simp only [List.cons.injEq, and_true] at h
    obtain ⟨h1, h2, h3⟩ := h
    split at h1 <;> split at h1 <;> split at h2 <;> split at h2 <;> omega

/-- C79. Calling an integer object gives its value; ObjectIDs, nulls and sequences have neither of the two forms and cannot be
called. -/
theorem C79_others (c : IntCls) (n : Int) (v : Option (List Int)) (d : NullCls) (e : SeqCls) (l : List Val) :
    valCall (.integer c n) = .ok n ∧
    (∀ x ∈ [Val.oid v, .null d, .seq e l], valHex x = .error .attributeError ∧ valOct x = .error .attributeError ∧
      valCall x = .error .typeError ∧ valFloat x = .error .typeError) := by
  refine ⟨rfl, ?_⟩
  simp [valHex, valOct, valCall, valFloat]

/-- C79. `float()` of an integer object is exact up to 53 bits — so for every class but Counter64 — and never more than one
part in 2⁵³ away. -/
theorem C79_float_exact (c : IntCls) (n : Int) (h : n.natAbs < 2 ^ 53) : valFloat (.integer c n) = .ok (n : ℚ) := by
  rw [valFloat, pyFloatInt, toDouble_nat h]
  by_cases hn : n < 0
  · simp only [hn, if_true]
    rw [show (n : ℚ) = -(n.natAbs : ℚ) by
      have : (n : ℤ) = -(n.natAbs : ℤ) := by omega
      exact_mod_cast congrArg (Int.cast (R := ℚ)) this]
  · simp only [hn, if_false]
    rw [show (n : ℚ) = (n.natAbs : ℚ) by rw [Nat.cast_natAbs, abs_of_nonneg (by omega)]]

theorem natAbs_toDouble {n : Nat} (h0 : 0 < n) (h : n < 2 ^ 64) : toDouble (n : ℚ) = some (rounded n) := by
  refine toDouble_some (by exact_mod_cast h0) ?_
  have h1 : (n : ℚ) < (2 ^ 64 : ℕ) := by exact_mod_cast h
  refine h1.le.trans ?_
  rw [show ((2 ^ 64 : ℕ) : ℚ) = (2 : ℚ) ^ (64 : ℤ) by norm_num]
  exact two_zpow_le (by norm_num)

theorem nat_normal {n : Nat} (h0 : 0 < n) : (2 : ℚ) ^ (-1022 : ℤ) ≤ n := by
  have h1 : (1 : ℚ) ≤ n := by exact_mod_cast h0
  refine le_trans ?_ h1
  have := two_zpow_le (a := -1022) (b := 0) (by norm_num)
  simpa using this

theorem C79_float_near (c : IntCls) (n : Int) (h : n.natAbs < 2 ^ 64) :
    ∃ x, valFloat (.integer c n) = .ok x ∧ |x - n| ≤ |(n : ℚ)| / 2 ^ 53 := by
  rcases Nat.eq_zero_or_pos n.natAbs with h0 | h0
  · refine ⟨n, C79_float_exact c n (by omega), ?_⟩
    simp; positivity
  · have hr := rounded_rel (nat_normal h0)
    by_cases hn : n < 0
    · refine ⟨-rounded n.natAbs, ?_, ?_⟩
      · simp only [valFloat, pyFloatInt, natAbs_toDouble h0 h, hn, if_true, if_false]
      · have e : (n : ℚ) = -(n.natAbs : ℚ) := by
          have : (n : ℤ) = -(n.natAbs : ℤ) := by omega
          exact_mod_cast congrArg (Int.cast (R := ℚ)) this
        rw [e, abs_neg, Nat.abs_cast, show -rounded (n.natAbs : ℚ) - -(n.natAbs : ℚ) = -(rounded n.natAbs - n.natAbs) by ring, abs_neg]
        exact hr
    · refine ⟨rounded n.natAbs, ?_, ?_⟩
      · simp only [valFloat, pyFloatInt, natAbs_toDouble h0 h, hn, if_true, if_false]
      · have e : (n : ℚ) = (n.natAbs : ℚ) := by rw [Nat.cast_natAbs, abs_of_nonneg (by omega)]
        rw [e, Nat.abs_cast]
        exact hr

example : valHex (.integer .integer (-255)) = .ok (lit "-0xff") ∧ valOct (.integer .counter 8) = .ok (lit "0o10") ∧
    valHex (.octets .octetString [0, 255, 10]) = .ok (lit "00FF0A") ∧
    valOct (.octets .octetString [0, 255, 10]) = .ok (lit "  0377 12") := by decide +kernel

/-! ## C80 -/

theorem takeWhile_append_stop {p : Nat → Bool} {u w : Str} {c : Nat} (hu : ∀ x ∈ u, p x = true) (hc : p c = false) :
    (u ++ c :: w).takeWhile p = u ∧ (u ++ c :: w).dropWhile p = c :: w := by
  induction u with
  | nil => simp [hc]
  | cons x u ih =>
    have := ih fun y hy => hu y (by simp [hy])
    simp [hu x (by simp), this.1, this.2]

theorem takeWhile_all {p : Nat → Bool} {u : Str} (hu : ∀ x ∈ u, p x = true) : u.takeWhile p = u ∧ u.dropWhile p = [] := by
  induction u with
  | nil => simp
  | cons x u ih =>
    have := ih fun y hy => hu y (by simp [hy])
    simp [hu x (by simp), this.1, this.2]

/-- The number spelled by the first word of an uptime text. -/
theorem floatMagnitude_uptime {s c : Nat} {ds : List Nat} (h : Numeral 10 s ds) (hc : c < 100) :
    floatMagnitude (ds.map (· + 48) ++ [46, c / 10 + 48, c % 10 + 48]) = some (((100 * s + c : Nat) : ℚ) / 100) := by
  have hd : ∀ x ∈ ds.map (· + 48), 48 ≤ x ∧ x ≤ 57 := by
    intro x hx
    obtain ⟨d, hd, rfl⟩ := List.mem_map.mp hx
    have := h.1 d hd; omega
  have hall : ∀ x ∈ ds.map (· + 48) ++ [46, c / 10 + 48, c % 10 + 48], (!(x == 101 || x == 69)) = true := by
    intro x hx
    rcases List.mem_append.mp hx with hx | hx
    · have := hd x hx; simp; omega
    · simp only [List.mem_cons, List.not_mem_nil, or_false] at hx
      simp; omega
  have hstop : ∀ x ∈ ds.map (· + 48), (x != 46) = true := by
    intro x hx; have := hd x hx; simp; omega
  have hw : floatDigits (ds.map (· + 48)) = some (s, ds.length) := by
    have hne : ds.map (· + 48) ≠ [] := by simpa using h.2.1
    have hf : (ds.map (· + 48)).filter isDigit = ds.map (· + 48) := by
      rw [List.filter_eq_self]; intro x hx; have := hd x hx; simp [isDigit, this]
    rw [floatDigits, if_neg hne, parseDigits_ok (numeral_digitRun h), h.2.2.2, hf]; simp
  have hf : floatDigits [c / 10 + 48, c % 10 + 48] = some (c, 2) := by
    have key : ∀ c : Fin 100, floatDigits [c.val / 10 + 48, c.val % 10 + 48] = some (c.val, 2) := by decide +kernel
    exact key ⟨c, hc⟩
  have hlen : ds.length + 2 ≠ 0 := by omega
  rw [floatMagnitude]
  simp only [takeWhile_all hall, takeWhile_append_stop (w := [c / 10 + 48, c % 10 + 48]) hstop (show ((46 : Nat) != 46) = false by simp),
    List.tail_cons, hw, hf, if_neg hlen]
  congr 1
  push_cast
  field_simp
  ring

/-- What `getSysUptime` computes from an uptime text, before the special case of infinity. -/
theorem uptime_word {d : Nat} {t : Str} (h : UptimeText d t) :
    getSysUptime (some t) = (((toDouble (d / 100)).bind fun x => toDouble (x * 100)).map fun y => ⌊y⌋).getD 0 := by
  obtain ⟨hn, hc⟩ := h
  rename_i s c ds rest
  have hd : ∀ x ∈ ds.map (· + 48), 48 ≤ x ∧ x ≤ 57 := by
    intro x hx
    obtain ⟨d, hd, rfl⟩ := List.mem_map.mp hx
    have := hn.1 d hd; omega
  have hns : ∀ x, 46 ≤ x → isSpace x = false := by
    intro x hx; rw [Bool.eq_false_iff, ne_eq, isSpace_iff]; omega
  have hword : (ds.map (· + 48) ++ [46, c / 10 + 48, c % 10 + 48, 32] ++ rest) =
      (ds.map (· + 48) ++ [46, c / 10 + 48, c % 10 + 48]) ++ 32 :: rest := by simp
  have hall : ∀ x ∈ ds.map (· + 48) ++ [46, c / 10 + 48, c % 10 + 48], (!isSpace x) = true := by
    intro x hx
    rw [hns x ?_]; rfl
    rcases List.mem_append.mp hx with hx | hx
    · have := hd x hx; omega
    · simp only [List.mem_cons, List.not_mem_nil, or_false] at hx; omega
  have hdrop : (ds.map (· + 48) ++ [46, c / 10 + 48, c % 10 + 48, 32] ++ rest).dropWhile isSpace =
      ds.map (· + 48) ++ [46, c / 10 + 48, c % 10 + 48, 32] ++ rest := by
    apply dropWhile_eq_self
    intro x hx
    obtain ⟨e, es, rfl⟩ := List.exists_cons_of_ne_nil hn.2.1
    simp only [List.map_cons, List.cons_append, List.head?_cons, Option.some.injEq] at hx
    exact hns x (by omega)
  obtain ⟨e, es, hes⟩ := List.exists_cons_of_ne_nil hn.2.1
  have htake := (takeWhile_append_stop (p := fun c => !isSpace c) (w := rest) hall (by decide : (!isSpace 32) = false)).1
  have hh : hundredfold (ds.map (· + 48) ++ [46, c / 10 + 48, c % 10 + 48]) =
      (((toDouble (((100 * s + c : Nat) : ℚ) / 100)).bind fun x => toDouble (x * 100)).map fun y => ⌊y⌋) := by
    have hm := floatMagnitude_uptime hn hc
    rw [hundredfold]
    have he : e < 10 := hn.1 e (by simp [hes])
    have hsign : floatSign (ds.map (· + 48) ++ [46, c / 10 + 48, c % 10 + 48]) =
        (false, ds.map (· + 48) ++ [46, c / 10 + 48, c % 10 + 48]) := by
      subst hes
      simp only [List.map_cons, List.cons_append, floatSign]
    rw [hsign]
    simp only [hm]
    cases toDouble (((100 * s + c : Nat) : ℚ) / 100) with
    | none => rfl
    | some x =>
      simp only [Option.bind_some]
      cases toDouble (x * 100) <;> rfl
  rw [getSysUptime]
  simp only [hdrop]
  rw [hword, htake]
  split
  · rename_i hnil; simp at hnil
  · rw [hh]

/-- The value after both roundings, as a rational number. -/
theorem uptime_value {d : Nat} {t : Str} (h : UptimeText d t) (h0 : 0 < d) (hd : d < 2 ^ 52) :
    getSysUptime (some t) = ⌊rounded (rounded ((d : ℚ) / 100) * 100)⌋ ∧ 0 < rounded ((d : ℚ) / 100) := by
  have hdq : (0 : ℚ) < d := by exact_mod_cast h0
  have hd1 : (1 : ℚ) ≤ d := by exact_mod_cast h0
  have hq : (0 : ℚ) < (d : ℚ) / 100 := by positivity
  have hdu : (d : ℚ) < (2 : ℚ) ^ 52 := by exact_mod_cast hd
  have hnorm : (2 : ℚ) ^ (-1022 : ℤ) ≤ (d : ℚ) / 100 := by
    have h1 := two_zpow_le (a := -1022) (b := -7) (by norm_num)
    have h2 : (2 : ℚ) ^ (-7 : ℤ) ≤ (d : ℚ) / 100 := by
      rw [show (2 : ℚ) ^ (-7 : ℤ) = 1 / 128 by norm_num, le_div_iff₀ (by norm_num)]; linarith
    exact h1.trans h2
  have hr := abs_le.mp (rounded_rel hnorm)
  have hpos : 0 < rounded ((d : ℚ) / 100) := by
    have : (d : ℚ) / 100 / 2 ^ 53 ≤ (d : ℚ) / 100 / 2 := div_le_div_of_nonneg_left hq.le (by norm_num) (by norm_num)
    linarith
  have hbig : (2 : ℚ) ^ 60 ≤ 2 ^ (1000 : ℤ) := by
    rw [show (2 : ℚ) ^ 60 = 2 ^ (60 : ℤ) by norm_num]; exact two_zpow_le (by norm_num)
  have hle : (d : ℚ) / 100 / 2 ^ 53 ≤ (d : ℚ) / 100 := div_le_self hq.le (by norm_num)
  have e52 : (2 : ℚ) ^ 52 = 4503599627370496 := by norm_num
  have e60 : (2 : ℚ) ^ 60 = 1152921504606846976 := by norm_num
  refine ⟨?_, hpos⟩
  rw [uptime_word h, toDouble_some hq (le_trans (by rw [e52] at hdu; rw [e60]; linarith) hbig)]
  simp only [Option.bind_some]
  rw [toDouble_some (by linarith) (le_trans (by rw [e52] at hdu; rw [e60]; linarith) hbig)]
  rfl

/-- C80. While the machine has been up for less than 2⁵² hundredths of a second, `getSysUptime` gives the uptime in hundredths of a
second, or one less. -/
theorem C80_uptime {d : Nat} {t : Str} (h : UptimeText d t) (hd : d < 2 ^ 52) :
    getSysUptime (some t) = d ∨ (0 < d ∧ getSysUptime (some t) = d - 1) := by
  rcases Nat.eq_zero_or_pos d with rfl | h0
  · left; rw [uptime_word h]; simp [toDouble_zero]
  obtain ⟨he, hpos⟩ := uptime_value h h0 hd
  have hdq : (0 : ℚ) < d := by exact_mod_cast h0
  have hd1 : (1 : ℚ) ≤ d := by exact_mod_cast h0
  have hdu : (d : ℚ) ≤ (2 : ℚ) ^ 52 - 1 := by
    have : (d : ℚ) + 1 ≤ (2 : ℚ) ^ 52 := by exact_mod_cast hd
    linarith
  have n1 : (2 : ℚ) ^ (-1022 : ℤ) ≤ (d : ℚ) / 100 := by
    have h1 := two_zpow_le (a := -1022) (b := -7) (by norm_num)
    have h2 : (2 : ℚ) ^ (-7 : ℤ) ≤ (d : ℚ) / 100 := by
      rw [show (2 : ℚ) ^ (-7 : ℤ) = 1 / 128 by norm_num, le_div_iff₀ (by norm_num)]; linarith
    exact h1.trans h2
  have r1 := abs_le.mp (rounded_rel n1)
  set x := rounded ((d : ℚ) / 100) with hx
  have hxl : (d : ℚ) / 200 ≤ x := by
    have : (d : ℚ) / 100 / 2 ^ 53 ≤ (d : ℚ) / 100 / 2 := div_le_div_of_nonneg_left (by positivity) (by norm_num) (by norm_num)
    linarith
  have n2 : (2 : ℚ) ^ (-1022 : ℤ) ≤ x * 100 := by
    have h1 := two_zpow_le (a := -1022) (b := -7) (by norm_num)
    have h2 : (2 : ℚ) ^ (-7 : ℤ) ≤ x * 100 := by
      rw [show (2 : ℚ) ^ (-7 : ℤ) = 1 / 128 by norm_num]; linarith
    exact h1.trans h2
  have r2 := abs_le.mp (rounded_rel n2)
  set y := rounded (x * 100) with hy
  have hp : (0 : ℚ) < 2 ^ 53 := by norm_num
  have e53 : (2 : ℚ) ^ 53 = 9007199254740992 := by norm_num
  have e52 : (2 : ℚ) ^ 52 = 4503599627370496 := by norm_num
  rw [e53] at r1 r2
  rw [e52] at hdu
  have lo : (d : ℚ) - 1 ≤ y := by linarith
  have hi : y < (d : ℚ) + 1 := by linarith
  rw [he]
  by_cases hyd : (d : ℚ) ≤ y
  · left
    rw [Int.floor_eq_iff]; push_cast; exact ⟨hyd, hi⟩
  · right
    refine ⟨h0, ?_⟩
    rw [Int.floor_eq_iff]; push_cast; constructor <;> linarith

/-- C80. It is exact whenever the uptime is a whole number of seconds. -/
theorem C80_uptime_seconds {s : Nat} {t : Str} (h : UptimeText (100 * s) t) (hd : 100 * s < 2 ^ 52) :
    getSysUptime (some t) = 100 * s := by
  rw [uptime_word h]
  have e : (((100 * s : Nat) : ℚ) / 100) = (s : ℚ) := by push_cast; field_simp
  rw [e, toDouble_nat (by omega)]
  simp only [Option.bind_some]
  rw [show (s : ℚ) * 100 = ((100 * s : Nat) : ℚ) by push_cast; ring, toDouble_nat (by omega)]
  simp [Int.floor_natCast]
  rw [show (100 : ℚ) * s = ((100 * s : Nat) : ℚ) by push_cast; ring, Int.floor_natCast]; push_cast; rfl

/-- C80. It never goes back while the machine is up. -/
theorem C80_uptime_monotone {d e : Nat} {t u : Str} (ht : UptimeText d t) (hu : UptimeText e u) (h : d ≤ e) (he : e < 2 ^ 52) :
    getSysUptime (some t) ≤ getSysUptime (some u) := by
  rcases Nat.eq_zero_or_pos d with rfl | h0
  · have h1 : getSysUptime (some t) = 0 := by
      rcases C80_uptime ht (by omega) with h | ⟨h, _⟩
      · exact_mod_cast h
      · omega
    rcases C80_uptime hu he with h2 | ⟨h2, h3⟩ <;> omega
  · obtain ⟨h1, h2⟩ := uptime_value ht h0 (by omega)
    obtain ⟨h3, h4⟩ := uptime_value hu (by omega) he
    rw [h1, h3]
    have hde : (d : ℚ) ≤ e := by exact_mod_cast h
    have hdq : (0 : ℚ) < d := by exact_mod_cast h0
    refine Int.floor_le_floor (rounded_mono (by positivity) (mul_le_mul_of_nonneg_right (rounded_mono (by positivity) ?_) (by norm_num)))
    gcongr

theorem floatDigits_none {t : Str} (h : ∀ c ∈ t, c < 48 ∨ 57 < c) : floatDigits t = none ∨ floatDigits t = some (0, 0) := by
  cases t with
  | nil => right; rfl
  | cons c t =>
    left
    have hc := h c (by simp)
    have : isDigit c = false := by simp [isDigit]; omega
    simp [floatDigits, parseDigits, this]

theorem floatMagnitude_none {t : Str} (h : ∀ c ∈ t, c < 48 ∨ 57 < c) : floatMagnitude t = none := by
  have h1 := floatDigits_none (t := (t.takeWhile fun c => !(c == 101 || c == 69)).takeWhile (· != 46))
    fun c hc => h c (List.takeWhile_subset _ (List.takeWhile_subset _ hc))
  have h2 := floatDigits_none (t := ((t.takeWhile fun c => !(c == 101 || c == 69)).dropWhile (· != 46)).tail)
    fun c hc => h c (List.takeWhile_subset _ (List.dropWhile_subset _ (List.mem_of_mem_tail hc)))
  rw [floatMagnitude]
  rcases h1 with h1 | h1 <;> rcases h2 with h2 | h2 <;> simp only [h1, h2]
  split
  · rename_i e1 e2 _; simp only [Option.some.injEq, Prod.mk.injEq] at e1 e2; rw [if_pos (by omega)]
  · rfl

/-- C80. Without a readable file, with a file that holds no word, or with one whose first word has no digit in it, it is 0. -/
theorem C80_uptime_missing (u w rest : Str) (hu : White u) (hne : w ≠ [])
    (hw : ∀ c ∈ w, 32 < c ∧ ¬ (48 ≤ c ∧ c ≤ 57)) :
    getSysUptime none = 0 ∧ getSysUptime (some u) = 0 ∧ getSysUptime (some (u ++ w ++ 10 :: rest)) = 0 := by
  have hu' : ∀ x ∈ u, isSpace x = true := fun x hx => (isSpace_iff x).mpr (hu x hx)
  refine ⟨rfl, ?_, ?_⟩
  · rw [getSysUptime]
    simp only [(takeWhile_all hu').2]; rfl
  · have hns : ∀ x ∈ w, (!isSpace x) = true := by
      intro x hx
      have := hw x hx
      simp only [Bool.not_eq_true', Bool.eq_false_iff, ne_eq, isSpace_iff]; omega
    obtain ⟨c, cs, rfl⟩ := List.exists_cons_of_ne_nil hne
    have e1 : (u ++ (c :: cs) ++ 10 :: rest).dropWhile isSpace = (c :: cs) ++ 10 :: rest := by
      rw [List.append_assoc, dropWhile_append_of_all hu']
      apply dropWhile_eq_self
      intro x hx
      simp only [List.cons_append, List.head?_cons, Option.some.injEq] at hx
      have := hns x (by simp [hx]); simpa using this
    have e2 := (takeWhile_append_stop (p := fun c => !isSpace c) (u := c :: cs) (w := rest) hns (by decide : (!isSpace 10) = false)).1
    have hsub : ∀ x ∈ (floatSign (c :: cs)).2, x ∈ c :: cs := by
      intro x hx
      unfold floatSign at hx
      split at hx <;> simp_all
    have e3 : hundredfold (c :: cs) = none := by
      rw [hundredfold, floatMagnitude_none fun x hx => by have := hw x (hsub x hx); omega]
    rw [getSysUptime]
    simp only [e1, e2, e3]; rfl

/-- A text for every number of hundredths. -/
theorem uptimeText_exists (d : Nat) : ∃ t, UptimeText d t := by
  have := UptimeText.mk (rest := [48]) (digits_numeral (b := 10) (by omega) (d / 100)) (Nat.mod_lt d (by omega : 100 > 0))
  rw [Nat.div_add_mod] at this
  exact ⟨_, this⟩

example : UptimeText 29 (lit "0.29 0.10\n") :=
  UptimeText.mk (s := 0) (c := 29) (ds := [0]) (rest := lit "0.10\n") ⟨by decide, by decide, by decide, by decide⟩ (by decide)

/-- C80. "One less" does happen: 0.29 is read as a number below 0.29, and a hundred times that is below 29. -/
theorem C80_uptime_short : getSysUptime (some (lit "0.29 0.10\n")) = 28 := by
  have h : UptimeText 29 (lit "0.29 0.10\n") :=
    UptimeText.mk (s := 0) (c := 29) (ds := [0]) (rest := lit "0.10\n") ⟨by decide, by decide, by decide, by decide⟩ (by decide)
  have l1 : Int.log 2 ((29 : ℚ) / 100) = -2 := by
    have h1 := log_ge (q := 29 / 100) (k := -2) (by norm_num)
    have h2 := log_lt (q := 29 / 100) (by norm_num) (k := -1) (by norm_num)
    omega
  have u1 : ulp ((29 : ℚ) / 100) = 1 / 2 ^ 54 := by
    unfold ulp; rw [l1]; norm_num
  have f1 : ⌊((29 : ℚ) / 100) / (1 / 2 ^ 54)⌋ = 5224175567749775 := by
    rw [Int.floor_eq_iff]; norm_num
  have r1 : rounded ((29 : ℚ) / 100) = 5224175567749775 / 2 ^ 54 := by
    rw [rounded, u1, roundEven, f1, if_pos (by norm_num)]; norm_num
  have l2 : Int.log 2 ((5224175567749775 : ℚ) / 2 ^ 54 * 100) = 4 := by
    have h1 := log_ge (q := 5224175567749775 / 2 ^ 54 * 100) (k := 4) (by norm_num)
    have h2 := log_lt (q := 5224175567749775 / 2 ^ 54 * 100) (by norm_num) (k := 5) (by norm_num)
    omega
  have u2 : ulp ((5224175567749775 : ℚ) / 2 ^ 54 * 100) = 1 / 2 ^ 48 := by
    unfold ulp; rw [l2]; norm_num
  have f2 : ⌊((5224175567749775 : ℚ) / 2 ^ 54 * 100) / (1 / 2 ^ 48)⌋ = 8162774324609023 := by
    rw [Int.floor_eq_iff]; norm_num
  have r2 : rounded ((5224175567749775 : ℚ) / 2 ^ 54 * 100) = 8162774324609023 / 2 ^ 48 := by
    rw [rounded, u2, roundEven, f2, if_pos (by norm_num)]; norm_num
  rw [(uptime_value h (by omega) (by omega)).1]
  push_cast
  rw [r1, r2, Int.floor_eq_iff]; norm_num

/-- C80. The time stamp of a trap built by any of the three classes is the uptime in hundredths of a second, or one less; from
2³²+1 hundredths of a second (497 days) on no trap can be built, for the time stamp does not wrap around. -/
theorem C80_trap_stamp (k : Kind) (vbl : Val) (version : Int) (enterprise : Arg) (a : Str) (ha : a ≠ []) (g sp : Int)
    {d : Nat} {t : Str} (h : UptimeText d t) (hd : d < 2 ^ 52) :
    (∀ pdu, createTrapPDU k vbl version enterprise (.str a) g sp (getSysUptime (some t)) = .ok pdu →
      ∃ ent agent n, pdu = .seq .trapPDU [ent, agent, .integer .genericTrap g, .integer .integer sp, .integer .timeTicks n, vbl] ∧
        (n = d ∨ n = d - 1)) ∧
    (2 ^ 32 < d → ∀ pdu, createTrapPDU k vbl version enterprise (.str a) g sp (getSysUptime (some t)) ≠ .ok pdu) := by
  have hup := C80_uptime h hd
  constructor
  · intro pdu hp
    obtain ⟨_, _, _, _, ent, addr, _, _, rfl⟩ := (C63_built_iff k vbl version enterprise a ha g sp _ pdu).mp hp
    exact ⟨_, _, _, rfl, by omega⟩
  · intro hbig pdu hp
    obtain ⟨_, _, _, ⟨_, hlt⟩, _⟩ := (C63_built_iff k vbl version enterprise a ha g sp _ pdu).mp hp
    omega

end Libsnmp
