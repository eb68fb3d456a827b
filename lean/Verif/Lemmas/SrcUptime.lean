import Verif.Spec.SourceHelp
import Mathlib.Data.List.TakeWhile
import Verif.Lemmas.Float
import Verif.Lemmas.SrcTurn

/-!
# `getSysUptime`
-/

namespace Libsnmp.Src
open Libsnmp

variable {cfg : Cfg}

theorem toDouble_nonneg {q x : ℚ} (h : toDouble q = some x) : 0 ≤ x := by
  by_cases hq : q ≤ 0
  · rw [toDouble, if_pos hq] at h; cases h; exact le_refl _
  · have hq : 0 < q := by linarith
    rw [toDouble_eq hq] at h
    split at h
    · cases h
      have h1 : (0 : ℤ) ≤ roundEven (q / ulp q) := le_roundEven (by push_cast; exact (div_pos hq (ulp_pos q)).le)
      exact mul_nonneg (by exact_mod_cast h1) (ulp_pos q).le
    · cases h

theorem words_go (s w : Str) (hw : w ≠ []) : ∃ rest, pyWords.go s w = (w ++ s.takeWhile fun c => !isSpace c) :: rest := by
  induction s generalizing w with
  | nil => exact ⟨[], by simp [pyWords.go, hw]⟩
  | cons c s ih =>
    by_cases hc : isSpace c = true
    · exact ⟨pyWords.go s [], by simp [pyWords.go, hc, hw]⟩
    · obtain ⟨rest, h⟩ := ih (w ++ [c]) (by simp)
      exact ⟨rest, by simp [pyWords.go, hc, h]⟩

/-- The first word. -/
theorem words_head (s : Str) :
    match (s.dropWhile isSpace).takeWhile fun c => !isSpace c with
    | [] => pyWords s = []
    | word => ∃ rest, pyWords s = word :: rest := by
  unfold pyWords
  induction s with
  | nil => rfl
  | cons c s ih =>
    by_cases hc : isSpace c = true
    · simpa [pyWords.go, hc] using ih
    · obtain ⟨rest, h⟩ := words_go s [c] (by simp)
      simp [pyWords.go, hc, h]

theorem stripBy_self {p : Nat → Bool} {w : Str} (h : ∀ c ∈ w, p c = false) : stripBy p w = w := by
  have h1 : ∀ l : Str, (∀ c ∈ l, p c = false) → l.dropWhile p = l := by
    intro l hl
    cases l with
    | nil => rfl
    | cons c l => rw [List.dropWhile_cons_of_neg (by simp [hl c])]
  unfold stripBy
  rw [h1 w h, h1 _ (by simpa using h), List.reverse_reverse]

/-- `int(float(word) * 100)` -/
def hundred (w : Str) (h : Heap) : R V :=
  bindR (floatOfStr w h) fun x h => match x with
    | .quot a b => bindR (floatTimes a b 100 h) fun x h => match x with
      | .quot a b => intOfFloat a b h
      | _ => stuckR h
    | _ => stuckR h

theorem ofFloat_tdiv {y : ℚ} (hy : 0 ≤ y) (neg : Bool) :
    Int.tdiv (if neg then -y.num else y.num) y.den = if neg then -⌊y⌋ else ⌊y⌋ := by
  have h0 : 0 ≤ y.num := Rat.num_nonneg.mpr hy
  have h1 : ⌊y⌋ = y.num / y.den := Rat.floor_def'
  cases neg with
  | false => rw [if_neg (by simp), if_neg (by simp), h1, Int.tdiv_eq_ediv_of_nonneg h0]
  | true => rw [if_pos rfl, if_pos rfl, Int.neg_tdiv, h1, Int.tdiv_eq_ediv_of_nonneg h0]

theorem run_hundred {w : Str} (ha : ∀ c ∈ w, c < 128) (hs : ∀ c ∈ w, isSpace c = false) (h : Heap) :
    match hundredfold w with
    | some n => hundred w h = okR (.int n) h
    | none => ∃ x, hundred w h = excR x h := by
  have hany : (w.any (128 ≤ ·)) = false := by
    simp only [List.any_eq_false, decide_eq_true_eq, not_le]
    exact ha
  have inf : ∀ neg : Bool, ∃ x, (bindR (okR (ofFloat neg none) h) fun x h => match x with
      | .quot a b => bindR (floatTimes a b 100 h) fun x h => match x with
        | .quot a b => intOfFloat a b h
        | _ => stuckR h
      | _ => stuckR h) = excR x h := by
    intro neg
    cases neg
    · exact ⟨_, rfl⟩
    · exact ⟨_, rfl⟩
  unfold hundred floatOfStr hundredfold
  rw [if_neg (by simp [hany]), stripBy_self hs]
  dsimp only
  cases hm : floatMagnitude (floatSign w).2 with
  | none =>
    dsimp only
    split
    · exact inf _
    · split
      · exact ⟨_, rfl⟩
      · exact ⟨_, rfl⟩
  | some q =>
    dsimp only
    cases hd : toDouble q with
    | none => exact inf _
    | some x =>
      have hx := toDouble_nonneg hd
      have hn0 : 0 ≤ x.num := Rat.num_nonneg.mpr hx
      have hden : (x.den : ℤ) ≠ 0 := by exact_mod_cast x.den_nz
      have habs : ∀ neg : Bool, (((if neg then -x.num else x.num).natAbs : ℕ) : ℚ) / ((x.den : ℤ) : ℚ) * ((100 : ℤ).natAbs : ℚ) = x * 100 := by
        intro neg
        have h1 : (((if neg then -x.num else x.num).natAbs : ℕ) : ℚ) = x.num := by
          have : (((if neg then -x.num else x.num).natAbs : ℕ) : ℤ) = x.num := by cases neg <;> simp [hn0]
          rw [← Int.cast_natCast, this]
        rw [h1]
        have h2 : ((x.den : ℤ) : ℚ) = (x.den : ℚ) := by push_cast; rfl
        rw [h2, Rat.num_div_den]; norm_num
      dsimp only [bindR, okR, ofFloat]
      unfold floatTimes
      rw [if_pos (by decide), if_neg hden, habs]
      cases he : toDouble (x * 100) with
      | none =>
        dsimp only [bindR, okR]
        generalize decide ((if (floatSign w).1 = true then -x.num else x.num) * 100 < 0) = neg
        cases neg
        · exact ⟨_, rfl⟩
        · exact ⟨_, rfl⟩
      | some y =>
        have hy := toDouble_nonneg he
        dsimp only [bindR, okR, ofFloat]
        have hyd : (y.den : ℤ) ≠ 0 := by exact_mod_cast y.den_nz
        unfold intOfFloat
        rw [if_neg hyd, ofFloat_tdiv hy]
        refine congrArg (fun z => okR (V.int z) h) ?_
        by_cases hneg : (floatSign w).1 = true
        · rw [hneg]
          by_cases hz : x.num = 0
          · have hx0 : x = 0 := Rat.num_eq_zero.mp hz
            subst hx0
            have : y = 0 := by
              rw [toDouble, if_pos (by norm_num)] at he
              cases he; rfl
            subst this
            simp
          · have : 0 < x.num := lt_of_le_of_ne hn0 (Ne.symm hz)
            simp [this]
        · rw [Bool.not_eq_true] at hneg
          rw [hneg]
          have : ¬ x.num * 100 < 0 := by omega
          simp [hn0]

theorem call_ext (n : String) (args : List V) (h : Heap) : call program cfg (.ext n) args h = cfg.ext n args h := by rw [call]

theorem caught_none (y : V) (h : Heap) : caught none y h = true := rfl

theorem hundred_cases {w : Str} (ha : ∀ c ∈ w, c < 128) (h : Heap) :
    (∃ x, floatOfStr w h = excR x h ∧ hundred w h = excR x h) ∨
    ∃ a b c d, floatOfStr w h = okR (.quot a b) h ∧ floatTimes a b 100 h = okR (.quot c d) h ∧ hundred w h = intOfFloat c d h := by
  have hany : (w.any (128 ≤ ·)) = false := by
    simp only [List.any_eq_false, decide_eq_true_eq, not_le]
    exact ha
  have hof : ∀ neg q, ∃ a b, ofFloat neg q = .quot a b := fun neg q => by cases q <;> exact ⟨_, _, rfl⟩
  have ht : ∀ a b, ∃ c d, floatTimes a b 100 h = okR (.quot c d) h := by
    intro a b
    unfold floatTimes
    rw [if_pos (by decide)]
    split
    · exact ⟨_, _, rfl⟩
    · obtain ⟨c, d, e⟩ := hof (decide (a * 100 < 0)) (toDouble ((a.natAbs : ℚ) / b * ((100 : ℤ).natAbs : ℚ)))
      exact ⟨c, d, by rw [e]⟩
  have hq : ∀ a b, floatOfStr w h = okR (.quot a b) h → ∃ a b c d, floatOfStr w h = okR (.quot a b) h ∧
      floatTimes a b 100 h = okR (.quot c d) h ∧ hundred w h = intOfFloat c d h := by
    intro a b e
    obtain ⟨c, d, e2⟩ := ht a b
    refine ⟨a, b, c, d, e, e2, ?_⟩
    unfold hundred
    rw [e]
    dsimp only [bindR, okR] at e2 ⊢
    rw [e2]
  have hf : (∃ x, floatOfStr w h = excR x h) ∨ ∃ a b, floatOfStr w h = okR (.quot a b) h := by
    unfold floatOfStr
    rw [if_neg (by simp [hany])]
    dsimp only
    split
    · rename_i q _
      obtain ⟨a, b, e⟩ := hof (floatSign (stripBy isSpace w)).1 (toDouble q)
      exact .inr ⟨a, b, by rw [e]⟩
    · split
      · exact .inr ⟨_, _, rfl⟩
      · split
        · exact .inr ⟨_, _, rfl⟩
        · exact .inl ⟨_, rfl⟩
  rcases hf with ⟨x, e⟩ | ⟨a, b, e⟩
  · exact .inl ⟨x, e, by unfold hundred; rw [e]; rfl⟩
  · exact .inr (hq a b e)

theorem first_ascii {t : Str} (ha : ∀ c ∈ t, c < 128) :
    (∀ c ∈ (t.dropWhile isSpace).takeWhile fun c => !isSpace c, c < 128) ∧
    ∀ c ∈ (t.dropWhile isSpace).takeWhile fun c => !isSpace c, isSpace c = false := by
  refine ⟨fun c hc => ha c ?_, fun c hc => by simpa using List.mem_takeWhile_imp hc⟩
  exact (List.dropWhile_suffix _).subset ((List.takeWhile_prefix _).subset hc)

theorem uptime_word (t : Str) (hne : ((t.dropWhile isSpace).takeWhile fun c => !isSpace c) ≠ []) :
    getSysUptime (some t) = (hundredfold ((t.dropWhile isSpace).takeWhile fun c => !isSpace c)).getD 0 := by
  unfold getSysUptime
  dsimp only
  split
  · contradiction
  · rfl

/-- The body of `getSysUptime`. -/
theorem run_uptime {fn : Module × Nat} (hf : fn = (.v1, 236) ∨ fn = (.snmpmanager, 344)) {file : Option Str} (hw : UptimeFile cfg file)
    (self : V) (h : Heap) :
    ∃ t, call program cfg (.func fn.1 fn.2) [self] h = okR (.int (getSysUptime file)) (h ++ t) := by
  have hb : v1_236.body = snmpmanager_344.body := rfl
  cases hw with
  | closed y ho =>
    refine ⟨[], ?_⟩
    rw [List.append_nil]
    rcases hf with rfl | rfl
    · runs [call_v1_236, v1_236, call_ext, caught_none, List.getElem?_nil, ho, getSysUptime]
    · runs [call_snmpmanager_344, snmpmanager_344, call_ext, caught_none, List.getElem?_nil, ho, getSysUptime]
  | unread f y ho hr =>
    refine ⟨[], ?_⟩
    rw [List.append_nil]
    rcases hf with rfl | rfl
    · runs [call_v1_236, v1_236, call_ext, caught_none, List.getElem?_nil, ho, hr, getSysUptime]
    · runs [call_snmpmanager_344, snmpmanager_344, call_ext, caught_none, List.getElem?_nil, ho, hr, getSysUptime]
  | text f t ho hr ha =>
    refine ⟨[.list ((pyWords t).map V.str)], ?_⟩
    have hany : (t.any (128 ≤ ·)) = false := by
      simp only [List.any_eq_false, decide_eq_true_eq, not_le]
      exact ha
    have hl : (h ++ [Cell.list ((pyWords t).map V.str)])[h.length]? = some (.list ((pyWords t).map V.str)) := get_app h _
    have hwd := words_head t
    have hm := uptime_word t
    split at hwd
    · rename_i hnil
      unfold getSysUptime
      dsimp only
      rw [hwd] at hl ⊢
      rw [hnil]
      rcases hf with rfl | rfl
      · runs [call_v1_236, v1_236, call_ext, caught_none, List.getElem?_nil, ho, hr, strMethod, hany, hwd, hl]
      · runs [call_snmpmanager_344, snmpmanager_344, call_ext, caught_none, List.getElem?_nil, ho, hr, strMethod, hany, hwd, hl]
    · rename_i hne
      obtain ⟨rest, hwd⟩ := hwd
      obtain ⟨w1, w2⟩ := first_ascii ha
      generalize ((t.dropWhile isSpace).takeWhile fun c => !isSpace c) = w at *
      replace hm := hm fun e => hne e
      rw [hm]
      rw [hwd] at hl ⊢
      have hh := run_hundred w1 w2 (h ++ [.list ((w :: rest).map V.str)])
      rcases hundred_cases w1 (h ++ [.list ((w :: rest).map V.str)]) with ⟨x, e1, e2⟩ | ⟨a, b, c, d, e1, e2, e3⟩
      · have e0 : hundredfold w = none := by
          cases e : hundredfold w with
          | none => rfl
          | some n => rw [e] at hh; dsimp only at hh; rw [hh] at e2; cases e2
        rw [e0, Option.getD_none]
        rw [List.map_cons] at *
        rcases hf with rfl | rfl
        · runs [call_v1_236, v1_236, call_ext, caught_none, ho, hr, strMethod, hany, hwd, hl, e1, List.getElem?_cons_zero]
        · runs [call_snmpmanager_344, snmpmanager_344, call_ext, caught_none, ho, hr, strMethod, hany, hwd, hl, e1, List.getElem?_cons_zero]
      · have key : ∀ n x, intOfFloat c d (h ++ [.list ((w :: rest).map V.str)]) = x → (x = okR (.int n) (h ++ [.list ((w :: rest).map V.str)]) ∨
            n = 0 ∧ ∃ y, x = excR y (h ++ [.list ((w :: rest).map V.str)])) →
            call program cfg (.func fn.1 fn.2) [self] h = okR (.int n) (h ++ [.list ((w :: rest).map V.str)]) := by
          intro n x ex hx
          rw [List.map_cons] at *
          rcases hf with rfl | rfl
          · rcases hx with rfl | ⟨rfl, y, rfl⟩
            · runs [call_v1_236, v1_236, call_ext, caught_none, ho, hr, strMethod, hany, hwd, hl, e1, e2, ↓ex, List.getElem?_cons_zero]
            · runs [call_v1_236, v1_236, call_ext, caught_none, ho, hr, strMethod, hany, hwd, hl, e1, e2, ↓ex, List.getElem?_cons_zero]
          · rcases hx with rfl | ⟨rfl, y, rfl⟩
            · runs [call_snmpmanager_344, snmpmanager_344, call_ext, caught_none, ho, hr, strMethod, hany, hwd, hl, e1, e2, ↓ex,
                List.getElem?_cons_zero]
            · runs [call_snmpmanager_344, snmpmanager_344, call_ext, caught_none, ho, hr, strMethod, hany, hwd, hl, e1, e2, ↓ex,
                List.getElem?_cons_zero]
        rw [e3] at hh
        cases e : hundredfold w with
        | none =>
          rw [e] at hh
          obtain ⟨y, hh⟩ := hh
          exact key _ _ hh (.inr ⟨rfl, y, rfl⟩)
        | some n =>
          rw [e] at hh
          exact key _ _ hh (.inl rfl)

end Libsnmp.Src
