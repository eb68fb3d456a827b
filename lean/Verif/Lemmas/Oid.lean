import Verif.Lemmas.Digits
import Mathlib.Data.List.Forall2

/-! ObjectID contents. -/

namespace Libsnmp
open Spec

theorem subidLoop_spec (n : Nat) (acc : Str) :
    ∃ ds : List Nat, subidLoop n acc = ds.map (128 + ·) ++ acc ∧ (∀ x ∈ ds, x < 128) ∧ ofDigits 128 ds = n ∧
      ds.head? ≠ some 0 := by
  induction n using Nat.strong_induction_on generalizing acc with
  | _ n ih =>
    rw [subidLoop]
    split
    · next hn =>
      have hm : n % 128 < 128 := Nat.mod_lt _ (by decide)
      rw [shr7, and_7f, or_80 hm]
      obtain ⟨ds, h1, h2, h3, h4⟩ := ih (n / 128) (Nat.div_lt_self hn (by decide)) ((128 + n % 128) :: acc)
      refine ⟨ds ++ [n % 128], by rw [h1]; simp, ?_, ?_, ?_⟩
      · intro x hx
        rcases List.mem_append.mp hx with hx | hx
        · exact h2 x hx
        · have : x = n % 128 := by simpa using hx
          omega
      · rw [ofDigits_snoc, h3]; omega
      · cases ds with
        | nil =>
          simp at h3
          simp; omega
        | cons e es => simpa using h4
    · next hn =>
      exact ⟨[], by simp, by simp, by simp; omega, by simp⟩

/-- The octets of one sub-identifier: base-128 digits without a leading zero. -/
theorem subidEncode_spec (n : Nat) :
    ∃ (ds : List Nat) (d : Nat), subidEncode (n : Int) = ds.map (128 + ·) ++ [d] ∧ (∀ x ∈ ds, x < 128) ∧ d < 128 ∧
      ofDigits 128 (ds ++ [d]) = n ∧ ds.head? ≠ some 0 := by
  unfold subidEncode
  split
  · next h =>
    refine ⟨[], n, ?_, by simp, by omega, by simp, by simp⟩
    rw [land_7f]; simp; omega
  · next h =>
    obtain ⟨ds, h1, h2, h3, h4⟩ := subidLoop_spec (n >>> 7) [n &&& 0x7f]
    refine ⟨ds, n &&& 0x7f, by simpa using h1, h2, by rw [and_7f]; omega, ?_, h4⟩
    rw [ofDigits_snoc, h3, shr7, and_7f]; omega

theorem subidEncode_group (n : Nat) : Base128 n (subidEncode (n : Int)) := by
  obtain ⟨ds, d, h1, h2, h3, h4, _⟩ := subidEncode_spec n
  rw [h1]
  conv => lhs; rw [← h4]
  exact .mk ds d h2 h3

theorem subidEncode_head (n : Nat) : (subidEncode (n : Int)).head? ≠ some 0x80 := by
  obtain ⟨ds, d, h1, h2, h3, _, h5⟩ := subidEncode_spec n
  rw [h1]
  cases ds with
  | nil => simp; omega
  | cons e es => simpa using h5

/-- Digit strings without leading zeros are determined by their value. -/
theorem digits_unique {b : Nat} (hb : 1 < b) {s t : List Nat} (hs : ∀ x ∈ s, x < b) (ht : ∀ x ∈ t, x < b)
    (hs0 : s.head? ≠ some 0) (ht0 : t.head? ≠ some 0) (h : ofDigits b s = ofDigits b t) : s = t := by
  have key : ∀ {s t : List Nat}, (∀ x ∈ s, x < b) → t.head? ≠ some 0 → ofDigits b s = ofDigits b t →
      t.length ≤ s.length := by
    intro s t hs ht0 h
    cases t with
    | nil => simp
    | cons d ds =>
      have h1 := ofDigits_ge (b := b) (s := ds) (d := d) (by simpa using ht0)
      have h2 := ofDigits_lt hs
      have h3 : b ^ ds.length < b ^ s.length := by omega
      have := (Nat.pow_lt_pow_iff_right hb).mp h3
      simp; omega
  exact ofDigits_inj hs ht (Nat.le_antisymm (key ht hs0 h.symm) (key hs ht0 h)) h

/-- A minimal group is what the encoder emits. -/
theorem group_minimal {n : Nat} {g : List Nat} (h : Base128 n g) (hm : g.head? ≠ some 0x80) :
    g = subidEncode (n : Int) := by
  cases h with
  | mk ds d hds hd =>
    obtain ⟨es, e, h1, h2, h3, h4, h5⟩ := subidEncode_spec (ofDigits 128 (ds ++ [d]))
    rw [h1]
    have hsnoc : ∀ {l : List Nat} {x : Nat}, l ≠ [] → (l ++ [x]).head? = l.head? := by
      intro l x hl
      cases l with
      | nil => exact absurd rfl hl
      | cons => simp
    -- compare the two digit strings, treating single digits separately
    by_cases hds0 : ds = []
    · subst hds0
      by_cases hes0 : es = []
      · subst hes0; simp at h4; simp [h4]
      · exfalso
        cases es with
        | nil => exact hes0 rfl
        | cons x xs =>
          have hx : x ≠ 0 := by simpa using h5
          have := ofDigits_ge (b := 128) (s := xs ++ [e]) hx
          rw [← List.cons_append, h4] at this
          simp only [List.nil_append, ofDigits_singleton, List.length_append, List.length_singleton] at this
          have h128 : 128 ^ 1 ≤ 128 ^ (xs.length + 1) := Nat.pow_le_pow_right (by decide) (by omega)
          omega
    · by_cases hes0 : es = []
      · exfalso
        subst hes0
        cases ds with
        | nil => exact hds0 rfl
        | cons x xs =>
          have hx : x ≠ 0 := by
            intro h0; subst h0; simp at hm
          have := ofDigits_ge (b := 128) (s := xs ++ [d]) hx
          rw [← List.cons_append, ← h4] at this
          simp only [List.nil_append, ofDigits_singleton, List.length_append, List.length_singleton] at this
          have h128 : 128 ^ 1 ≤ 128 ^ (xs.length + 1) := Nat.pow_le_pow_right (by decide) (by omega)
          omega
      · have : ds ++ [d] = es ++ [e] := by
          apply digits_unique (b := 128) (by decide)
          · intro x hx
            rcases List.mem_append.mp hx with hx | hx
            · exact hds x hx
            · have : x = d := by simpa using hx
              omega
          · intro x hx
            rcases List.mem_append.mp hx with hx | hx
            · exact h2 x hx
            · have : x = e := by simpa using hx
              omega
          · rw [hsnoc hds0]
            cases ds with
            | nil => simp
            | cons x xs =>
              intro h0
              have : x = 0 := by simpa using h0
              subst this; simp at hm
          · rw [hsnoc hes0]; exact h5
          · exact h4.symm
        obtain ⟨h6, h7⟩ := List.append_inj' this rfl
        rw [h6]; simp at h7; rw [h7]

theorem subidDecodeLoop_spec : ∀ (ds : List Nat) (d : Nat) (rest : Str) (val : Nat),
    (∀ x ∈ ds, x < 128) → d < 128 →
    subidDecodeLoop val (ds.map (128 + ·) ++ d :: rest) =
      .ok (val * 128 ^ (ds.length + 1) + ofDigits 128 (ds ++ [d]), rest) := by
  intro ds
  induction ds with
  | nil =>
    intro d rest val _ hd
    simp only [List.map_nil, List.nil_append, subidDecodeLoop]
    rw [and_7f, shl7_or (Nat.mod_lt _ (by decide)), and_80_low hd, if_neg (by decide)]
    simp [Nat.mod_eq_of_lt hd]
  | cons x ds ih =>
    intro d rest val hx hd
    have hx0 : x < 128 := hx x (by simp)
    simp only [List.map_cons, List.cons_append, subidDecodeLoop]
    rw [and_7f, shl7_or (Nat.mod_lt _ (by decide)), and_80_high (by omega) (by omega), if_pos rfl]
    rw [ih d rest _ (fun y hy => hx y (by simp [hy])) hd]
    have e : (128 + x) % 128 = x := by omega
    rw [e, ofDigits_cons]
    simp only [List.length_cons, List.length_append, List.length_nil, Nat.pow_succ]
    congr 2; ring

theorem subidDecodeLoop_error : ∀ (s : Str) (val : Nat), (∀ x ∈ s, 128 ≤ x ∧ x < 256) →
    subidDecodeLoop val s = .error .indexError := by
  intro s
  induction s with
  | nil => intro val _; rfl
  | cons x s ih =>
    intro val h
    have hx := h x (by simp)
    rw [subidDecodeLoop, and_80_high hx.1 hx.2, if_pos rfl]
    exact ih _ (fun y hy => h y (by simp [hy]))

theorem oidDecodeLoop_group {n : Nat} {g : List Nat} (h : Base128 n g) (rest : Str) :
    oidDecodeLoop (g ++ rest) = match oidDecodeLoop rest with
      | .error e => .error e
      | .ok ids => .ok ((n : Int) :: ids) := by
  cases h with
  | mk ds d hds hd =>
    cases ds with
    | nil =>
      simp only [List.map_nil, List.nil_append, List.singleton_append, ofDigits_singleton]
      rw [oidDecodeLoop]
      rw [and_80_low hd, if_neg (by decide)]
      cases oidDecodeLoop rest <;> rfl
    | cons x ds =>
      have hx0 : x < 128 := hds x (by simp)
      have := subidDecodeLoop_spec ds d rest ((128 + x) &&& 0x7f) (fun y hy => hds y (by simp [hy])) hd
      rw [show (List.map (fun x => 128 + x) (x :: ds) ++ [d] ++ rest) =
        (128 + x) :: (List.map (fun x => 128 + x) ds ++ d :: rest) by simp]
      rw [oidDecodeLoop]
      rw [and_80_high (by omega) (by omega), if_pos rfl]
      have e : (128 + x) &&& 0x7f = x := by rw [and_7f]; omega
      rw [e] at this
      have e2 : x * 128 ^ (ds.length + 1) + ofDigits 128 (ds ++ [d]) = ofDigits 128 (x :: ds ++ [d]) := by
        rw [List.cons_append, ofDigits_cons]; simp
      rw [e2] at this
      split
      · next h => rw [e, this] at h; cases h
      · next h =>
        rw [e, this] at h
        cases h
        cases oidDecodeLoop rest <;> rfl

theorem oidDecodeLoop_groups {ns : List Nat} {t : Str} (h : Base128List ns t) :
    oidDecodeLoop t = .ok (ints ns) := by
  induction h with
  | nil => rw [oidDecodeLoop]; rfl
  | cons hg _ ih => rw [oidDecodeLoop_group hg, ih]; rfl

/-- Every octet string splits into groups, or ends inside one. -/
theorem groups_or_open (t : Str) (h : Octets t) :
    (∃ ns, Base128List ns t) ∨ (oidDecodeLoop t = .error .indexError ∧ ∃ x, t.getLast? = some x ∧ 128 ≤ x) := by
  induction hn : t.length using Nat.strong_induction_on generalizing t with
  | _ n ih =>
    by_cases hall : ∀ x ∈ t, 128 ≤ x
    · cases t with
      | nil => exact Or.inl ⟨[], .nil⟩
      | cons b t =>
        right
        have hb := hall b (by simp)
        have hb2 : b < 256 := h b (by simp)
        constructor
        · rw [oidDecodeLoop, and_80_high hb hb2, if_pos rfl]
          have := subidDecodeLoop_error t (b &&& 0x7f) (fun x hx => ⟨hall x (by simp [hx]), h x (by simp [hx])⟩)
          split
          · next h => rw [this] at h; cases h; rfl
          · next h => rw [this] at h; cases h
        · exact ⟨(b :: t).getLast (by simp), List.getLast?_eq_some_getLast _, hall _ (List.getLast_mem _)⟩
    · -- split at the first octet below 128
      have : ∃ (ds : List Nat) (d : Nat) (rest : List Nat), t = ds.map (128 + ·) ++ d :: rest ∧
          (∀ x ∈ ds, x < 128) ∧ d < 128 := by
        clear ih hn n
        induction t with
        | nil => simp at hall
        | cons c t ih =>
          simp only [octets_cons] at h
          by_cases hc : c < 128
          · exact ⟨[], c, t, by simp, by simp, hc⟩
          · have : ¬ ∀ x ∈ t, 128 ≤ x := by
              intro h'
              apply hall
              intro x hx
              rcases List.mem_cons.mp hx with hx | hx
              · omega
              · exact h' x hx
            obtain ⟨ds, d, rest, e, h1, h2⟩ := ih h.2 this
            refine ⟨(c - 128) :: ds, d, rest, ?_, ?_, h2⟩
            · rw [e]; simp; omega
            · intro x hx
              rcases List.mem_cons.mp hx with hx0 | hx
              · omega
              · exact h1 x hx
      obtain ⟨ds, d, rest, e, h1, h2⟩ := this
      have hg : Base128 (ofDigits 128 (ds ++ [d])) (ds.map (128 + ·) ++ [d]) := .mk ds d h1 h2
      have e' : t = (ds.map (128 + ·) ++ [d]) ++ rest := by rw [e]; simp
      have hrest : Octets rest := by
        rw [e'] at h; exact (octets_append.mp h).2
      have hlen : rest.length < n := by rw [← hn, e']; simp; omega
      rcases ih rest.length hlen rest hrest rfl with ⟨ns, hns⟩ | ⟨herr, x, hx, hx2⟩
      · left; exact ⟨_ :: ns, by rw [e']; exact .cons hg hns⟩
      · right
        refine ⟨by rw [e', oidDecodeLoop_group hg, herr], x, ?_, hx2⟩
        rw [e', List.getLast?_append, hx]; simp

theorem base128_ne_nil {n : Nat} {g : List Nat} (h : Base128 n g) : g ≠ [] := by
  cases h; simp

theorem base128_octets {n : Nat} {g : List Nat} (h : Base128 n g) : Octets g := by
  cases h with
  | mk ds d hds hd =>
    rw [octets_append]
    refine ⟨?_, by simp; omega⟩
    intro b hb
    obtain ⟨x, hx, rfl⟩ := List.mem_map.mp hb
    have := hds x hx
    omega

theorem base128List_octets {ns : List Nat} {t : Str} (h : Base128List ns t) : Octets t := by
  induction h with
  | nil => simp
  | cons hg _ ih => rw [octets_append]; exact ⟨base128_octets hg, ih⟩

theorem base128List_last {ns : List Nat} {t : Str} (h : Base128List ns t) : ∀ x, t.getLast? = some x → x < 128 := by
  induction h with
  | nil => simp
  | @cons n g ns' t' hg ht ih =>
    intro x hx
    rw [List.getLast?_append] at hx
    cases hl : t'.getLast? with
    | some y => rw [hl] at hx; simp at hx; subst hx; exact ih y hl
    | none =>
      rw [hl] at hx
      cases hg with
      | mk ds d hds hd => simp at hx; omega

/-- Groups are self-delimiting. -/
theorem base128_prefix_unique {n m : Nat} {g h r r' : List Nat} (hg : Base128 n g) (hh : Base128 m h)
    (e : g ++ r = h ++ r') : g = h ∧ r = r' ∧ n = m := by
  have key : ∀ (ds es : List Nat) (d f : Nat) (r r' : List Nat), (∀ x ∈ ds, x < 128) → (∀ x ∈ es, x < 128) →
      d < 128 → f < 128 → ds.map (128 + ·) ++ d :: r = es.map (128 + ·) ++ f :: r' → ds = es ∧ d = f ∧ r = r' := by
    intro ds
    induction ds with
    | nil =>
      intro es d f r r' _ _ hd hf e
      cases es with
      | nil => simpa using e
      | cons x xs => simp at e; omega
    | cons y ys ih =>
      intro es d f r r' h1 h2 hd hf e
      cases es with
      | nil => simp at e; omega
      | cons x xs =>
        simp only [List.map_cons, List.cons_append, List.cons.injEq] at e
        obtain ⟨e1, e2, e3⟩ := ih xs d f r r' (fun z hz => h1 z (by simp [hz])) (fun z hz => h2 z (by simp [hz]))
          hd hf e.2
        exact ⟨by rw [e1]; congr 1; omega, e2, e3⟩
  cases hg with
  | mk ds d hds hd =>
    cases hh with
    | mk es f hes hf =>
      simp only [List.append_assoc, List.singleton_append] at e
      obtain ⟨e1, e2, e3⟩ := key ds es d f r r' hds hes hd hf e
      subst e1 e2 e3
      exact ⟨rfl, rfl, rfl⟩

theorem flatMap_subid_groups (ids : List Nat) :
    Base128List ids ((ints ids).flatMap subidEncode) := by
  induction ids with
  | nil => exact .nil
  | cons n ns ih => exact .cons (subidEncode_group n) ih

theorem oidEncode_nats (a b : Nat) (rest : List Nat) :
    oidEncode (some ((a : Int) :: (b : Int) :: ints rest)) =
      .ok (subidEncode ((40 * a + b : Nat) : Int) ++ (ints rest).flatMap subidEncode) := by
  unfold oidEncode
  simp only [List.flatMap_cons]
  congr 3
  push_cast; ring

theorem base128List_forall2 {ns : List Nat} {t : Str} (h : Base128List ns t) :
    ∃ gs, List.Forall₂ Base128 ns gs ∧ t = gs.flatten := by
  induction h with
  | nil => exact ⟨[], .nil, rfl⟩
  | cons hg _ ih =>
    obtain ⟨gs, h1, h2⟩ := ih
    exact ⟨_ :: gs, .cons hg h1, by simp [h2]⟩

theorem forall2_unique : ∀ {ns ms : List Nat} {gs hs : List (List Nat)}, List.Forall₂ Base128 ns gs →
    List.Forall₂ Base128 ms hs → gs.flatten = hs.flatten → gs = hs ∧ ns = ms := by
  intro ns ms gs hs h1
  induction h1 generalizing ms hs with
  | nil =>
    intro h2 e
    cases h2 with
    | nil => exact ⟨rfl, rfl⟩
    | cons hg _ =>
      exfalso
      have := base128_ne_nil hg
      simp at e
      exact this e.1
  | cons hg hgs ih =>
    intro h2 e
    cases h2 with
    | nil =>
      exfalso
      have := base128_ne_nil hg
      simp at e
      exact this e.1
    | cons hh hhs =>
      simp only [List.flatten_cons] at e
      obtain ⟨e1, e2, e3⟩ := base128_prefix_unique hg hh e
      obtain ⟨e4, e5⟩ := ih hhs e2
      rw [e1, e3, e4, e5]; exact ⟨rfl, rfl⟩

end Libsnmp
