import Verif.Lemmas.Oid

/-! # C11 - C14: ObjectID contents -/

namespace Libsnmp
open Spec

/-- C11. For at least two non-negative sub-identifiers the encoder returns contents `c`; decoding `c` gives the same
list exactly when the second is below 40 and `40*first + second` below 128.  From 128 on the decoder raises
`NotImplementedError`; below 128 it returns a list that can differ only in the first two sub-identifiers. -/
theorem C11_oid_roundtrip_iff (a b : Nat) (rest : List Nat) :
    ∃ c, oidEncode (some ((a : Int) :: (b : Int) :: ints rest)) = .ok c ∧
      (oidDecode c = .ok ((a : Int) :: (b : Int) :: ints rest) ↔ b < 40 ∧ 40 * a + b < 128) ∧
      (128 ≤ 40 * a + b → oidDecode c = .error .notImplementedError) ∧
      (40 * a + b < 128 → oidDecode c =
        .ok (((40 * a + b) / 40 : Nat) :: ((40 * a + b) % 40 : Nat) :: ints rest)) := by
  refine ⟨_, oidEncode_nats a b rest, ?_⟩
  have hhi : 128 ≤ 40 * a + b → oidDecode (subidEncode ((40 * a + b : Nat) : Int) ++
      (ints rest).flatMap subidEncode) = .error .notImplementedError := by
    intro h
    obtain ⟨ds, d, h1, h2, h3, h4, h5⟩ := subidEncode_spec (40 * a + b)
    rw [h1]
    cases ds with
    | nil => simp at h4; omega
    | cons x xs =>
      simp only [List.map_cons, List.cons_append, oidDecode]
      rw [if_neg (by omega)]
  have hlo : 40 * a + b < 128 → oidDecode (subidEncode ((40 * a + b : Nat) : Int) ++
      (ints rest).flatMap subidEncode) =
        .ok (((40 * a + b) / 40 : Nat) :: ((40 * a + b) % 40 : Nat) :: ints rest) := by
    intro h
    have e : subidEncode ((40 * a + b : Nat) : Int) = [40 * a + b] := by
      unfold subidEncode
      rw [if_pos (by omega), land_7f]
      congr 1; omega
    rw [e, List.singleton_append, oidDecode, if_pos h, oidDecodeLoop_groups (flatMap_subid_groups rest)]
  refine ⟨?_, hhi, hlo⟩
  by_cases h : 40 * a + b < 128
  · rw [hlo h]
    constructor
    · intro he
      simp only [Except.ok.injEq, List.cons.injEq] at he
      omega
    · rintro ⟨hb, _⟩
      have e1 : (40 * a + b) / 40 = a := by omega
      have e2 : (40 * a + b) % 40 = b := by omega
      rw [e1, e2]
  · rw [hhi (by omega)]
    constructor
    · intro he; cases he
    · rintro ⟨_, h'⟩; omega

/-- sysDescr.0 = 1.3.6.1.2.1.1.1.0 and an enterprise sub-identifier of several octets. -/
example : oidEncode (some [1, 3, 6, 1, 4, 1, 2021]) = .ok [43, 6, 1, 4, 1, 0x8f, 0x65] ∧
    oidDecode [43, 6, 1, 4, 1, 0x8f, 0x65] = .ok [1, 3, 6, 1, 4, 1, 2021] := by decide +kernel
/-- 2.47 is read back as 3.7, and 2.48 cannot be read back. -/
example : oidEncode (some [2, 47]) = .ok [127] ∧ oidDecode [127] = .ok [3, 7] ∧
    oidEncode (some [2, 48]) = .ok [0x81, 0] ∧ oidDecode [0x81, 0] = .error .notImplementedError := by decide +kernel

/-- C12. Encoding raises `TypeError` exactly for an unset ObjectID, `IndexError` exactly for fewer than two
sub-identifiers, and otherwise returns octets (also when sub-identifiers are negative). -/
theorem C12_oid_encode_errors (v : Option (List Int)) :
    (oidEncode v = .error .typeError ↔ v = none) ∧
    (oidEncode v = .error .indexError ↔ ∃ l, v = some l ∧ l.length < 2) ∧
    ((∃ l, v = some l ∧ 2 ≤ l.length) ↔ ∃ c, oidEncode v = .ok c) ∧
    (∀ c, oidEncode v = .ok c → Octets c) ∧
    (∀ e, oidEncode v = .error e → e = .typeError ∨ e = .indexError) := by
  have hoct : ∀ i : Int, Octets (subidEncode i) := by
    intro i
    by_cases hi : 0 ≤ i
    · obtain ⟨n, rfl⟩ := Int.eq_ofNat_of_zero_le hi
      exact base128_octets (subidEncode_group n)
    · unfold subidEncode
      rw [if_pos (by omega), land_7f]
      simp; omega
  rcases v with _ | l
  · refine ⟨by simp [oidEncode], by simp [oidEncode], by simp [oidEncode], by simp [oidEncode], ?_⟩
    intro e h
    simp [oidEncode] at h
    exact Or.inl h.symm
  · rcases l with _ | ⟨a, _ | ⟨b, rest⟩⟩
    · refine ⟨by simp [oidEncode], by simp [oidEncode], by simp [oidEncode], by simp [oidEncode], ?_⟩
      intro e h
      simp [oidEncode] at h
      exact Or.inr h.symm
    · refine ⟨by simp [oidEncode], by simp [oidEncode], by simp [oidEncode], by simp [oidEncode], ?_⟩
      intro e h
      simp [oidEncode] at h
      exact Or.inr h.symm
    · refine ⟨by simp [oidEncode], by simp [oidEncode], by simp [oidEncode], ?_, by simp [oidEncode]⟩
      intro c hc
      unfold oidEncode at hc
      simp only [Except.ok.injEq] at hc
      rw [← hc]
      intro x hx
      obtain ⟨i, _, hi⟩ := List.mem_flatMap.mp hx
      exact hoct i x hi

example : oidEncode (some [1]) = .error .indexError ∧ oidEncode (some [-1, -3]) = .ok [85] := by decide +kernel

/-- C13. Success: on octets the decoder returns `v` exactly when the contents are an octet below 128, giving the
first two sub-identifiers, followed by base-128 groups giving the others. -/
theorem C13_oid_decode_ok (s : Str) (h : Octets s) (v : List Int) :
    oidDecode s = .ok v ↔ ∃ b t ns, s = b :: t ∧ b < 128 ∧ Base128List ns t ∧
      v = ((b / 40 : Nat) : Int) :: ((b % 40 : Nat) : Int) :: ints ns := by
  cases s with
  | nil => simp [oidDecode]
  | cons b t =>
    simp only [octets_cons] at h
    unfold oidDecode
    constructor
    · intro hv
      by_cases hb : b < 128
      · simp only [hb, if_true] at hv
        rcases groups_or_open t h.2 with ⟨ns, hns⟩ | ⟨he, _⟩
        · rw [oidDecodeLoop_groups hns] at hv
          simp only [Except.ok.injEq] at hv
          exact ⟨b, t, ns, rfl, hb, hns, hv.symm⟩
        · rw [he] at hv; cases hv
      · simp only [hb, if_false] at hv; cases hv
    · rintro ⟨b', t', ns, e, hb, hns, rfl⟩
      cases e
      simp only [hb, if_true, oidDecodeLoop_groups hns]

/-- C13. Failure: `ValueError` exactly on empty contents, `NotImplementedError` exactly when the first octet is 128 or
more, `IndexError` exactly when the last group is not terminated, and nothing else. -/
theorem C13_oid_decode_error (s : Str) (h : Octets s) (e : Exc) :
    oidDecode s = .error e ↔
      (s = [] ∧ e = .valueError) ∨ (∃ b t, s = b :: t ∧ 128 ≤ b ∧ e = .notImplementedError) ∨
      (∃ b t x, s = b :: t ∧ b < 128 ∧ t.getLast? = some x ∧ 128 ≤ x ∧ e = .indexError) := by
  cases s with
  | nil => simp [oidDecode, eq_comm]
  | cons b t =>
    simp only [octets_cons] at h
    unfold oidDecode
    by_cases hb : b < 128
    · simp only [hb, if_true]
      rcases groups_or_open t h.2 with ⟨ns, hns⟩ | ⟨he, x, hx, hx2⟩
      · rw [oidDecodeLoop_groups hns]
        constructor
        · intro h; cases h
        · rintro (⟨h, _⟩ | ⟨b', t', h, hb', _⟩ | ⟨b', t', x, h, _, hx, hx2, _⟩)
          · cases h
          · cases h; omega
          · cases h; have := base128List_last hns x hx; omega
      · rw [he]
        simp only [Except.error.injEq]
        constructor
        · rintro rfl; exact Or.inr (Or.inr ⟨b, t, x, rfl, hb, hx, hx2, rfl⟩)
        · rintro (⟨h, _⟩ | ⟨b', t', h, hb', _⟩ | ⟨_, _, _, _, _, _, _, h⟩)
          · cases h
          · cases h; omega
          · exact h.symm
    · simp only [hb, if_false, Except.error.injEq]
      constructor
      · rintro rfl; exact Or.inr (Or.inl ⟨b, t, rfl, by omega, rfl⟩)
      · rintro (⟨h, _⟩ | ⟨_, _, _, _, h⟩ | ⟨b', t', x, h, hb', _⟩)
        · cases h
        · exact h.symm
        · cases h; exact absurd hb' hb

example : Octets [43, 0x81] ∧ oidDecode [43, 0x81] = .error .indexError ∧
    oidDecode [43, 0x80, 0x01] = .ok [1, 3, 1] := by decide +kernel

/-- C14. Re-encoding a decoded ObjectID reproduces the contents exactly when every group is minimal, i.e. does not
start with `0x80`. -/
theorem C14_oid_reencode_iff (s : Str) (h : Octets s) (v : List Int) (hv : oidDecode s = .ok v) :
    oidEncode (some v) = .ok s ↔ ∃ b ns gs, s = b :: gs.flatten ∧ List.Forall₂ Base128 ns gs ∧
      ∀ g ∈ gs, g.head? ≠ some 0x80 := by
  obtain ⟨b, t, ns, rfl, hb, hns, rfl⟩ := (C13_oid_decode_ok s h v).mp hv
  have henc := oidEncode_nats (b / 40) (b % 40) ns
  have hb' : 40 * (b / 40) + b % 40 = b := by omega
  rw [hb'] at henc
  have e : subidEncode ((b : Nat) : Int) = [b] := by
    unfold subidEncode
    rw [if_pos (by omega), land_7f]
    congr 1; omega
  rw [e, List.singleton_append] at henc
  rw [henc]
  simp only [Except.ok.injEq, List.cons.injEq, true_and]
  have hmap : ∀ (ns : List Nat), (ints ns).flatMap subidEncode =
      (ns.map (fun n : Nat => subidEncode (n : Int))).flatten := by
    intro ns; induction ns with
    | nil => rfl
    | cons n ns ih => rw [ints, List.map_cons, List.flatMap_cons, ← ints, ih]; rfl
  have hforall : ∀ (ns : List Nat), List.Forall₂ Base128 ns (ns.map (fun n : Nat => subidEncode (n : Int))) := by
    intro ns; induction ns with
    | nil => exact .nil
    | cons n ns ih => exact .cons (subidEncode_group n) ih
  have key : ∀ (ns : List Nat) (gs : List (List Nat)), List.Forall₂ Base128 ns gs →
      (∀ g ∈ gs, g.head? ≠ some 0x80) → (ns.map (fun n : Nat => subidEncode (n : Int))) = gs := by
    intro ns gs hf
    induction hf with
    | nil => intro _; rfl
    | cons hg _ ih =>
      intro hmin
      rw [List.map_cons, ← group_minimal hg (hmin _ (by simp)), ih (fun g hg' => hmin g (by simp [hg']))]
  constructor
  · intro ht
    refine ⟨b, ns, ns.map (fun n : Nat => subidEncode (n : Int)), ⟨rfl, by rw [← ht, hmap]⟩, hforall ns, ?_⟩
    intro g hg
    obtain ⟨n, _, rfl⟩ := List.mem_map.mp hg
    exact subidEncode_head n
  · rintro ⟨b', ms, gs, ⟨rfl, ht⟩, hgs, hmin⟩
    obtain ⟨gs', h1, h2⟩ := base128List_forall2 hns
    obtain ⟨e1, e2⟩ := forall2_unique h1 hgs (by rw [← h2, ht])
    subst e1 e2
    rw [hmap, h2, (key ns gs' h1 hmin)]

/-- Non-minimal contents are accepted but not reproduced. -/
example : oidDecode [43, 0x80, 0x01] = .ok [1, 3, 1] ∧ oidEncode (some [1, 3, 1]) = .ok [43, 1] := by decide +kernel

end Libsnmp
