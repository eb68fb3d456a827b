import Verif.Lemmas.SrcArith
import Verif.Lemmas.Text

/-!
# Running the constructor and the methods of ObjectIDs
-/

namespace Libsnmp.Src
open Libsnmp

variable {cfg : Cfg}

theorem intOfStr_short {s : Str} (hs : Short cfg s) (h : Heap) :
    intOfStr cfg s h = match pyInt s with | .ok n => okR (.int n) h | .error _ => raiseR "ValueError" h := by
  unfold intOfStr
  rw [if_neg (by rcases hs with h | h <;> simp [h] <;> omega)]
  cases pyInt s <;> rfl

theorem pyInt_error {s : Str} {e : Exc} (h : pyInt s = .error e) : e = .valueError := by
  unfold pyInt at h
  repeat' first | split at h | (dsimp only at h)
  all_goals first | (injection h with h; exact h.symm) | cases h

theorem split_digits (c : Nat) (f : Nat → Bool) (s : Str) : ∀ p ∈ pySplit c s, (p.filter f).length ≤ (s.filter f).length := by
  induction s with
  | nil => simp [pySplit]
  | cons d s ih =>
    rw [pySplit]
    split
    · intro p hp
      rw [List.mem_cons] at hp
      rcases hp with rfl | hp
      · simp
      · exact Nat.le_trans (ih p hp) (by rw [List.filter_cons]; split <;> simp)
    · split
      · intro p hp
        simp at hp; subst hp
        rw [List.filter_cons, List.filter_cons]; split <;> simp
      · next q qs hq =>
        rw [hq] at ih
        intro p hp
        rw [List.mem_cons] at hp
        rcases hp with rfl | hp
        · have := ih q List.mem_cons_self
          rw [List.filter_cons, List.filter_cons]; split <;> simp <;> omega
        · exact Nat.le_trans (ih p (List.mem_cons_of_mem _ hp)) (by rw [List.filter_cons]; split <;> simp)

theorem strip_digits (c : Nat) (f : Nat → Bool) (s : Str) : ((pyStrip c s).filter f).length ≤ (s.filter f).length := by
  unfold pyStrip stripBy
  have h1 := ((List.dropWhile_sublist (fun x => x == c) (l := (s.dropWhile (· == c)).reverse)).reverse).filter f
  have h2 := (List.dropWhile_sublist (fun x => x == c) (l := s)).filter f
  rw [List.reverse_reverse] at h1
  exact (h1.trans h2).length_le

theorem Short.piece {s : Str} (hs : Short cfg s) {p : Str} (hp : p ∈ pySplit 46 (pyStrip 46 s)) : Short cfg p := by
  rcases hs with h | h
  · exact .inl h
  · exact .inr (Nat.le_trans (split_digits _ _ _ p hp) (Nat.le_trans (strip_digits _ _ _) h))

/-- While the constructor runs: the new object, the pieces of the text, the numbers so far. -/
def oidHeap (h : Heap) (l : List Str) (acc : List Int) : Heap :=
  h ++ [.inst (cid .oid) [("value", .ref (h.length + 2))], .list (l.map V.str), .list (acc.map V.int)]

/-- rfc1155.py:570-576. -/
theorem run_oidLoop (h : Heap) (l pre rest : List Str) (hl : l = pre ++ rest) (hn : ∀ p ∈ rest, Short cfg p) (acc : List Int)
    (v sl s n : Option V) :
    match oidParse rest with
    | .ok ids => ∃ s' n', forL program cfg .rfc1155 [("self", some (.ref h.length)), ("value", v), ("subidlist", sl), ("subid", s),
        ("number", n)] "subid" (.list (h.length + 1) pre.length) rfc1155_570 (oidHeap h l acc) =
        some (oidHeap h l (acc ++ ids), [("self", some (.ref h.length)), ("value", v), ("subidlist", sl), ("subid", s'),
        ("number", n')], .next)
    | .error e => e = .valueError ∧ ∃ acc' env' args, forL program cfg .rfc1155 [("self", some (.ref h.length)), ("value", v),
        ("subidlist", sl), ("subid", s), ("number", n)] "subid" (.list (h.length + 1) pre.length) rfc1155_570 (oidHeap h l acc) =
        some (oidHeap h l acc', env', .exc (.exc "ValueError" args)) := by
  induction rest generalizing pre s n acc with
  | nil =>
    rw [List.append_nil] at hl
    subst hl
    simp only [oidParse]
    refine ⟨s, n, ?_⟩
    rw [forL]
    unfold oidHeap
    runs [List.getElem?_map, List.getElem?_eq_none (Nat.le_refl l.length), Option.map_none]
  | cons p ps ih =>
    have hp : (l.map V.str)[pre.length]? = some (.str p) := by simp [hl]
    have hi := intOfStr_short (hn p List.mem_cons_self)
    unfold oidParse
    cases hq : pyInt p with
    | error e =>
      cases pyInt_error hq
      refine ⟨rfl, acc, ?_⟩
      rw [forL]
      unfold oidHeap
      runs [hp, rfc1155_570, hi, hq]
      exact ⟨_, _, rfl⟩
    | ok k =>
      by_cases hk : k < 0 ∨ k > 0x7FFFFFFF
      · simp only [if_pos hk]
        refine ⟨trivial, acc, ?_⟩
        rw [forL]
        unfold oidHeap
        by_cases h0 : k < 0
        · runs [hp, rfc1155_570, hi, hq, h0]
          exact ⟨_, _, rfl⟩
        · have h1 : 2147483647 < k := by omega
          runs [hp, rfc1155_570, hi, hq, h0, h1]
          exact ⟨_, _, rfl⟩
      · simp only [if_neg hk]
        rw [not_or] at hk
        have h1 : ¬ 2147483647 < k := by omega
        have ih := ih (pre ++ [p]) (by simp [hl]) (fun q hq => hn q (List.mem_cons_of_mem _ hq)) (acc ++ [k]) (some (.str p)) (some (.int k))
        rw [List.length_append, List.length_singleton] at ih
        have hstep : ∀ X, forL program cfg .rfc1155 [("self", some (.ref h.length)), ("value", v), ("subidlist", sl), ("subid", some (.str p)), ("number", some (.int k))] "subid" (.list (h.length + 1) (pre.length + 1)) rfc1155_570 (oidHeap h l (acc ++ [k])) = X → forL program cfg .rfc1155 [("self", some (.ref h.length)), ("value", v), ("subidlist", sl), ("subid", s),
           ("number", n)] "subid" (.list (h.length + 1) pre.length) rfc1155_570 (oidHeap h l acc) = X := by
          intro X hX
          rw [forL]
          unfold oidHeap at hX ⊢
          rw [List.map_append] at hX
          runs [hp, rfc1155_570, hi, hq, hk.1, h1]
          exact hX
        cases ho : oidParse ps with
        | error e =>
          rw [ho] at ih
          obtain ⟨rfl, acc', env', args, ih⟩ := ih
          exact ⟨rfl, acc', env', args, hstep _ ih⟩
        | ok ids =>
          rw [ho] at ih
          obtain ⟨s', n', ih⟩ := ih
          refine ⟨s', n', hstep _ ?_⟩
          rw [ih]; simp

theorem rep_newOid {h : Heap} (ids : List Int) (t : List Cell) {k : Nat} (hk : t[k]? = some (.list (ids.map V.int))) :
    Rep h.length (h ++ .inst (cid .oid) [("value", .ref (h.length + (k + 1)))] :: t) (.oid (some ids)) (.ref h.length) := by
  rw [Rep]
  refine ⟨h.length, _, _, rfl, Nat.le_refl _, get_app _ _, plain _, rfl, by omega, ?_⟩
  rw [get_app_add]
  exact hk

theorem run_mkOid {lo : Nat} {h : Heap} (hb : Base h) {arg : Arg} {y : V} (r : RepArg lo h arg y)
    (hn : ∀ s, arg = .str s → Short cfg s) :
    NewOr h.length h (call program cfg (.cls (cid .oid)) [y] h) ((mkOid arg).map Val.oid) := by
  have he := isExc_cid .oid
  cases arg with
  | none =>
    cases r
    refine ⟨_, .ref h.length, ?_, Kept.app hb [.inst (cid .oid) [("value", .none)]], ?_⟩
    · rw [call_cls]
      runs [initOf, call_rfc1155_557, rfc1155_557, he]
    · rw [Rep]; exact ⟨h.length, _, rfl, Nat.le_refl _, get_app _ _, plain _, rfl⟩
  | int n =>
    cases r
    refine ⟨_, .ref h.length, ?_, Kept.app hb [.inst (cid .oid) [("value", .ref (h.length + 1))], .list [.int n]], ?_⟩
    · rw [call_cls]
      runs [initOf, call_rfc1155_557, rfc1155_557, he]
    · exact rep_newOid [n] _ (k := 0) rfl
  | bytes s => cases r
  | str s =>
    cases r
    have hl := run_oidLoop (cfg := cfg) h (pySplit 46 (pyStrip 46 s)) [] _ rfl (fun p hp => (hn s rfl).piece hp) []
      (some (.str (pyStrip 46 s))) (some (.ref (h.length + 1))) none none
    have h46 : lit "." = [46] := by decide +kernel
    unfold oidHeap at hl
    rw [call_cls]
    cases hp : oidParse (pySplit 46 (pyStrip 46 s)) with
    | ok ids =>
      rw [hp] at hl
      obtain ⟨s', n', hl⟩ := hl
      rw [List.nil_append, List.map_nil, List.length_nil] at hl
      rw [show mkOid (.str s) = .ok (some ids) by rw [mkOid, hp]]
      refine ⟨_, .ref h.length, ?_, Kept.app hb [.inst (cid .oid) [("value", .ref (h.length + 2))],
        .list ((pySplit 46 (pyStrip 46 s)).map V.str), .list (ids.map V.int)], ?_⟩
      · runs [initOf, call_rfc1155_557, rfc1155_557, he, h46, strMethod, hl]
      · exact rep_newOid ids _ (k := 1) rfl
    | error e =>
      rw [hp] at hl
      obtain ⟨rfl, acc', env', args, hl⟩ := hl
      rw [List.map_nil, List.length_nil] at hl
      rw [show mkOid (.str s) = .error .valueError by rw [mkOid, hp]]
      refine ⟨_, args, ?_, Kept.app hb [.inst (cid .oid) [("value", .ref (h.length + 2))],
        .list ((pySplit 46 (pyStrip 46 s)).map V.str), .list (acc'.map V.int)]⟩
      runs [initOf, call_rfc1155_557, rfc1155_557, he, h46, strMethod, hl, excName]
  | list l =>
    obtain ⟨b, rfl, hl⟩ := r
    have hl' := get_app_old hl [.inst (cid .oid) []]
    refine ⟨_, .ref h.length, ?_, Kept.app hb [.inst (cid .oid) [("value", .ref (h.length + 1))], .list (l.map V.int)], ?_⟩
    · rw [call_cls]
      runs [initOf, call_rfc1155_557, rfc1155_557, he, hl']
    · exact rep_newOid l _ (k := 0) rfl
  | tuple l =>
    cases r
    refine ⟨_, .ref h.length, ?_, Kept.app hb [.inst (cid .oid) [("value", .ref (h.length + 1))], .list (l.map V.int)], ?_⟩
    · rw [call_cls]
      runs [initOf, call_rfc1155_557, rfc1155_557, he]
    · exact rep_newOid l _ (k := 0) rfl
  | obj v =>
    obtain ⟨ho, r⟩ := r
    have hi := fun t => run_isInst (r.app t) .oid
    obtain ⟨a, c, attrs, rfl, ha, hp⟩ := r.obj ho
    have ha' := fun t => get_app_old ha t
    have hbad : v.isInstance .oid = false → ∃ args, call program cfg (.cls (cid .oid)) [.ref a] h =
        excR (.exc "TypeError" args) (h ++ [.inst (cid .oid) []]) := by
      intro hv
      have hi : isInst program (h ++ [.inst (cid .oid) []]) (.ref a) (.cls (.rfc1155, 550)) = some false := by
        rw [← hv]; exact hi _
      rw [call_cls]
      runs [initOf, call_rfc1155_557, rfc1155_557, he, ha', hi]
      exact ⟨_, rfl⟩
    cases v with
    | oid ids =>
      have hi1 : isInst program (h ++ [.inst (cid .oid) []]) (.ref a) (.cls (.rfc1155, 550)) = some true := hi _
      cases ids with
      | none =>
        rw [Rep] at r
        obtain ⟨a', attrs', e, hlo, ha2, hp2, hv⟩ := r
        cases e
        have ha2' := fun t => get_app_old ha2 t
        refine ⟨_, [], ?_, Kept.app hb [.inst (cid .oid) []]⟩
        rw [call_cls]
        runs [initOf, call_rfc1155_557, rfc1155_557, he, ha2', hi1, hv, excName]
      | some ids =>
        rw [Rep] at r
        obtain ⟨a', attrs', b, e, hlo, ha2, hp2, hv, hlb, hl⟩ := r
        cases e
        have ha2' := fun t => get_app_old ha2 t
        have hl' := fun t => get_app_old hl t
        refine ⟨_, .ref h.length, ?_, Kept.app hb [.inst (cid .oid) [("value", .ref (h.length + 1))], .list (ids.map V.int)], ?_⟩
        · rw [call_cls]
          runs [initOf, call_rfc1155_557, rfc1155_557, he, ha2', hi1, hv, hl']
        · exact rep_newOid ids _ (k := 0) rfl
    | none => cases ho
    | int n => cases ho
    | str n => cases ho
    | bytes n => cases ho
    | raw c n => cases ho
    | _ =>
      obtain ⟨args, hbad⟩ := hbad (by first | (rename_i c _; cases c <;> rfl) | (rename_i c; cases c <;> rfl))
      exact ⟨_, args, hbad, Kept.app hb _⟩

end Libsnmp.Src
