import Verif.Lemmas.SrcOidOps

/-!
# Running the methods of ObjectIDs
-/

namespace Libsnmp.Src
open Libsnmp

variable {cfg : Cfg} {h : Heap} {a b : Nat} {attrs : List (String × V)} {l : List V}

theorem run_oidAppend (ha : h[a]? = some (.inst (cid .oid) attrs)) (hv : attrs.lookup "value" = some (.ref b))
    (hb : h[b]? = some (.list l)) (n : Int) :
    call program cfg (.func .rfc1155 631) [.ref a, .int n] h = okR .none (h.set b (.list (l ++ [.int n]))) := by
  rw [call_rfc1155_631]
  runs [rfc1155_631, ha, hv, hb]

theorem run_oidAppend_none (ha : h[a]? = some (.inst (cid .oid) attrs)) (hv : attrs.lookup "value" = some .none) (n : Int) :
    call program cfg (.func .rfc1155 631) [.ref a, .int n] h = excR (.exc "AttributeError" []) h := by
  rw [call_rfc1155_631]
  runs [rfc1155_631, ha, hv]

theorem run_oidAppend_bad {y t : V} (ht : typeOf h y = some t) (hc : (∃ c, t = .cls c) ∨ ∃ n, t = .builtin n ∧ n ≠ "int") :
    call program cfg (.func .rfc1155 631) [.ref a, y] h = excR (.exc "TypeError" []) h := by
  rw [call_rfc1155_631]
  rcases hc with ⟨c, rfl⟩ | ⟨n, rfl, hn⟩
  · runs [rfc1155_631, ↓ht]
  · have : (n == "int") = false := beq_eq_false_iff_ne.2 hn
    runs [rfc1155_631, ↓ht, this]

theorem run_oidExtend (ha : h[a]? = some (.inst (cid .oid) attrs)) (hp : Plain attrs) (hv : attrs.lookup "value" = some (.ref b))
    (hb : h[b]? = some (.list l)) {a' b' : Nat} {attrs' : List (String × V)} {l' : List V}
    (ha' : h[a']? = some (.inst (cid .oid) attrs')) (hv' : attrs'.lookup "value" = some (.ref b')) (hb' : h[b']? = some (.list l')) :
    call program cfg (.func .rfc1155 638) [.ref a, .ref a'] h = okR .none (h.set b (.list (l ++ l'))) := by
  have hi : isInst program h (.ref a') (.cls (cid .oid)) = some true := by
    simp only [isInst, instOf, ha', src]; rfl
  have hn := hp.none (a := "__class__")
  rw [call_rfc1155_638]
  runs [rfc1155_638, ha, hv, hb, ha', hv', hb', hn, ↓hi]

theorem run_oidExtend_none (ha : h[a]? = some (.inst (cid .oid) attrs)) (hp : Plain attrs) (hv : attrs.lookup "value" = some .none)
    {y : V} {t : Bool} (hi : isInst program h y (.cls (cid .oid)) = some t) :
    call program cfg (.func .rfc1155 638) [.ref a, y] h = excR (.exc "AttributeError" []) h := by
  have hn := hp.none (a := "__class__")
  rw [call_rfc1155_638]
  cases t <;> runs [rfc1155_638, ha, hv, hn, ↓hi]

theorem run_oidExtend_bad (ha : h[a]? = some (.inst (cid .oid) attrs)) (hp : Plain attrs) (hv : attrs.lookup "value" = some (.ref b))
    (hb : h[b]? = some (.list l)) {a' : Nat} {attrs' : List (String × V)}
    (ha' : h[a']? = some (.inst (cid .oid) attrs')) (hv' : attrs'.lookup "value" = some .none) :
    call program cfg (.func .rfc1155 638) [.ref a, .ref a'] h = excR (.exc "TypeError" []) h := by
  have hi : isInst program h (.ref a') (.cls (cid .oid)) = some true := by
    simp only [isInst, instOf, ha', src]; rfl
  have hn := hp.none (a := "__class__")
  rw [call_rfc1155_638]
  runs [rfc1155_638, ha, hv, hb, ha', hv', hn, ↓hi]

theorem run_oidExtendList (ha : h[a]? = some (.inst (cid .oid) attrs)) (hp : Plain attrs) (hv : attrs.lookup "value" = some (.ref b))
    (hb : h[b]? = some (.list l)) {b' : Nat} {l' : List V} (hb' : h[b']? = some (.list l')) :
    call program cfg (.func .rfc1155 638) [.ref a, .ref b'] h = okR .none (h.set b (.list (l ++ l'))) := by
  have hi : isInst program h (.ref b') (.cls (cid .oid)) = some false := by
    simp only [isInst, instOf, hb', src]
  have hn := hp.none (a := "__class__")
  rw [call_rfc1155_638]
  runs [rfc1155_638, ha, hv, hb, hb', hn, ↓hi]

theorem run_oidDel (ha : h[a]? = some (.inst (cid .oid) attrs)) (hv : attrs.lookup "value" = some (.ref b))
    (hb : h[b]? = some (.list l)) (i : Int) :
    call program cfg (.func .rfc1155 621) [.ref a, .int i] h = match position l.length i with
      | some k => okR .none (h.set b (.list (l.eraseIdx k)))
      | none => excR (.exc "IndexError" []) h := by
  rw [call_rfc1155_621]
  cases hk : position l.length i <;> runs [rfc1155_621, ha, hv, hb, hk]

theorem run_oidDel_none (ha : h[a]? = some (.inst (cid .oid) attrs)) (hv : attrs.lookup "value" = some .none) (y : V) :
    call program cfg (.func .rfc1155 621) [.ref a, y] h = excR (.exc "AttributeError" []) h := by
  rw [call_rfc1155_621]
  runs [rfc1155_621, ha, hv]

theorem run_oidGet (ha : h[a]? = some (.inst (cid .oid) attrs)) (hv : attrs.lookup "value" = some (.ref b))
    (hb : h[b]? = some (.list l)) (i : Int) :
    call program cfg (.func .rfc1155 614) [.ref a, .int i] h = match itemAt l i with
      | some x => okR x h
      | none => excR (.exc "IndexError" []) h := by
  rw [call_rfc1155_614]
  cases hk : itemAt l i <;> runs [rfc1155_614, isInst, ha, hv, hb, hk]

theorem run_oidGet_none (ha : h[a]? = some (.inst (cid .oid) attrs)) (hv : attrs.lookup "value" = some .none) (i : Int) :
    call program cfg (.func .rfc1155 614) [.ref a, .int i] h = excR (.exc "AttributeError" []) h := by
  rw [call_rfc1155_614]
  runs [rfc1155_614, isInst, ha, hv]

theorem run_oidSlice_none (ha : h[a]? = some (.inst (cid .oid) attrs)) (hv : attrs.lookup "value" = some .none) (i j : V) :
    call program cfg (.func .rfc1155 614) [.ref a, .slc i j] h = excR (.exc "AttributeError" []) h := by
  rw [call_rfc1155_614]
  runs [rfc1155_614, isInst, ha, hv]

/-- A new ObjectID whose list is new, too. -/
theorem run_newOidList (hb : h[b]? = some (.list l)) :
    call program cfg (.cls (cid .oid)) [.ref b] h =
      okR (.ref h.length) (h ++ [.inst (cid .oid) [("value", .ref (h.length + 1))], .list l]) := by
  have hl' := get_app_old hb [.inst (cid .oid) []]
  have he := isExc_cid .oid
  rw [call_cls]
  runs [initOf, call_rfc1155_557, rfc1155_557, he, hl']

theorem run_newOidNone : call program cfg (.cls (cid .oid)) [.none] h =
      okR (.ref h.length) (h ++ [.inst (cid .oid) [("value", .none)]]) := by
  have he := isExc_cid .oid
  rw [call_cls]
  runs [initOf, call_rfc1155_557, rfc1155_557, he]

theorem run_oidSlice (ha : h[a]? = some (.inst (cid .oid) attrs)) (hv : attrs.lookup "value" = some (.ref b))
    (hb : h[b]? = some (.list l)) {i j : V} {l' : List V} (hs : sliceL l i j = some l') :
    call program cfg (.func .rfc1155 614) [.ref a, .slc i j] h =
      okR (.ref (h.length + 1)) (h ++ [.list l', .inst (cid .oid) [("value", .ref (h.length + 2))], .list l']) := by
  have h1 := run_newOidList (cfg := cfg) (h := h ++ [.list l']) (b := h.length) (l := l') (get_app _ _)
  have h2 : call program cfg (.cls (.rfc1155, 550)) [.ref h.length] (h ++ [.list l']) = _ := h1
  rw [call_rfc1155_614]
  runs [rfc1155_614, isInst, ha, hv, hb, hs, ↓h2]

theorem run_oidCopy (ha : h[a]? = some (.inst (cid .oid) attrs)) (hv : attrs.lookup "value" = some (.ref b))
    (hb : h[b]? = some (.list l)) :
    call program cfg (.func .rfc1155 625) [.ref a] h =
      okR (.ref h.length) (h ++ [.inst (cid .oid) [("value", .ref (h.length + 1))], .list l]) := by
  have h2 : call program cfg (.cls (.rfc1155, 550)) [.ref b] h = _ := run_newOidList (cfg := cfg) hb
  rw [call_rfc1155_625]
  runs [rfc1155_625, ha, hv, ↓h2]

theorem run_oidCopy_none (ha : h[a]? = some (.inst (cid .oid) attrs)) (hv : attrs.lookup "value" = some .none) :
    call program cfg (.func .rfc1155 625) [.ref a] h = okR (.ref h.length) (h ++ [.inst (cid .oid) [("value", .none)]]) := by
  have h2 : call program cfg (.cls (.rfc1155, 550)) [.none] h = _ := run_newOidNone (cfg := cfg)
  rw [call_rfc1155_625]
  runs [rfc1155_625, ha, hv, ↓h2]

theorem run_oidToOid (ha : h[a]? = some (.inst (cid .oid) attrs)) (hv : attrs.lookup "value" = some (.ref b))
    (hb : h[b]? = some (.list l)) :
    call program cfg (.func .rfc1155 756) [.ref a] h =
      okR (.ref (h.length + 1)) (h ++ [.list l, .inst (cid .oid) [("value", .ref (h.length + 2))], .list l]) := by
  have h1 := run_newOidList (cfg := cfg) (h := h ++ [.list l]) (b := h.length) (l := l) (get_app _ _)
  have h2 : call program cfg (.cls (.rfc1155, 550)) [.ref h.length] (h ++ [.list l]) = _ := h1
  rw [call_rfc1155_756]
  runs [rfc1155_756, ha, hv, hb, ↓h2]

theorem run_oidToOid_none (ha : h[a]? = some (.inst (cid .oid) attrs)) (hv : attrs.lookup "value" = some .none) :
    call program cfg (.func .rfc1155 756) [.ref a] h = okR (.ref h.length) (h ++ [.inst (cid .oid) [("value", .none)]]) := by
  have h2 : call program cfg (.cls (.rfc1155, 550)) [.none] h = _ := run_newOidNone (cfg := cfg)
  rw [call_rfc1155_756]
  runs [rfc1155_756, ha, hv, ↓h2]

/-- `len()` of an ObjectID. -/
theorem run_lenOid {lo : Nat} {v : Option (List Int)} {x : V} (r : Rep lo h (.oid v) x) :
    len program cfg x h = okR (.int (v.getD []).length) h := by
  cases v with
  | none =>
    rw [Rep] at r
    obtain ⟨a, attrs, rfl, hlo, ha, hp, hv⟩ := r
    have hm : program.attr (cid .oid) "__len__" = some (.func .rfc1155 604) := rfl
    runs [ha, hm, call_rfc1155_604, rfc1155_604, hv]
    rfl
  | some ids =>
    rw [Rep] at r
    obtain ⟨a, attrs, b, rfl, hlo, ha, hp, hv, hlb, hb⟩ := r
    have hm : program.attr (cid .oid) "__len__" = some (.func .rfc1155 604) := rfl
    runs [ha, hm, call_rfc1155_604, rfc1155_604, hv, hb]
    rfl

/-- rfc1155.py:657-660. -/
theorem run_prefixLoop {a a' b b' : Nat} {attrs attrs' : List (String × V)} {l m : List Int}
    (ha : h[a]? = some (.inst (cid .oid) attrs)) (hv : attrs.lookup "value" = some (.ref b)) (hb : h[b]? = some (.list (l.map V.int)))
    (ha' : h[a']? = some (.inst (cid .oid) attrs')) (hv' : attrs'.lookup "value" = some (.ref b')) (hb' : h[b']? = some (.list (m.map V.int)))
    (i n : Nat) (hl : i + n ≤ l.length) (hm : i + n ≤ m.length) (it : Option V) :
    ∃ env, forL program cfg .rfc1155 [("self", some (.ref a)), ("other", some (.ref a')), ("i", it)] "i" (.vals (idx i n)) rfc1155_657 h =
      some (h, env, if prefixLoop l m i n then .next else .ret (.bool false)) := by
  induction n generalizing i it with
  | zero =>
    rw [forL]
    runs [prefixLoop]
    exact ⟨_, rfl⟩
  | succ n ih =>
    have h1 : i < l.length := by omega
    have h2 : i < m.length := by omega
    obtain ⟨env, ih⟩ := ih (i + 1) (by omega) (by omega) (some (.int i))
    have hx : idx i (n + 1) = .int i :: idx (i + 1) n := idx_succ i n
    have g1 : (l.map V.int)[i]? = some (.int l[i]) := by rw [List.getElem?_map, List.getElem?_eq_getElem h1]; rfl
    have g2 : (m.map V.int)[i]? = some (.int m[i]) := by rw [List.getElem?_map, List.getElem?_eq_getElem h2]; rfl
    rw [prefixLoop, List.getElem?_eq_getElem h1, List.getElem?_eq_getElem h2, hx]
    by_cases he : l[i] = m[i]
    · refine ⟨env, ?_⟩
      have hc : ¬ (some l[i] ≠ some m[i]) := by simp [he]
      simp only [if_neg hc]
      rw [← ih, forL]
      runs [rfc1155_657, ha, hv, hb, ha', hv', hb', g1, g2, he]
    · have hc : some l[i] ≠ some m[i] := by simp [he]
      simp only [if_pos hc]
      rw [forL]
      runs [rfc1155_657, ha, hv, hb, ha', hv', hb', g1, g2, he]
      exact ⟨_, rfl⟩

/-- `ObjectID.isPrefixOf`. -/
theorem run_isPrefixOf {lo : Nat} {v : Option (List Int)} {x : V} (r : Rep lo h (.oid v) x) {w : Val} {y : V} (s : Rep lo h w y) :
    ∃ args, call program cfg (.func .rfc1155 646) [x, y] h = match isPrefixOf v w with
      | .ok t => okR (.bool t) h
      | .error e => excR (.exc (excName e) args) h := by
  have h1 := run_lenOid (cfg := cfg) r
  obtain ⟨a, attrs, rfl, ha, hp⟩ := r.cell
  have hn := hp.none (a := "__class__")
  have hi := run_isInst s .oid
  have hty : w.isInstance .oid = true ↔ ∃ w', w = .oid w' := by
    constructor
    · cases w <;> intro hw <;> first
        | exact ⟨_, rfl⟩
        | exact (Bool.false_ne_true hw).elim
        | (rename_i c _; cases c <;> exact (Bool.false_ne_true hw).elim)
        | (rename_i c; cases c <;> exact (Bool.false_ne_true hw).elim)
    · rintro ⟨w', rfl⟩; rfl
  cases hw : w.isInstance .oid with
  | false =>
    have hm : isPrefixOf v w = .error .typeError := by
      unfold isPrefixOf
      split
      · exact absurd hw (by simp [hty])
      · rfl
    rw [hw] at hi
    have hp1 : pieces ((lit "Attempt to compare ObjectID with non-ObjectID: %s").length + 1)
      (lit "Attempt to compare ObjectID with non-ObjectID: %s") =
      some [.text (lit "Attempt to compare ObjectID with non-ObjectID: "), .conv 0 none 115] := by decide +kernel
    have c2 := s.cell
    rw [hm, call_rfc1155_646]
    cases hc : w.cls? with
    | none =>
      rw [hc] at c2
      rcases c2 with ⟨_, rfl⟩ | ⟨n, _, rfl⟩ | ⟨t, _, rfl⟩
      · runs [rfc1155_646, ha, hn, ↓hi, hp1, excName]
        exact ⟨_, rfl⟩
      · runs [rfc1155_646, ha, hn, ↓hi, hp1, excName]
        exact ⟨_, rfl⟩
      · runs [rfc1155_646, ha, hn, ↓hi, hp1, excName]
        exact ⟨_, rfl⟩
    | some c =>
      rw [hc] at c2
      obtain ⟨a', attrs', rfl, ha', hp'⟩ := c2
      have hn' := hp'.none (a := "__repr__")
      have hr : program.attr (cid c) "__repr__" = none := by all_classes c
      runs [rfc1155_646, ha, hn, ↓hi, hp1, excName, ha', hn', hr]
      exact ⟨_, rfl⟩
  | true =>
    obtain ⟨w, rfl⟩ := hty.1 hw
    rw [hw] at hi
    have h2 := run_lenOid (cfg := cfg) s
    refine ⟨[], ?_⟩
    rw [call_rfc1155_646]
    unfold isPrefixOf
    by_cases hlt : (w.getD []).length < (v.getD []).length
    · simp only [if_pos hlt]
      runs [rfc1155_646, ha, hn, ↓hi, ↓h1, ↓h2, hlt]
    · simp only [if_neg hlt]
      have hr : (List.range ((v.getD []).length : Int).toNat).map (fun i : Nat => V.int i) = idx 0 (v.getD []).length := by
        rw [idx, Int.toNat_natCast]
        apply List.map_congr_left
        intro i _
        rw [Nat.zero_add]
      cases v with
      | none =>
        have hr : (List.range (((Option.none : Option (List Int)).getD []).length : Int).toNat).map (fun i : Nat => V.int i) = [] := rfl
        have hf : ∀ env, forL program cfg .rfc1155 env "i" (.vals []) rfc1155_657 h = some (h, env, .next) := by
          intro env; rw [forL]; runs
        runs [rfc1155_646, ha, hn, ↓hi, ↓h1, ↓h2, hlt, ↓hr, ↓hf]
        rfl
      | some ids =>
        cases w with
        | none =>
          cases ids with
          | cons i is => exact absurd (by simp : (0 : Nat) < (i :: is).length) hlt
          | nil =>
            have hr : (List.range (((some [] : Option (List Int)).getD []).length : Int).toNat).map (fun i : Nat => V.int i) = [] := rfl
            have hf : ∀ env, forL program cfg .rfc1155 env "i" (.vals []) rfc1155_657 h = some (h, env, .next) := by
              intro env; rw [forL]; runs
            runs [rfc1155_646, ha, hn, ↓hi, ↓h1, ↓h2, hlt, ↓hr, ↓hf]
            rfl
        | some ids' =>
          rw [Rep] at r; rw [Rep] at s
          obtain ⟨a1, attrs1, b, e, hlo, ha1, hp1, hv, hlb, hb⟩ := r
          obtain ⟨a', attrs', b', rfl, hlo', ha', hp', hv', hlb', hb'⟩ := s
          cases e
          have hlt' : ¬ ids'.length < ids.length := hlt
          rw [ha] at ha1
          cases ha1
          obtain ⟨env, hf⟩ := run_prefixLoop (cfg := cfg) ha hv hb ha' hv' hb' 0 ids.length (by omega) (by omega) none
          simp only [Option.getD_some] at hr h1 h2 ⊢
          cases hq : prefixLoop ids ids' 0 ids.length <;> rw [hq] at hf <;>
            runs [rfc1155_646, ha, hn, ↓hi, ↓h1, ↓h2, hlt', ↓hr, ↓hf]

end Libsnmp.Src
