import Verif.Lemmas.SrcInt
import Verif.Lemmas.SrcCls

/-!
# Running ObjectID's methods
-/

namespace Libsnmp.Src
open Libsnmp

variable {cfg : Cfg}

/-! ## encodeContents -/

theorem or128_le (n : Nat) : 0x80 ||| (n &&& 0x7f) ≤ 0x10FFFF := by
  have h1 : n &&& 0x7f < 2 ^ 7 := Nat.lt_of_le_of_lt Nat.and_le_right (by decide)
  have := Nat.or_lt_two_pow (x := 0x80) (n := 8) (by decide) (Nat.lt_of_lt_of_le h1 (by decide))
  omega

theorem run_subidLoop (h : Heap) (t : Cell) (self s1 : Option V) (pre : List V) (n : Nat) (acc : Str) :
    whileL program cfg .rfc1155
      [("self", self), ("result", some (.ref h.length)), ("idlist", some (.ref (h.length + 1))), ("subid1", s1),
       ("subid", some (.int n)), ("position", some (.int pre.length))]
      (.cmp .gt (.loc "subid") (.int 0)) rfc1155_685 (h ++ [.list (pre ++ acc.map fun c => .str [c]), t]) =
      some (h ++ [.list (pre ++ (subidLoop n acc).map fun c => .str [c]), t],
        [("self", self), ("result", some (.ref h.length)), ("idlist", some (.ref (h.length + 1))), ("subid1", s1),
         ("subid", some (.int 0)), ("position", some (.int pre.length))], .next) := by
  fun_induction subidLoop n acc with
  | case1 n acc h0 ih =>
    rw [whileL]
    have h0' : 0 < n := h0
    runs [rfc1155_685, h0', chr_small (or128_le n), insert_nat]
    exact ih
  | case2 n acc h0 =>
    obtain rfl : n = 0 := by omega
    rw [whileL]
    runs
    rfl

theorem land_7f_cast (n : Int) : Int.land n 127 = (((Int.land n 127).toNat : Nat) : Int) := by
  have : Int.land n 127 = n % 128 := land_7f n
  omega

theorem land_7f_le (n : Int) : (Int.land n 127).toNat ≤ 0x10FFFF := by
  have : Int.land n 127 = n % 128 := land_7f n
  omega

theorem chr_land7f (n : Int) (h : Heap) : pyChrV (.int (Int.land n 127)) h = okR (.str [(Int.land n 127).toNat]) h := by
  rw [land_7f_cast n, chr_small (land_7f_le n), Int.toNat_natCast]

theorem run_subids (h : Heap) (self s1 : Option V) (l : List Int) (i : Nat) (res : Str) (sv pv : Option V) :
    ∃ sv' pv', forL program cfg .rfc1155
      [("self", self), ("result", some (.ref h.length)), ("idlist", some (.ref (h.length + 1))), ("subid1", s1),
       ("subid", sv), ("position", pv)] "subid" (.list (h.length + 1) i) rfc1155_677
      (h ++ [.list (res.map fun c => .str [c]), .list (l.map V.int)]) =
      some (h ++ [.list ((res ++ (l.drop i).flatMap subidEncode).map fun c => .str [c]), .list (l.map V.int)],
        [("self", self), ("result", some (.ref h.length)), ("idlist", some (.ref (h.length + 1))), ("subid1", s1),
         ("subid", sv'), ("position", pv')], .next) := by
  by_cases hi : i < l.length
  · have : l.length - (i + 1) < l.length - i := by omega
    have hx : (l.map V.int)[i]? = some (.int l[i]) := by simp [hi]
    rw [← List.getElem_cons_drop hi, List.flatMap_cons]
    by_cases hs : l[i] < 128
    · obtain ⟨sv', pv', hr⟩ := run_subids h self s1 l (i + 1) (res ++ subidEncode l[i]) (some (.int l[i])) pv
      refine ⟨sv', pv', ?_⟩
      rw [← List.append_assoc, ← hr, forL]
      rw [subidEncode, if_pos hs]
      generalize List.map V.int l = ids at *
      runs [rfc1155_677, hx, hs, chr_land7f]
      rw [List.map_append]
      rfl
    · obtain ⟨n, hn⟩ : ∃ n : Nat, l[i] = n := ⟨l[i].toNat, by omega⟩
      obtain ⟨sv', pv', hr⟩ := run_subids h self s1 l (i + 1) (res ++ subidEncode l[i]) (some (.int 0))
        (some (.int res.length))
      refine ⟨sv', pv', ?_⟩
      have hw := run_subidLoop (cfg := cfg) h (.list (l.map V.int)) self s1 (res.map fun c => .str [c]) (n >>> 7) [n &&& 0x7f]
      rw [← List.append_assoc, ← hr, forL]
      rw [subidEncode, if_neg hs]
      rw [hn] at hx hs ⊢
      generalize List.map V.int l = ids at *
      have hs' : ¬ n < 128 := by omega
      rw [List.length_map] at hw
      simp only [List.map_cons, List.map_nil] at hw
      runs [rfc1155_677, hx, hs', hw]
      rw [List.map_append]
      rfl
  · refine ⟨sv, pv, ?_⟩
    have hx : (l.map V.int)[i]? = none := by simp; omega
    rw [List.drop_eq_nil_of_le (by omega), List.flatMap_nil, List.append_nil, forL]
    generalize List.map V.int l = ids at *
    runs [hx]
termination_by l.length - i

/-- `ObjectID.encodeContents`. -/
theorem run_oidEncode {self x : V} {v : Option (List Int)} {h : Heap} (hv : getattr program h self "value" = some x)
    (hx : match v with | none => x = .none | some l => ∃ b, x = .ref b ∧ h[b]? = some (.list (l.map V.int))) :
    ∃ t, call program cfg (.func .rfc1155 663) [self] h = outR (oidEncode v) V.str (h ++ t) := by
  rw [call_rfc1155_663]
  have hva : ∀ t, getattr program (h ++ t) self "value" = some x := getattr_app hv
  cases v with
  | none =>
    subst hx
    refine ⟨[.list []], ?_⟩
    runs [rfc1155_663, hva, oidEncode, outR, excName]
  | some l =>
    obtain ⟨b, rfl, hb⟩ := hx
    rcases l with _ | ⟨p, _ | ⟨q, r⟩⟩
    · refine ⟨[.list [], .list []], ?_⟩
      runs [rfc1155_663, hva, get_app_old hb, oidEncode, outR, excName, List.reverse_nil, List.getLast?_nil]
    · refine ⟨[.list [], .list []], ?_⟩
      runs [rfc1155_663, hva, get_app_old hb, oidEncode, outR, excName, List.reverse_cons, List.reverse_nil,
        List.getLast?_singleton, List.dropLast_singleton, List.getLast?_nil]
    · obtain ⟨sv, pv, hf⟩ := run_subids (cfg := cfg) h (some self) (some (.int (p * 40 + q))) ((p * 40 + q) :: r) 0 [] none none
      refine ⟨[.list ((((p * 40 + q) :: r).flatMap subidEncode).map fun c => .str [c]), .list (((p * 40 + q) :: r).map V.int)], ?_⟩
      simp only [List.map_nil, List.drop_zero, List.nil_append, List.map_cons] at hf
      have hr1 : (((r.map V.int).reverse ++ [V.int q]) ++ [V.int p]).getLast? = some (.int p) := List.getLast?_concat
      have hr2 : (((r.map V.int).reverse ++ [V.int q]) ++ [V.int p]).dropLast = (r.map V.int).reverse ++ [V.int q] :=
        List.dropLast_concat
      simp only [List.append_assoc, List.cons_append, List.nil_append] at hr1 hr2
      runs [rfc1155_663, hva, get_app_old hb, oidEncode, outR, excName, List.reverse_cons, List.getLast?_concat,
        List.dropLast_concat, hr1, hr2, hf, List.reverse_reverse]

/-! ## decodeContents -/

/-- The octets of a text. -/
abbrev codes (s : Str) : List V := s.map fun c : Nat => V.int c

/-- The local names of `ObjectID.decodeContents`. -/
abbrev oidEnv (a : Nat) (st : Option V) (bytes n : Nat) (subid val : Option V) : Env :=
  [("self", some (.ref a)), ("stream", st), ("bytes", some (.ref bytes)), ("n", some (.int n)), ("subid", subid), ("val", val)]

theorem run_subidDec (g : Heap) (a : Nat) (st : Option V) (b : Nat) (pre rest : Str) (hb : g[b]? = some (.list (codes (pre ++ rest))))
    (subid : Nat) (hs : subid &&& 0x80 = 0x80) (val : Nat) :
    match subidDecodeLoop val rest with
    | .error e => ∃ env, whileL program cfg .rfc1155 (oidEnv a st b pre.length (some (.int subid)) (some (.int val)))
        (.cmp .eq (.bin .band (.loc "subid") (.int 128)) (.int 128)) rfc1155_743 g =
          some (g, env, .exc (.exc (excName e) []))
    | .ok (v, r) => ∃ pre' subid', pre ++ rest = pre' ++ r ∧
        whileL program cfg .rfc1155 (oidEnv a st b pre.length (some (.int subid)) (some (.int val)))
        (.cmp .eq (.bin .band (.loc "subid") (.int 128)) (.int 128)) rfc1155_743 g =
          some (g, oidEnv a st b pre'.length subid' (some (.int v)), .next) := by
  induction rest generalizing pre subid val with
  | nil =>
    have hx : (codes (pre ++ []))[pre.length]? = none := by simp [codes]
    simp only [subidDecodeLoop]
    refine ⟨oidEnv a st b pre.length (some (.int subid)) (some (.int val)), ?_⟩
    rw [whileL]
    generalize codes (pre ++ []) = input at *
    runs [rfc1155_743, hs, hb, hx, oidEnv, excName]
  | cons x rest ih =>
    have hx : (codes (pre ++ x :: rest))[pre.length]? = some (.int x) := by simp [codes]
    rw [List.append_cons pre x rest] at hb hx ⊢
    rw [subidDecodeLoop]
    by_cases h8 : x &&& 0x80 = 0x80
    · have hi := ih (pre ++ [x]) hb x h8 ((val <<< 7) ||| (x &&& 0x7f))
      simp only [h8, if_true]
      rw [List.length_append, List.length_singleton] at hi
      generalize codes (pre ++ [x] ++ rest) = input at *
      split at hi
      · obtain ⟨env, hi⟩ := hi
        refine ⟨env, ?_⟩
        rw [whileL]
        runs [rfc1155_743, hs, hb, hx, oidEnv]
        exact hi
      · obtain ⟨pre', subid', he, hi⟩ := hi
        refine ⟨pre', subid', he, ?_⟩
        rw [whileL]
        runs [rfc1155_743, hs, hb, hx, oidEnv]
        exact hi
    · simp only [h8, if_false]
      refine ⟨pre ++ [x], some (.int x), rfl, ?_⟩
      rw [List.length_append, List.length_singleton]
      generalize codes (pre ++ [x] ++ rest) = input at *
      rw [whileL]
      runs [rfc1155_743, hs, hb, hx, oidEnv]
      rw [whileL]
      runs [h8]

theorem run_oidDecLoop {h : Heap} {a : Nat} (ha : a < h.length) (c : CId) (st : Option V) (pre rest : Str) (l : List Int)
    (sv vv : Option V) :
    match oidDecodeLoop rest with
    | .error e => ∃ env l', whileL program cfg .rfc1155 (oidEnv a st (h.length + 1) pre.length sv vv)
        (.cmp .lt (.loc "n") (.call (.glob "len") [.loc "bytes"])) rfc1155_733
        (h.set a (.inst c [("value", .ref h.length)]) ++ [.list (l.map V.int), .list (codes (pre ++ rest))]) =
          some (h.set a (.inst c [("value", .ref h.length)]) ++ [.list l', .list (codes (pre ++ rest))], env,
            .exc (.exc (excName e) []))
    | .ok ids => ∃ env, env.get "self" = some (.ref a) ∧
        whileL program cfg .rfc1155 (oidEnv a st (h.length + 1) pre.length sv vv)
        (.cmp .lt (.loc "n") (.call (.glob "len") [.loc "bytes"])) rfc1155_733
        (h.set a (.inst c [("value", .ref h.length)]) ++ [.list (l.map V.int), .list (codes (pre ++ rest))]) =
          some (h.set a (.inst c [("value", .ref h.length)]) ++ [.list ((l ++ ids).map V.int), .list (codes (pre ++ rest))], env,
            .next) := by
  rcases rest with _ | ⟨x, rest⟩
  · rw [oidDecodeLoop]
    refine ⟨oidEnv a st (h.length + 1) pre.length sv vv, rfl, ?_⟩
    have hl : (codes (pre ++ [])).length = pre.length := by simp [codes]
    rw [whileL]
    generalize codes (pre ++ []) = input at *
    runs [hl, oidEnv, Nat.lt_irrefl]
  · have hx : (codes (pre ++ x :: rest))[pre.length]? = some (.int x) := by simp [codes]
    have hl : pre.length < (codes (pre ++ x :: rest)).length := by simp [codes]
    rw [List.append_cons pre x rest] at hx hl ⊢
    by_cases h8 : x &&& 0x80 = 0x80
    · have hi := run_subidDec (cfg := cfg) (h.set a (.inst c [("value", .ref h.length)]) ++
        [.list (l.map V.int), .list (codes (pre ++ [x] ++ rest))]) a st (h.length + 1) (pre ++ [x]) rest
        (by rw [get_set_add]; rfl) x h8 (x &&& 0x7f)
      rw [List.length_append, List.length_singleton] at hi
      cases hd : subidDecodeLoop (x &&& 0x7f) rest with
      | error e =>
        have hm : oidDecodeLoop (x :: rest) = .error e := by
          rw [oidDecodeLoop, if_pos h8]; split <;> simp_all
        rw [hd] at hi
        rw [hm]
        obtain ⟨env, hi⟩ := hi
        refine ⟨env, l.map V.int, ?_⟩
        rw [whileL]
        generalize codes (pre ++ [x] ++ rest) = input at *
        runs [rfc1155_733, hl, hx, h8, oidEnv, hi]
      | ok p =>
        obtain ⟨v, r⟩ := p
        have hlt := subidDecodeLoop_length hd
        have hm : oidDecodeLoop (x :: rest) = match oidDecodeLoop r with
          | .error e => .error e
          | .ok ids => .ok ((v : Int) :: ids) := by
          rw [oidDecodeLoop, if_pos h8]
          split
          · simp_all
          · rename_i v' r' hd'
            rw [hd] at hd'
            cases hd'
            cases oidDecodeLoop r <;> rfl
        rw [hd] at hi
        rw [hm]
        obtain ⟨pre', subid', he, hi⟩ := hi
        rw [he] at hi hx hl ⊢
        have hk := run_oidDecLoop ha c st pre' r (l ++ [(v : Int)]) subid' (some (.int v))
        cases hr : oidDecodeLoop r with
        | error e =>
          rw [hr] at hk
          obtain ⟨env, l', hk⟩ := hk
          refine ⟨env, l', ?_⟩
          rw [whileL]
          rw [List.map_append] at hk
          generalize codes (pre' ++ r) = input at *
          runs [rfc1155_733, hl, hx, h8, oidEnv, hi, get_set ha]
          exact hk
        | ok ids =>
          rw [hr] at hk
          obtain ⟨env, hself, hk⟩ := hk
          refine ⟨env, hself, ?_⟩
          rw [show l ++ [(v : Int)] ++ ids = l ++ (v : Int) :: ids by simp] at hk
          rw [whileL]
          rw [List.map_append] at hk
          generalize codes (pre' ++ r) = input at *
          runs [rfc1155_733, hl, hx, h8, oidEnv, hi, get_set ha]
          exact hk
    · have hm : oidDecodeLoop (x :: rest) = match oidDecodeLoop rest with
        | .error e => .error e
        | .ok ids => .ok ((x : Int) :: ids) := by
        rw [oidDecodeLoop, if_neg h8]
        cases oidDecodeLoop rest <;> rfl
      rw [hm]
      have hk := run_oidDecLoop ha c st (pre ++ [x]) rest (l ++ [(x : Int)]) (some (.int x)) vv
      rw [List.length_append, List.length_singleton] at hk
      cases hr : oidDecodeLoop rest with
      | error e =>
        rw [hr] at hk
        obtain ⟨env, l', hk⟩ := hk
        refine ⟨env, l', ?_⟩
        rw [whileL]
        rw [List.map_append] at hk
        generalize codes (pre ++ [x] ++ rest) = input at *
        runs [rfc1155_733, hl, hx, h8, oidEnv, get_set ha]
        exact hk
      | ok ids =>
        rw [hr] at hk
        obtain ⟨env, hself, hk⟩ := hk
        refine ⟨env, hself, ?_⟩
        rw [show l ++ [(x : Int)] ++ ids = l ++ (x : Int) :: ids by simp] at hk
        rw [whileL]
        rw [List.map_append] at hk
        generalize codes (pre ++ [x] ++ rest) = input at *
        runs [rfc1155_733, hl, hx, h8, oidEnv, get_set ha]
        exact hk
termination_by rest.length
decreasing_by
  all_goals simp; try omega

/-- `ObjectID.decodeContents`. -/
theorem run_oidDecode {h : Heap} {a : Nat} {v0 : List (String × V)} (ha : h[a]? = some (.inst (cid .oid) v0))
    (hv : v0 = [] ∨ ∃ x, v0 = [("value", x)]) (s : Str) :
    match oidDecode s with
    | .error e => ∃ args l, call program cfg (.func .rfc1155 696) [.ref a, .str s] h = excR (.exc (excName e) args)
        (h.set a (.inst (cid .oid) [("value", .ref h.length)]) ++ [.list l, .list (codes s)])
    | .ok ids => call program cfg (.func .rfc1155 696) [.ref a, .str s] h = okR (.ref a)
        (h.set a (.inst (cid .oid) [("value", .ref h.length)]) ++ [.list (ids.map V.int), .list (codes s)]) := by
  have hl := lt_of_get ha
  have hn : (program.classes (cid .oid)).map (fun k => V.str (lit k.name)) = some (.str (lit "ObjectID")) := rfl
  have hpc : pieces ((lit "stream of zero length in %s").length + 1) (lit "stream of zero length in %s") =
      some [.text (lit "stream of zero length in "), .conv 0 none 115] := by decide +kernel
  rw [call_rfc1155_696]
  rcases hs : s with _ | ⟨b, r⟩
  · rw [oidDecode]
    refine ⟨[.str (lit "stream of zero length in " ++ lit "ObjectID")], [], ?_⟩
    rw [← hs]
    have hz : s.length = 0 := by rw [hs]; rfl
    rcases hv with rfl | ⟨x, rfl⟩ <;>
    · runs [rfc1155_696, get_app_old ha, set_old hl, get_set hl, set_set_old hl, excName, hpc, codes, hn, hz, ↓convStr, padLeft_zero]
  · by_cases hb : b < 128
    · have hk := run_oidDecLoop (cfg := cfg) hl (cid .oid) (some (.str s)) [b] r [((b / 40 : Nat) : Int), ((b % 40 : Nat) : Int)] none none
      have hq : Int.tdiv (b : Int) 40 = ((b / 40 : Nat) : Int) := rfl
      have hm : Int.fmod (b : Int) 40 = ((b % 40 : Nat) : Int) := by
        rw [Int.fmod_eq_emod_of_nonneg _ (by decide)]; rfl
      have h1 : (b : Int).natAbs < 2 ^ 31 ∧ (40 : Int).natAbs < 2 ^ 10 := by
        rw [Int.natAbs_natCast]; exact ⟨by omega, by decide⟩
      rw [List.singleton_append, ← hs] at hk
      have hx : (codes s)[0]? = some (.int b) := by rw [hs]; rfl
      have hz : ¬ s.length = 0 := by rw [hs]; simp
      rw [← hs]
      simp only [List.map_cons, List.map_nil, List.length_singleton, codes, oidEnv, Nat.cast_one] at hk hx
      cases hr : oidDecodeLoop r with
      | error e =>
        have hd : oidDecode s = .error e := by rw [hs, oidDecode, if_pos hb, hr]
        rw [hr] at hk
        obtain ⟨env, l', hk⟩ := hk
        rw [hd]
        refine ⟨[], l', ?_⟩
        rcases hv with rfl | ⟨x, rfl⟩ <;>
        · runs [rfc1155_696, get_app_old ha, set_old hl, get_set hl, set_set_old hl, hx, hz, hb, hq, hm, h1, hk, codes]
      | ok ids =>
        have hd : oidDecode s = .ok (((b / 40 : Nat) : Int) :: ((b % 40 : Nat) : Int) :: ids) := by
          rw [hs, oidDecode, if_pos hb, hr]
        rw [hr] at hk
        obtain ⟨env, hself, hk⟩ := hk
        rw [hd]
        rcases hv with rfl | ⟨x, rfl⟩ <;>
        · runs [rfc1155_696, get_app_old ha, set_old hl, get_set hl, set_set_old hl, hx, hz, hb, hq, hm, h1, hk, codes, hself]
    · rw [oidDecode, if_neg hb]
      refine ⟨[.str (lit "First octet is > 128! Unsupported oid detected")], [], ?_⟩
      rw [← hs]
      have hx : (codes s)[0]? = some (.int b) := by rw [hs]; rfl
      have hz : ¬ s.length = 0 := by rw [hs]; simp
      simp only [codes] at hx
      rcases hv with rfl | ⟨x, rfl⟩ <;>
      · runs [rfc1155_696, get_app_old ha, set_old hl, get_set hl, set_set_old hl, hx, hz, hb, codes, excName]

end Libsnmp.Src
