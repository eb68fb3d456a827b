import Verif.Lemmas.SrcInt
import Verif.Lemmas.Int

/-!
# Running the three other algorithms for two's complement numbers
-/

namespace Libsnmp.Src
open Libsnmp

variable {cfg : Cfg}

/-- `lambda x, y: x << 8 | y`. -/
def shlOr (env : Env) : V := .lam ["x", "y"] (.bin .bor (.bin .shl (.loc "x") (.int 8)) (.loc "y")) .rfc1155 env

theorem run_shlOr (env : Env) (x y : Int) (h : Heap) :
    call program cfg (shlOr env) [.int x, .int y] h = okR (.int (Int.lor (x <<< (8 : Nat)) y)) h := by
  rw [shlOr, call]
  runs [List.zip_cons_cons, List.zip_nil_right, List.cons_append, List.nil_append]

theorem run_reduce {h : Heap} {a : Nat} {l : List Int} (ha : h[a]? = some (.list (l.map V.int))) (env : Env) (i : Nat) (acc : Int) :
    reduce program cfg (shlOr env) (.list a i) (.int acc) h =
      okR (.int ((l.drop i).foldl (fun x y => Int.lor (x <<< (8 : Nat)) y) acc)) h := by
  by_cases hi : i < l.length
  · have hx : (l.map V.int)[i]? = some (.int l[i]) := by simp [hi]
    have : l.length - (i + 1) < l.length - i := by omega
    have ih := run_reduce ha env (i + 1) (Int.lor (acc <<< (8 : Nat)) l[i])
    have hs := run_shlOr (cfg := cfg) env acc l[i] h
    rw [reduce]
    runs [ha, hx, ↓hs]
    rw [ih, ← List.getElem_cons_drop hi]; rfl
  · have hx : (l.map V.int)[i]? = none := by simp; omega
    rw [reduce]
    runs [ha, hx]
    rw [List.drop_eq_nil_of_le (Nat.le_of_not_lt hi)]; rfl
termination_by l.length - i

theorem run_twos1 (self : V) (s : Str) (h : Heap) :
    ∃ t, call program cfg (.func .rfc1155 436) [self, .str s] h = outR (decodeTwosInteger1 s) V.int (h ++ t) := by
  rw [call_rfc1155_436]
  rcases hs : s with _ | ⟨b, r⟩ <;> rw [← hs]
  · have hx : (s.map fun c : Nat => V.int c)[0]? = none := by rw [hs]; rfl
    have hm : decodeTwosInteger1 s = .error .indexError := by rw [hs]; rfl
    refine ⟨[.list (s.map fun c : Nat => V.int c)], ?_⟩
    runs [rfc1155_436, hm, outR, excName, hx]
  · have hx : (s.map fun c : Nat => V.int c)[0]? = some (.int b) := by rw [hs]; rfl
    by_cases hb : b &&& 128 = 0
    · have hr := fun env => run_reduce (cfg := cfg) (h := h ++ [.list (s.map fun c : Nat => V.int c)]) (a := h.length)
        (l := s.map Int.ofNat) (by rw [get_app, List.map_map]; rfl) env 0 0
      have hm : decodeTwosInteger1 s = .ok ((s.map Int.ofNat).foldl (fun x y => Int.lor (x <<< (8 : Nat)) y) 0) := by
        rw [hs, decodeTwosInteger1, if_neg (by simpa using hb)]
      simp only [shlOr, List.drop_zero] at hr
      refine ⟨[.list (s.map fun c : Nat => V.int c)], ?_⟩
      runs [rfc1155_436, hm, outR, hx, hb, ↓hr]
    · have hr := fun env => run_reduce (cfg := cfg) (h := h ++ [.list (.int (-1) :: s.map fun c : Nat => V.int c)]) (a := h.length)
        (l := (-1) :: s.map Int.ofNat) (by rw [get_app, List.map_cons, List.map_map]; rfl) env 0 0
      have hm : decodeTwosInteger1 s = .ok (((-1) :: s.map Int.ofNat).foldl (fun x y => Int.lor (x <<< (8 : Nat)) y) 0) := by
        rw [hs, decodeTwosInteger1, if_pos (by simpa using hb)]
      simp only [shlOr, List.drop_zero] at hr
      refine ⟨[.list (.int (-1) :: s.map fun c : Nat => V.int c)], ?_⟩
      runs [rfc1155_436, hm, outR, hx, hb, ↓hr]

theorem run_neg2 {h : Heap} (self : V) (s : Str) (b0 : Option V) (k : Nat) (pre rest : Str) (hs : s = pre ++ rest) (hk : pre.length = k + 1)
    (nb v : Nat) (iv : Option V) :
    ∃ b1 iv', forL program cfg .rfc1155
      [("self", some self), ("stream", some (.str s)), ("val", some (.int v)), ("byte", b0), ("negbit", some (.int nb)),
       ("i", iv)] "i" (.vals (idx k rest.length)) rfc1155_463 h =
      let r := rest.foldl (fun (p : Nat × Nat) b => (p.1 <<< 8, (p.2 <<< 8) ||| b)) (nb, v)
      some (h, [("self", some self), ("stream", some (.str s)), ("val", some (.int r.2)), ("byte", b1),
        ("negbit", some (.int r.1)), ("i", iv')], .next) := by
  induction rest generalizing pre nb v iv k b0 with
  | nil =>
    rw [forL]
    runs [List.foldl_nil, List.length_nil]
    exact ⟨_, _, rfl⟩
  | cons x rest ih =>
    have hx : s[k + 1]? = some x := by rw [hs, ← hk]; simp
    obtain ⟨b1, iv', hi⟩ := ih (some (.int x)) (k + 1) (pre ++ [x]) (by rw [hs]; simp) (by simp [hk]) (nb <<< 8) ((v <<< 8) ||| x) (some (.int k))
    refine ⟨b1, iv', ?_⟩
    rw [forL, List.length_cons, idx_succ, List.foldl_cons]
    runs [rfc1155_463, hx]
    exact hi

theorem run_pos2 {h : Heap} (self : V) (s : Str) (b0 nb : Option V) (k : Nat) (pre rest : Str) (hs : s = pre ++ rest) (hk : pre.length = k + 1)
    (v : Nat) (iv : Option V) :
    ∃ b1 iv', forL program cfg .rfc1155
      [("self", some self), ("stream", some (.str s)), ("val", some (.int v)), ("byte", b0), ("negbit", nb),
       ("i", iv)] "i" (.vals (idx k rest.length)) rfc1155_473 h =
      some (h, [("self", some self), ("stream", some (.str s)), ("val", some (.int (rest.foldl (fun v b => (v <<< 8) ||| b) v : Nat))), ("byte", b1),
        ("negbit", nb), ("i", iv')], .next) := by
  induction rest generalizing pre v iv k b0 with
  | nil =>
    rw [forL]
    runs [List.foldl_nil, List.length_nil]
    exact ⟨_, _, rfl⟩
  | cons x rest ih =>
    have hx : s[k + 1]? = some x := by rw [hs, ← hk]; simp
    obtain ⟨b1, iv', hi⟩ := ih (some (.int x)) (k + 1) (pre ++ [x]) (by rw [hs]; simp) (by simp [hk]) ((v <<< 8) ||| x) (some (.int k))
    refine ⟨b1, iv', ?_⟩
    rw [forL, List.length_cons, idx_succ, List.foldl_cons]
    runs [rfc1155_473, hx]
    exact hi

theorem run_twos2 (self : V) (s : Str) (h : Heap) :
    call program cfg (.func .rfc1155 452) [self, .str s] h = outR (decodeTwosInteger2 s) V.int h := by
  rw [call_rfc1155_452]
  rcases hs : s with _ | ⟨b, r⟩ <;> rw [← hs]
  · have hx : s[0]? = none := by rw [hs]; rfl
    have hm : decodeTwosInteger2 s = .error .indexError := by rw [hs]; rfl
    runs [rfc1155_452, hm, outR, excName, hx]
  · have hx : s[0]? = some b := by rw [hs]; rfl
    have hn : s.length - 1 = r.length := by rw [hs]; rfl
    by_cases hb : b &&& 0x80 = 0x80
    · obtain ⟨b1, iv, hi⟩ := run_neg2 (cfg := cfg) (h := h) self s (some (.int b)) 0 [b] r hs rfl 0x80 (b &&& 0x7f) none
      have hm : decodeTwosInteger2 s = (let p := r.foldl (fun (p : Nat × Nat) b => (p.1 <<< 8, (p.2 <<< 8) ||| b)) (0x80, b &&& 0x7f)
        .ok ((p.2 : Int) - (p.1 : Int))) := by
        rw [hs, decodeTwosInteger2]
        simp only [List.getElem?_cons_zero, if_pos hb, List.length_cons, Nat.add_sub_cancel]
        rw [foldl_range_getElem (fun (p : Nat × Nat) x => (p.1 <<< 8, (p.2 <<< 8) ||| x)) (128, b &&& 127) b r]
      rw [hm]
      generalize List.foldl (fun (p : Nat × Nat) b => (p.1 <<< 8, (p.2 <<< 8) ||| b)) (0x80, b &&& 0x7f) r = p at *
      simp only [Nat.cast_ofNat] at hi
      runs [rfc1155_452, hx, hb, hn, hi, outR]
    · obtain ⟨b1, iv, hi⟩ := run_pos2 (cfg := cfg) (h := h) self s (some (.int b)) none 0 [b] r hs rfl b none
      have hm : decodeTwosInteger2 s = .ok ((r.foldl (fun v b => (v <<< 8) ||| b) b : Nat) : Int) := by
        rw [hs, decodeTwosInteger2]
        simp only [List.getElem?_cons_zero, if_neg hb, List.length_cons, Nat.add_sub_cancel]
        rw [foldl_range_getElem (fun v x => (v <<< 8) ||| x) b b r]
      rw [hm]
      generalize List.foldl (fun v b => (v <<< 8) ||| b) b r = p at *
      runs [rfc1155_452, hx, hb, hn, hi, outR]

theorem run_neg3 {h : Heap} {a : Nat} {l : Str} (ha : h[a]? = some (.list (l.map fun c : Nat => V.int c))) (self st : V) (k nb v : Nat)
    (iv : Option V) :
    ∃ iv', forL program cfg .rfc1155
      [("self", some self), ("stream", some st), ("val", some (.int v)), ("bytes", some (.ref a)), ("negbit", some (.int nb)),
       ("i", iv)] "i" (.list a k) rfc1155_491 h =
      let r := (l.drop k).foldl (fun (p : Nat × Nat) b => (p.1 <<< 8, (p.2 <<< 8) ||| b)) (nb, v)
      some (h, [("self", some self), ("stream", some st), ("val", some (.int r.2)), ("bytes", some (.ref a)), ("negbit", some (.int r.1)),
       ("i", iv')], .next) := by
  by_cases hi : k < l.length
  · have hx : (l.map fun c : Nat => V.int c)[k]? = some (.int (l[k] : Nat)) := by simp [hi]
    have : l.length - (k + 1) < l.length - k := by omega
    obtain ⟨iv', ih⟩ := run_neg3 ha self st (k + 1) (nb <<< 8) ((v <<< 8) ||| l[k]) (some (.int (l[k] : Nat)))
    refine ⟨iv', ?_⟩
    rw [forL, ← List.getElem_cons_drop hi, List.foldl_cons]
    runs [rfc1155_491, ha, hx]
    exact ih
  · have hx : (l.map fun c : Nat => V.int c)[k]? = none := by simp; omega
    refine ⟨iv, ?_⟩
    rw [forL, List.drop_eq_nil_of_le (Nat.le_of_not_lt hi)]
    runs [ha, hx, List.foldl_nil]
termination_by l.length - k

theorem run_pos3 {h : Heap} {a : Nat} {l : Str} (ha : h[a]? = some (.list (l.map fun c : Nat => V.int c))) (self st : V) (nb : Option V)
    (k v : Nat) (iv : Option V) :
    ∃ iv', forL program cfg .rfc1155
      [("self", some self), ("stream", some st), ("val", some (.int v)), ("bytes", some (.ref a)), ("negbit", nb),
       ("i", iv)] "i" (.list a k) rfc1155_498 h =
      some (h, [("self", some self), ("stream", some st), ("val", some (.int ((l.drop k).foldl (fun v b => (v <<< 8) ||| b) v : Nat))),
        ("bytes", some (.ref a)), ("negbit", nb), ("i", iv')], .next) := by
  by_cases hi : k < l.length
  · have hx : (l.map fun c : Nat => V.int c)[k]? = some (.int (l[k] : Nat)) := by simp [hi]
    have : l.length - (k + 1) < l.length - k := by omega
    obtain ⟨iv', ih⟩ := run_pos3 ha self st nb (k + 1) ((v <<< 8) ||| l[k]) (some (.int (l[k] : Nat)))
    refine ⟨iv', ?_⟩
    rw [forL, ← List.getElem_cons_drop hi, List.foldl_cons]
    runs [rfc1155_498, ha, hx]
    exact ih
  · have hx : (l.map fun c : Nat => V.int c)[k]? = none := by simp; omega
    refine ⟨iv, ?_⟩
    rw [forL, List.drop_eq_nil_of_le (Nat.le_of_not_lt hi)]
    runs [ha, hx, List.foldl_nil]
termination_by l.length - k

theorem run_twos3 (self : V) (s : Str) (h : Heap) :
    ∃ t, call program cfg (.func .rfc1155 480) [self, .str s] h = outR (decodeTwosInteger3 s) V.int (h ++ t) := by
  rw [call_rfc1155_480]
  rcases hs : s with _ | ⟨b, r⟩ <;> rw [← hs]
  · have hx : (s.map fun c : Nat => V.int c)[0]? = none := by rw [hs]; rfl
    have hm : decodeTwosInteger3 s = .error .indexError := by rw [hs]; rfl
    refine ⟨[.list (s.map fun c : Nat => V.int c)], ?_⟩
    runs [rfc1155_480, hm, outR, excName, hx]
  · have hx : (s.map fun c : Nat => V.int c)[0]? = some (.int b) := by rw [hs]; rfl
    by_cases hb : b &&& 128 = 0
    · obtain ⟨iv, hi⟩ := run_pos3 (cfg := cfg) (get_app h [.list (s.map fun c : Nat => V.int c)]) self (.str s) none 0 0 none
      have hm : decodeTwosInteger3 s = .ok ((s.foldl (fun v b => (v <<< 8) ||| b) 0 : Nat) : Int) := by
        rw [hs, decodeTwosInteger3, if_neg (by simpa using hb)]
      simp only [List.drop_zero, Nat.cast_zero] at hi
      refine ⟨[.list (s.map fun c : Nat => V.int c)], ?_⟩
      rw [hm]
      generalize List.foldl (fun v b => (v <<< 8) ||| b) 0 s = p at *
      runs [rfc1155_480, outR, hx, hb, hi]
    · have hset : setAt (s.map fun c : Nat => V.int c) 0 (.int ((b &&& 127 : Nat) : Int)) = some (((b &&& 127) :: r).map fun c : Nat => V.int c) := by
        rw [hs]; rfl
      obtain ⟨iv, hi⟩ := run_neg3 (cfg := cfg) (get_app h [.list (((b &&& 127) :: r).map fun c : Nat => V.int c)]) self (.str s) 0 128 0 none
      have hm : decodeTwosInteger3 s = (let p := ((b &&& 127) :: r).foldl (fun (p : Nat × Nat) b => (p.1 <<< 8, (p.2 <<< 8) ||| b)) (0x80, 0)
        .ok ((p.2 : Int) - ((p.1 >>> 8 : Nat) : Int))) := by
        rw [hs, decodeTwosInteger3, if_pos (by simpa using hb)]
      simp only [List.drop_zero, Nat.cast_zero, Nat.cast_ofNat] at hi
      refine ⟨[.list (((b &&& 127) :: r).map fun c : Nat => V.int c)], ?_⟩
      rw [hm]
      generalize List.foldl (fun (p : Nat × Nat) b => (p.1 <<< 8, (p.2 <<< 8) ||| b)) (0x80, 0) ((b &&& 127) :: r) = p at *
      generalize ((b &&& 127) :: r).map (fun c : Nat => V.int c) = l at *
      runs [rfc1155_480, outR, hx, hb, hi, hset]

end Libsnmp.Src
