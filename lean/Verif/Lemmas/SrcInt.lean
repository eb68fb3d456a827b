import Verif.Lemmas.SrcBer
import Verif.Lemmas.SrcUtil
import Verif.Lemmas.Int

/-!
# Running Integer's methods
-/

namespace Libsnmp.Src
open Libsnmp

variable {cfg : Cfg}

/-! ## encodeContents -/

theorem run_encPos (h : Heap) (self : V) (n : Nat) (l : Str) :
    whileL program cfg .rfc1155
      [("self", some self), ("integer", some (.int n)), ("result", some (.ref h.length))]
      (.cmp .ne (.loc "integer") (.int 0)) rfc1155_375 (h ++ [.list (l.map fun c : Nat => .int c)]) =
      some (h ++ [.list ((intEncodePos n l).map fun c : Nat => .int c)],
        [("self", some self), ("integer", some (.int 0)), ("result", some (.ref h.length))], .next) := by
  fun_induction intEncodePos n l with
  | case1 n l h0 ih =>
    rw [whileL]
    runs [rfc1155_375, h0]
    exact ih
  | case2 n l h0 =>
    rw [whileL]
    obtain rfl : n = 0 := by omega
    runs
    rfl

theorem land_ff_cast (n : Int) : Int.land n 255 = (((Int.land n 255).toNat : Nat) : Int) := by
  have : 0 ≤ Int.land n 255 := by rw [land_ff]; omega
  omega

theorem land_ff_le (n : Int) : (Int.land n 255).toNat ≤ 255 := by
  have : Int.land n 255 = n % 256 := land_ff n
  omega

theorem run_encNeg (h : Heap) (self : V) (n : Int) (hn : n < 0) (l : Str) :
    whileL program cfg .rfc1155
      [("self", some self), ("integer", some (.int n)), ("result", some (.ref h.length))]
      (.cmp .ne (.loc "integer") (.int (-1))) rfc1155_388 (h ++ [.list (l.map fun c : Nat => .int c)]) =
      some (h ++ [.list ((intEncodeNeg n l).map fun c : Nat => .int c)],
        [("self", some self), ("integer", some (.int (-1))), ("result", some (.ref h.length))], .next) := by
  fun_induction intEncodeNeg n l with
  | case1 n l h0 ih =>
    have h1 : ¬ n = -1 := by omega
    have h2 : n >>> (8 : Nat) < 0 := by
      rw [Int.shiftRight_eq_div_pow]
      have : ((2 ^ 8 : Nat) : Int) = 256 := by decide
      rw [this]; omega
    rw [whileL]
    runs [rfc1155_388, h1]
    have := ih h2
    rw [List.map_cons, ← land_ff_cast] at this
    exact this
  | case2 n l h0 =>
    rw [whileL]
    obtain rfl : n = -1 := by omega
    runs

theorem intEncodePos_le (n : Nat) (l : Str) (hl : ∀ c ∈ l, c ≤ 255) : ∀ c ∈ intEncodePos n l, c ≤ 255 := by
  fun_induction intEncodePos n l with
  | case1 n l h0 ih =>
    apply ih
    intro c hc
    rcases List.mem_cons.1 hc with rfl | hc
    · exact Nat.and_le_right
    · exact hl c hc
  | case2 => exact hl

theorem intEncodePos_ne (n : Nat) (l : Str) (hn : l ≠ [] ∨ n ≠ 0) : intEncodePos n l ≠ [] := by
  fun_induction intEncodePos n l with
  | case1 n l h0 ih => exact ih (.inl (by simp))
  | case2 n l h0 => rcases hn with h | h
                    · exact h
                    · exact absurd h h0

theorem intEncodeNeg_le (n : Int) (l : Str) (hl : ∀ c ∈ l, c ≤ 255) : ∀ c ∈ intEncodeNeg n l, c ≤ 255 := by
  fun_induction intEncodeNeg n l with
  | case1 n l h0 ih =>
    apply ih
    intro c hc
    rcases List.mem_cons.1 hc with rfl | hc
    · exact land_ff_le n
    · exact hl c hc
  | case2 => exact hl

theorem intEncodeNeg_ne (n : Int) (l : Str) (hn : l ≠ [] ∨ n < -1) : intEncodeNeg n l ≠ [] := by
  fun_induction intEncodeNeg n l with
  | case1 n l h0 ih => exact ih (.inl (by simp))
  | case2 n l h0 => rcases hn with h | h
                    · exact h
                    · exact absurd h h0

theorem chars_of (h : Heap) (b : Nat) (l : Str) (hl : ∀ c ∈ b :: l, c ≤ 255) :
    mapAll program cfg (.builtin "chr") (.list h.length 0) [] (h ++ [.list (.int b :: l.map fun c : Nat => .int c)]) =
      okR (.str [b] :: l.map fun c => .str [c]) (h ++ [.list (.int b :: l.map fun c : Nat => .int c)]) :=
  map_chr program (l := b :: l) (h := h ++ [.list (.int b :: l.map fun c : Nat => .int c)]) (get_app h _)
    fun c hc => Nat.le_trans (hl c hc) (by decide)

theorem chars_of0 (h : Heap) (b : Nat) (l : Str) (hl : ∀ c ∈ b :: l, c ≤ 255) :
    mapAll program cfg (.builtin "chr") (.list h.length 0) []
        (h ++ [.list (.int 0 :: .int b :: l.map fun c : Nat => .int c)]) =
      okR (.str [0] :: .str [b] :: l.map fun c => .str [c])
        (h ++ [.list (.int 0 :: .int b :: l.map fun c : Nat => .int c)]) :=
  map_chr program (l := 0 :: b :: l) (h := h ++ [.list (.int 0 :: .int b :: l.map fun c : Nat => .int c)]) (get_app h _)
    fun c hc => by
      rcases List.mem_cons.1 hc with rfl | hc
      · decide
      · exact Nat.le_trans (hl c hc) (by decide)

/-- `Integer.encodeContents`. -/
theorem run_intEncode {self : V} {n : Int} {h : Heap} (hv : getattr program h self "value" = some (.int n)) :
    ∃ t, call program cfg (.func .rfc1155 360) [self] h = okR (.str (intEncode n)) (h ++ t) := by
  rw [call_rfc1155_360, intEncode]
  by_cases h0 : n = 0
  · runs [rfc1155_360, hv, h0]
    exact ⟨[], by rw [List.append_nil]; rfl⟩
  by_cases h1 : n = -1
  · runs [rfc1155_360, hv, h1]
    exact ⟨[], by rw [List.append_nil]; rfl⟩
  by_cases h2 : n > 0
  · obtain ⟨k, rfl⟩ : ∃ k : Nat, n = k := ⟨n.toNat, by omega⟩
    have hl := run_encPos (cfg := cfg) h self k []
    obtain ⟨b, l, hb⟩ := List.exists_cons_of_ne_nil (intEncodePos_ne k [] (.inr (by omega)))
    have hle := intEncodePos_le k [] (by simp)
    rw [hb] at hl hle
    simp only [List.map_nil, List.map_cons] at hl
    simp only [Int.toNat_natCast, hb, List.headD_cons]
    have hm := chars_of (cfg := cfg) h b l hle
    have hm0 := chars_of0 (cfg := cfg) h b l hle
    have h1' : ¬ (k : Int) = -1 := by omega
    have h0' : ¬ k = 0 := by omega
    have h2' : 0 < k := by omega
    by_cases h3 : b &&& 0x80 = 0
    · runs [rfc1155_360, hv, h0', h1', h2', hl, h3, hm]
      exact ⟨_, rfl⟩
    · runs [rfc1155_360, hv, h0', h1', h2', hl, h3, hm0]
      exact ⟨_, rfl⟩
  · have hl := run_encNeg (cfg := cfg) h self n (by omega) []
    obtain ⟨b, l, hb⟩ := List.exists_cons_of_ne_nil (intEncodeNeg_ne n [] (.inr (by omega)))
    have hle := intEncodeNeg_le n [] (by simp)
    rw [hb] at hl hle
    simp only [List.map_nil, List.map_cons] at hl
    simp only [hb, List.headD_cons]
    have hm := chars_of (cfg := cfg) h b l hle
    have hm0 := chars_of0 (cfg := cfg) h b l hle
    have h2' : ¬ 0 < n := by omega
    by_cases h3 : b &&& 0x80 = 0x80
    · runs [rfc1155_360, hv, h0, h1, h2, h2', hl, h3, hm]
      exact ⟨_, rfl⟩
    · runs [rfc1155_360, hv, h0, h1, h2, h2', hl, h3, hm0]
      exact ⟨_, rfl⟩

/-! ## decodeContents -/

theorem run_decNeg {h : Heap} {a : Nat} (ha : a < h.length) (c : CId) (st b : Option V) (pre rest : Str) (nb v : Nat)
    (iv : Option V) :
    ∃ iv', forL program cfg .rfc1155
      [("self", some (.ref a)), ("stream", st), ("input", some (.ref h.length)), ("byte", b), ("negbit", some (.int nb)),
       ("i", iv)] "i" (.vals (idx pre.length rest.length)) rfc1155_418
      (h.set a (.inst c [("value", .int v)]) ++ [.list ((pre ++ rest).map fun c : Nat => .int c)]) =
      let r := rest.foldl (fun (p : Nat × Nat) b => (p.1 <<< 8, (p.2 <<< 8) ||| b)) (nb, v)
      some (h.set a (.inst c [("value", .int r.2)]) ++ [.list ((pre ++ rest).map fun c : Nat => .int c)],
        [("self", some (.ref a)), ("stream", st), ("input", some (.ref h.length)), ("byte", b), ("negbit", some (.int r.1)),
         ("i", iv')], .next) := by
  induction rest generalizing pre nb v iv with
  | nil =>
    rw [forL]
    runs [List.foldl_nil]
    exact ⟨_, rfl⟩
  | cons x rest ih =>
    have hx : ((pre ++ x :: rest).map fun c : Nat => V.int c)[pre.length]? = some (.int x) := by simp
    rw [List.append_cons pre x rest] at hx ⊢
    obtain ⟨iv', hi⟩ := ih (pre ++ [x]) (nb <<< 8) ((v <<< 8) ||| x) (some (.int pre.length))
    rw [List.length_append, List.length_singleton] at hi
    refine ⟨iv', ?_⟩
    rw [forL, List.length_cons, idx_succ, List.foldl_cons]
    generalize List.map (fun c : Nat => V.int c) (pre ++ [x] ++ rest) = input at *
    runs [rfc1155_418, get_set ha, set_set_old ha, hx]
    exact hi

theorem run_decPos {h : Heap} {a : Nat} (ha : a < h.length) (c : CId) (st b nb : Option V) (pre rest : Str) (v : Nat)
    (iv : Option V) :
    ∃ iv', forL program cfg .rfc1155
      [("self", some (.ref a)), ("stream", st), ("input", some (.ref h.length)), ("byte", b), ("negbit", nb),
       ("i", iv)] "i" (.vals (idx pre.length rest.length)) rfc1155_427
      (h.set a (.inst c [("value", .int v)]) ++ [.list ((pre ++ rest).map fun c : Nat => .int c)]) =
      some (h.set a (.inst c [("value", .int (rest.foldl (fun v b => (v <<< 8) ||| b) v : Nat))]) ++
          [.list ((pre ++ rest).map fun c : Nat => .int c)],
        [("self", some (.ref a)), ("stream", st), ("input", some (.ref h.length)), ("byte", b), ("negbit", nb),
         ("i", iv')], .next) := by
  induction rest generalizing pre v iv with
  | nil =>
    rw [forL]
    runs [List.foldl_nil]
    exact ⟨_, rfl⟩
  | cons x rest ih =>
    have hx : ((pre ++ x :: rest).map fun c : Nat => V.int c)[pre.length]? = some (.int x) := by simp
    rw [List.append_cons pre x rest] at hx ⊢
    obtain ⟨iv', hi⟩ := ih (pre ++ [x]) ((v <<< 8) ||| x) (some (.int pre.length))
    rw [List.length_append, List.length_singleton] at hi
    refine ⟨iv', ?_⟩
    rw [forL, List.length_cons, idx_succ, List.foldl_cons]
    generalize List.map (fun c : Nat => V.int c) (pre ++ [x] ++ rest) = input at *
    runs [rfc1155_427, get_set ha, set_set_old ha, hx]
    exact hi

/-- What `Integer.decodeContents` leaves: the value at `self`, and the list of octets. -/
theorem run_intDecode {h : Heap} {a : Nat} {c : CId} {v0 : List (String × V)} (ha : h[a]? = some (.inst c v0))
    (hv : v0 = [] ∨ ∃ x, v0 = [("value", x)]) (s : Str) :
    call program cfg (.func .rfc1155 401) [.ref a, .str s] h =
      match intDecode s with
      | .error e => excR (.exc (excName e) [])
          (h.set a (.inst c [("value", .int 0)]) ++ [.list (s.map fun c : Nat => .int c)])
      | .ok v => if cfg.debug && tooLong cfg.digits v then
            excR (.exc "ValueError" []) (h.set a (.inst c [("value", .int v)]) ++ [.list (s.map fun c : Nat => .int c)])
          else okR (.ref a) (h.set a (.inst c [("value", .int v)]) ++ [.list (s.map fun c : Nat => .int c)]) := by
  have hl := lt_of_get ha
  rw [call_rfc1155_401]
  rcases hs : s with _ | ⟨b, r⟩ <;> rw [← hs]
  · have hx : (s.map fun c : Nat => V.int c)[0]? = none := by rw [hs]; rfl
    have hm : intDecode s = .error .indexError := by rw [hs]; rfl
    rw [hm]
    rcases hv with rfl | ⟨x, rfl⟩ <;> cases hd : cfg.debug <;>
    · runs [rfc1155_401, hd, run_octetsToHex, get_app_old ha, set_old hl, hx, excName, ↓convStr, padLeft_zero]
  · have hx : (s.map fun c : Nat => V.int c)[0]? = some (.int b) := by rw [hs]; rfl
    have hn : s.length - 1 = r.length := by rw [hs]; rfl
    by_cases hb : b &&& 0x80 = 0x80
    · obtain ⟨iv, hi⟩ := run_decNeg (cfg := cfg) hl c (some (.str s)) (some (.int b)) [b] r 0x80 (b &&& 0x7f) none
      rw [List.singleton_append, ← hs] at hi
      have hm : intDecode s = (let p := r.foldl (fun (p : Nat × Nat) b => (p.1 <<< 8, (p.2 <<< 8) ||| b)) (0x80, b &&& 0x7f)
        .ok ((p.2 : Int) - (p.1 : Int))) := by rw [hs, intDecode, if_pos hb]
      rw [hm]
      generalize List.foldl (fun (p : Nat × Nat) b => (p.1 <<< 8, (p.2 <<< 8) ||| b)) (0x80, b &&& 0x7f) r = p at *
      simp only [List.length_singleton, Nat.cast_ofNat] at hi
      rcases hv with rfl | ⟨x, rfl⟩ <;> cases hd : cfg.debug <;> cases ht : tooLong cfg.digits ((p.2 : Int) - (p.1 : Int)) <;>
      · runs [rfc1155_401, hd, run_octetsToHex, get_app_old ha, set_old hl, get_set hl, set_set_old hl, hx, hb, hn, hi, ht,
          Bool.false_and, Bool.true_and, Bool.and_false]
    · obtain ⟨iv, hi⟩ := run_decPos (cfg := cfg) hl c (some (.str s)) (some (.int b)) none [b] r b none
      rw [List.singleton_append, ← hs] at hi
      have hm : intDecode s = .ok ((r.foldl (fun v b => (v <<< 8) ||| b) b : Nat) : Int) := by
        rw [hs, intDecode, if_neg hb]
      rw [hm]
      generalize List.foldl (fun v b => (v <<< 8) ||| b) b r = p at *
      simp only [List.length_singleton] at hi
      rcases hv with rfl | ⟨x, rfl⟩ <;> cases hd : cfg.debug <;> cases ht : tooLong cfg.digits (p : Int) <;>
      · runs [rfc1155_401, hd, run_octetsToHex, get_app_old ha, set_old hl, get_set hl, set_set_old hl, hx, hb, hn, hi, ht,
          Bool.false_and, Bool.true_and, Bool.and_false]

end Libsnmp.Src
