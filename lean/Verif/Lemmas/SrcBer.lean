import Verif.Lemmas.SrcBase

/-!
# Running the octet-level functions of rfc1155.py
-/

namespace Libsnmp.Src
open Libsnmp

variable {cfg : Cfg}

/-! ## decodeTag -/

theorem run_tagLoop (h : Heap) (self : V) (s : Str) (tag n : Nat) (b : Option V) :
    ∃ b' env', whileL program cfg .rfc1155
      [("self", some self), ("stream", some (.str s)), ("tag", some (.int tag)), ("n", some (.int n)), ("byte", b)]
      (.int 1) rfc1155_114 h = match decodeTagLoop s tag n with
        | .ok (t, m) => some (h, [("self", some self), ("stream", some (.str s)), ("tag", some (.int t)),
            ("n", some (.int m)), ("byte", b')], .next)
        | .error e => some (h, env', .exc (.exc (excName e) [])) := by
  fun_induction decodeTagLoop s tag n generalizing b with
  | case1 tag n hs =>
    rw [whileL]
    runs [rfc1155_114, hs]
    exact ⟨none, _, rfl⟩
  | case2 tag n c hs tag' h0 =>
    rw [whileL]
    runs [rfc1155_114, hs, h0, tag']
    exact ⟨_, [], rfl⟩
  | case3 tag n c hs tag' h0 ih =>
    rw [whileL]
    runs [rfc1155_114, hs, h0]
    exact ih _

theorem run_decodeTag (self : V) (s : Str) (h : Heap) :
    call program cfg (.func .rfc1155 99) [self, .str s] h =
      outR (decodeTag s) (fun r => .tuple [.int r.1, .str r.2]) h := by
  rw [call_rfc1155_99, decodeTag]
  unfold outR
  cases hs : s[0]? with
  | none => runs [rfc1155_99, hs, excName]
  | some c =>
    by_cases h0 : c &&& 0x1F = 0x1F
    · obtain ⟨b', env', hl⟩ := run_tagLoop (cfg := cfg) h self s 0 1 none
      simp only [Nat.cast_zero, Nat.cast_one] at hl
      runs [rfc1155_99, hs, h0, hl]
      cases hd : decodeTagLoop s 0 1 with
      | error e => runs
      | ok r => runs
    · runs [rfc1155_99, hs, h0]

/-! ## decodeLength -/

theorem run_lengthLoop (h : Heap) (self : V) (s : Str) (r : Option V) (l : List V) (length n : Nat) (i : Option V) :
    ∃ i' env', forL program cfg .rfc1155
      [("self", some self), ("stream", some (.str s)), ("length", some (.int length)), ("n", some (.int n)), ("run", r),
       ("i", i)] "i" (.vals l) rfc1155_141 h = match decodeLengthLoop s l.length length n with
        | .ok (t, m) => some (h, [("self", some self), ("stream", some (.str s)), ("length", some (.int t)),
            ("n", some (.int m)), ("run", r), ("i", i')], .next)
        | .error e => some (h, env', .exc (.exc (excName e) [])) := by
  induction l generalizing length n i with
  | nil =>
    rw [forL]
    runs [List.length_nil, decodeLengthLoop]
    exact ⟨_, [], rfl⟩
  | cons v l ih =>
    rw [forL]
    rw [List.length_cons, decodeLengthLoop]
    cases hs : s[n]? with
    | none =>
      runs [rfc1155_141, hs]
      exact ⟨none, _, rfl⟩
    | some c =>
      runs [rfc1155_141, hs]
      exact ih _ _ _

theorem run_decodeLength (self : V) (s : Str) (h : Heap) :
    call program cfg (.func .rfc1155 126) [self, .str s] h =
      outR (decodeLength s) (fun r => .tuple [.int r.1, .str r.2]) h := by
  rw [call_rfc1155_126, decodeLength]
  unfold outR
  cases hs : s[0]? with
  | none => runs [rfc1155_126, hs, excName]
  | some c =>
    by_cases h0 : c &&& 0x80 = 0
    · runs [rfc1155_126, hs, h0, ne_eq, not_true_eq_false]
    · obtain ⟨b', env', hl⟩ := run_lengthLoop (cfg := cfg) h self s (some (.int ((c &&& 0x7f : Nat) : Int)))
        ((List.range (c &&& 0x7f)).map fun i : Nat => V.int i) 0 1 none
      simp only [Nat.cast_zero, Nat.cast_one, List.length_map, List.length_range] at hl
      runs [rfc1155_126, hs, h0, Int.toNat_natCast, hl, ne_eq, not_false_eq_true, iterOf]
      cases hd : decodeLengthLoop s (c &&& 0x7f) 0 1 with
      | error e => runs
      | ok r => runs

/-! ## encodeLength -/

theorem run_encLenLoop (h : Heap) (self : V) (res : Option V) (length n : Nat) (l : Str) :
    whileL program cfg .rfc1155
      [("self", some self), ("length", some (.int length)), ("result", res), ("resultlist", some (.ref h.length)),
       ("numOctets", some (.int n))]
      (.cmp .gt (.loc "length") (.int 0)) rfc1155_241 (h ++ [.list (l.map fun c => .str [c])]) =
      some (h ++ [.list ((encodeLengthLoop length l n).1.map fun c => .str [c])],
        [("self", some self), ("length", some (.int 0)), ("result", res), ("resultlist", some (.ref h.length)),
         ("numOctets", some (.int (encodeLengthLoop length l n).2))], .next) := by
  fun_induction encodeLengthLoop length l n with
  | case1 len l n h0 ih =>
    rw [whileL]
    runs [rfc1155_241, h0]
    exact ih
  | case2 len l n h0 =>
    rw [whileL]
    obtain rfl : len = 0 := by omega
    runs [h0]
    rfl

theorem encodeLengthLoop_count (length : Nat) (l : Str) (n : Nat) : (encodeLengthLoop length l n).2 ≤ length + n := by
  fun_induction encodeLengthLoop length l n with
  | case1 len l n h0 ih =>
    have : len >>> 8 ≤ len - 1 := by
      have := Nat.div_lt_self h0 (show 1 < 2 ^ 8 by decide)
      rw [Nat.shiftRight_eq_div_pow]
      omega
    omega
  | case2 => omega

theorem run_encodeLength (self : V) (n : Nat) (h : Heap) (hn : Shows cfg n) :
    ∃ t, call program cfg (.func .rfc1155 219) [self, .int n] h = okR (.str (encodeLength n)) (h ++ t) := by
  rw [call_rfc1155_219, encodeLength]
  by_cases h0 : n < 127
  · runs [rfc1155_219, h0]
    exact ⟨[], by rw [List.append_nil]⟩
  · have hl := run_encLenLoop (cfg := cfg) h self none n 0 []
    have hc : Shows cfg ((encodeLengthLoop n [] 0).2 : Int) :=
      hn.mono (by have := encodeLengthLoop_count n [] 0; omega)
    simp only [Nat.cast_zero, List.map_nil] at hl
    cases hd : cfg.debug with
    | false =>
      runs [rfc1155_219, h0, hd, hl]
      exact ⟨_, rfl⟩
    | true =>
      runs [rfc1155_219, h0, hd, hl, hn hd, hc hd]
      exact ⟨_, rfl⟩

end Libsnmp.Src
