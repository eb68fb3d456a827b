import Verif.Lemmas.SrcOidOps

/-!
# Running the constructors of OctetStrings and IPAddresses
-/

namespace Libsnmp.Src
open Libsnmp

variable {cfg : Cfg}

theorem Short.split {s : Str} (hs : Short cfg s) {p : Str} (hp : p ∈ pySplit 46 s) : Short cfg p :=
  hs.imp id fun hs => Nat.le_trans (split_digits 46 isDigit s p hp) hs

/-- While the constructor runs: the new object with the characters so far, the pieces of the text. -/
def ipHeap (h : Heap) (c : OctCls) (l : List Str) (acc : Str) : Heap :=
  h ++ [.inst (cid (.oct c)) [("value", .str acc)], .list (l.map V.str)]

theorem pyChr_cases {n : Int} {e : Exc} (h : pyChr n = .error e) : e = .valueError ∨ e = .overflowError := by
  unfold pyChr at h
  repeat' split at h
  all_goals first | (cases h; simp) | cases h

/-- rfc1155.py:908-910. -/
theorem run_ipInit (h : Heap) (c : OctCls) (l pre rest : List Str) (hl : l = pre ++ rest) (hn : ∀ p ∈ rest, Short cfg p) (acc : Str)
    (v lf it : Option V) :
    match ipParse rest with
    | .ok cs => ∃ it', forL program cfg .rfc1155 [("self", some (.ref h.length)), ("value", v), ("listform", lf), ("item", it)]
        "item" (.list (h.length + 1) pre.length) rfc1155_908 (ipHeap h c l acc) =
        some (ipHeap h c l (acc ++ cs), [("self", some (.ref h.length)), ("value", v), ("listform", lf), ("item", it')], .next)
    | .error e => ∃ acc' env' args, forL program cfg .rfc1155 [("self", some (.ref h.length)), ("value", v), ("listform", lf), ("item", it)]
        "item" (.list (h.length + 1) pre.length) rfc1155_908 (ipHeap h c l acc) =
        some (ipHeap h c l acc', env', .exc (.exc (excName e) args)) := by
  induction rest generalizing pre it acc with
  | nil =>
    rw [List.append_nil] at hl
    subst hl
    simp only [ipParse]
    refine ⟨it, ?_⟩
    rw [forL]
    unfold ipHeap
    runs [List.getElem?_map, List.getElem?_eq_none (Nat.le_refl l.length), Option.map_none]
  | cons p ps ih =>
    have hp : (l.map V.str)[pre.length]? = some (.str p) := by simp [hl]
    have hi := intOfStr_short (hn p List.mem_cons_self)
    unfold ipParse
    cases hq : pyInt p with
    | error e =>
      cases pyInt_error hq
      refine ⟨acc, ?_⟩
      rw [forL]
      unfold ipHeap
      runs [hp, rfc1155_908, hi, hq]
      exact ⟨_, _, rfl⟩
    | ok k =>
      cases hk : pyChr k with
      | error e =>
        simp only [hk]
        refine ⟨acc, ?_⟩
        rw [forL]
        unfold ipHeap
        rcases pyChr_cases hk with rfl | rfl <;>
        · runs [hp, rfc1155_908, hi, hq, pyChrV, hk]
          exact ⟨_, _, rfl⟩
      | ok ch =>
        have ih := ih (pre ++ [p]) (by simp [hl]) (fun q hq => hn q (List.mem_cons_of_mem _ hq)) (acc ++ [ch]) (some (.str p))
        rw [List.length_append, List.length_singleton] at ih
        have hstep : ∀ X, forL program cfg .rfc1155 [("self", some (.ref h.length)), ("value", v), ("listform", lf), ("item", some (.str p))]
            "item" (.list (h.length + 1) (pre.length + 1)) rfc1155_908 (ipHeap h c l (acc ++ [ch])) = X →
            forL program cfg .rfc1155 [("self", some (.ref h.length)), ("value", v), ("listform", lf), ("item", it)]
            "item" (.list (h.length + 1) pre.length) rfc1155_908 (ipHeap h c l acc) = X := by
          intro X hX
          rw [forL]
          unfold ipHeap at hX ⊢
          runs [hp, rfc1155_908, hi, hq, pyChrV, hk]
          exact hX
        cases ho : ipParse ps with
        | error e =>
          rw [ho] at ih
          simp only [hk]
          obtain ⟨acc', env', args, ih⟩ := ih
          exact ⟨acc', env', args, hstep _ ih⟩
        | ok cs =>
          rw [ho] at ih
          simp only [hk]
          obtain ⟨it', ih⟩ := ih
          refine ⟨it', hstep _ ?_⟩
          rw [ih]; simp

/-- A new OctetString. -/
theorem rep_newOct {h : Heap} (c : OctCls) (s : Str) (t : List Cell) :
    Rep h.length (h ++ .inst (cid (.oct c)) [("value", .str s)] :: t) (.octets c s) (.ref h.length) := by
  rw [Rep]
  exact ⟨_, _, rfl, Nat.le_refl _, get_app _ _, plain _, rfl⟩

/-- `OctetString(text)`, `Opaque(text)`. -/
theorem run_mkOct {h : Heap} (hb : Base h) (c : OctCls) (hc : c = .octetString ∨ c = .opaque) (s : Str) :
    NewOr h.length h (call program cfg (.cls (cid (.oct c))) [.str s] h) (mkOctetStringArg c (.str s)) := by
  have he := isExc_cid (.oct c)
  have hm : mkOctetStringArg c (.str s) = .ok (.octets c s) := by rcases hc with rfl | rfl <;> rfl
  have hi : initOf (.oct c) = (.rfc1155, 519) := by rcases hc with rfl | rfl <;> rfl
  rw [hm]
  refine ⟨_, .ref h.length, ?_, Kept.app hb [.inst (cid (.oct c)) [("value", .str s)]], rep_newOct c s []⟩
  rw [call_cls, hi]
  runs [call_rfc1155_519, rfc1155_519, he]

/-- `IPAddress(value)`, if the value is a text, a number, a tuple or None. -/
theorem run_mkIP {lo : Nat} {h : Heap} (hb : Base h) (c : OctCls) (hc : c = .ipAddress ∨ c = .networkAddress) {arg : Arg} {y : V}
    (r : RepArg lo h arg y) (hl : ∀ l, arg ≠ .list l) (ho : ∀ v, arg ≠ .obj v) (hn : ∀ s, arg = .str s → Short cfg s) :
    NewOr h.length h (call program cfg (.cls (cid (.oct c))) [y] h) (mkIPAddress c arg) := by
  have he := isExc_cid (.oct c)
  have hi : initOf (.oct c) = (.rfc1155, 898) := by rcases hc with rfl | rfl <;> rfl
  have h46 : lit "." = [46] := by decide +kernel
  have h0 : lit "" = [] := by decide +kernel
  rw [call_cls, hi]
  cases arg with
  | none | int n | tuple l =>
    cases r
    refine ⟨_, .ref h.length, ?_, Kept.app hb [.inst (cid (.oct c)) [("value", .str [])]], rep_newOct c [] []⟩
    runs [call_rfc1155_898, rfc1155_898, call_rfc1155_519, rfc1155_519, he, h0]
  | bytes s => cases r
  | list l => exact absurd rfl (hl l)
  | obj v => exact absurd rfl (ho v)
  | str s =>
    cases r
    have hl := run_ipInit (cfg := cfg) h c (pySplit 46 s) [] _ rfl (fun p hp => (hn s rfl).split hp) [] (some (.str s))
      (some (.ref (h.length + 1))) none
    unfold ipHeap at hl
    rw [mkIPAddress]
    by_cases h4 : (pySplit 46 s).length = 4
    · simp only [h4, ne_eq, not_true_eq_false, if_false]
      have h4' : ((((pySplit 46 s).map V.str).length : Nat) : Int) = 4 := by rw [List.length_map, h4]; rfl
      cases hp : ipParse (pySplit 46 s) with
      | ok cs =>
        rw [hp] at hl
        obtain ⟨it, hl⟩ := hl
        rw [List.nil_append, List.length_nil] at hl
        refine ⟨_, .ref h.length, ?_, Kept.app hb [.inst (cid (.oct c)) [("value", .str cs)], .list ((pySplit 46 s).map V.str)],
          rep_newOct c cs _⟩
        runs [call_rfc1155_898, rfc1155_898, call_rfc1155_519, rfc1155_519, he, h0, h46, strMethod, h4, hl]
      | error e =>
        rw [hp] at hl
        obtain ⟨acc, env, args, hl⟩ := hl
        rw [List.length_nil] at hl
        refine ⟨_, args, ?_, Kept.app hb [.inst (cid (.oct c)) [("value", .str acc)], .list ((pySplit 46 s).map V.str)]⟩
        runs [call_rfc1155_898, rfc1155_898, call_rfc1155_519, rfc1155_519, he, h0, h46, strMethod, h4, hl]
    · simp only [h4, ne_eq, not_false_eq_true, if_true]
      have h4' : ¬ ((((pySplit 46 s).map V.str).length : Nat) : Int) = 4 := by rw [List.length_map]; omega
      refine ⟨_, [.str (lit "IPAddress must be of length 4")], ?_, Kept.app hb [.inst (cid (.oct c)) [("value", .str [])], .list ((pySplit 46 s).map V.str)]⟩
      · runs [call_rfc1155_898, rfc1155_898, call_rfc1155_519, rfc1155_519, he, h0, h46, strMethod, h4, excName]

/-- `IPAddress(list)`: a list of four elements is kept, in a copy; any other list is a ValueError. -/
theorem run_mkIPList {h : Heap} (c : OctCls) (hc : c = .ipAddress ∨ c = .networkAddress) {b : Nat} {l : List V}
    (hl : h[b]? = some (.list l)) :
    ∃ args, call program cfg (.cls (cid (.oct c))) [.ref b] h =
      if l.length = 4 then okR (.ref h.length) (h ++ [.inst (cid (.oct c)) [("value", .ref (h.length + 1))], .list l])
      else excR (.exc "ValueError" args) (h ++ [.inst (cid (.oct c)) [("value", .ref (h.length + 1))], .list l]) := by
  have he := isExc_cid (.oct c)
  have hi : initOf (.oct c) = (.rfc1155, 898) := by rcases hc with rfl | rfl <;> rfl
  have hl' := fun t => get_app_old hl t
  rw [call_cls, hi]
  by_cases h4 : l.length = 4
  · have h4' : ((l.length : Nat) : Int) = 4 := by rw [h4]; rfl
    refine ⟨[], ?_⟩
    rw [if_pos h4]
    runs [call_rfc1155_898, rfc1155_898, call_rfc1155_519, rfc1155_519, he, hl', h4']
  · have h4' : ¬ ((l.length : Nat) : Int) = 4 := by omega
    refine ⟨[.str (lit "IPAddress must be of length 4")], ?_⟩
    rw [if_neg h4]
    runs [call_rfc1155_898, rfc1155_898, call_rfc1155_519, rfc1155_519, he, hl', h4']

end Libsnmp.Src
