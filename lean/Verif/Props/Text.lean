import Verif.Lemmas.Text
import Verif.Lemmas.ValEq
import Mathlib.Data.List.Basic
import Mathlib.Data.List.Forall2

/-!
# C15–C17, C41, C42, C61: text forms, prefix order, addresses, dumps, index values
-/

namespace Libsnmp
open Spec

/-! ## C15 -/

/-- C15. `str()` of an ObjectID with at least one sub-identifier is its dotted decimal form after a full stop. -/
theorem C15_oid_str (ns : List Nat) (h : ns ≠ []) : ∃ t, DottedText ns t ∧ oidStr (some (ints ns)) = 46 :: t :=
  ⟨_, join_dotted h, rfl⟩

/-- C15. Dotted decimal text, with any number of full stops before or after it, reads as the ObjectID it spells. -/
theorem C15_oid_parse (ns : List Nat) (hr : ∀ n ∈ ns, n < 2 ^ 31) (t : Str) (ht : DottedText ns t) (u w : Str)
    (hu : ∀ c ∈ u, c = 46) (hw : ∀ c ∈ w, c = 46) : mkOid (.str (u ++ t ++ w)) = .ok (some (ints ns)) := by
  rw [mkOid, pyStrip_dotted ht hu hw]
  obtain ⟨dss, h1, h2⟩ := dotted_pieces ht
  rw [(pySplit_iff _ _).mpr h2, oidParse_numerals h1 hr]

/-- C15. The round trip, with and without the leading full stop. -/
theorem C15_oid_text_round_trip (ns : List Nat) (h : ns ≠ []) (hr : ∀ n ∈ ns, n < 2 ^ 31) :
    mkOid (.str (oidStr (some (ints ns)))) = .ok (some (ints ns)) ∧
    mkOid (.str ((oidStr (some (ints ns))).drop 1)) = .ok (some (ints ns)) := by
  obtain ⟨t, ht, e⟩ := C15_oid_str ns h
  rw [e]
  constructor
  · simpa using C15_oid_parse ns hr t ht [46] [] (by simp) (by simp)
  · simpa using C15_oid_parse ns hr t ht [] [] (by simp) (by simp)

/-- C15. Different ObjectIDs have different texts. -/
theorem C15_oid_str_injective (ns ms : List Nat) (h1 : ns ≠ []) (h2 : ms ≠ []) (hr1 : ∀ n ∈ ns, n < 2 ^ 31)
    (hr2 : ∀ n ∈ ms, n < 2 ^ 31) (h : oidStr (some (ints ns)) = oidStr (some (ints ms))) : ns = ms := by
  have e1 := (C15_oid_text_round_trip ns h1 hr1).1
  have e2 := (C15_oid_text_round_trip ms h2 hr2).1
  rw [h, e2] at e1
  simp only [Except.ok.injEq, Option.some.injEq] at e1
  exact (List.map_injective_iff.mpr (fun a b h => Int.ofNat.inj h) e1).symm

example : oidStr (some [1, 3, 6, 1, 2147483647]) = lit ".1.3.6.1.2147483647" ∧
    mkOid (.str (lit "1.3.6.1.2147483647")) = .ok (some [1, 3, 6, 1, 2147483647]) := by decide +kernel

/-! ## C16 -/

/-- C16. Exactly the texts accepted: after removing full stops at both ends, the pieces between full stops are int
literals in range; the result is the list of their values. -/
theorem C16_oid_text_accepted_iff (s : Str) (v : Option (List Int)) :
    mkOid (.str s) = .ok v ↔
      ∃ u t w ps l, s = u ++ t ++ w ∧ (∀ c ∈ u, c = 46) ∧ (∀ c ∈ w, c = 46) ∧ t.head? ≠ some 46 ∧
        t.getLast? ≠ some 46 ∧ Pieces ps t ∧ v = some l ∧
        List.Forall₂ (fun p n => IntText n p ∧ 0 ≤ n ∧ n < 2 ^ 31) ps l := by
  constructor
  · intro h
    obtain ⟨u, w, hs, hu, hw⟩ := stripBy_split (· == 46) s
    rw [mkOid] at h
    cases hp : oidParse (pySplit 46 (pyStrip 46 s)) with
    | error e => rw [hp] at h; cases h
    | ok l =>
      rw [hp] at h
      cases h
      refine ⟨u, pyStrip 46 s, w, _, l, hs, ?_, ?_, ?_, ?_, (pySplit_iff _ _).mp rfl, rfl, (oidParse_iff _ _).mp hp⟩
      · intro c hc; simpa using hu c hc
      · intro c hc; simpa using hw c hc
      · intro hc; have := stripBy_head (p := (· == 46)) (s := s) 46 hc; simp at this
      · intro hc; have := stripBy_last (p := (· == 46)) (s := s) 46 hc; simp at this
  · rintro ⟨u, t, w, ps, l, rfl, hu, hw, h1, h2, hp, rfl, hf⟩
    have e : pyStrip 46 (u ++ t ++ w) = t := by
      unfold pyStrip
      apply stripBy_core
      · intro c hc; simp [hu c hc]
      · intro c hc; simp [hw c hc]
      · intro c hc
        simp only [beq_eq_false_iff_ne, ne_eq]
        rintro rfl; exact h1 hc
      · intro c hc
        simp only [beq_eq_false_iff_ne, ne_eq]
        rintro rfl; exact h2 hc
    rw [mkOid, e, (pySplit_iff _ _).mpr hp, (oidParse_iff _ _).mpr hf]

/-- C16. From text: ValueError, or a non-empty ObjectID within the RFC's range of sub-identifiers. -/
theorem C16_oid_text_validated (s : Str) :
    mkOid (.str s) = .error .valueError ∨
    ∃ l, mkOid (.str s) = .ok (some l) ∧ l ≠ [] ∧ ∀ n ∈ l, 0 ≤ n ∧ n < 2 ^ 31 := by
  rw [mkOid]
  cases hp : oidParse (pySplit 46 (pyStrip 46 s)) with
  | error e => left; rw [oidParse_error hp]
  | ok l =>
    right
    refine ⟨l, rfl, ?_, ?_⟩
    · rintro rfl
      have := (oidParse_iff _ _).mp hp
      cases hs : pySplit 46 (pyStrip 46 s) with
      | nil => exact pySplit_ne_nil _ hs
      | cons => rw [hs] at this; cases this
    · have := (oidParse_iff _ _).mp hp
      clear hp
      generalize pySplit 46 (pyStrip 46 s) = ps at this
      induction this with
      | nil => simp
      | cons h1 _ ih =>
        intro n hn
        simp only [List.mem_cons] at hn
        rcases hn with rfl | hn
        · exact h1.2
        · exact ih n hn

/-- C16. Lists, tuples and ints are taken as they are, whatever the numbers. -/
theorem C16_oid_unchecked (l : List Int) (n : Int) :
    mkOid (.list l) = .ok (some l) ∧ mkOid (.tuple l) = .ok (some l) ∧ mkOid (.int n) = .ok (some [n]) :=
  ⟨rfl, rfl, rfl⟩

/-- C16. An ObjectID is copied, `None` gives an ObjectID without a value, and an ObjectID without a value cannot be copied. -/
theorem C16_oid_copy (l : List Int) :
    mkOid (.obj (.oid (some l))) = .ok (some l) ∧ mkOid (.obj (.oid none)) = .error .typeError ∧ mkOid .none = .ok none :=
  ⟨rfl, rfl, rfl⟩

/-- C16. Bytes and SNMP objects other than ObjectIDs are refused. -/
theorem C16_oid_other_types (b : Str) (v : Val) (h : v.isInstance .oid = false) :
    mkOid (.bytes b) = .error .typeError ∧ mkOid (.obj v) = .error .typeError := by
  refine ⟨rfl, ?_⟩
  cases v with
  | oid v => exact absurd h (by simp [Val.isInstance, Val.cls?]; decide)
  | _ => rfl

example : mkOid (.str (lit "..1. +3 .6_1.")) = .ok (some [1, 3, 61]) ∧ mkOid (.str (lit "1.-3")) = .error .valueError ∧
    mkOid (.str (lit "")) = .error .valueError ∧ mkOid (.str (lit "1..3")) = .error .valueError ∧
    mkOid (.str (lit "1.2147483648")) = .error .valueError ∧ mkOid (.list [-1, 2 ^ 40]) = .ok (some [-1, 2 ^ 40]) := by
  decide +kernel

/-! ## C17 -/

theorem prefixLoop_iff (a b : List Int) (i n : Nat) (h : i + n = a.length) (hl : a.length ≤ b.length)
    (hi : a.take i = b.take i) : prefixLoop a b i n = true ↔ a <+: b := by
  induction n generalizing i with
  | zero =>
    simp only [prefixLoop, true_iff]
    have : i = a.length := by omega
    subst this
    rw [List.take_length] at hi
    exact ⟨b.drop a.length, by conv_lhs => rw [hi]
                               rw [List.length_take, Nat.min_eq_left hl, List.take_append_drop]⟩
  | succ n ih =>
    rw [prefixLoop]
    have ha : i < a.length := by omega
    have hb : i < b.length := by omega
    split
    · next hne =>
      simp only [Bool.false_eq_true, false_iff]
      rintro ⟨c, rfl⟩
      rw [List.getElem?_append_left ha] at hne
      exact hne rfl
    · next heq =>
      apply ih (i + 1) (by omega)
      have : a[i]? = b[i]? := by simpa using heq
      rw [List.take_add_one, List.take_add_one, this, hi]

/-- C17. `a.isPrefixOf(b)` is the prefix relation on the lists of sub-identifiers (an unset ObjectID counting as
empty). -/
theorem C17_isPrefixOf (a b : Option (List Int)) :
    isPrefixOf a (.oid b) = .ok (decide ((a.getD []) <+: (b.getD []))) := by
  rw [isPrefixOf]
  split
  · next h =>
    congr 1
    symm
    rw [decide_eq_false_iff_not]
    intro hp
    have := hp.length_le
    omega
  · next h =>
    congr 1
    rw [Bool.eq_iff_iff, decide_eq_true_iff]
    exact prefixLoop_iff _ _ 0 _ (by omega) (by omega) rfl

/-- C17. Anything that is not an ObjectID is refused. -/
theorem C17_isPrefixOf_other (a : Option (List Int)) (v : Val) (h : v.isInstance .oid = false) :
    isPrefixOf a v = .error .typeError := by
  cases v with
  | oid v => exact absurd h (by simp [Val.isInstance, Val.cls?]; decide)
  | _ => rfl

/-- C17. Reflexive, transitive, antisymmetric; an unset ObjectID is a prefix of everything. -/
theorem C17_isPrefixOf_order (a b c : Option (List Int)) :
    isPrefixOf a (.oid a) = .ok true ∧
    (isPrefixOf a (.oid b) = .ok true → isPrefixOf b (.oid c) = .ok true → isPrefixOf a (.oid c) = .ok true) ∧
    (isPrefixOf a (.oid b) = .ok true → isPrefixOf b (.oid a) = .ok true → a.getD [] = b.getD []) ∧
    isPrefixOf none (.oid b) = .ok true := by
  simp only [C17_isPrefixOf, Except.ok.injEq, decide_eq_true_eq]
  refine ⟨List.prefix_rfl, fun h1 h2 => h1.trans h2, fun h1 h2 => ?_, List.nil_prefix⟩
  exact h1.eq_of_length (Nat.le_antisymm h1.length_le h2.length_le)

example : isPrefixOf (some [1, 3]) (.oid (some [1, 3, 6])) = .ok true ∧
    isPrefixOf (some [1, 3, 6]) (.oid (some [1, 3])) = .ok false ∧
    isPrefixOf (some [1, 4]) (.oid (some [1, 3, 6])) = .ok false ∧
    isPrefixOf (some [1]) (.octets .octetString [1]) = .error .typeError := by decide +kernel

/-! ## C41 -/

theorem pyChr_iff (n : Int) (c : Nat) : pyChr n = .ok c ↔ n = c ∧ c ≤ 0x10FFFF := by
  unfold pyChr
  split
  · constructor
    · intro h; cases h
    · intro h; omega
  · split
    · simp only [Except.ok.injEq]; omega
    · constructor
      · intro h; cases h
      · intro h; omega

theorem ipParse_iff (ps : List Str) (v : Str) : ipParse ps = .ok v ↔
    List.Forall₂ (fun p (c : Nat) => IntText c p ∧ c ≤ 0x10FFFF) ps v := by
  induction ps generalizing v with
  | nil =>
    rw [ipParse]
    constructor
    · intro h; cases h; exact .nil
    · intro h; cases h; rfl
  | cons p ps ih =>
    rw [ipParse]
    constructor
    · intro h
      split at h
      · cases h
      · next n hn =>
        split at h
        · cases h
        · next c hc =>
          split at h
          · cases h
          · next w hw =>
            cases h
            rw [pyChr_iff] at hc
            obtain ⟨rfl, hc⟩ := hc
            exact .cons ⟨(pyInt_iff _ _).mp hn, hc⟩ ((ih w).mp hw)
    · intro h
      cases h with
      | cons h1 h2 =>
        rw [(pyInt_iff _ _).mpr h1.1]
        simp only
        rw [(pyChr_iff _ _).mpr ⟨rfl, h1.2⟩, (ih _).mpr h2]

/-- C41. Exactly the texts an IPAddress can be built from: four int literals between full stops, each a code point
(so 256 and above are accepted too), and the resulting string. -/
theorem C41_ip_text_accepted_iff (c : OctCls) (s : Str) (v : Val) :
    mkIPAddress c (.str s) = .ok v ↔ ∃ ps l, Pieces ps s ∧ l.length = 4 ∧ v = .octets c l ∧
      List.Forall₂ (fun p (n : Nat) => IntText n p ∧ n ≤ 0x10FFFF) ps l := by
  rw [mkIPAddress]
  constructor
  · intro h
    split at h
    · cases h
    · next hl =>
      split at h
      · cases h
      · next w hw =>
        cases h
        have hf := (ipParse_iff _ _).mp hw
        exact ⟨_, w, (pySplit_iff _ _).mp rfl, by rw [← hf.length_eq]; simpa using hl, rfl, hf⟩
  · rintro ⟨ps, l, hp, hl, rfl, hf⟩
    rw [(pySplit_iff _ _).mpr hp, if_neg (by rw [hf.length_eq, hl]; simp), (ipParse_iff _ _).mpr hf]

/-- C41. All other texts are refused with ValueError or (for a number beyond a C int) OverflowError. -/
theorem C41_ip_text_errors (c : OctCls) (s : Str) (e : Exc) (h : mkIPAddress c (.str s) = .error e) :
    e = .valueError ∨ e = .overflowError := by
  rw [mkIPAddress] at h
  split at h
  · cases h; exact Or.inl rfl
  · split at h
    · next e' he =>
      cases h
      generalize pySplit 46 s = ps at he
      induction ps with
      | nil => cases he
      | cons p ps ih =>
        rw [ipParse] at he
        split at he
        · next hp => cases he; exact Or.inl (pyInt_error hp)
        · split at he
          · next hc =>
            cases he
            unfold pyChr at hc
            split at hc
            · cases hc; exact Or.inr rfl
            · split at hc
              · cases hc
              · cases hc; exact Or.inl rfl
          · split at he
            · next hr => cases he; exact ih hr
            · cases he
    · cases h

/-- C41. The round trip: the text of four octets (indeed of four code points) is their dotted form, and building an
address from it gives the four octets back. -/
theorem C41_ip_text_round_trip (c : OctCls) (v : Str) (hl : v.length = 4) (hv : ∀ b ∈ v, b ≤ 0x10FFFF) :
    DottedText v (ipStr v) ∧ mkIPAddress c (.str (ipStr v)) = .ok (.octets c v) := by
  have e : ipStr v = pyJoin (lit ".") ((ints v).map pyStrInt) := by
    unfold ipStr ints; rw [List.map_map]; rfl
  have hd : DottedText v (ipStr v) := by
    rw [e]; exact join_dotted (by rintro rfl; simp at hl)
  refine ⟨hd, ?_⟩
  rw [C41_ip_text_accepted_iff]
  obtain ⟨dss, h1, h2⟩ := dotted_pieces hd
  refine ⟨_, v, h2, hl, rfl, ?_⟩
  clear e hl hd h2
  induction h1 with
  | nil => exact .nil
  | cons h _ ih =>
    exact .cons ⟨(pyInt_iff _ _).mp (pyInt_numeral h), hv _ (by simp)⟩ (ih (fun b hb => hv b (by simp [hb])))

/-- C41. A list of four is kept unexamined and can then not be encoded; a list of another length is refused. -/
theorem C41_ip_list (c : OctCls) (l : List Int) :
    (l.length = 4 → ∃ v, mkIPAddress c (.list l) = .ok v ∧ v.encode = .error .typeError) ∧
    (l.length ≠ 4 → mkIPAddress c (.list l) = .error .valueError) := by
  constructor
  · intro h
    exact ⟨.raw c (.list l), by simp [mkIPAddress, h], by simp [Val.encode]⟩
  · intro h; simp [mkIPAddress, h]

example : mkIPAddress .ipAddress (.str (lit "192.168.0.1")) = .ok (.octets .ipAddress [192, 168, 0, 1]) ∧
    ipStr [192, 168, 0, 1] = lit "192.168.0.1" ∧
    mkIPAddress .ipAddress (.str (lit "300.0.0.1")) = .ok (.octets .ipAddress [300, 0, 0, 1]) ∧
    mkIPAddress .ipAddress (.str (lit "1.2.3")) = .error .valueError ∧
    mkIPAddress .ipAddress (.str (lit "1.2.3.2147483648")) = .error .overflowError := by
  decide +kernel

/-! ## C42 -/

theorem hex2_eq (b : Nat) (h : b < 256) : hex2 b = [hexChars.getD (b / 16) 0, hexChars.getD (b % 16) 0] := by
  have key : ∀ b : Fin 256, hex2 b.val = [hexChars.getD (b.val / 16) 0, hexChars.getD (b.val % 16) 0] := by decide +kernel
  exact key ⟨b, h⟩

/-- C42. `octetsToHex` writes each octet as its two hexadecimal digits. -/
theorem C42_hex (s : Str) (h : Octets s) :
    octetsToHex s = s.flatMap fun b => [hexChars.getD (b / 16) 0, hexChars.getD (b % 16) 0] := by
  induction s with
  | nil => rfl
  | cons b s ih =>
    rw [octets_cons] at h
    rw [octetsToHex, hex2_eq b h.1, ih h.2]; rfl

/-- C42. Twice as many characters, all hexadecimal digits. -/
theorem C42_hex_shape (s : Str) (h : Octets s) :
    (octetsToHex s).length = 2 * s.length ∧ ∀ c ∈ octetsToHex s, c ∈ hexChars := by
  rw [C42_hex s h]
  have hmem : ∀ i, i < 16 → hexChars.getD i 0 ∈ hexChars := by decide
  induction s with
  | nil => simp
  | cons b s ih =>
    rw [octets_cons] at h
    obtain ⟨h1, h2⟩ := ih h.2
    simp only [List.flatMap_cons, List.length_append, List.length_cons, List.length_nil, h1, List.mem_append]
    refine ⟨by omega, ?_⟩
    rintro c (hc | hc)
    · simp only [List.mem_cons, List.not_mem_nil, or_false] at hc
      rcases hc with rfl | rfl
      · exact hmem _ (by omega)
      · exact hmem _ (by omega)
    · exact h2 c hc

/-- C42. Different octet strings have different dumps. -/
theorem C42_hex_injective (s t : Str) (hs : Octets s) (ht : Octets t) (h : octetsToHex s = octetsToHex t) : s = t := by
  have inj : ∀ i < 16, ∀ j < 16, hexChars.getD i 0 = hexChars.getD j 0 → i = j := by decide
  rw [C42_hex s hs, C42_hex t ht] at h
  induction s generalizing t with
  | nil =>
    cases t with
    | nil => rfl
    | cons => simp at h
  | cons b s ih =>
    cases t with
    | nil => simp at h
    | cons c t =>
      rw [octets_cons] at hs ht
      simp only [List.flatMap_cons, List.cons_append, List.nil_append, List.cons.injEq] at h
      obtain ⟨h1, h2, h3⟩ := h
      have e1 := inj _ (by omega) _ (by omega) h1
      have e2 := inj _ (by omega) _ (by omega) h2
      have : b = c := by omega
      rw [this, ih t hs.2 ht.2 h3]

/-- C42. `octetsToOct` is not injective: every octet from 64 on is written like the octet without its last octal
digit. -/
theorem C42_oct_truncates (b : Nat) (h1 : 64 ≤ b) (h2 : b < 256) : octetsToOct [b] = octetsToOct [b / 8] := by
  have key : ∀ b : Fin 256, 64 ≤ b.val → octetsToOct [b.val] = octetsToOct [b.val / 8] := by decide +kernel
  exact key ⟨b, h2⟩ h1

example : octetsToHex [0, 255, 16] = lit "00ff10" ∧ octetsToOct [8] = lit "0o10," ∧ octetsToOct [64] = lit "0o10," := by
  decide +kernel

/-! ## C61 -/

/-- C61. Index values: an integer becomes one sub-identifier, a string one sub-identifier per character, an ObjectID
itself. -/
theorem C61_toObjectID (c : IntCls) (d : OctCls) (n : Int) (s : Str) (v : Option (List Int)) :
    toObjectID (.integer c n) = .ok (some [n]) ∧ toObjectID (.octets d s) = .ok (some (ints s)) ∧
    toObjectID (.oid v) = .ok v := ⟨rfl, rfl, rfl⟩

/-- C61. Nulls and sequences of any class cannot be index values. -/
theorem C61_toObjectID_refused (c : NullCls) (d : SeqCls) (l : List Val) :
    toObjectID (.null c) = .error .typeError ∧ toObjectID (.seq d l) = .error .typeError := ⟨rfl, rfl⟩

/-- C61. The conversion is injective on the strings of one class, but does not keep classes apart: an address and a
string with the same octets, or an integer and a one-character string, give the same ObjectID. -/
theorem C61_toObjectID_injective (d e : OctCls) (s t : Str)
    (h : toObjectID (.octets d s) = toObjectID (.octets e t)) : s = t := by
  simp only [(C61_toObjectID .integer _ 0 _ none).2.1, Except.ok.injEq, Option.some.injEq] at h
  exact List.map_injective_iff.mpr (fun a b h => Int.ofNat.inj h) h

theorem C61_toObjectID_collision (c : IntCls) (d : OctCls) (n : Nat) :
    toObjectID (.integer c n) = toObjectID (.octets d [n]) := rfl

example : toObjectID (.octets .octetString (lit "ab")) = .ok (some [97, 98]) := rfl

end Libsnmp
