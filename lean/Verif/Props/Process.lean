import Verif.Spec.Process
import Verif.Lemmas.Text
import Verif.Lemmas.ValEq

/-!
# C52 (part), C57, C62: texts
-/

namespace Libsnmp
open Spec

/-! ## Lemmas on numerals and joining -/

theorem decimal_iff (n : Int) (t : Str) : pyStrInt n = t ↔ Decimal n t := by
  constructor
  · rintro rfl
    unfold pyStrInt
    split
    · next h =>
      have : n = -((n.natAbs : Nat) : Int) := by omega
      conv => arg 1; rw [this]
      exact .neg (by omega) (digits_numeral (by omega) _)
    · next h =>
      have : n = ((n.natAbs : Nat) : Int) := by omega
      conv => arg 1; rw [this]
      exact .nonneg (digits_numeral (by omega) _)
  · intro h
    cases h with
    | nonneg h => exact pyStrInt_numeral h
    | neg h0 h =>
      unfold pyStrInt
      rw [if_pos (by omega)]
      simp only [Int.natAbs_neg, Int.natAbs_natCast]
      rw [digits_eq h (by omega)]

theorem joined_iff (sep : Str) (ts : List Str) (t : Str) : pyJoin sep ts = t ↔ Joined sep ts t := by
  constructor
  · rintro rfl
    induction ts with
    | nil => exact .nil
    | cons p ps ih =>
      cases ps with
      | nil => exact .one
      | cons q ps => exact .cons ih
  · intro h
    induction h with
    | nil => rfl
    | one => rfl
    | cons _ ih => simp only [pyJoin, ih]

theorem decimals_iff (l : List Int) (ts : List Str) : l.map pyStrInt = ts ↔ List.Forall₂ Decimal l ts := by
  constructor
  · rintro rfl
    induction l with
    | nil => exact .nil
    | cons n l ih => exact .cons ((decimal_iff n _).mp rfl) ih
  · intro h
    induction h with
    | nil => rfl
    | cons h _ ih => rw [List.map_cons, ih, (decimal_iff _ _).mpr h]

theorem byteDecimals_iff (l : List Nat) (ts : List Str) :
    l.map (fun (c : Nat) => pyStrInt (c : Int)) = ts ↔ List.Forall₂ (fun (b : Nat) => Decimal b) l ts := by
  constructor
  · rintro rfl
    induction l with
    | nil => exact .nil
    | cons n l ih => exact .cons ((decimal_iff n _).mp rfl) ih
  · intro h
    induction h with
    | nil => rfl
    | cons h _ ih => rw [List.map_cons, ih, (decimal_iff _ _).mpr h]

/-! ## The error texts -/

/-- The texts once installed. -/
def errString2 : Table := extendErrString errString1

theorem extend_twice : extendErrString errString2 = errString2 := by decide +kernel

theorem newErrorStatus2_table (v : Int) (d : Table) :
    (newErrorStatus2 v d).2 = if InRange .errorStatus2 v then extendErrString d else d := by
  unfold newErrorStatus2 mkInteger
  have : (IntCls.errorStatus2.minVal ≤ v ∧ v ≤ IntCls.errorStatus2.maxVal) ↔ InRange .errorStatus2 v := Iff.rfl
  by_cases h : InRange .errorStatus2 v
  · simp [this, h]
  · simp [this, h]

theorem newPDU_table (c : SeqCls) (a b x : Int) (vbs : List Val) (d : Table) :
    (newPDU c a b x vbs d).2 = d ∧ ¬ Installs (.pdu c a b x vbs) ∨
    (newPDU c a b x vbs d).2 = extendErrString d ∧ Installs (.pdu c a b x vbs) := by
  have hc : (Cls.seq c).isSubclass (.seq .pdu2) = true ↔
      c ∈ [SeqCls.pdu2, .get2, .getNext2, .response2, .set2, .inform, .trapV2, .report] := by
    cases c <;> decide
  unfold newPDU
  by_cases h : (Cls.seq c).isSubclass (.seq .pdu2) = true
  · rw [if_pos h]
    unfold newPDU2
    by_cases hx : x > 2147483647
    · rw [if_pos hx]
      left
      exact ⟨rfl, fun hi => absurd hi.2.1 (by omega)⟩
    · rw [if_neg hx]
      by_cases ha : InRange .integer32 a
      · have : mkInteger .integer32 a = .ok (.integer .integer32 a) := if_pos ha
        rw [this]
        simp only
        have ht := newErrorStatus2_table b d
        cases hs : newErrorStatus2 b d with
        | mk r d' =>
          rw [hs] at ht
          simp only at ht
          by_cases hb : InRange .errorStatus2 b
          · rw [if_pos hb] at ht
            right
            refine ⟨?_, hc.mp h, by omega, ha, hb⟩
            rw [← ht]
            cases r with
            | error e => rfl
            | ok es =>
              simp only
              cases mkInteger .integer x with
              | error e => rfl
              | ok ei =>
                simp only
                cases mkVarBindList .varBindList2 vbs <;> rfl
          · rw [if_neg hb] at ht
            left
            refine ⟨?_, fun hi => hb hi.2.2.2⟩
            rw [← ht]
            cases r with
            | error e => rfl
            | ok es =>
              simp only
              cases mkInteger .integer x with
              | error e => rfl
              | ok ei =>
                simp only
                cases mkVarBindList .varBindList2 vbs <;> rfl
      · have : mkInteger .integer32 a = .error .valueError := if_neg ha
        rw [this]
        left
        exact ⟨rfl, fun hi => ha hi.2.2.1⟩
  · rw [if_neg h]
    left
    exact ⟨rfl, fun hi => h (hc.mpr hi.1)⟩

theorem creation_table (c : Creation) (d : Table) :
    c.run d = d ∧ ¬ Installs c ∨ c.run d = extendErrString d ∧ Installs c := by
  cases c with
  | status1 v => exact .inl ⟨rfl, fun h => h⟩
  | status2 v =>
    have := newErrorStatus2_table v d
    by_cases h : InRange .errorStatus2 v
    · rw [if_pos h] at this
      exact .inr ⟨this, h⟩
    · rw [if_neg h] at this
      exact .inl ⟨this, h⟩
  | pdu c a b x vbs => exact newPDU_table c a b x vbs d

theorem texts_installed (h : List Creation) : h.foldl (fun d c => c.run d) errString2 = errString2 := by
  induction h with
  | nil => rfl
  | cons c h ih =>
    rw [List.foldl_cons]
    have : c.run errString2 = errString2 := by
      rcases creation_table c errString2 with ⟨e, _⟩ | ⟨e, _⟩
      · exact e
      · rw [e, extend_twice]
    rw [this, ih]

theorem texts_cases (h : List Creation) :
    errTexts h = errString1 ∧ (∀ c ∈ h, ¬ Installs c) ∨ errTexts h = errString2 ∧ ∃ c ∈ h, Installs c := by
  unfold errTexts
  induction h with
  | nil => exact .inl ⟨rfl, by simp⟩
  | cons c h ih =>
    rw [List.foldl_cons]
    rcases creation_table c errString1 with ⟨e, hn⟩ | ⟨e, hi⟩
    · rw [e]
      rcases ih with ⟨e', hn'⟩ | ⟨e', c', hc', hi'⟩
      · exact .inl ⟨e', by simpa [hn] using hn'⟩
      · exact .inr ⟨e', c', List.mem_cons_of_mem _ hc', hi'⟩
    · rw [e]
      exact .inr ⟨texts_installed h, c, List.mem_cons_self, hi⟩

/-- Looking up a key in a table without duplicate keys. -/
theorem get_iff {d : Table} (hd : (d.map Prod.fst).Nodup) (k : Int) (t : Str) : d.get k = .ok t ↔ (k, t) ∈ d := by
  unfold Table.get
  induction d with
  | nil => simp
  | cons p d ih =>
    obtain ⟨a, b⟩ := p
    rw [List.map_cons, List.nodup_cons] at hd
    by_cases h : a = k
    · subst h
      simp only [List.find?_cons, beq_self_eq_true, Except.ok.injEq, List.mem_cons, Prod.mk.injEq, true_and]
      constructor
      · exact fun h => .inl h.symm
      · rintro (h | h)
        · exact h.symm
        · exact absurd (List.mem_map_of_mem (f := Prod.fst) h) hd.1
    · simp only [List.find?_cons, beq_eq_false_iff_ne.mpr h]
      rw [ih hd.2]
      simp only [List.mem_cons, Prod.mk.injEq]
      constructor
      · exact .inr
      · rintro (h' | h')
        · exact absurd h'.1.symm h
        · exact h'

theorem get_error {d : Table} {k : Int} {e : Exc} (h : d.get k = .error e) : e = .keyError := by
  unfold Table.get at h
  split at h <;> cases h
  rfl

theorem statusText_iff (h : List Creation) (v : Int) (t : Str) :
    (errTexts h).get v = .ok t ↔ ∃ s, t = lit s ∧ StatusText (∃ c ∈ h, Installs c) v s := by
  have e1 : errString1 = statusTexts1.map fun p => (p.1, lit p.2) := rfl
  have e2 : errString2 = (statusTexts1 ++ statusTexts2).map fun p => (p.1, lit p.2) := by decide +kernel
  rcases texts_cases h with ⟨e, hn⟩ | ⟨e, hi⟩
  · rw [e, get_iff (by decide), e1]
    have : ¬ ∃ c ∈ h, Installs c := by rintro ⟨c, hc, hi⟩; exact hn c hc hi
    simp only [StatusText, this, false_and, or_false, List.mem_map, Prod.mk.injEq, Prod.exists]
    constructor
    · rintro ⟨a, s, hm, rfl, rfl⟩; exact ⟨s, rfl, hm⟩
    · rintro ⟨s, rfl, hm⟩; exact ⟨v, s, hm, rfl, rfl⟩
  · rw [e, get_iff (by decide), e2]
    simp only [StatusText, hi, true_and, List.mem_map, Prod.mk.injEq, Prod.exists, List.mem_append]
    constructor
    · rintro ⟨a, s, hm, rfl, rfl⟩; exact ⟨s, rfl, hm⟩
    · rintro ⟨s, rfl, hm⟩; exact ⟨v, s, hm, rfl, rfl⟩

/-- C57: the text of an error status, in a process with any history of creations: the number, a colon and the error text;
the texts of SNMPv2 exist exactly if some SNMPv2 error status has been created. -/
theorem C57_status_text (h : List Creation) (v : Int) (t : Str) :
    errorStatusStr (errTexts h) v = .ok t ↔
      ∃ n s, Decimal v n ∧ StatusText (∃ c ∈ h, Installs c) v s ∧ t = n ++ lit ": " ++ lit s := by
  unfold errorStatusStr
  constructor
  · intro he
    split at he
    · cases he
    · next u hu =>
      obtain ⟨s, rfl, hs⟩ := (statusText_iff h v u).mp hu
      simp only [Except.ok.injEq] at he
      exact ⟨_, s, (decimal_iff v _).mp rfl, hs, he.symm⟩
  · rintro ⟨n, s, hn, hs, rfl⟩
    rw [(statusText_iff h v (lit s)).mpr ⟨s, rfl, hs⟩, ← (decimal_iff v n).mpr hn]

/-- C57: which values have a text: 0..5 always, 6..18 exactly after an SNMPv2 error status was created, no others; every
other value raises KeyError. -/
theorem C57_which (h : List Creation) (v : Int) :
    ((0 ≤ v ∧ v ≤ 5 ∨ 6 ≤ v ∧ v ≤ 18 ∧ ∃ c ∈ h, Installs c) → ∃ t, errorStatusStr (errTexts h) v = .ok t) ∧
    (¬ (0 ≤ v ∧ v ≤ 5 ∨ 6 ≤ v ∧ v ≤ 18 ∧ ∃ c ∈ h, Installs c) → errorStatusStr (errTexts h) v = .error .keyError) := by
  have k1 : ∀ p ∈ statusTexts1, 0 ≤ p.1 ∧ p.1 ≤ 5 := by decide
  have k2 : ∀ p ∈ statusTexts2, 6 ≤ p.1 ∧ p.1 ≤ 18 := by decide
  constructor
  · intro hv
    have : ∃ s, StatusText (∃ c ∈ h, Installs c) v s := by
      rcases hv with ⟨h1, h2⟩ | ⟨h1, h2, hi⟩
      · have hk : ∀ j ∈ List.range 6, (j : Int) ∈ statusTexts1.map Prod.fst := by decide
        have hm : v ∈ statusTexts1.map Prod.fst := by
          have := hk v.toNat (by simp; omega)
          rwa [Int.toNat_of_nonneg h1] at this
        obtain ⟨⟨a, s⟩, hp, rfl⟩ := List.mem_map.mp hm
        exact ⟨s, .inl hp⟩
      · have hk : ∀ j ∈ List.range 13, ((6 + j : Nat) : Int) ∈ statusTexts2.map Prod.fst := by decide
        have hm : v ∈ statusTexts2.map Prod.fst := by
          have := hk (v.toNat - 6) (by simp; omega)
          have e : ((6 + (v.toNat - 6) : Nat) : Int) = v := by omega
          rwa [e] at this
        obtain ⟨⟨a, s⟩, hp, rfl⟩ := List.mem_map.mp hm
        exact ⟨s, .inr ⟨hi, hp⟩⟩
    obtain ⟨s, hs⟩ := this
    exact ⟨_, (C57_status_text h v _).mpr ⟨_, s, (decimal_iff v _).mp rfl, hs, rfl⟩⟩
  · intro hv
    cases hr : errorStatusStr (errTexts h) v with
    | ok t =>
      obtain ⟨n, s, _, hs, _⟩ := (C57_status_text h v t).mp hr
      exfalso
      apply hv
      rcases hs with hs | ⟨hi, hs⟩
      · exact .inl (k1 _ hs)
      · exact .inr ⟨(k2 _ hs).1, (k2 _ hs).2, hi⟩
    | error e =>
      unfold errorStatusStr at hr
      split at hr
      · next e' he => cases hr; rw [get_error he]
      · cases hr

/-- C57: the constructors behave as in C27-C35 whatever the texts; a PDU class that is not SNMPv2's leaves them alone, and
once an SNMPv2 PDU exists, its error status has a text if it is in 0..18. -/
theorem C57_constructor (c : SeqCls) (a b x : Int) (vbs : List Val) (d : Table) :
    (newPDU c a b x vbs d).1 = mkPDU c a b x vbs := by
  unfold newPDU
  split
  · next h =>
    unfold mkPDU newPDU2 mkPDU2 newErrorStatus2
    rw [if_pos h]
    split
    · rfl
    · cases mkInteger .integer32 a with
      | error e => rfl
      | ok r =>
        cases mkInteger .errorStatus2 b with
        | error e => rfl
        | ok es =>
          cases mkInteger .integer x with
          | error e => rfl
          | ok ei => cases hl : mkVarBindList .varBindList2 vbs <;> simp [bind, Except.bind, hl]
  · rfl

theorem C57_v2_pdu_installs (c : SeqCls) (a b x : Int) (vbs : List Val) (v : Val) (hc : (Cls.seq c).isSubclass (.seq .pdu2) = true)
    (h : mkPDU c a b x vbs = .ok v) : Installs (.pdu c a b x vbs) := by
  rcases newPDU_table c a b x vbs errString1 with ⟨_, hn⟩ | ⟨_, hi⟩
  · exfalso
    apply hn
    have hc' : c ∈ [SeqCls.pdu2, .get2, .getNext2, .response2, .set2, .inform, .trapV2, .report] := by
      revert hc; cases c <;> decide
    unfold mkPDU mkPDU2 at h
    rw [if_pos hc] at h
    split at h
    · cases h
    · next hx =>
      refine ⟨hc', by omega, ?_, ?_⟩
      · by_contra hn
        have : mkInteger .integer32 a = .error .valueError := if_neg hn
        rw [this] at h
        cases h
      · by_contra hn
        have : mkInteger .errorStatus2 b = .error .valueError := if_neg hn
        rw [this] at h
        cases hr : mkInteger .integer32 a <;> rw [hr] at h <;> cases h
  · exact hi

/-! ## C52: `enum` -/

/-- C52: `ErrorStatus.enum` raises TypeError for every argument. -/
theorem C52_errorStatus_enum (num : Option Int) : errorStatusEnum num = .error .typeError := rfl

/-- C52: `GenericTrap.enum` works for the seven generic traps and raises KeyError otherwise. -/
theorem C52_genericTrap_enum (value : Int) (num : Option Int) :
    (∀ t, genericTrapEnum value num = .ok t ↔ ∃ s, t = lit s ∧ (num.getD value, s) ∈ trapNames) ∧
    (∀ e, genericTrapEnum value num = .error e → e = .keyError) := by
  refine ⟨fun t => ?_, fun e => get_error⟩
  unfold genericTrapEnum
  have e1 : genericTraps = trapNames.map fun p => (p.1, lit p.2) := rfl
  rw [get_iff (by decide), e1]
  simp only [List.mem_map, Prod.mk.injEq, Prod.exists]
  constructor
  · rintro ⟨a, s, hm, rfl, rfl⟩; exact ⟨s, rfl, hm⟩
  · rintro ⟨s, rfl, hm⟩; exact ⟨_, s, hm, rfl, rfl⟩

/-! ## C62: the text of any object -/

theorem trapName_iff (v : Int) (t : Str) : genericTraps.get v = .ok t ↔ ∃ s, t = lit s ∧ (v, s) ∈ trapNames :=
  (C52_genericTrap_enum v none).1 t

theorem address_iff (c : OctCls) : (Cls.oct c).isSubclass (.oct .ipAddress) = true ↔ c = .ipAddress ∨ c = .networkAddress := by
  cases c <;> decide

mutual
theorem valStr_shows (h : List Creation) : (v : Val) → (t : Str) → valStr (errTexts h) v = .ok t →
    Shows (∃ c ∈ h, Installs c) v t
  | .none, t, e => by simp only [valStr, Except.ok.injEq] at e; subst e; exact .none
  | .int n, t, e => by
    simp only [valStr, Except.ok.injEq] at e
    exact .int ((decimal_iff n t).mp e)
  | .str s, t, e => by simp only [valStr, Except.ok.injEq] at e; subst e; exact .str
  | .bytes s, t, e => by simp only [valStr, Except.ok.injEq] at e; subst e; exact .bytes
  | .integer c n, t, e => by
    rw [valStr] at e
    split at e
    · next hc =>
      obtain ⟨d, s, hd, hs, rfl⟩ := (C57_status_text h n t).mp e
      exact .status hc hd hs
    · next hc =>
      split at e
      · next hg =>
        subst hg
        unfold genericTrapStr at e
        split at e
        · cases e
        · next u hu =>
          obtain ⟨s, rfl, hs⟩ := (trapName_iff n u).mp hu
          simp only [Except.ok.injEq] at e
          subst e
          exact .trap ((decimal_iff n _).mp rfl) hs
      · next hg =>
        simp only [Except.ok.injEq] at e
        exact .integer (fun h => hc (.inl h)) (fun h => hc (.inr h)) hg ((decimal_iff n t).mp e)
  | .octets c s, t, e => by
    rw [valStr] at e
    split at e
    · next hc =>
      simp only [Except.ok.injEq] at e
      exact .address ((address_iff c).mp hc) ((byteDecimals_iff s _).mp rfl) ((joined_iff _ _ t).mp e)
    · next hc =>
      simp only [Except.ok.injEq] at e
      subst e
      exact .octets (fun h => hc ((address_iff c).mpr (.inl h))) (fun h => hc ((address_iff c).mpr (.inr h)))
  | .raw c l, t, e => by simp [valStr] at e
  | .oid .none, t, e => by simp only [valStr, oidStr, Except.ok.injEq] at e; subst e; exact .unsetOid
  | .oid (some ids), t, e => by
    simp only [valStr, oidStr, Except.ok.injEq] at e
    subst e
    exact .oid ((decimals_iff ids _).mp rfl) ((joined_iff _ _ _).mp rfl)
  | .null .null, t, e => by simp only [valStr, Except.ok.injEq] at e; subst e; exact .null
  | .null .noSuchObject, t, e => by simp only [valStr, Except.ok.injEq] at e; subst e; exact .noSuchObject
  | .null .noSuchInstance, t, e => by simp only [valStr, Except.ok.injEq] at e; subst e; exact .noSuchInstance
  | .null .endOfMibView, t, e => by simp only [valStr, Except.ok.injEq] at e; subst e; exact .endOfMibView
  | .seq c items, t, e => by
    rw [valStr] at e
    split at e
    · cases e
    · next ts hts =>
      simp only [Except.ok.injEq] at e
      subst e
      exact .seq (itemsStr_shows h items ts hts) ((joined_iff _ _ _).mp rfl)
theorem itemsStr_shows (h : List Creation) : (l : List Val) → (ts : List Str) → itemsStr (errTexts h) l = .ok ts →
    ShowsAll (∃ c ∈ h, Installs c) l ts
  | [], ts, e => by simp only [itemsStr, Except.ok.injEq] at e; subst e; exact .nil
  | x :: xs, ts, e => by
    rw [itemsStr] at e
    split at e
    · cases e
    · next t ht =>
      split at e
      · cases e
      · next us hus =>
        simp only [Except.ok.injEq] at e
        subst e
        exact .cons (valStr_shows h x t ht) (itemsStr_shows h xs us hus)
end

mutual
theorem shows_valStr (h : List Creation) {v : Val} {t : Str} : Shows (∃ c ∈ h, Installs c) v t → valStr (errTexts h) v = .ok t
  | .none => by simp [valStr]
  | .int hd => by simp [valStr, (decimal_iff _ _).mpr hd]
  | .str => by simp [valStr]
  | .bytes => by simp [valStr]
  | .integer h1 h2 h3 hd => by simp [valStr, h1, h2, h3, (decimal_iff _ _).mpr hd]
  | .status hc hd hs => by
    rw [valStr, if_pos hc]
    exact (C57_status_text h _ _).mpr ⟨_, _, hd, hs, rfl⟩
  | .trap hd hs => by
    simp only [valStr, genericTrapStr, (trapName_iff _ _).mpr ⟨_, rfl, hs⟩, (decimal_iff _ _).mpr hd, reduceCtorEq, or_self,
      if_false, if_true]
  | .octets (c := c) h1 h2 => by
    have : ¬ (Cls.oct c).isSubclass (.oct .ipAddress) = true := fun hx => by
      rcases (address_iff c).mp hx with h | h
      · exact h1 h
      · exact h2 h
    rw [valStr, if_neg this]
  | .address hc hd hj => by
    rw [valStr, if_pos ((address_iff _).mpr hc), ipStr, (byteDecimals_iff _ _).mpr hd, (joined_iff _ _ _).mpr hj]
  | .unsetOid => by simp [valStr, oidStr]
  | .oid hd hj => by
    rw [valStr, oidStr, (decimals_iff _ _).mpr hd, (joined_iff _ _ _).mpr hj]
    rfl
  | .null => by simp [valStr]
  | .noSuchObject => by simp [valStr]
  | .noSuchInstance => by simp [valStr]
  | .endOfMibView => by simp [valStr]
  | .seq ha hj => by
    rw [valStr, shows_itemsStr h ha]
    simp only [(joined_iff _ _ _).mpr hj]
    rfl
theorem shows_itemsStr (h : List Creation) {l : List Val} {ts : List Str} :
    ShowsAll (∃ c ∈ h, Installs c) l ts → itemsStr (errTexts h) l = .ok ts
  | .nil => by simp [itemsStr]
  | .cons hx hxs => by rw [itemsStr, shows_valStr h hx, shows_itemsStr h hxs]
end

/-- C62: the text of any object, in any process. -/
theorem C62_text (h : List Creation) (v : Val) (t : Str) :
    valStr (errTexts h) v = .ok t ↔ Shows (∃ c ∈ h, Installs c) v t :=
  ⟨valStr_shows h v t, shows_valStr h⟩

/-- C62: the text of a message is that of the list of its version, community and PDU. -/
theorem C62_message_text (h : List Creation) (m : Msg) (t : Str) :
    msgStr (errTexts h) m = .ok t ↔ Shows (∃ c ∈ h, Installs c) (.seq m.cls [m.version, m.community, m.data]) t := by
  rw [← C62_text]
  unfold msgStr
  simp only [valStr, itemsStr]
  cases valStr (errTexts h) m.version with
  | error e => simp
  | ok v =>
    simp only
    cases valStr (errTexts h) m.community with
    | error e => simp
    | ok c =>
      simp only
      cases valStr (errTexts h) m.data with
      | error e => simp
      | ok p => simp [pyJoin, List.append_assoc]

/-- An object without an address built from a list. -/
inductive Proper : Val → Prop
  | none : Proper .none
  | int {n} : Proper (.int n)
  | str {s} : Proper (.str s)
  | bytes {s} : Proper (.bytes s)
  | integer {c n} : Proper (.integer c n)
  | octets {c s} : Proper (.octets c s)
  | oid {v} : Proper (.oid v)
  | null {c} : Proper (.null c)
  | seq {c items} : (∀ x ∈ items, Proper x) → Proper (.seq c items)

mutual
theorem valStr_error {d : Table} : (v : Val) → Proper v → (e : Exc) → valStr d v = .error e → e = .keyError
  | .none, _, e, h => by simp [valStr] at h
  | .int n, _, e, h => by simp [valStr] at h
  | .str n, _, e, h => by simp [valStr] at h
  | .bytes n, _, e, h => by simp [valStr] at h
  | .integer c n, _, e, h => by
    rw [valStr] at h
    split at h
    · unfold errorStatusStr at h
      split at h
      · next e' he => cases h; exact get_error he
      · cases h
    · split at h
      · unfold genericTrapStr at h
        split at h
        · next e' he => cases h; exact get_error he
        · cases h
      · cases h
  | .octets c s, _, e, h => by
    rw [valStr] at h
    split at h <;> cases h
  | .raw c l, hp, e, h => by cases hp
  | .oid v, _, e, h => by simp [valStr] at h
  | .null c, _, e, h => by cases c <;> simp [valStr] at h
  | .seq c items, hp, e, h => by
    rw [valStr] at h
    split at h
    · next e' he =>
      cases h
      cases hp with
      | seq hp => exact itemsStr_error items hp e he
    · cases h
theorem itemsStr_error {d : Table} : (l : List Val) → (∀ x ∈ l, Proper x) → (e : Exc) → itemsStr d l = .error e →
    e = .keyError
  | [], _, e, h => by simp [itemsStr] at h
  | x :: xs, hp, e, h => by
    rw [itemsStr] at h
    split at h
    · next e' he => cases h; exact valStr_error x (hp x List.mem_cons_self) e he
    · split at h
      · next e' he => cases h; exact itemsStr_error xs (fun y hy => hp y (List.mem_cons_of_mem _ hy)) e he
      · cases h
end

/-- C62: `str()` of an object that holds no address built from a list either gives a text or raises KeyError. -/
theorem C62_only_keyError (d : Table) (v : Val) (hp : Proper v) (e : Exc) (h : valStr d v = .error e) : e = .keyError :=
  valStr_error v hp e h

/-! ## Examples -/

example : errorStatusStr (errTexts []) 3 = .ok (lit "3: The value given has the wrong type") := by decide +kernel
example : errorStatusStr (errTexts []) 6 = .error .keyError := by decide +kernel
example : errorStatusStr (errTexts [.status1 1, .pdu .get2 1 0 0 [], .status1 2]) 6 =
    .ok (lit "6: Access is not permitted") := by decide +kernel
example : errorStatusStr (errTexts [.pdu .get 1 0 0 [], .pdu .getBulk 1 0 0 [], .pdu .get2 (2 ^ 40) 0 0 []]) 6 =
    .error .keyError := by decide +kernel
example : valStr (errTexts []) (.seq .response [.integer .integer 7, .integer .errorStatus 2, .integer .integer 1,
      .seq .varBindList [.seq .varBind [.oid (some [1, 3, 6]), .null .null]]]) =
    .ok (lit "[7, 2: There is no such variable name in this MIB, 1, [[.1.3.6, <Null>]]]") := by decide +kernel
/-- A received SNMPv1 response with error status 6 cannot be printed in a process that only uses SNMPv1. -/
example : valStr (errTexts [.pdu .response 7 6 1 []]) (.seq .response [.integer .integer 7, .integer .errorStatus 6,
    .integer .integer 1, .seq .varBindList []]) = .error .keyError := by decide +kernel
example : valStr (errTexts []) (.seq .trapPDU [.oid (some [1, 3, 6]), .octets .networkAddress [10, 0, 0, 1],
      .integer .genericTrap 6, .integer .integer (-4), .none]) =
    .ok (lit "[.1.3.6, 10.0.0.1, GenericTrap: 6 (enterpriseSpecific), -4, None]") := by decide +kernel

end Libsnmp
