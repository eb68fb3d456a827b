import Verif.Lemmas.Codec

/-! Invariants of everything `decode` returns or raises. -/

namespace Libsnmp
open Spec

theorem decodeTagLoop_err (s : Str) (t n : Nat) {e : Exc} (h : decodeTagLoop s t n = .error e) : e = .indexError := by
  fun_induction decodeTagLoop s t n with
  | case1 => simpa using h.symm
  | case2 => simp at h
  | case3 _ _ _ _ _ _ ih => exact ih h

theorem decodeTag_err {s : Str} {e : Exc} (h : decodeTag s = .error e) : e = .indexError := by
  unfold decodeTag at h
  split at h
  · simpa using h.symm
  · split at h
    · split at h
      · next e' he => simp at h; subst h; exact decodeTagLoop_err _ _ _ he
      · simp at h
    · simp at h

theorem decodeLengthLoop_err (s : Str) (r l n : Nat) {e : Exc} (h : decodeLengthLoop s r l n = .error e) :
    e = .indexError := by
  induction r generalizing l n with
  | zero => simp [decodeLengthLoop] at h
  | succ r ih =>
    rw [decodeLengthLoop] at h
    split at h
    · simpa using h.symm
    · exact ih _ _ h

theorem decodeLength_err {s : Str} {e : Exc} (h : decodeLength s = .error e) : e = .indexError := by
  unfold decodeLength at h
  split at h
  · simpa using h.symm
  · split at h
    · split at h
      · next e' he => simp at h; subst h; exact decodeLengthLoop_err _ _ _ _ he
      · simp at h
    · simp at h

/-- Induction over a decoding: `P` holds of every object, `Q` of every exception. -/
theorem decodeAll_inv (reg : Reg) (P : Val → Prop) (Q : Exc → Prop) (hI : Q .indexError) (hV : Q .valueError)
    (hc : ∀ cls t data, reg t = some cls →
      ((∀ items, decodeAll reg data = .ok items → ∀ v ∈ items, P v) ∧ ∀ e, decodeAll reg data = .error e → Q e) →
      ((∀ v, decodeContents reg cls data = .ok v → P v) ∧ ∀ e, decodeContents reg cls data = .error e → Q e))
    (s : Str) :
    (∀ items, decodeAll reg s = .ok items → ∀ v ∈ items, P v) ∧ ∀ e, decodeAll reg s = .error e → Q e := by
  induction hn : s.length using Nat.strong_induction_on generalizing s with
  | _ n ih =>
    rw [decodeAll_eq]
    by_cases hs : s = []
    · simp [hs]
    · rw [if_neg hs]
      cases ht : decodeTag s with
      | error e =>
        refine ⟨by simp, fun e' h => ?_⟩
        simp only [Except.error.injEq] at h
        subst h; rw [decodeTag_err ht]; exact hI
      | ok p =>
        obtain ⟨tag, s1⟩ := p
        have l1 := decodeTag_length ht
        simp only
        cases hl : decodeLength s1 with
        | error e =>
          refine ⟨by simp, fun e' h => ?_⟩
          simp only [Except.error.injEq] at h
          subst h; rw [decodeLength_err hl]; exact hI
        | ok p =>
          obtain ⟨len, s2⟩ := p
          have l2 := decodeLength_length hl
          simp only
          cases hr : reg tag with
          | none =>
            refine ⟨by simp, fun e' h => ?_⟩
            simp only [Except.error.injEq] at h
            subst h; exact hV
          | some cls =>
            simp only
            have c := hc cls tag (s2.take len) hr
              (ih (s2.take len).length (by simp only [List.length_take]; omega) _ rfl)
            have r := ih (s2.drop len).length (by simp only [List.length_drop]; omega) _ rfl
            cases hd : decodeContents reg cls (s2.take len) with
            | error e =>
              refine ⟨by simp, fun e' h => ?_⟩
              simp only [Except.error.injEq] at h
              subst h; exact c.2 _ hd
            | ok obj =>
              simp only
              cases hrest : decodeAll reg (s2.drop len) with
              | error e =>
                refine ⟨by simp, fun e' h => ?_⟩
                simp only [Except.error.injEq] at h
                subst h; exact r.2 _ hrest
              | ok objs =>
                refine ⟨fun items h => ?_, by simp⟩
                simp only [Except.ok.injEq] at h
                subst h
                intro v hv
                rcases List.mem_cons.mp hv with rfl | hv
                · exact c.1 _ hd
                · exact r.1 _ hrest v hv

/-- At least two characters per object. -/
theorem decodeAll_count (reg : Reg) (s : Str) : ∀ objs, decodeAll reg s = .ok objs → 2 * objs.length ≤ s.length := by
  induction hn : s.length using Nat.strong_induction_on generalizing s with
  | _ n ih =>
    intro objs h
    rw [decodeAll_eq] at h
    by_cases hs : s = []
    · rw [if_pos hs] at h
      simp only [Except.ok.injEq] at h
      subst h; simp
    · rw [if_neg hs] at h
      split at h
      · simp at h
      · next tag s1 ht =>
        have l1 := decodeTag_length ht
        split at h
        · simp at h
        · next len s2 hl =>
          have l2 := decodeLength_length hl
          split at h
          · simp at h
          · split at h
            · simp at h
            · split at h
              · simp at h
              · next objs' hr =>
                have := ih (s2.drop len).length (by simp only [List.length_drop]; omega) _ rfl _ hr
                simp only [Except.ok.injEq] at h
                subst h
                simp only [List.length_drop] at this
                simp only [List.length_cons]
                omega

/-! ### Exceptions -/

/-- The exceptions `decode` can raise. -/
def decodeExceptions : List Exc :=
  [.valueError, .typeError, .indexError, .notImplementedError, .pduError, .pduError2]

mutual
/-- No ObjectID without a value anywhere in the object. -/
def Val.allSet : Val → Prop
  | .oid none => False
  | .seq _ items => allSetList items
  | _ => True
def allSetList : List Val → Prop
  | [] => True
  | x :: xs => x.allSet ∧ allSetList xs
end

theorem allSetList_iff {xs : List Val} : allSetList xs ↔ ∀ x ∈ xs, x.allSet := by
  induction xs with
  | nil => simp [allSetList]
  | cons x xs ih => simp [allSetList, ih]

theorem iter_err {v : Val} (h : v.allSet) {e : Exc} (he : v.iter = .error e) : e ∈ decodeExceptions := by
  unfold Val.iter at he
  split at he <;> simp only [Except.error.injEq, reduceCtorEq] at he
  · exact absurd h (by simp [Val.allSet])
  · subst he; decide

theorem iter_set {v : Val} (h : v.allSet) {l : List Val} (hl : v.iter = .ok l) : ∀ x ∈ l, x.allSet := by
  unfold Val.iter at hl
  split at hl <;> simp only [Except.ok.injEq, reduceCtorEq] at hl <;> subst hl
  · exact allSetList_iff.mp (by simpa [Val.allSet] using h)
  all_goals
    intro x hx
    obtain ⟨y, _, rfl⟩ := List.mem_map.mp hx
    simp [Val.allSet]

theorem getItem_err {v : Val} (h : v.allSet) {i : Nat} {e : Exc} (he : v.getItem i = .error e) :
    e ∈ decodeExceptions := by
  unfold Val.getItem at he
  split at he
  case h_3 => exact absurd h (by simp [Val.allSet])
  case h_6 => simp only [Except.error.injEq] at he; subst he; decide
  all_goals
    split at he <;> simp only [Except.error.injEq, reduceCtorEq] at he
    subst he; decide

theorem getItem_set {v : Val} (h : v.allSet) {i : Nat} {x : Val} (hx : v.getItem i = .ok x) : x.allSet := by
  unfold Val.getItem at hx
  split at hx
  case h_1 c items =>
    have := allSetList_iff.mp (by simpa [Val.allSet] using h)
    split at hx <;> simp only [Except.ok.injEq, reduceCtorEq] at hx
    next y hy => subst hx; exact this _ (List.mem_of_getElem? hy)
  case h_3 => simp at hx
  case h_6 => simp at hx
  all_goals
    split at hx <;> simp only [Except.ok.injEq, reduceCtorEq] at hx
    subst hx; simp [Val.allSet]

theorem toInt_err {v : Val} {e : Exc} (he : v.toInt = .error e) : e ∈ decodeExceptions := by
  have pi : ∀ s, pyInt s = .error e → e ∈ decodeExceptions := by
    intro s hs
    unfold pyInt at hs
    split at hs <;> split at hs <;> simp only [Except.error.injEq, reduceCtorEq] at hs <;> (subst hs; decide)
  unfold Val.toInt at he
  split at he
  · simp at he
  · simp at he
  · exact pi _ he
  · exact pi _ he
  · simp only [Except.error.injEq] at he; subst he; decide

theorem mkInteger_err {c : IntCls} {v : Int} {e : Exc} (h : mkInteger c v = .error e) : e = .valueError := by
  unfold mkInteger at h
  split at h <;> simp at h
  exact h.symm

theorem mkInteger_ok {c : IntCls} {v : Int} {x : Val} (h : mkInteger c v = .ok x) :
    x = .integer c v ∧ c.minVal ≤ v ∧ v ≤ c.maxVal := by
  unfold mkInteger at h
  split at h <;> simp at h
  next hr => exact ⟨h.symm, hr⟩

theorem mkVarBind_err {c : SeqCls} {n v : Val} {e : Exc} (h : mkVarBind c n v = .error e) : e = .valueError := by
  unfold mkVarBind at h
  split at h
  · simpa using h.symm
  · split at h
    · simpa using h.symm
    · simp at h

theorem mkVarBind_ok {c : SeqCls} {n v x : Val} (h : mkVarBind c n v = .ok x) :
    x = .seq c [n, v] ∧ (n.truthy = true → n.isInstance .oid = true) ∧
      (v.truthy = true → v.isInstance .asn1Object = true) := by
  unfold mkVarBind at h
  split at h
  · simp at h
  · next h1 =>
    split at h
    · simp at h
    · next h2 =>
      simp only [Except.ok.injEq] at h
      refine ⟨h.symm, ?_, ?_⟩
      · intro ht; simpa [ht] using h1
      · intro ht; simpa [ht] using h2

theorem mkVarBindList_err {c : SeqCls} {l : List Val} {e : Exc} (h : mkVarBindList c l = .error e) :
    e = .valueError := by
  unfold mkVarBindList at h
  split at h
  · simpa using h.symm
  · split at h
    · simp at h
    · simpa using h.symm

theorem mkVarBindList_ok {c : SeqCls} {l : List Val} {x : Val} (h : mkVarBindList c l = .ok x) : x = .seq c l := by
  unfold mkVarBindList at h
  split at h
  · simp at h
  · split at h
    · simpa using h.symm
    · simp at h

theorem bind_error {α β : Type} {x : Except Exc α} {f : α → Except Exc β} {e : Exc} (h : (x >>= f) = .error e) :
    x = .error e ∨ ∃ a, x = .ok a ∧ f a = .error e := by
  cases x with
  | error e' => left; simpa [bind, Except.bind] using h
  | ok a => right; exact ⟨a, rfl, by simpa [bind, Except.bind] using h⟩

theorem bind_ok {α β : Type} {x : Except Exc α} {f : α → Except Exc β} {b : β} (h : (x >>= f) = .ok b) :
    ∃ a, x = .ok a ∧ f a = .ok b := by
  cases x with
  | error e' => simp [bind, Except.bind] at h
  | ok a => exact ⟨a, rfl, by simpa [bind, Except.bind] using h⟩

/-- What a PDU constructor returns. -/
theorem mkPDU_ok {c : SeqCls} {a b d : Int} {vbs : List Val} {x : Val} (h : mkPDU c a b d vbs = .ok x) :
    ∃ (c1 c2 : IntCls) (cl : SeqCls),
      x = .seq c [.integer c1 a, .integer c2 b, .integer .integer d, .seq cl vbs] ∧
      (cl = .varBindList ∨ cl = .varBindList2) ∧ (c1 = .integer ∨ c1 = .integer32) ∧
      (c2 = .integer ∨ c2 = .errorStatus ∨ c2 = .errorStatus2) ∧
      (c1.minVal ≤ a ∧ a ≤ c1.maxVal) ∧ (c2.minVal ≤ b ∧ b ≤ c2.maxVal) ∧
      (IntCls.integer.minVal ≤ d ∧ d ≤ IntCls.integer.maxVal) := by
  unfold mkPDU at h
  split at h
  · unfold mkPDU2 at h
    split at h
    · simp at h
    · obtain ⟨r, e1, h⟩ := bind_ok h
      obtain ⟨es, e2, h⟩ := bind_ok h
      obtain ⟨ei, e3, h⟩ := bind_ok h
      obtain ⟨l, e4, h⟩ := bind_ok h
      obtain ⟨rfl, p1⟩ := mkInteger_ok e1
      obtain ⟨rfl, p2⟩ := mkInteger_ok e2
      obtain ⟨rfl, p3⟩ := mkInteger_ok e3
      cases mkVarBindList_ok e4
      cases h
      exact ⟨_, _, _, rfl, .inr rfl, .inr rfl, .inr (.inr rfl), p1, p2, p3⟩
  · split at h
    · unfold mkBulk at h
      split at h
      · simp at h
      · split at h
        · simp at h
        · obtain ⟨r, e1, h⟩ := bind_ok h
          obtain ⟨es, e2, h⟩ := bind_ok h
          obtain ⟨ei, e3, h⟩ := bind_ok h
          obtain ⟨l, e4, h⟩ := bind_ok h
          obtain ⟨rfl, p1⟩ := mkInteger_ok e1
          obtain ⟨rfl, p2⟩ := mkInteger_ok e2
          obtain ⟨rfl, p3⟩ := mkInteger_ok e3
          cases mkVarBindList_ok e4
          cases h
          exact ⟨_, _, _, rfl, .inr rfl, .inr rfl, .inl rfl, p1, p2, p3⟩
    · unfold mkPDU1 at h
      obtain ⟨r, e1, h⟩ := bind_ok h
      obtain ⟨es, e2, h⟩ := bind_ok h
      obtain ⟨ei, e3, h⟩ := bind_ok h
      obtain ⟨l, e4, h⟩ := bind_ok h
      obtain ⟨rfl, p1⟩ := mkInteger_ok e1
      obtain ⟨rfl, p2⟩ := mkInteger_ok e2
      obtain ⟨rfl, p3⟩ := mkInteger_ok e3
      cases mkVarBindList_ok e4
      cases h
      exact ⟨_, _, _, rfl, .inl rfl, .inl rfl, .inr (.inl rfl), p1, p2, p3⟩

theorem mkPDU_err {c : SeqCls} {a b d : Int} {vbs : List Val} {e : Exc} (h : mkPDU c a b d vbs = .error e) :
    e = .valueError := by
  have tail : ∀ (c1 c2 cl : _) , ((do
      let r ← mkInteger c1 a
      let es ← mkInteger c2 b
      let ei ← mkInteger .integer d
      let l ← mkVarBindList cl vbs
      .ok (.seq c [r, es, ei, l]) : Except Exc Val)) = .error e → e = .valueError := by
    intro c1 c2 cl h
    rcases bind_error h with h | ⟨r, _, h⟩
    · exact mkInteger_err h
    rcases bind_error h with h | ⟨r, _, h⟩
    · exact mkInteger_err h
    rcases bind_error h with h | ⟨r, _, h⟩
    · exact mkInteger_err h
    rcases bind_error h with h | ⟨r, _, h⟩
    · exact mkVarBindList_err h
    · simp at h
  unfold mkPDU at h
  split at h
  · unfold mkPDU2 at h
    split at h
    · simpa using h.symm
    · exact tail _ _ _ h
  · split at h
    · unfold mkBulk at h
      split at h
      · simpa using h.symm
      · split at h
        · simpa using h.symm
        · exact tail _ _ _ h
    · exact tail _ _ _ h

theorem mkVarBinds_err {c : SeqCls} {l : List Val} (hl : ∀ x ∈ l, x.allSet) {e : Exc}
    (h : mkVarBinds c l = .error e) : e ∈ decodeExceptions := by
  induction l with
  | nil => simp [mkVarBinds] at h
  | cons x xs ih =>
    rw [mkVarBinds] at h
    have hx := hl x (by simp)
    rcases bind_error h with h | ⟨_, _, h⟩
    · exact getItem_err hx h
    rcases bind_error h with h | ⟨_, _, h⟩
    · exact getItem_err hx h
    rcases bind_error h with h | ⟨_, _, h⟩
    · rw [mkVarBind_err h]; decide
    rcases bind_error h with h | ⟨_, _, h⟩
    · exact ih (fun y hy => hl y (by simp [hy])) h
    · simp at h

/-- Elements of the list of VarBinds built from decoded items. -/
theorem mkVarBinds_ok {c : SeqCls} {l vbs : List Val} (h : mkVarBinds c l = .ok vbs) :
    ∀ x ∈ vbs, ∃ item ∈ l, ∃ n v, item.getItem 0 = .ok n ∧ item.getItem 1 = .ok v ∧ x = .seq c [n, v] ∧
      (n.truthy = true → n.isInstance .oid = true) ∧ (v.truthy = true → v.isInstance .asn1Object = true) := by
  induction l generalizing vbs with
  | nil => simp [mkVarBinds] at h; subst h; simp
  | cons x xs ih =>
    rw [mkVarBinds] at h
    obtain ⟨n, hn, h⟩ := bind_ok h
    obtain ⟨v, hv, h⟩ := bind_ok h
    obtain ⟨vb, hvb, h⟩ := bind_ok h
    obtain ⟨rest, hrest, h⟩ := bind_ok h
    cases h
    intro y hy
    rcases List.mem_cons.mp hy with rfl | hy
    · obtain ⟨e, p⟩ := mkVarBind_ok hvb
      exact ⟨x, by simp, n, v, hn, hv, e, p⟩
    · obtain ⟨item, hi, p⟩ := ih hrest y hy
      exact ⟨item, by simp [hi], p⟩

theorem finishPDU_err {c : SeqCls} {items : List Val} (hs : ∀ x ∈ items, x.allSet) {e : Exc}
    (h : finishPDU c items = .error e) : e ∈ decodeExceptions := by
  unfold finishPDU at h
  simp only at h
  split at h
  · next o0 o1 o2 o3 =>
    rcases bind_error h with h | ⟨l, hl, h⟩
    · exact iter_err (hs o3 (by simp)) h
    rcases bind_error h with h | ⟨_, _, h⟩
    · exact mkVarBinds_err (iter_set (hs o3 (by simp)) hl) h
    rcases bind_error h with h | ⟨_, _, h⟩
    · exact toInt_err h
    rcases bind_error h with h | ⟨_, _, h⟩
    · exact toInt_err h
    rcases bind_error h with h | ⟨_, _, h⟩
    · exact toInt_err h
    · rw [mkPDU_err h]; decide
  · simp only [Except.error.injEq] at h
    subst h
    split <;> decide

theorem finishTrap_err {items : List Val} (hs : ∀ x ∈ items, x.allSet) {e : Exc}
    (h : finishTrap items = .error e) : e ∈ decodeExceptions := by
  unfold finishTrap at h
  split at h
  · next o0 o1 o2 o3 o4 o5 =>
    rcases bind_error h with h | ⟨l, hl, h⟩
    · exact iter_err (hs o5 (by simp)) h
    rcases bind_error h with h | ⟨_, _, h⟩
    · exact mkVarBinds_err (iter_set (hs o5 (by simp)) hl) h
    rcases bind_error h with h | ⟨_, _, h⟩
    · exact toInt_err h
    rcases bind_error h with h | ⟨_, _, h⟩
    · rw [mkInteger_err h]; decide
    · simp at h
  · simp only [Except.error.injEq] at h
    subst h; decide

/-- The successful results of the three ways to finish a sequence. -/
theorem finishSeq_ok {c : SeqCls} {items : List Val} {v : Val} (h : finishSeq c items = .ok v) :
    (v = .seq c items ∧ (Cls.seq c).isSubclass (.seq .pdu) = false ∧ (Cls.seq c).isSubclass (.seq .bulkPDU) = false ∧
      (Cls.seq c).isSubclass (.seq .trapPDU) = false) ∨
    (∃ o0 o1 o2 o3 l vbs a b d cb, items = [o0, o1, o2, o3] ∧
      ((Cls.seq c).isSubclass (.seq .pdu) || (Cls.seq c).isSubclass (.seq .bulkPDU)) = true ∧ o3.iter = .ok l ∧
      (cb = SeqCls.varBind ∨ cb = SeqCls.varBind2) ∧ mkVarBinds cb l = .ok vbs ∧
      o0.toInt = .ok a ∧ o1.toInt = .ok b ∧ o2.toInt = .ok d ∧ mkPDU c a b d vbs = .ok v) ∨
    (∃ o0 o1 o2 o3 o4 o5 l vbs g, items = [o0, o1, o2, o3, o4, o5] ∧ o5.iter = .ok l ∧
      mkVarBinds .varBind l = .ok vbs ∧ o2.toInt = .ok g ∧
      (IntCls.genericTrap.minVal ≤ g ∧ g ≤ IntCls.genericTrap.maxVal) ∧
      (Cls.seq c).isSubclass (.seq .pdu) = false ∧ (Cls.seq c).isSubclass (.seq .bulkPDU) = false ∧
      (Cls.seq c).isSubclass (.seq .trapPDU) = true ∧
      v = mkTrap o0 o1 (.integer .genericTrap g) o3 o4 (.seq .varBindList vbs)) := by
  unfold finishSeq at h
  split at h
  · next hp =>
    right; left
    unfold finishPDU at h
    simp only at h
    split at h
    · next o0 o1 o2 o3 =>
      obtain ⟨l, h1, h⟩ := bind_ok h
      obtain ⟨vbs, h2, h⟩ := bind_ok h
      obtain ⟨a, h3, h⟩ := bind_ok h
      obtain ⟨b, h4, h⟩ := bind_ok h
      obtain ⟨d, h5, h⟩ := bind_ok h
      refine ⟨o0, o1, o2, o3, l, vbs, a, b, d, _, rfl, hp, h1, ?_, h2, h3, h4, h5, h⟩
      split <;> simp
    · simp at h
  · next hn =>
    have hn' : (Cls.seq c).isSubclass (.seq .pdu) = false ∧ (Cls.seq c).isSubclass (.seq .bulkPDU) = false := by
      simpa using hn
    split at h
    · next ht =>
      right; right
      unfold finishTrap at h
      split at h
      · next o0 o1 o2 o3 o4 o5 =>
        obtain ⟨l, h1, h⟩ := bind_ok h
        obtain ⟨vbs, h2, h⟩ := bind_ok h
        obtain ⟨g, h3, h⟩ := bind_ok h
        obtain ⟨gt, h4, h⟩ := bind_ok h
        obtain ⟨rfl, p⟩ := mkInteger_ok h4
        cases h
        exact ⟨o0, o1, o2, o3, o4, o5, l, vbs, g, rfl, h1, h2, h3, p, hn'.1, hn'.2, ht, rfl⟩
      · simp at h
    · next ht =>
      left
      simp only [Except.ok.injEq] at h
      exact ⟨h.symm, hn'.1, hn'.2, by simpa using ht⟩

theorem mkVarBinds_set {c : SeqCls} {l vbs : List Val} (h : mkVarBinds c l = .ok vbs) (hl : ∀ x ∈ l, x.allSet) :
    ∀ x ∈ vbs, x.allSet := by
  intro x hx
  obtain ⟨item, hi, n, v, h1, h2, rfl, _⟩ := mkVarBinds_ok h x hx
  simp only [Val.allSet, allSetList, and_true]
  exact ⟨getItem_set (hl item hi) h1, getItem_set (hl item hi) h2⟩

theorem finishSeq_set {c : SeqCls} {items : List Val} (hs : ∀ x ∈ items, x.allSet) {v : Val}
    (h : finishSeq c items = .ok v) : v.allSet := by
  rcases finishSeq_ok h with ⟨rfl, _⟩ | ⟨o0, o1, o2, o3, l, vbs, a, b, d, cb, rfl, _, h1, _, h2, _, _, _, h6⟩ |
    ⟨o0, o1, o2, o3, o4, o5, l, vbs, g, rfl, h1, h2, _, _, _, _, _, rfl⟩
  · simp only [Val.allSet]; exact allSetList_iff.mpr hs
  · obtain ⟨c1, c2, cl, rfl, _⟩ := mkPDU_ok h6
    simp only [Val.allSet, allSetList, and_true, true_and]
    exact allSetList_iff.mpr (mkVarBinds_set h2 (iter_set (hs o3 (by simp)) h1))
  · simp only [mkTrap, Val.allSet, allSetList, and_true, true_and]
    exact ⟨hs _ (by simp), hs _ (by simp), hs _ (by simp), hs _ (by simp),
      allSetList_iff.mpr (mkVarBinds_set h2 (iter_set (hs o5 (by simp)) h1))⟩

theorem intDecode_err {s : Str} {e : Exc} (h : intDecode s = .error e) : e = .indexError := by
  unfold intDecode at h
  split at h
  · simpa using h.symm
  · split at h <;> simp at h

theorem counterDecode_err {s : Str} {e : Exc} (h : counterDecode s = .error e) : e = .indexError := by
  unfold counterDecode at h
  split at h
  · next he => simp at h; subst h; exact intDecode_err he
  · simp at h

theorem subidDecodeLoop_err (s : Str) (v : Nat) {e : Exc} (h : subidDecodeLoop v s = .error e) : e = .indexError := by
  induction s generalizing v with
  | nil => simpa [subidDecodeLoop] using h.symm
  | cons b s ih =>
    rw [subidDecodeLoop] at h
    split at h
    · exact ih _ h
    · simp at h

theorem oidDecodeLoop_err (s : Str) {e : Exc} (h : oidDecodeLoop s = .error e) : e = .indexError := by
  induction hn : s.length using Nat.strong_induction_on generalizing s with
  | _ n ih =>
    cases s with
    | nil => rw [oidDecodeLoop] at h; simp at h
    | cons b s =>
      rw [oidDecodeLoop] at h
      simp only [List.length_cons] at hn
      split at h
      · split at h
        · next e' he => simp at h; subst h; exact subidDecodeLoop_err _ _ he
        · next val r hl =>
          have := subidDecodeLoop_length hl
          split at h
          · next e' he => simp at h; subst h; exact ih r.length (by omega) r he rfl
          · simp at h
      · split at h
        · next e' he => simp at h; subst h; exact ih s.length (by omega) s he rfl
        · simp at h

theorem oidDecode_err {s : Str} {e : Exc} (h : oidDecode s = .error e) :
    e = .valueError ∨ e = .notImplementedError ∨ e = .indexError := by
  unfold oidDecode at h
  split at h
  · left; simpa using h.symm
  · split at h
    · split at h
      · next e' he => simp at h; subst h; exact .inr (.inr (oidDecodeLoop_err _ he))
      · simp at h
    · right; left; simpa using h.symm

/-- Everything returned has its ObjectIDs set; everything raised is in the list. -/
theorem decodeAll_exceptions (reg : Reg) (hreg : ∀ t, reg t ≠ some .asn1Object) (s : Str) :
    (∀ items, decodeAll reg s = .ok items → ∀ v ∈ items, v.allSet) ∧
      ∀ e, decodeAll reg s = .error e → e ∈ decodeExceptions := by
  apply decodeAll_inv reg Val.allSet (· ∈ decodeExceptions) (by decide) (by decide)
  intro cls t data hr ⟨ih1, ih2⟩
  cases cls with
  | asn1Object => exact absurd hr (hreg t)
  | int c =>
    rw [decodeContents_int]
    split
    · next e he =>
      refine ⟨by simp, fun e' h => ?_⟩
      simp only [Except.error.injEq] at h
      subst h
      have : e = .indexError := by
        split at he
        · exact counterDecode_err he
        · exact intDecode_err he
      subst this; decide
    · refine ⟨fun v h => ?_, by simp⟩
      simp only [Except.ok.injEq] at h; subst h; simp [Val.allSet]
  | oct c =>
    rw [decodeContents_oct]
    refine ⟨fun v h => ?_, by simp⟩
    simp only [Except.ok.injEq] at h; subst h; simp [Val.allSet]
  | oid =>
    rw [decodeContents_oid]
    split
    · next e he =>
      refine ⟨by simp, fun e' h => ?_⟩
      simp only [Except.error.injEq] at h
      subst h
      rcases oidDecode_err he with rfl | rfl | rfl <;> decide
    · refine ⟨fun v h => ?_, by simp⟩
      simp only [Except.ok.injEq] at h; subst h; simp [Val.allSet]
  | null c =>
    rw [decodeContents_null]
    split
    · refine ⟨by simp, fun e' h => ?_⟩
      simp only [Except.error.injEq] at h
      subst h; decide
    · refine ⟨fun v h => ?_, by simp⟩
      simp only [Except.ok.injEq] at h; subst h; simp [Val.allSet]
  | seq c =>
    rw [decodeContents_seq]
    split
    · next e he =>
      refine ⟨by simp, fun e' h => ?_⟩
      simp only [Except.error.injEq] at h
      subst h; exact ih2 _ he
    · next items he =>
      refine ⟨fun v h => finishSeq_set (ih1 _ he) h, fun e' h => ?_⟩
      unfold finishSeq at h
      split at h
      · exact finishPDU_err (ih1 _ he) h
      · split at h
        · exact finishTrap_err (ih1 _ he) h
        · simp at h

end Libsnmp
