import Verif.Model.Manager
import Verif.Props.Equality

/-!
# Dictionaries with numeric keys
-/

namespace Libsnmp

/-- The number a key stands for. -/
def keyNum : Val → Option Int
  | .int n => some n
  | .integer _ n => some n
  | _ => none

/-- All keys are ints or Integer objects. -/
def Dict.Numeric (d : Dict) : Prop := ∀ p ∈ d, (keyNum p.1).isSome

/-- The dictionary as a partial function on numbers. -/
def Dict.at (d : Dict) (n : Int) : Option Nat := (d.find? fun p => keyNum p.1 == some n).map (·.2)

/-- Without key `n`. -/
def Dict.erase (d : Dict) (n : Int) : Dict := d.filter fun p => !(keyNum p.1 == some n)

theorem objHash_num {k : Val} {n : Int} (h : keyNum k = some n) : objHash k = .ok (intHash n) := by
  cases k <;> simp [keyNum] at h <;> subst h <;> rfl

theorem pyEq_num {a b : Val} {m n : Int} (ha : keyNum a = some m) (hb : keyNum b = some n) :
    pyEq a b = .ok (decide (m = n)) := by
  cases a <;> simp [keyNum] at ha <;> cases b <;> simp [keyNum] at hb <;> subst ha <;> subst hb
  · rw [pyEq]; rfl
  · rw [pyEq]
    simp only [Val.cls?, eqMethod, integerEq, Val.toInt, eq_comm]
  · rw [pyEq]
    simp only [Val.cls?, eqMethod, integerEq, Val.toInt]
  · exact C36_eq _ _ _ _

theorem sameKey_num {a b : Val} {m n : Int} (ha : keyNum a = some m) (hb : keyNum b = some n) :
    sameKey a b = decide (m = n) := by
  unfold sameKey
  rw [objHash_num ha, objHash_num hb, pyEq_num ha hb]
  by_cases h : m = n <;> simp [h]

theorem sameKey_eq {d : Dict} (hd : d.Numeric) {k : Val} {n : Int} (hk : keyNum k = some n) :
    ∀ p ∈ d, sameKey p.1 k = (keyNum p.1 == some n) := by
  intro p hp
  have := hd p hp
  obtain ⟨m, hm⟩ := Option.isSome_iff_exists.mp this
  rw [sameKey_num hm hk, hm]
  by_cases h : m = n <;> simp [h]

theorem find_congr {α : Type} {l : List α} {f g : α → Bool} (h : ∀ x ∈ l, f x = g x) : l.find? f = l.find? g := by
  induction l with
  | nil => rfl
  | cons x xs ih =>
    simp only [List.find?_cons, h x List.mem_cons_self]
    rw [ih fun y hy => h y (List.mem_cons_of_mem _ hy)]

theorem any_congr {α : Type} {l : List α} {f g : α → Bool} (h : ∀ x ∈ l, f x = g x) : l.any f = l.any g := by
  induction l with
  | nil => rfl
  | cons x xs ih =>
    simp only [List.any_cons, h x List.mem_cons_self]
    rw [ih fun y hy => h y (List.mem_cons_of_mem _ hy)]

/-- `d[k]`. -/
theorem Dict.get_num {d : Dict} (hd : d.Numeric) {k : Val} {n : Int} (hk : keyNum k = some n) :
    d.get k = match d.at n with
      | none => .error .keyError
      | some v => .ok v := by
  unfold Dict.get Dict.at
  rw [objHash_num hk, find_congr (sameKey_eq hd hk)]
  simp only
  cases d.find? fun p => keyNum p.1 == some n <;> rfl

theorem Dict.any_at {d : Dict} (n : Int) : (d.any fun p => keyNum p.1 == some n) = (d.at n).isSome := by
  unfold Dict.at
  rw [Option.isSome_map, Bool.eq_iff_iff, List.find?_isSome, List.any_eq_true]

/-- `d[k] = v` succeeds and updates the partial function at one place. -/
theorem Dict.put_num {d : Dict} (hd : d.Numeric) {k : Val} {n : Int} (hk : keyNum k = some n) (v : Nat) :
    ∃ d', d.put k v = .ok d' ∧ d'.Numeric ∧ ∀ j, d'.at j = if j = n then some v else d.at j := by
  have e : ∀ p ∈ d, (if sameKey p.1 k then (p.1, v) else p) = if keyNum p.1 == some n then (p.1, v) else p := by
    intro p hp; rw [sameKey_eq hd hk p hp]
  unfold Dict.put
  rw [objHash_num hk]
  simp only [any_congr (sameKey_eq hd hk), List.map_congr_left e]
  refine ⟨_, rfl, ?_, ?_⟩
  · intro p hp
    split at hp
    · obtain ⟨q, hq, rfl⟩ := List.mem_map.mp hp
      have := hd q hq
      split <;> simpa using this
    · rcases List.mem_append.mp hp with hp | hp
      · exact hd p hp
      · simp only [List.mem_singleton] at hp
        subst hp; simp [hk]
  · intro j
    by_cases ha : (d.any fun p => keyNum p.1 == some n) = true
    · rw [if_pos ha]
      clear e
      induction d with
      | nil => simp at ha
      | cons q qs ih =>
        unfold Dict.at
        simp only [List.map_cons, List.find?_cons]
        by_cases hq : keyNum q.1 == some n
        · simp only [hq, if_true]
          have hq' : keyNum q.1 = some n := by simpa using hq
          by_cases hj : j = n
          · subst hj; simp [hq']
          · have : (some n == some j) = false := by simp; omega
            simp only [hq', this, hj, if_false]
            clear ih ha
            have hd' : Dict.Numeric qs := fun p hp => hd p (List.mem_cons_of_mem _ hp)
            clear hd
            induction qs with
            | nil => rfl
            | cons r rs ihr =>
              simp only [List.map_cons, List.find?_cons]
              by_cases hr : keyNum r.1 == some n
              · have hr' : keyNum r.1 = some n := by simpa using hr
                have hnn : (some n == some n) = true := by simp
                simp only [hr', hnn, if_true, this]
                exact ihr fun p hp => hd' p (List.mem_cons_of_mem _ hp)
              · simp only [Bool.not_eq_true] at hr
                simp only [hr]
                simp only [Bool.false_eq_true, if_false]
                split
                · rfl
                · exact ihr fun p hp => hd' p (List.mem_cons_of_mem _ hp)
        · simp only [Bool.not_eq_true] at hq
          simp only [hq, Bool.false_eq_true, if_false]
          have ha' : (qs.any fun p => keyNum p.1 == some n) = true := by simpa [hq] using ha
          have := ih (fun p hp => hd p (List.mem_cons_of_mem _ hp)) ha'
          unfold Dict.at at this
          by_cases hqj : keyNum q.1 == some j
          · simp only [hqj]
            have : j ≠ n := by
              rintro rfl
              simp [hqj] at hq
            simp [this]
          · simp only [Bool.not_eq_true] at hqj
            simp only [hqj]
            exact this
    · rw [if_neg ha]
      unfold Dict.at
      rw [List.find?_append]
      have hn : ∀ p ∈ d, (keyNum p.1 == some n) = false := by
        simpa using ha
      by_cases hj : j = n
      · subst hj
        rw [List.find?_eq_none.mpr (by simpa using hn)]
        simp [hk]
      · rw [if_neg hj]
        have : ([(k, v)].find? fun p => keyNum p.1 == some j) = none := by
          simp [hk]; omega
        rw [this, Option.or_none]

theorem Dict.erase_numeric {d : Dict} (hd : d.Numeric) (n : Int) : (d.erase n).Numeric :=
  fun p hp => hd p (List.mem_filter.mp hp).1

theorem Dict.at_erase (d : Dict) (n j : Int) : (d.erase n).at j = if j = n then none else d.at j := by
  unfold Dict.at Dict.erase
  rw [List.find?_filter]
  by_cases hj : j = n
  · subst hj
    rw [if_pos rfl, List.find?_eq_none.mpr]
    · rfl
    · intro p _
      simp
  · rw [if_neg hj]
    congr 1
    apply find_congr
    intro p _
    by_cases h : keyNum p.1 = some j
    · simp [h, hj]
    · simp [h]

theorem Dict.erase_absent {d : Dict} {n : Int} (h : d.at n = none) : d.erase n = d := by
  unfold Dict.erase
  rw [List.filter_eq_self]
  intro p hp
  unfold Dict.at at h
  simp only [Option.map_eq_none_iff, List.find?_eq_none] at h
  simpa using h p hp

/-- `del d[k]`. -/
theorem Dict.del_num {d : Dict} (hd : d.Numeric) {k : Val} {n : Int} (hk : keyNum k = some n) :
    d.del k = match d.at n with
      | none => .error .keyError
      | some _ => .ok (d.erase n) := by
  unfold Dict.del Dict.erase
  rw [objHash_num hk]
  simp only [any_congr (sameKey_eq hd hk), Dict.any_at]
  have : (d.filter fun p => !sameKey p.1 k) = d.filter fun p => !(keyNum p.1 == some n) :=
    List.filter_congr fun p hp => by rw [sameKey_eq hd hk p hp]
  rw [this]
  cases d.at n <;> rfl

end Libsnmp
