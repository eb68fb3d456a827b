import Verif.Spec.Threads
import Mathlib.Data.List.Nodup
import Mathlib.Data.List.Range
import Mathlib.Tactic.IntervalCases
import Mathlib.Tactic.Set

/-! # C55: the request methods under concurrency -/

namespace Libsnmp
open Threads Spec.Threads

namespace Threads

theorem run_snoc (sched : List Step) (o : Step) : run (sched ++ [o]) = step (run sched) o := by
  simp [run, List.foldl_append]

theorem run_append (a b : List Step) : run (a ++ b) = b.foldl step (run a) := by
  simp [run, List.foldl_append]

theorem upd_same {α : Type} (f : Nat → α) (i : Nat) (a : α) : upd f i a i = a := by simp [upd]
theorem upd_ne {α : Type} (f : Nat → α) {i j : Nat} (a : α) (h : j ≠ i) : upd f i a j = f j := by simp [upd, h]

@[simp] theorem assignedIds_append (a b : List Event) : assignedIds (a ++ b) = assignedIds a ++ assignedIds b :=
  List.filterMap_append
@[simp] theorem assignedTo_append (t : Nat) (a b : List Event) : assignedTo t (a ++ b) = assignedTo t a ++ assignedTo t b :=
  List.filterMap_append
@[simp] theorem returnedIds_append (a b : List Event) : returnedIds (a ++ b) = returnedIds a ++ returnedIds b :=
  List.filterMap_append

/-- The ID a thread holds between `assignRequestID` and the registration of its callback. -/
def held : Pc → Option Nat
  | .put _ r => some r
  | .register _ r => some r
  | _ => none

theorem mem_returnedIds {log : List Event} {n : Nat} : n ∈ returnedIds log ↔ ∃ t cb, Event.returned t cb n ∈ log := by
  unfold returnedIds
  rw [List.mem_filterMap]
  constructor
  · rintro ⟨e, he, h⟩
    cases e <;> simp at h
    subst h
    exact ⟨_, _, he⟩
  · rintro ⟨t, cb, h⟩
    exact ⟨_, h, rfl⟩

/-! ## What holds under every schedule -/

/-- Facts that need no assumption on the schedule. -/
structure Always (s : State) : Prop where
  counter : s.counter ≤ (assignedIds s.log).length
  again : ∀ t cb r, s.pc t = .loadAgain cb r → r ≤ (assignedIds s.log).length
  store : ∀ t cb r v, s.pc t = .store cb r v → r ≤ (assignedIds s.log).length ∧ v ≤ (assignedIds s.log).length
  ids : ∀ a r b, assignedIds s.log = a ++ r :: b → r ≤ a.length
  table : ∀ n cb, s.table n = some cb → ∃ t, Event.returned t cb n ∈ s.log
  invoked : ∀ n cb, Event.invoked n cb ∈ s.log → ∃ t, Event.returned t cb n ∈ s.log
  returned : ∀ t cb n, Event.returned t cb n ∈ s.log → Event.assigned t cb n ∈ s.log
  held : ∀ t cb n, s.pc t = .put cb n ∨ s.pc t = .register cb n → Event.assigned t cb n ∈ s.log
  queue : ∀ n, n ∈ s.queue ∨ Event.sent n ∈ s.log → n ∈ assignedIds s.log

theorem mem_assignedIds {log : List Event} {n : Nat} : n ∈ assignedIds log ↔ ∃ t cb, Event.assigned t cb n ∈ log := by
  unfold assignedIds
  rw [List.mem_filterMap]
  constructor
  · rintro ⟨e, he, h⟩
    cases e <;> simp at h
    subst h
    exact ⟨_, _, he⟩
  · rintro ⟨t, cb, h⟩
    exact ⟨_, h, rfl⟩

/-- A change of one thread's place. -/
theorem upd_cases {f : Nat → Pc} {t t' : Nat} {p q : Pc} (h : upd f t p t' = q) : (t' = t ∧ p = q) ∨ (t' ≠ t ∧ f t' = q) := by
  by_cases e : t' = t
  · subst e; rw [upd_same] at h; exact .inl ⟨rfl, h⟩
  · rw [upd_ne _ _ e] at h; exact .inr ⟨e, h⟩

theorem snoc_split {α : Type} {l : List α} {o x : α} {a b : List α} (e : l ++ [o] = a ++ x :: b) :
    (b = [] ∧ l = a ∧ o = x) ∨ ∃ b', l = a ++ x :: b' := by
  rcases List.eq_nil_or_concat b with rfl | ⟨b', y, rfl⟩
  · left
    have h := List.append_inj' e rfl
    simp at h
    exact ⟨rfl, h.1, h.2⟩
  · right
    have e' : l ++ [o] = (a ++ x :: b') ++ [y] := by simpa using e
    have h := List.append_inj' e' rfl
    exact ⟨b', h.1⟩

theorem step_always (o : Step) {s : State} (h : Always s) : Always (step s o) := by
  obtain ⟨h1, h2, h3, h4, h5, h6, h7, h8, h9⟩ := h
  cases o with
  | begin t cb =>
    simp only [step]
    cases hp : s.pc t with
    | idle =>
      refine ⟨h1, ?_, ?_, h4, h5, h6, h7, ?_, h9⟩
      · intro t' cb' r e
        rcases upd_cases e with ⟨_, e⟩ | ⟨_, e⟩
        · cases e
        · exact h2 _ _ _ e
      · intro t' cb' r v e
        rcases upd_cases e with ⟨_, e⟩ | ⟨_, e⟩
        · cases e
        · exact h3 _ _ _ _ e
      · intro t' cb' n e
        refine h8 t' cb' n ?_
        rcases e with e | e <;> rcases upd_cases e with ⟨_, e⟩ | ⟨_, e⟩ <;> first | cases e | simp [e]
    | _ => exact ⟨h1, h2, h3, h4, h5, h6, h7, h8, h9⟩
  | run t =>
    simp only [step]
    cases hp : s.pc t with
    | idle => exact ⟨h1, h2, h3, h4, h5, h6, h7, h8, h9⟩
    | load cb =>
      refine ⟨h1, ?_, ?_, h4, h5, h6, h7, ?_, h9⟩
      · intro t' cb' r e
        rcases upd_cases e with ⟨_, e⟩ | ⟨_, e⟩
        · cases e; exact h1
        · exact h2 _ _ _ e
      · intro t' cb' r v e
        rcases upd_cases e with ⟨_, e⟩ | ⟨_, e⟩
        · cases e
        · exact h3 _ _ _ _ e
      · intro t' cb' n e
        refine h8 t' cb' n ?_
        rcases e with e | e <;> rcases upd_cases e with ⟨_, e⟩ | ⟨_, e⟩ <;> first | cases e | simp [e]
    | loadAgain cb r =>
      refine ⟨h1, ?_, ?_, h4, h5, h6, h7, ?_, h9⟩
      · intro t' cb' r' e
        rcases upd_cases e with ⟨_, e⟩ | ⟨_, e⟩
        · cases e
        · exact h2 _ _ _ e
      · intro t' cb' r' v e
        rcases upd_cases e with ⟨_, e⟩ | ⟨_, e⟩
        · cases e; exact ⟨h2 _ _ _ hp, h1⟩
        · exact h3 _ _ _ _ e
      · intro t' cb' n e
        refine h8 t' cb' n ?_
        rcases e with e | e <;> rcases upd_cases e with ⟨_, e⟩ | ⟨_, e⟩ <;> first | cases e | simp [e]
    | store cb r v =>
      have hl : assignedIds (s.log ++ [.assigned t cb r]) = assignedIds s.log ++ [r] := by
        rw [assignedIds_append]; rfl
      obtain ⟨hr, hv⟩ := h3 _ _ _ _ hp
      refine ⟨?_, ?_, ?_, ?_, ?_, ?_, ?_, ?_, ?_⟩
      · rw [hl]; simp; exact hv
      · intro t' cb' r' e
        rw [hl]
        rcases upd_cases e with ⟨_, e⟩ | ⟨_, e⟩
        · cases e
        · have := h2 _ _ _ e; simp; omega
      · intro t' cb' r' v' e
        rw [hl]
        rcases upd_cases e with ⟨_, e⟩ | ⟨_, e⟩
        · cases e
        · have := h3 _ _ _ _ e; simp; omega
      · intro a x b e
        rw [hl] at e
        rcases snoc_split e with ⟨rfl, rfl, rfl⟩ | ⟨b', e⟩
        · exact hr
        · exact h4 a x b' e
      · intro n cb' e
        obtain ⟨t', ht⟩ := h5 n cb' e
        exact ⟨t', by simp [ht]⟩
      · intro n cb' e
        obtain ⟨t', ht⟩ := h6 n cb' (by simpa using e)
        exact ⟨t', by simp [ht]⟩
      · intro t' cb' n e
        have := h7 t' cb' n (by simpa using e)
        simp [this]
      · intro t' cb' n e
        rcases e with e | e <;> rcases upd_cases e with ⟨e1, e⟩ | ⟨_, e⟩
        · cases e; simp [e1]
        · have := h8 t' cb' n (.inl e); simp [this]
        · cases e
        · have := h8 t' cb' n (.inr e); simp [this]
      · intro n e
        rw [hl]
        have := h9 n (by simpa using e)
        simp [this]
    | put cb r =>
      have ha := h8 t cb r (.inl hp)
      refine ⟨h1, ?_, ?_, h4, h5, h6, h7, ?_, ?_⟩
      · intro t' cb' r' e
        rcases upd_cases e with ⟨_, e⟩ | ⟨_, e⟩
        · cases e
        · exact h2 _ _ _ e
      · intro t' cb' r' v e
        rcases upd_cases e with ⟨_, e⟩ | ⟨_, e⟩
        · cases e
        · exact h3 _ _ _ _ e
      · intro t' cb' n e
        rcases e with e | e <;> rcases upd_cases e with ⟨e1, e⟩ | ⟨_, e⟩
        · cases e
        · exact h8 t' cb' n (.inl e)
        · cases e; rw [e1]; exact ha
        · exact h8 t' cb' n (.inr e)
      · intro n e
        rcases e with e | e
        · rcases List.mem_append.1 e with e | e
          · exact h9 n (.inl e)
          · simp at e; subst e; exact mem_assignedIds.2 ⟨_, _, ha⟩
        · exact h9 n (.inr e)
    | register cb r =>
      have ha := h8 t cb r (.inr hp)
      have hl : assignedIds (s.log ++ [.returned t cb r]) = assignedIds s.log := by
        rw [assignedIds_append]; simp [assignedIds]
      refine ⟨by rw [hl]; exact h1, ?_, ?_, by rw [hl]; exact h4, ?_, ?_, ?_, ?_, ?_⟩
      · intro t' cb' r' e
        rw [hl]
        rcases upd_cases e with ⟨_, e⟩ | ⟨_, e⟩
        · cases e
        · exact h2 _ _ _ e
      · intro t' cb' r' v e
        rw [hl]
        rcases upd_cases e with ⟨_, e⟩ | ⟨_, e⟩
        · cases e
        · exact h3 _ _ _ _ e
      · intro n cb' e
        by_cases en : n = r
        · subst en
          simp only [upd_same, Option.some.injEq] at e
          subst e
          exact ⟨t, by simp⟩
        · simp only [upd_ne _ _ en] at e
          obtain ⟨t', ht⟩ := h5 n cb' e
          exact ⟨t', by simp [ht]⟩
      · intro n cb' e
        obtain ⟨t', ht⟩ := h6 n cb' (by simpa using e)
        exact ⟨t', by simp [ht]⟩
      · intro t' cb' n e
        rcases List.mem_append.1 e with e | e
        · have := h7 t' cb' n e; simp [this]
        · simp at e; obtain ⟨rfl, rfl, rfl⟩ := e; simp [ha]
      · intro t' cb' n e
        have : Event.assigned t' cb' n ∈ s.log := by
          refine h8 t' cb' n ?_
          rcases e with e | e <;> rcases upd_cases e with ⟨_, e⟩ | ⟨_, e⟩ <;> first | cases e | simp [e]
        simp [this]
      · intro n e
        rw [hl]
        exact h9 n (by simpa using e)
  | send =>
    simp only [step]
    cases hq : s.queue with
    | nil => exact ⟨h1, h2, h3, h4, h5, h6, h7, h8, h9⟩
    | cons r rest =>
      have hl : assignedIds (s.log ++ [.sent r]) = assignedIds s.log := by
        rw [assignedIds_append]; simp [assignedIds]
      refine ⟨by rw [hl]; exact h1, by rw [hl]; exact h2, by rw [hl]; exact h3, by rw [hl]; exact h4, ?_, ?_, ?_, ?_, ?_⟩
      · intro n cb e; obtain ⟨t, ht⟩ := h5 n cb e; exact ⟨t, by simp [ht]⟩
      · intro n cb e; obtain ⟨t, ht⟩ := h6 n cb (by simpa using e); exact ⟨t, by simp [ht]⟩
      · intro t cb n e; have := h7 t cb n (by simpa using e); simp [this]
      · intro t cb n e; have := h8 t cb n e; simp [this]
      · intro n e
        rw [hl]
        rcases e with e | e
        · exact h9 n (.inl (by rw [hq]; simp [e]))
        · rcases List.mem_append.1 e with e | e
          · exact h9 n (.inr e)
          · simp at e; exact h9 n (.inl (by rw [hq]; simp [e]))
  | response n =>
    simp only [step]
    cases hr : s.running with
    | some m => exact ⟨h1, h2, h3, h4, h5, h6, h7, h8, h9⟩
    | none =>
      cases ht : s.table n with
      | none =>
        have hl : assignedIds (s.log ++ [.keyError n]) = assignedIds s.log := by
          rw [assignedIds_append]; simp [assignedIds]
        refine ⟨by rw [hl]; exact h1, by rw [hl]; exact h2, by rw [hl]; exact h3, by rw [hl]; exact h4, ?_, ?_, ?_, ?_, ?_⟩
        · intro n cb e; obtain ⟨t, ht⟩ := h5 n cb e; exact ⟨t, by simp [ht]⟩
        · intro n cb e; obtain ⟨t, ht⟩ := h6 n cb (by simpa using e); exact ⟨t, by simp [ht]⟩
        · intro t cb n e; have := h7 t cb n (by simpa using e); simp [this]
        · intro t cb n e; have := h8 t cb n e; simp [this]
        · intro n e; rw [hl]; exact h9 n (by simpa using e)
      | some c =>
        have hl : assignedIds (s.log ++ [.invoked n c]) = assignedIds s.log := by
          rw [assignedIds_append]; simp [assignedIds]
        refine ⟨by rw [hl]; exact h1, by rw [hl]; exact h2, by rw [hl]; exact h3, by rw [hl]; exact h4, ?_, ?_, ?_, ?_, ?_⟩
        · intro n cb e; obtain ⟨t, ht⟩ := h5 n cb e; exact ⟨t, by simp [ht]⟩
        · intro n' cb e
          rcases List.mem_append.1 e with e | e
          · obtain ⟨t, ht⟩ := h6 n' cb e; exact ⟨t, by simp [ht]⟩
          · simp at e; obtain ⟨rfl, rfl⟩ := e
            obtain ⟨t, ht⟩ := h5 n' cb ht; exact ⟨t, by simp [ht]⟩
        · intro t cb n e; have := h7 t cb n (by simpa using e); simp [this]
        · intro t cb n e; have := h8 t cb n e; simp [this]
        · intro n e; rw [hl]; exact h9 n (by simpa using e)
  | finish =>
    simp only [step]
    cases hr : s.running with
    | none => exact ⟨h1, h2, h3, h4, h5, h6, h7, h8, h9⟩
    | some m =>
      have hl : assignedIds (s.log ++ [.deleted m]) = assignedIds s.log := by
        rw [assignedIds_append]; simp [assignedIds]
      refine ⟨by rw [hl]; exact h1, by rw [hl]; exact h2, by rw [hl]; exact h3, by rw [hl]; exact h4, ?_, ?_, ?_, ?_, ?_⟩
      · intro n cb e
        by_cases en : n = m
        · subst en; simp [upd_same] at e
        · simp only [upd_ne _ _ en] at e
          obtain ⟨t, ht⟩ := h5 n cb e; exact ⟨t, by simp [ht]⟩
      · intro n cb e; obtain ⟨t, ht⟩ := h6 n cb (by simpa using e); exact ⟨t, by simp [ht]⟩
      · intro t cb n e; have := h7 t cb n (by simpa using e); simp [this]
      · intro t cb n e; have := h8 t cb n e; simp [this]
      · intro n e; rw [hl]; exact h9 n (by simpa using e)
  | fail => exact ⟨h1, h2, h3, h4, h5, h6, h7, h8, h9⟩

theorem run_always (sched : List Step) : Always (run sched) := by
  induction sched using List.reverseRecOn with
  | nil => constructor <;> simp [run, assignedIds]
  | append_singleton a o ih => rw [run_snoc]; exact step_always o ih

end Threads

/-- C55: under every schedule of any number of threads, the i-th ID handed out (counting from 0) is at most i. -/
theorem C55_bound (sched : List Step) (a b : List Nat) (r : Nat)
    (h : assignedIds (run sched).log = a ++ r :: b) : r ≤ a.length := (run_always sched).ids a r b h

/-- C55: under every schedule, a callback is only ever invoked for an ID for which a request method given that callback
has returned. -/
theorem C55_invoked_was_returned (sched : List Step) (n cb : Nat) (h : Event.invoked n cb ∈ (run sched).log) :
    ∃ t, Event.returned t cb n ∈ (run sched).log := (run_always sched).invoked n cb h

/-- C55: under every schedule, only IDs handed out are sent. -/
theorem C55_sent_was_assigned (sched : List Step) (n : Nat) (h : Event.sent n ∈ (run sched).log) :
    n ∈ assignedIds (run sched).log := (run_always sched).queue n (.inr h)

namespace Threads

/-! ## Schedules without overlap -/

structure Good (s : State) : Prop where
  ids : assignedIds s.log = List.range s.counter
  one : ∀ t t', Inside (s.pc t) → Inside (s.pc t') → t = t'
  again : ∀ t cb r, s.pc t = .loadAgain cb r → r = s.counter
  store : ∀ t cb r v, s.pc t = .store cb r v → r = s.counter ∧ v = s.counter
  heldLt : ∀ t r, held (s.pc t) = some r → r < s.counter ∧ r ∉ returnedIds s.log
  heldInj : ∀ t t' r, held (s.pc t) = some r → held (s.pc t') = some r → t = t'
  retNodup : (returnedIds s.log).Nodup
  retLt : ∀ r ∈ returnedIds s.log, r < s.counter
  uniq : ∀ t t' cb cb' n, Event.returned t cb n ∈ s.log → Event.returned t' cb' n ∈ s.log → t = t' ∧ cb = cb'
  running : ∀ n, s.running = some n → n ∈ returnedIds s.log
  deleted : ∀ n, Event.deleted n ∈ s.log → n ∈ returnedIds s.log
  table : ∀ n cb, s.table n = some cb ↔ (∃ t, Event.returned t cb n ∈ s.log) ∧ Event.deleted n ∉ s.log

theorem step_good {s : State} {o : Step} (h : Good s)
    (hx : ∀ t cb, o = .run t → s.pc t = .load cb → ∀ t', ¬ Inside (s.pc t')) : Good (step s o) := by
  obtain ⟨g1, g2, g3, g4, g5, g6, g7, g8, g9, g10, g11, g12⟩ := h
  cases o with
  | begin t cb =>
    simp only [step]
    cases hp : s.pc t with
    | idle =>
      refine ⟨g1, ?_, ?_, ?_, ?_, ?_, g7, g8, g9, g10, g11, g12⟩
      · intro a b ha hb
        apply g2
        · by_cases e : a = t
          · subst e; simp [upd_same, Inside] at ha
          · simpa only [upd_ne _ _ e] using ha
        · by_cases e : b = t
          · subst e; simp [upd_same, Inside] at hb
          · simpa only [upd_ne _ _ e] using hb
      · intro t' cb' r e
        rcases upd_cases e with ⟨_, e⟩ | ⟨_, e⟩
        · cases e
        · exact g3 _ _ _ e
      · intro t' cb' r v e
        rcases upd_cases e with ⟨_, e⟩ | ⟨_, e⟩
        · cases e
        · exact g4 _ _ _ _ e
      · intro t' r e
        by_cases et : t' = t
        · subst et; simp [upd_same, held] at e
        · simp only [upd_ne _ _ et] at e; exact g5 _ _ e
      · intro a b r ha hb
        apply g6 a b r
        · by_cases e : a = t
          · subst e; simp [upd_same, held] at ha
          · simpa only [upd_ne _ _ e] using ha
        · by_cases e : b = t
          · subst e; simp [upd_same, held] at hb
          · simpa only [upd_ne _ _ e] using hb
    | _ => exact ⟨g1, g2, g3, g4, g5, g6, g7, g8, g9, g10, g11, g12⟩
  | run t =>
    simp only [step]
    cases hp : s.pc t with
    | idle => exact ⟨g1, g2, g3, g4, g5, g6, g7, g8, g9, g10, g11, g12⟩
    | load cb =>
      have hno := hx t cb rfl hp
      refine ⟨g1, ?_, ?_, ?_, ?_, ?_, g7, g8, g9, g10, g11, g12⟩
      · intro a b ha hb
        by_cases e : a = t
        · by_cases e' : b = t
          · rw [e, e']
          · simp only [upd_ne _ _ e'] at hb; exact absurd hb (hno b)
        · simp only [upd_ne _ _ e] at ha; exact absurd ha (hno a)
      · intro t' cb' r e
        rcases upd_cases e with ⟨_, e⟩ | ⟨_, e⟩
        · cases e; rfl
        · exact g3 _ _ _ e
      · intro t' cb' r v e
        rcases upd_cases e with ⟨_, e⟩ | ⟨_, e⟩
        · cases e
        · exact g4 _ _ _ _ e
      · intro t' r e
        by_cases et : t' = t
        · subst et; simp [upd_same, held] at e
        · simp only [upd_ne _ _ et] at e; exact g5 _ _ e
      · intro a b r ha hb
        apply g6 a b r
        · by_cases e : a = t
          · subst e; simp [upd_same, held] at ha
          · simpa only [upd_ne _ _ e] using ha
        · by_cases e : b = t
          · subst e; simp [upd_same, held] at hb
          · simpa only [upd_ne _ _ e] using hb
    | loadAgain cb r =>
      refine ⟨g1, ?_, ?_, ?_, ?_, ?_, g7, g8, g9, g10, g11, g12⟩
      · intro a b ha hb
        have key : ∀ x, Inside (upd s.pc t (.store cb r s.counter) x) → Inside (s.pc x) := by
          intro x hx
          by_cases e : x = t
          · subst e; rw [hp]; trivial
          · simpa only [upd_ne _ _ e] using hx
        exact g2 a b (key a ha) (key b hb)
      · intro t' cb' r e
        rcases upd_cases e with ⟨_, e⟩ | ⟨_, e⟩
        · cases e
        · exact g3 _ _ _ e
      · intro t' cb' r' v e
        rcases upd_cases e with ⟨_, e⟩ | ⟨_, e⟩
        · cases e; exact ⟨g3 _ _ _ hp, rfl⟩
        · exact g4 _ _ _ _ e
      · intro t' r e
        by_cases et : t' = t
        · subst et; simp [upd_same, held] at e
        · simp only [upd_ne _ _ et] at e; exact g5 _ _ e
      · intro a b r ha hb
        apply g6 a b r
        · by_cases e : a = t
          · subst e; simp [upd_same, held] at ha
          · simpa only [upd_ne _ _ e] using ha
        · by_cases e : b = t
          · subst e; simp [upd_same, held] at hb
          · simpa only [upd_ne _ _ e] using hb
    | store cb r v =>
      obtain ⟨rfl, rfl⟩ := g4 _ _ _ _ hp
      have hin : Inside (s.pc t) := by rw [hp]; trivial
      have others : ∀ x, x ≠ t → ¬ Inside (s.pc x) := fun x hx hi => hx (g2 x t hi hin)
      have hl : assignedIds (s.log ++ [.assigned t cb s.counter]) = assignedIds s.log ++ [s.counter] := by
        rw [assignedIds_append]; rfl
      have hr : returnedIds (s.log ++ [.assigned t cb s.counter]) = returnedIds s.log := by
        rw [returnedIds_append]; simp [returnedIds]
      refine ⟨?_, ?_, ?_, ?_, ?_, ?_, ?_, ?_, ?_, ?_, ?_, ?_⟩
      · rw [hl, g1]; exact List.range_succ.symm
      · intro a b ha hb
        by_cases e : a = t
        · subst e; simp [upd_same, Inside] at ha
        · simp only [upd_ne _ _ e] at ha; exact absurd ha (others a e)
      · intro t' cb' r' e
        rcases upd_cases e with ⟨_, e⟩ | ⟨ht, e⟩
        · cases e
        · exact absurd (by rw [e]; trivial) (others t' ht)
      · intro t' cb' r' v' e
        rcases upd_cases e with ⟨_, e⟩ | ⟨ht, e⟩
        · cases e
        · exact absurd (by rw [e]; trivial) (others t' ht)
      · intro t' r' e
        rw [hr]
        by_cases et : t' = t
        · subst et
          simp [upd_same, held] at e
          subst e
          exact ⟨Nat.lt_succ_self _, fun hm => Nat.lt_irrefl _ (g8 _ hm)⟩
        · simp only [upd_ne _ _ et] at e
          obtain ⟨h1, h2⟩ := g5 _ _ e
          exact ⟨Nat.lt_succ_of_lt h1, h2⟩
      · intro a b r' ha hb
        by_cases e : a = t <;> by_cases e' : b = t
        · rw [e, e']
        · subst e
          simp [upd_same, held] at ha
          simp only [upd_ne _ _ e'] at hb
          have := (g5 _ _ hb).1
          omega
        · subst e'
          simp [upd_same, held] at hb
          simp only [upd_ne _ _ e] at ha
          have := (g5 _ _ ha).1
          omega
        · simp only [upd_ne _ _ e] at ha
          simp only [upd_ne _ _ e'] at hb
          exact g6 a b r' ha hb
      · rw [hr]; exact g7
      · intro n hn
        rw [hr] at hn
        exact Nat.lt_succ_of_lt (g8 n hn)
      · intro a b c d n h1 h2
        exact g9 a b c d n (by simpa using h1) (by simpa using h2)
      · intro n hn; rw [hr]; exact g10 n hn
      · intro n hn; rw [hr]; exact g11 n (by simpa using hn)
      · intro n c
        simp only [List.mem_append, List.mem_singleton, reduceCtorEq, or_false]
        exact g12 n c
    | put cb r =>
      have hr : returnedIds s.log = returnedIds s.log := rfl
      have key : ∀ x, held (upd s.pc t (.register cb r) x) = held (s.pc x) := by
        intro x
        by_cases e : x = t
        · subst e; rw [upd_same, hp]; rfl
        · rw [upd_ne _ _ e]
      have keyI : ∀ x, Inside (upd s.pc t (.register cb r) x) → Inside (s.pc x) := by
        intro x hx
        by_cases e : x = t
        · subst e; simp [upd_same, Inside] at hx
        · simpa only [upd_ne _ _ e] using hx
      refine ⟨g1, ?_, ?_, ?_, ?_, ?_, g7, g8, g9, g10, g11, g12⟩
      · intro a b ha hb
        exact g2 a b (keyI a ha) (keyI b hb)
      · intro t' cb' r e
        rcases upd_cases e with ⟨_, e⟩ | ⟨_, e⟩
        · cases e
        · exact g3 _ _ _ e
      · intro t' cb' r' v e
        rcases upd_cases e with ⟨_, e⟩ | ⟨_, e⟩
        · cases e
        · exact g4 _ _ _ _ e
      · intro t' r' e
        simp only [key] at e; exact g5 _ _ e
      · intro a b r' ha hb
        simp only [key] at ha hb
        exact g6 a b r' ha hb
    | register cb r =>
      have hheld : held (s.pc t) = some r := by rw [hp]; rfl
      obtain ⟨hlt, hnot⟩ := g5 _ _ hheld
      have hl : assignedIds (s.log ++ [.returned t cb r]) = assignedIds s.log := by
        rw [assignedIds_append]; simp [assignedIds]
      have hr : returnedIds (s.log ++ [.returned t cb r]) = returnedIds s.log ++ [r] := by
        rw [returnedIds_append]; rfl
      have noRet : ∀ t' c, Event.returned t' c r ∉ s.log := fun t' c hm => hnot (mem_returnedIds.2 ⟨t', c, hm⟩)
      have keyI : ∀ x, Inside (upd s.pc t .idle x) → Inside (s.pc x) := by
        intro x hx
        by_cases e : x = t
        · subst e; simp [upd_same, Inside] at hx
        · simpa only [upd_ne _ _ e] using hx
      have keyH : ∀ x r', held (upd s.pc t .idle x) = some r' → x ≠ t ∧ held (s.pc x) = some r' := by
        intro x r' hx
        by_cases e : x = t
        · subst e; simp [upd_same, held] at hx
        · simp only [upd_ne _ _ e] at hx; exact ⟨e, hx⟩
      refine ⟨by rw [hl]; exact g1, ?_, ?_, ?_, ?_, ?_, ?_, ?_, ?_, ?_, ?_, ?_⟩
      · intro a b ha hb; exact g2 a b (keyI a ha) (keyI b hb)
      · intro t' cb' r' e
        rcases upd_cases e with ⟨_, e⟩ | ⟨_, e⟩
        · cases e
        · exact g3 _ _ _ e
      · intro t' cb' r' v e
        rcases upd_cases e with ⟨_, e⟩ | ⟨_, e⟩
        · cases e
        · exact g4 _ _ _ _ e
      · intro t' r' e
        obtain ⟨hne, e2⟩ := keyH _ _ e
        obtain ⟨h1, h2⟩ := g5 _ _ e2
        refine ⟨h1, ?_⟩
        rw [hr]
        simp only [List.mem_append, List.mem_singleton, not_or]
        refine ⟨h2, ?_⟩
        rintro rfl
        exact hne (g6 _ _ _ e2 hheld)
      · intro a b r' ha hb
        exact g6 a b r' (keyH _ _ ha).2 (keyH _ _ hb).2
      · rw [hr, List.nodup_append]
        refine ⟨g7, by simp, ?_⟩
        intro a ha b hb
        simp at hb
        subst hb
        rintro rfl
        exact hnot ha
      · intro n hn
        rw [hr] at hn
        rcases List.mem_append.1 hn with hn | hn
        · exact g8 n hn
        · simp at hn; subst hn; exact hlt
      · intro a b c d n h1 h2
        rcases List.mem_append.1 h1 with k1 | k1 <;> rcases List.mem_append.1 h2 with k2 | k2
        · exact g9 a b c d n k1 k2
        · simp at k2; obtain ⟨rfl, rfl, rfl⟩ := k2; exact absurd k1 (noRet _ _)
        · simp at k1; obtain ⟨rfl, rfl, rfl⟩ := k1; exact absurd k2 (noRet _ _)
        · clear h1 h2
          simp at k1 k2
          have h1 := k1
          have h2 := k2
          exact ⟨h1.1.trans h2.1.symm, h1.2.1.trans h2.2.1.symm⟩
      · intro n hn; rw [hr]; exact List.mem_append.2 (.inl (g10 n hn))
      · intro n hn; rw [hr]; exact List.mem_append.2 (.inl (g11 n (by simpa using hn)))
      · intro n c
        by_cases en : n = r
        · subst en
          simp only [upd_same, Option.some.injEq]
          constructor
          · rintro rfl
            refine ⟨⟨t, by simp⟩, ?_⟩
            intro hd
            exact hnot (g11 n (by simpa using hd))
          · rintro ⟨⟨t', ht⟩, _⟩
            rcases List.mem_append.1 ht with ht | ht
            · exact absurd ht (noRet _ _)
            · simp at ht; exact ht.2.symm
        · simp only [upd_ne _ _ en]
          rw [g12 n c]
          simp [en]
  | send =>
    simp only [step]
    cases hq : s.queue with
    | nil => exact ⟨g1, g2, g3, g4, g5, g6, g7, g8, g9, g10, g11, g12⟩
    | cons r rest =>
      have hl : assignedIds (s.log ++ [.sent r]) = assignedIds s.log := by
        rw [assignedIds_append]; simp [assignedIds]
      have hr : returnedIds (s.log ++ [.sent r]) = returnedIds s.log := by
        rw [returnedIds_append]; simp [returnedIds]
      refine ⟨by rw [hl]; exact g1, g2, g3, g4, by rw [hr]; exact g5, g6, by rw [hr]; exact g7, by rw [hr]; exact g8, ?_,
        by rw [hr]; exact g10, ?_, ?_⟩
      · intro a b c d n h1 h2; exact g9 a b c d n (by simpa using h1) (by simpa using h2)
      · intro n hn; rw [hr]; exact g11 n (by simpa using hn)
      · intro n c; simp only [List.mem_append, List.mem_singleton, reduceCtorEq, or_false]; exact g12 n c
  | response m =>
    simp only [step]
    cases hrun : s.running with
    | some _ => exact ⟨g1, g2, g3, g4, g5, g6, g7, g8, g9, g10, g11, g12⟩
    | none =>
      cases ht : s.table m with
      | none =>
        have hl : assignedIds (s.log ++ [.keyError m]) = assignedIds s.log := by
          rw [assignedIds_append]; simp [assignedIds]
        have hr : returnedIds (s.log ++ [.keyError m]) = returnedIds s.log := by
          rw [returnedIds_append]; simp [returnedIds]
        refine ⟨by rw [hl]; exact g1, g2, g3, g4, by rw [hr]; exact g5, g6, by rw [hr]; exact g7, by rw [hr]; exact g8, ?_,
          ?_, ?_, ?_⟩
        · intro a b c d n h1 h2; exact g9 a b c d n (by simpa using h1) (by simpa using h2)
        · intro n hn; simp at hn
        · intro n hn; rw [hr]; exact g11 n (by simpa using hn)
        · intro n c; simp only [List.mem_append, List.mem_singleton, reduceCtorEq, or_false]; exact g12 n c
      | some cb =>
        have hl : assignedIds (s.log ++ [.invoked m cb]) = assignedIds s.log := by
          rw [assignedIds_append]; simp [assignedIds]
        have hr : returnedIds (s.log ++ [.invoked m cb]) = returnedIds s.log := by
          rw [returnedIds_append]; simp [returnedIds]
        refine ⟨by rw [hl]; exact g1, g2, g3, g4, by rw [hr]; exact g5, g6, by rw [hr]; exact g7, by rw [hr]; exact g8, ?_,
          ?_, ?_, ?_⟩
        · intro a b c d n h1 h2; exact g9 a b c d n (by simpa using h1) (by simpa using h2)
        · intro n hn
          simp at hn
          subst hn
          rw [hr]
          obtain ⟨⟨t, h1⟩, _⟩ := (g12 m cb).1 ht
          exact mem_returnedIds.2 ⟨t, cb, h1⟩
        · intro n hn; rw [hr]; exact g11 n (by simpa using hn)
        · intro n c; simp only [List.mem_append, List.mem_singleton, reduceCtorEq, or_false]; exact g12 n c
  | finish =>
    simp only [step]
    cases hrun : s.running with
    | none => exact ⟨g1, g2, g3, g4, g5, g6, g7, g8, g9, g10, g11, g12⟩
    | some m =>
      have hl : assignedIds (s.log ++ [.deleted m]) = assignedIds s.log := by
        rw [assignedIds_append]; simp [assignedIds]
      have hr : returnedIds (s.log ++ [.deleted m]) = returnedIds s.log := by
        rw [returnedIds_append]; simp [returnedIds]
      refine ⟨by rw [hl]; exact g1, g2, g3, g4, by rw [hr]; exact g5, g6, by rw [hr]; exact g7, by rw [hr]; exact g8, ?_,
        ?_, ?_, ?_⟩
      · intro a b c d n h1 h2; exact g9 a b c d n (by simpa using h1) (by simpa using h2)
      · intro n hn; simp at hn
      · intro n hn
        rw [hr]
        rcases List.mem_append.1 hn with hn | hn
        · exact g11 n hn
        · simp at hn; subst hn; exact g10 n hrun
      · intro n c
        by_cases en : n = m
        · subst en; simp [upd_same]
        · simp only [upd_ne _ _ en]
          rw [g12 n c]
          simp [en]
  | fail =>
    refine ⟨g1, g2, g3, g4, g5, g6, g7, g8, g9, ?_, g11, g12⟩
    intro n hn; simp [step] at hn

theorem noOverlap_prefix {a b : List Step} (h : NoOverlap (a ++ b)) : NoOverlap a := by
  intro x t y cb e
  subst e
  exact h x t (y ++ b) cb (by simp)

theorem run_good (sched : List Step) (h : NoOverlap sched) : Good (run sched) := by
  induction sched using List.reverseRecOn with
  | nil => constructor <;> simp [run, assignedIds, returnedIds, held, Inside]
  | append_singleton a o ih =>
    rw [run_snoc]
    refine step_good (ih (noOverlap_prefix h)) ?_
    rintro t cb rfl hp
    exact h a t [] cb rfl hp

end Threads

/-- C55: if no two calls of `assignRequestID` overlap, then under every schedule of any number of threads the IDs handed out
are 0, 1, 2, ... in order. -/
theorem C55_ids_without_overlap (sched : List Step) (h : NoOverlap sched) :
    assignedIds (run sched).log = List.range (run sched).counter := (run_good sched h).ids

/-- C55: ... so no two request calls return the same ID, ... -/
theorem C55_distinct_without_overlap (sched : List Step) (h : NoOverlap sched) :
    (returnedIds (run sched).log).Nodup := (run_good sched h).retNodup

/-- C55: ... a response is handed only to the callback given in the one call that returned its ID, ... -/
theorem C55_right_callback_without_overlap (sched : List Step) (h : NoOverlap sched) (n cb : Nat)
    (hi : Event.invoked n cb ∈ (run sched).log) :
    (∃ t, Event.returned t cb n ∈ (run sched).log) ∧
    ∀ t cb', Event.returned t cb' n ∈ (run sched).log → cb' = cb := by
  obtain ⟨t, ht⟩ := C55_invoked_was_returned sched n cb hi
  exact ⟨⟨t, ht⟩, fun t' cb' h' => ((run_good sched h).uniq _ _ _ _ _ h' ht).2⟩

/-- C55: ... and no callback is lost: once its call has returned it stays registered until it has been invoked and has
returned, so the next response with its ID reaches it (unless another callback is running). -/
theorem C55_not_lost_without_overlap (sched : List Step) (h : NoOverlap sched) (t n cb : Nat)
    (hr : Event.returned t cb n ∈ (run sched).log) (hd : Event.deleted n ∉ (run sched).log)
    (hi : (run sched).running = none) :
    (run (sched ++ [.response n])).log = (run sched).log ++ [.invoked n cb] := by
  have ht := ((run_good sched h).table n cb).2 ⟨⟨t, hr⟩, hd⟩
  rw [run_snoc]
  simp [step, hi, ht]

namespace Threads

/-- With one requesting thread, nobody else is ever anywhere but idle. -/
theorem oneThread_idle (t : Nat) (sched : List Step) (h : OneThread t sched) (t' : Nat) (ht : t' ≠ t) :
    (run sched).pc t' = .idle := by
  induction sched using List.reverseRecOn with
  | nil => rfl
  | append_singleton a o ih =>
    have hi := ih (fun x hx => h x (by simp [hx]))
    have ho := h o (by simp)
    rw [run_snoc]
    cases o with
    | begin x cb =>
      have hx := ho x (.inl ⟨cb, rfl⟩)
      simp only [step]
      split
      · show upd _ _ _ _ = _
        rw [upd_ne _ _ (by omega)]; exact hi
      · exact hi
    | run x =>
      have hx := ho x (.inr rfl)
      simp only [step]
      split <;> first | exact hi | (show upd _ _ _ _ = _; rw [upd_ne _ _ (by omega)]; exact hi)
    | send => simp only [step]; split <;> exact hi
    | response n => simp only [step]; split <;> (try split) <;> exact hi
    | finish => simp only [step]; split <;> exact hi
    | fail => exact hi

end Threads

/-- C55: a single requesting thread never overlaps with itself, whatever the main loop does meanwhile, so all of the above
holds for it. -/
theorem C55_one_thread (t : Nat) (sched : List Step) (h : OneThread t sched) : NoOverlap sched := by
  intro a x b cb e hp t'
  have hx : x = t := h (.run x) (by simp [e]) x (.inr rfl)
  subst hx
  by_cases ht : t' = x
  · subst ht; rw [hp]; exact id
  · rw [oneThread_idle x a (fun o ho => h o (by simp [e, ho])) t' ht]; exact id

/-! ## A call without interruption -/

namespace Threads

/-- A whole call of a request method, not interrupted. -/
def wholeCall (t cb : Nat) : List Step := [.begin t cb, .run t, .run t, .run t, .run t, .run t]

theorem upd_upd {α : Type} (f : Nat → α) (t : Nat) (a b : α) : upd (upd f t a) t b = upd f t b := by
  funext j; by_cases h : j = t <;> simp [upd, h]

theorem upd_eq {α : Type} (f : Nat → α) (t : Nat) (a : α) (h : f t = a) : upd f t a = f := by
  funext j
  by_cases e : j = t
  · subst e; rw [upd_same, h]
  · rw [upd_ne _ _ e]

end Threads

/-- C55: an uninterrupted call does what the sequential model says (C43, C45, C50): it takes the next ID, queues the
request, registers the callback and returns the ID. -/
theorem C55_whole_call (t cb : Nat) (s : Threads.State) (h : s.pc t = .idle) :
    (wholeCall t cb).foldl step s =
      { s with counter := s.counter + 1, queue := s.queue ++ [s.counter], table := upd s.table s.counter (some cb),
               log := s.log ++ [.assigned t cb s.counter, .returned t cb s.counter] } := by
  simp only [wholeCall, List.foldl_cons, List.foldl_nil, step, h, upd_same, upd_upd, List.append_assoc,
    List.cons_append, List.nil_append]
  rw [upd_eq _ _ _ h]

/-! ## What goes wrong -/

namespace Threads

/-- The callback a thread was given. -/
def cbOf : Pc → Option Nat
  | .idle => none
  | .load cb => some cb
  | .loadAgain cb _ => some cb
  | .store cb _ _ => some cb
  | .put cb _ => some cb
  | .register cb _ => some cb

/-- A callback that is neither registered nor in the hands of a thread, and has not been invoked. -/
def Gone (cb : Nat) (s : State) : Prop :=
  (∀ n, s.table n ≠ some cb) ∧ (∀ t, cbOf (s.pc t) ≠ some cb) ∧ ∀ n, Event.invoked n cb ∉ s.log

theorem step_gone {cb : Nat} {s : State} (o : Step) (ho : ∀ t, o ≠ .begin t cb) (h : Gone cb s) : Gone cb (step s o) := by
  obtain ⟨h1, h2, h3⟩ := h
  have pcs : ∀ t p, cbOf p ≠ some cb → ∀ x, cbOf (upd s.pc t p x) ≠ some cb := by
    intro t p hp x
    by_cases e : x = t
    · subst e; rw [upd_same]; exact hp
    · rw [upd_ne _ _ e]; exact h2 x
  cases o with
  | begin t c =>
    simp only [step]
    split
    · refine ⟨h1, pcs t _ ?_, h3⟩
      intro e
      simp [cbOf] at e
      exact ho t (by rw [e])
    · exact ⟨h1, h2, h3⟩
  | run t =>
    have ht := h2 t
    simp only [step]
    cases hp : s.pc t with
    | idle => exact ⟨h1, h2, h3⟩
    | load c => rw [hp] at ht; exact ⟨h1, pcs t _ ht, h3⟩
    | loadAgain c r => rw [hp] at ht; exact ⟨h1, pcs t _ ht, h3⟩
    | store c r v => rw [hp] at ht; exact ⟨h1, pcs t _ ht, fun n => by simpa using h3 n⟩
    | put c r => rw [hp] at ht; exact ⟨h1, pcs t _ ht, h3⟩
    | register c r =>
      rw [hp] at ht
      refine ⟨?_, pcs t _ (by simp [cbOf]), fun n => by simpa using h3 n⟩
      intro n
      by_cases e : n = r
      · subst e; simp only [upd_same]; exact ht
      · simp only [upd_ne _ _ e]; exact h1 n
  | send =>
    simp only [step]
    split
    · exact ⟨h1, h2, h3⟩
    · exact ⟨h1, h2, fun n => by simpa using h3 n⟩
  | response n =>
    simp only [step]
    split
    · exact ⟨h1, h2, h3⟩
    · split
      · exact ⟨h1, h2, fun n => by simpa using h3 n⟩
      · rename_i c hc
        refine ⟨h1, h2, fun m => ?_⟩
        have : cb ≠ c := fun e => h1 n (by rw [hc, e])
        simp [h3 m, this]
  | finish =>
    simp only [step]
    split
    · exact ⟨h1, h2, h3⟩
    · rename_i m _
      refine ⟨?_, h2, fun n => by simpa using h3 n⟩
      intro n
      by_cases e : n = m
      · subst e; simp [upd_same]
      · simp only [upd_ne _ _ e]; exact h1 n
  | fail => exact ⟨h1, h2, h3⟩

theorem foldl_gone {cb : Nat} (rest : List Step) (hr : ∀ t, Step.begin t cb ∉ rest) :
    ∀ s, Gone cb s → Gone cb (rest.foldl step s) := by
  induction rest with
  | nil => intro s h; exact h
  | cons o rest ih =>
    intro s h
    exact ih (fun t hm => hr t (by simp [hm])) _ (step_gone o (fun t e => hr t (by simp [e])) h)

/-- Two threads read the counter before either has written it. -/
def racing (cb cb' : Nat) : List Step :=
  [.begin 0 cb, .begin 1 cb', .run 0, .run 1, .run 0, .run 0, .run 1, .run 1, .run 0, .run 0, .run 1, .run 1]

theorem racing_state (cb cb' : Nat) : run (racing cb cb') =
    { counter := 2, pc := fun _ => .idle, queue := [0, 0], table := upd (fun _ => none) 0 (some cb'), running := none,
      log := [.assigned 0 cb 0, .assigned 1 cb' 0, .returned 0 cb 0, .returned 1 cb' 0] } := by
  have e1 : (0 : Nat) ≠ 1 := by decide
  simp only [run, racing, List.foldl_cons, List.foldl_nil, step, upd_same, upd_ne _ _ e1, upd_ne _ _ e1.symm,
    List.nil_append, List.cons_append, upd_upd]
  congr 1
  funext j
  simp only [upd]
  split
  · rfl
  · split <;> rfl

end Threads

/-- C55: two threads can be given the same ID.  Both requests go out with it, and the first callback is lost: however the
program continues, it is never invoked (unless the program passes it to another call). -/
theorem C55_duplicate (cb cb' : Nat) (hne : cb ≠ cb') :
    ∃ sched, (∃ n, Event.returned 0 cb n ∈ (run sched).log ∧ Event.returned 1 cb' n ∈ (run sched).log ∧
        (run sched).queue = [n, n]) ∧
      ∀ rest, (∀ t, Step.begin t cb ∉ rest) → ∀ n, Event.invoked n cb ∉ (run (sched ++ rest)).log := by
  refine ⟨racing cb cb', ⟨0, ?_⟩, ?_⟩
  · rw [racing_state]; simp
  · intro rest hr n
    rw [run_append]
    have : Gone cb (run (racing cb cb')) := by
      rw [racing_state]
      refine ⟨?_, by simp [cbOf], by simp⟩
      intro n
      by_cases e : n = 0
      · subst e; simp [upd_same, Ne.symm hne]
      · simp [upd_ne _ _ e]
    exact (foldl_gone rest hr _ this).2.2 n

/-- C55: even with one requesting thread, a response can arrive before its callback is registered: it is a KeyError, and
the callback stays registered without ever having been invoked. -/
theorem C55_early_response (cb : Nat) :
    ∃ sched, OneThread 0 sched ∧
      (run sched).log = [.assigned 0 cb 0, .sent 0, .keyError 0, .returned 0 cb 0] ∧
      (run sched).table 0 = some cb := by
  refine ⟨[.begin 0 cb, .run 0, .run 0, .run 0, .run 0, .send, .response 0, .run 0], ?_, ?_, ?_⟩
  · intro o ho t h
    simp only [List.mem_cons, List.not_mem_nil, or_false] at ho
    rcases ho with rfl | rfl | rfl | rfl | rfl | rfl | rfl | rfl <;> rcases h with ⟨c, h⟩ | h <;> simp at h <;> omega
  · simp [run, step, upd]
  · simp [run, step, upd]

namespace Threads

/-- Thread 1 makes `n` uninterrupted calls. -/
def manyCalls (cb : Nat) : Nat → List Step
  | 0 => []
  | n + 1 => wholeCall 1 cb ++ manyCalls cb n

theorem manyCalls_state (cb n : Nat) : ∀ s : State, s.pc 1 = .idle →
    ((manyCalls cb n).foldl step s).counter = s.counter + n ∧ ((manyCalls cb n).foldl step s).pc = s.pc ∧
    assignedTo 1 ((manyCalls cb n).foldl step s).log = assignedTo 1 s.log ++ List.range' s.counter n ∧
    ((manyCalls cb n).foldl step s).running = s.running := by
  induction n with
  | zero => intro s h; simp [manyCalls]
  | succ n ih =>
    intro s h
    rw [manyCalls, List.foldl_append, C55_whole_call 1 cb s h]
    obtain ⟨h1, h2, h3, h4⟩ := ih { s with
      counter := s.counter + 1, queue := s.queue ++ [s.counter], table := upd s.table s.counter (some cb),
      log := s.log ++ [.assigned 1 cb s.counter, .returned 1 cb s.counter] } h
    refine ⟨?_, h2, ?_, h4⟩
    · rw [h1]; show s.counter + 1 + n = _; omega
    · rw [h3]
      show assignedTo 1 (s.log ++ [Event.assigned 1 cb s.counter, .returned 1 cb s.counter]) ++ _ = _
      rw [assignedTo_append, List.range'_succ]
      simp [assignedTo]

end Threads

/-- C55: the counter can be turned back by any amount, so that even one thread is given the same ID twice: for every n
there is a schedule in which thread 1, calling one request after the other, gets 0, 1, ..., n-1 and then 1 again. -/
theorem C55_repeats_within_thread (n : Nat) : ∃ sched, assignedTo 1 (run sched).log = List.range n ++ [1] := by
  refine ⟨[.begin 0 7, .run 0, .run 0] ++ manyCalls 8 n ++ [.run 0] ++ wholeCall 1 8, ?_⟩
  rw [run_append, run_snoc, run_append]
  set s0 := run [.begin 0 7, .run 0, .run 0] with hs0
  have e0 : s0.pc 1 = .idle ∧ s0.pc 0 = .store 7 0 0 ∧ s0.counter = 0 ∧ s0.log = [] := by
    simp [hs0, run, step, upd]
  obtain ⟨e1, e2, e3, e4⟩ := e0
  obtain ⟨h1, h2, h3, h4⟩ := manyCalls_state 8 n s0 e1
  set s1 := (manyCalls 8 n).foldl step s0 with hs1
  have hst : step s1 (.run 0) = { s1 with pc := upd s1.pc 0 (.put 7 0), counter := 1, log := s1.log ++ [.assigned 0 7 0] } := by
    simp only [step, h2, e2]
  rw [hst]
  rw [C55_whole_call 1 8 _ (by simp [upd, h2, e1])]
  show assignedTo 1 ((s1.log ++ [.assigned 0 7 0]) ++ [.assigned 1 8 1, .returned 1 8 1]) = _
  rw [assignedTo_append, assignedTo_append, h3, e3, e4, List.range_eq_range']
  simp [assignedTo]

namespace Threads

structure Mono (s : State) : Prop where
  sorted : ∀ t, (assignedTo t s.log).Pairwise (· < ·)
  below : ∀ t, ∀ x ∈ assignedTo t s.log, x < s.counter
  again : ∀ t cb r, s.pc t = .loadAgain cb r → r ≤ s.counter ∧ ∀ x ∈ assignedTo t s.log, x < r
  store : ∀ t cb r v, s.pc t = .store cb r v → v = s.counter ∧ r ≤ s.counter ∧ ∀ x ∈ assignedTo t s.log, x < r

theorem step_pc_other {s : State} {o : Step} (ho : ∀ t, o ≠ .run t) (t cb r v : Nat) :
    ((step s o).pc t = .store cb r v → s.pc t = .store cb r v) ∧
    (∀ r, (step s o).pc t = .loadAgain cb r → s.pc t = .loadAgain cb r) := by
  cases o with
  | begin x c =>
    simp only [step]
    split
    · constructor
      · intro e
        rcases upd_cases e with ⟨_, e⟩ | ⟨_, e⟩
        · cases e
        · exact e
      · intro r e
        rcases upd_cases e with ⟨_, e⟩ | ⟨_, e⟩
        · cases e
        · exact e
    · exact ⟨id, fun _ => id⟩
  | run x => exact absurd rfl (ho x)
  | send => simp only [step]; split <;> exact ⟨id, fun _ => id⟩
  | response n => simp only [step]; split <;> (try split) <;> exact ⟨id, fun _ => id⟩
  | finish => simp only [step]; split <;> exact ⟨id, fun _ => id⟩
  | fail => exact ⟨id, fun _ => id⟩

theorem step_log_other {s : State} {o : Step} (ho : ∀ t, o ≠ .run t) :
    (step s o).counter = s.counter ∧ ∀ t, assignedTo t (step s o).log = assignedTo t s.log := by
  cases o with
  | begin x c => simp only [step]; split <;> exact ⟨rfl, fun _ => rfl⟩
  | run x => exact absurd rfl (ho x)
  | send => simp only [step]; split <;> exact ⟨rfl, fun _ => by simp [assignedTo]⟩
  | response n => simp only [step]; split <;> (try split) <;> exact ⟨rfl, fun _ => by simp [assignedTo]⟩
  | finish => simp only [step]; split <;> exact ⟨rfl, fun _ => by simp [assignedTo]⟩
  | fail => exact ⟨rfl, fun _ => rfl⟩

theorem step_mono {s : State} {o : Step} (h : Mono s) (hs : ∀ t cb r v, s.pc t = .store cb r v → o = .run t) :
    Mono (step s o) := by
  obtain ⟨m1, m2, m3, m4⟩ := h
  by_cases ho : ∀ t, o ≠ .run t
  · obtain ⟨hc, hl⟩ := step_log_other (s := s) ho
    refine ⟨?_, ?_, ?_, ?_⟩
    · intro t; rw [hl]; exact m1 t
    · intro t; rw [hl, hc]; exact m2 t
    · intro t cb r e; rw [hl, hc]; exact m3 t cb r ((step_pc_other ho t cb r 0).2 r e)
    · intro t cb r v e; rw [hl, hc]; exact m4 t cb r v ((step_pc_other ho t cb r v).1 e)
  · have : ∃ t, o = .run t := by by_contra hn; exact ho (fun t e => hn ⟨t, e⟩)
    obtain ⟨t, rfl⟩ := this
    have noOther : ∀ x, x ≠ t → ∀ cb r v, s.pc x ≠ .store cb r v := by
      intro x hx cb r v e
      have := hs x cb r v e
      simp at this
      exact hx this.symm
    simp only [step]
    cases hp : s.pc t with
    | idle => exact ⟨m1, m2, m3, m4⟩
    | load cb =>
      refine ⟨m1, m2, ?_, ?_⟩
      · intro x c r e
        rcases upd_cases e with ⟨ex, e⟩ | ⟨_, e⟩
        · cases e; subst ex; exact ⟨Nat.le_refl _, m2 x⟩
        · exact m3 _ _ _ e
      · intro x c r v e
        rcases upd_cases e with ⟨_, e⟩ | ⟨_, e⟩
        · cases e
        · exact m4 _ _ _ _ e
    | loadAgain cb r =>
      refine ⟨m1, m2, ?_, ?_⟩
      · intro x c r' e
        rcases upd_cases e with ⟨ex, e⟩ | ⟨_, e⟩
        · cases e
        · exact m3 _ _ _ e
      · intro x c r' v e
        rcases upd_cases e with ⟨ex, e⟩ | ⟨_, e⟩
        · cases e; subst ex
          obtain ⟨h1, h2⟩ := m3 _ _ _ hp
          exact ⟨rfl, h1, h2⟩
        · exact m4 _ _ _ _ e
    | store cb r v =>
      obtain ⟨rfl, hr, hx⟩ := m4 _ _ _ _ hp
      have hl : ∀ x, assignedTo x (s.log ++ [.assigned t cb r]) = assignedTo x s.log ++ (if t = x then [r] else []) := by
        intro x
        rw [assignedTo_append]
        by_cases e : t = x <;> simp [assignedTo, e]
      refine ⟨?_, ?_, ?_, ?_⟩
      · intro x
        rw [hl]
        split
        · rename_i e; subst e
          rw [List.pairwise_append]
          refine ⟨m1 t, by simp, ?_⟩
          intro a ha b hb
          simp at hb; subst hb; exact hx a ha
        · simpa using m1 x
      · intro x y hy
        rw [hl] at hy
        show y < s.counter + 1
        rcases List.mem_append.1 hy with hy | hy
        · have := m2 x y hy; omega
        · split at hy
          · simp at hy; omega
          · simp at hy
      · intro x c r' e
        rw [hl]
        rcases upd_cases e with ⟨ex, e⟩ | ⟨hne, e⟩
        · cases e
        · obtain ⟨h1, h2⟩ := m3 _ _ _ e
          rw [if_neg (Ne.symm hne)]
          refine ⟨?_, by simpa using h2⟩
          show r' ≤ s.counter + 1
          omega
      · intro x c r' v e
        rcases upd_cases e with ⟨ex, e⟩ | ⟨hne, e⟩
        · cases e
        · exact absurd e (noOther x hne _ _ _)
    | put cb r =>
      refine ⟨m1, m2, ?_, ?_⟩
      · intro x c r' e
        rcases upd_cases e with ⟨ex, e⟩ | ⟨_, e⟩
        · cases e
        · exact m3 _ _ _ e
      · intro x c r' v e
        rcases upd_cases e with ⟨ex, e⟩ | ⟨_, e⟩
        · cases e
        · exact m4 _ _ _ _ e
    | register cb r =>
      have hl : ∀ x, assignedTo x (s.log ++ [.returned t cb r]) = assignedTo x s.log := by
        intro x; rw [assignedTo_append]; simp [assignedTo]
      refine ⟨?_, ?_, ?_, ?_⟩
      · intro x; rw [hl]; exact m1 x
      · intro x; rw [hl]; exact m2 x
      · intro x c r' e
        rw [hl]
        rcases upd_cases e with ⟨ex, e⟩ | ⟨_, e⟩
        · cases e
        · exact m3 _ _ _ e
      · intro x c r' v e
        rw [hl]
        rcases upd_cases e with ⟨ex, e⟩ | ⟨_, e⟩
        · cases e
        · exact m4 _ _ _ _ e

/-- A thread comes to its store only by its own load. -/
theorem store_from {s : State} {o : Step} {t cb r v : Nat} (h : (step s o).pc t = .store cb r v) :
    (s.pc t = .store cb r v ∧ o ≠ .run t) ∨ (o = .run t ∧ s.pc t = .loadAgain cb r) := by
  by_cases ho : ∀ t, o ≠ .run t
  · exact .inl ⟨(step_pc_other ho t cb r v).1 h, ho t⟩
  · have : ∃ t, o = .run t := by by_contra hn; exact ho (fun t e => hn ⟨t, e⟩)
    obtain ⟨x, rfl⟩ := this
    simp only [step] at h
    by_cases e : t = x
    · subst e
      cases hp : s.pc t with
      | idle => rw [hp] at h; simp only at h; rw [hp] at h; cases h
      | load c => simp [hp, upd_same] at h
      | loadAgain c r' =>
        simp [hp, upd_same] at h
        obtain ⟨rfl, rfl, _⟩ := h
        exact .inr ⟨rfl, rfl⟩
      | store c r' v' => simp [hp, upd_same] at h
      | put c r' => simp [hp, upd_same] at h
      | register c r' => simp [hp, upd_same] at h
    · left
      refine ⟨?_, fun ee => e (by simpa using ee.symm)⟩
      cases hp : s.pc x <;> simp [hp, upd_ne _ _ e] at h <;> exact h

theorem atomic_mono (sched : List Step) (h : AtomicIncrement sched) : ∀ a b, sched = a ++ b →
    Mono (run a) ∧ ∀ t cb r v, (run a).pc t = .store cb r v → b = [] ∨ ∃ b', b = .run t :: b' := by
  intro a
  induction a using List.reverseRecOn with
  | nil =>
    intro b _
    refine ⟨?_, ?_⟩
    · constructor <;> simp [run, assignedTo]
    · intro t cb r v e; simp [run] at e
  | append_singleton a o ih =>
    intro b e
    obtain ⟨hm, hst⟩ := ih (o :: b) (by simpa using e)
    have hs : ∀ t cb r v, (run a).pc t = .store cb r v → o = .run t := by
      intro t cb r v ht
      rcases hst t cb r v ht with h' | ⟨b', h'⟩
      · simp at h'
      · simp at h'; exact h'.1
    rw [run_snoc]
    refine ⟨step_mono hm hs, ?_⟩
    intro t cb r v ht
    rcases store_from ht with ⟨h1, h2⟩ | ⟨rfl, h1⟩
    · exact absurd (hs t cb r v h1) h2
    · obtain ⟨b', hb⟩ := h a t b cb r (by simpa using e) h1
      rcases hb with rfl | rfl
      · exact .inr ⟨b', rfl⟩
      · exact .inl rfl

/-- The IDs of `racing`, with its increments atomic. -/
theorem racing_atomic (cb cb' : Nat) : AtomicIncrement (racing cb cb') := by
  intro a t b c r e hp
  have ha : a = (racing cb cb').take a.length := by rw [e]; simp
  have hb : b = (racing cb cb').drop (a.length + 1) := by rw [e]; simp
  have ht : (racing cb cb')[a.length]? = some (.run t) := by rw [e]; simp
  have hlen : a.length < 12 := by
    have := congrArg List.length e
    simp [racing] at this
    omega
  generalize a.length = i at ha hb ht hlen
  subst ha hb
  interval_cases i <;> simp [racing] at ht <;> subst ht <;> simp [racing, run, step, upd] at hp ⊢

end Threads

/-- C55: if only the increment `+= 1` were atomic, each thread's own IDs would be increasing, under every schedule, ... -/
theorem C55_atomic_increment (sched : List Step) (h : AtomicIncrement sched) (t : Nat) :
    (assignedTo t (run sched).log).Pairwise (· < ·) := (atomic_mono sched h sched [] (by simp)).1.sorted t

/-- C55: ... but two threads could still be given the same ID. -/
theorem C55_atomic_increment_not_enough : ∃ sched, AtomicIncrement sched ∧ ¬ (returnedIds (run sched).log).Nodup := by
  refine ⟨racing 7 8, racing_atomic 7 8, ?_⟩
  rw [racing_state]
  decide

/-- Two threads making calls in turn, with responses: no overlap, and both callbacks are invoked. -/
example : NoOverlap (wholeCall 0 7 ++ wholeCall 1 8) ∧
    (run (wholeCall 0 7 ++ wholeCall 1 8 ++ [.send, .send, .response 1, .finish, .response 0])).log =
      [.assigned 0 7 0, .returned 0 7 0, .assigned 1 8 1, .returned 1 8 1, .sent 0, .sent 1, .invoked 1 8, .deleted 1,
       .invoked 0 7] := by
  refine ⟨?_, by decide⟩
  intro a t b c e hp t'
  have ha : a = (wholeCall 0 7 ++ wholeCall 1 8).take a.length := by rw [e]; simp
  have ht : (wholeCall 0 7 ++ wholeCall 1 8)[a.length]? = some (.run t) := by rw [e]; simp
  have hlen : a.length < 12 := by
    have := congrArg List.length e
    simp [wholeCall] at this
    omega
  generalize a.length = i at ha ht hlen
  subst ha
  interval_cases i <;> simp [wholeCall] at ht <;> subst ht <;> simp [wholeCall, run, step, upd] at hp ⊢ <;>
    (repeat' split) <;> simp [Inside]

end Libsnmp
