import Mathlib.Data.List.Induction
import Verif.Spec.Logging

/-!
# Lemmas on imports and loggers
-/

namespace Libsnmp.LogLemmas
open Libsnmp Spec

/-- Modules whose import gives the logger a level (INFO). -/
def setters (n : LogName) : List Module :=
  if n = logV1 then [.v1, .v2, .snmpmanager]
  else if n = logAsn1 then makers n
  else if n = log1902 then makers n
  else if n = logV2 then makers n
  else []

/-- How library code may change the loggers: new ones get the class in force; a level changes only to INFO. -/
structure Grows (L L' : Logs) : Prop where
  cls : L'.snmpClass = L.snmpClass
  lvl : L'.rootLevel = L.rootLevel
  hnd : L'.rootHandlers = L.rootHandlers
  old : ∀ n g, L.loggers n = some g → ∃ v, L'.loggers n = some ⟨v, g.handlers⟩ ∧ (v = g.level ∨ v = 20 ∧ setters n ≠ [])
  new : ∀ n, L.loggers n = none → L'.loggers n = none ∨
    ∃ v, L'.loggers n = some ⟨v, (newLogger L.snmpClass).handlers⟩ ∧
      (v = (newLogger L.snmpClass).level ∨ v = 20 ∧ setters n ≠ [])

theorem Grows.refl (L : Logs) : Grows L L :=
  ⟨rfl, rfl, rfl, fun _ g h => ⟨g.level, h, .inl rfl⟩, fun _ h => .inl h⟩

theorem Grows.trans {L1 L2 L3 : Logs} (a : Grows L1 L2) (b : Grows L2 L3) : Grows L1 L3 := by
  refine ⟨b.cls.trans a.cls, b.lvl.trans a.lvl, b.hnd.trans a.hnd, ?_, ?_⟩
  · intro n g h
    obtain ⟨v, h2, h3⟩ := a.old n g h
    obtain ⟨w, h4, h5⟩ := b.old n _ h2
    refine ⟨w, h4, ?_⟩
    rcases h5 with h5 | h5
    · simp only at h5
      rw [h5]; exact h3
    · exact .inr h5
  · intro n h
    rcases a.new n h with h2 | ⟨v, h2, h3⟩
    · rcases b.new n h2 with h4 | h4
      · exact .inl h4
      · rw [a.cls] at h4; exact .inr h4
    · obtain ⟨w, h4, h5⟩ := b.old n _ h2
      refine .inr ⟨w, h4, ?_⟩
      rcases h5 with h5 | h5
      · simp only at h5
        rw [h5]; exact h3
      · exact .inr h5

theorem grows_getLogger (n : LogName) (L : Logs) : Grows L (getLogger n L) := by
  unfold getLogger
  cases h : L.loggers n with
  | some g => exact .refl L
  | none =>
    refine ⟨rfl, rfl, rfl, ?_, ?_⟩
    · intro x g hx
      refine ⟨g.level, ?_, .inl rfl⟩
      have : x ≠ n := by rintro rfl; rw [h] at hx; cases hx
      simp [this, hx]
    · intro x hx
      by_cases hxn : x = n
      · exact .inr ⟨(newLogger L.snmpClass).level, by simp [hxn], .inl rfl⟩
      · exact .inl (by simp [hxn, hx])

theorem getLogger_some (n : LogName) (L : Logs) : ∃ g, (getLogger n L).loggers n = some g := by
  unfold getLogger
  cases h : L.loggers n with
  | some g => exact ⟨g, h⟩
  | none => exact ⟨newLogger L.snmpClass, by simp⟩

theorem getLogger_other {n x : LogName} (h : x ≠ n) (L : Logs) : (getLogger n L).loggers x = L.loggers x := by
  unfold getLogger
  cases L.loggers n <;> simp [h]

theorem grows_setLevel {n : LogName} (hn : setters n ≠ []) (L : Logs) : Grows L (setLevel n 20 L) := by
  refine (grows_getLogger n L).trans ?_
  refine ⟨rfl, rfl, rfl, ?_, ?_⟩
  · intro x g hx
    by_cases hxn : x = n
    · subst hxn
      exact ⟨20, by simp [setLevel, hx], .inr ⟨rfl, hn⟩⟩
    · exact ⟨g.level, by simp [setLevel, hxn, hx], .inl rfl⟩
  · intro x hx
    refine .inl ?_
    simp [setLevel, hx]

theorem setLevel_some (n : LogName) (v : Nat) (L : Logs) : ∃ g, (setLevel n v L).loggers n = some g ∧ g.level = v := by
  obtain ⟨g, hg⟩ := getLogger_some n L
  exact ⟨{ g with level := v }, by simp [setLevel, hg], rfl⟩

theorem setLevel_other {n x : LogName} (h : x ≠ n) (v : Nat) (L : Logs) : (setLevel n v L).loggers x = L.loggers x := by
  simp [setLevel, h, getLogger_other h]

/-- The loggers a loaded module has seen to. -/
def Fin (m : Module) (L : Logs) : Prop :=
  ∀ n, m ∈ makers n → ∃ g, L.loggers n = some g ∧ (m ∈ setters n → g.level = 20)

theorem Fin.mono {m : Module} {L L' : Logs} (h : Fin m L) (g : Grows L L') : Fin m L' := by
  intro n hn
  obtain ⟨a, h1, h2⟩ := h n hn
  obtain ⟨v, h3, h4⟩ := g.old n a h1
  refine ⟨_, h3, fun hs => ?_⟩
  rcases h4 with h4 | h4
  · simp only [h4]; exact h2 hs
  · exact h4.1

/-- Importing code: `S` the modules it may load, `T` those surely loaded afterwards. -/
structure Good (S T : List Module) (f : LogProc → LogProc) : Prop where
  grows : ∀ p, Grows p.logs (f p).logs
  out : ∀ p m, m ∉ S → (f p).loaded m = p.loaded m
  mono : ∀ p m, p.loaded m = true → (f p).loaded m = true
  fin : ∀ p, (∀ m ∈ S, p.loaded m = true → Fin m p.logs) → ∀ m ∈ S, (f p).loaded m = true → Fin m (f p).logs
  top : ∀ p, ∀ m ∈ T, (f p).loaded m = true
  quiet : ∀ p n, (∀ m ∈ S, m ∉ makers n) → (f p).logs.loggers n = p.logs.loggers n

theorem Good.id' : Good [] [] (fun p => p) :=
  ⟨fun _ => .refl _, fun _ _ _ => rfl, fun _ _ h => h, fun _ _ m hm => by simp at hm, fun _ m hm => by simp at hm, fun _ _ _ => rfl⟩

theorem Good.comp {S T S' T' : List Module} {f g : LogProc → LogProc} (a : Good S T f) (b : Good S' T' g) :
    Good (S ++ S') (T ++ T') (fun p => g (f p)) := by
  refine ⟨fun p => (a.grows p).trans (b.grows _), ?_, fun p m h => b.mono _ m (a.mono p m h), ?_, ?_, ?_⟩
  · intro p m hm
    simp only [List.mem_append, not_or] at hm
    rw [b.out _ m hm.2, a.out p m hm.1]
  · intro p hp
    have h1 : ∀ m ∈ S ++ S', (f p).loaded m = true → Fin m (f p).logs := by
      intro m hm hl
      by_cases hS : m ∈ S
      · exact a.fin p (fun m' hm' => hp m' (List.mem_append_left _ hm')) m hS hl
      · rw [a.out p m hS] at hl
        exact (hp m hm hl).mono (a.grows p)
    intro m hm hl
    by_cases hS : m ∈ S'
    · exact b.fin _ (fun m' hm' => h1 m' (List.mem_append_right _ hm')) m hS hl
    · rw [b.out _ m hS] at hl
      exact (h1 m hm hl).mono (b.grows _)
  · intro p m hm
    rcases List.mem_append.mp hm with h | h
    · exact b.mono _ m (a.top p m h)
    · exact b.top _ m h
  · intro p n hn
    rw [b.quiet _ n (fun m hm => hn m (List.mem_append_right _ hm)), a.quiet p n (fun m hm => hn m (List.mem_append_left _ hm))]

/-- What a module's own statements may do. -/
structure Step (m : Module) (f : Logs → Logs) : Prop where
  grows : ∀ L, Grows L (f L)
  quiet : ∀ L n, m ∉ makers n → (f L).loggers n = L.loggers n

theorem good_load {m : Module} {S T : List Module} {pre own : Logs → Logs} {d : LogProc → LogProc} (hd : Good S T d)
    (hm : m ∉ S) (hT : ∀ t ∈ T, t ∈ S) (hpre : Step m pre) (hown : Step m own)
    (hfin : ∀ L L', Grows (pre L) L' → (∀ t ∈ T, Fin t L') → Fin m (own L')) :
    Good (m :: S) [m] (loadLog m pre d own) := by
  have key : ∀ p : LogProc, p.loaded m = false → loadLog m pre d own p =
      { (d ⟨fun x => decide (x = m) || p.loaded x, pre p.logs⟩) with
        logs := own (d ⟨fun x => decide (x = m) || p.loaded x, pre p.logs⟩).logs } := by
    intro p h; unfold loadLog; simp [h]
  have key2 : ∀ p : LogProc, p.loaded m = true → loadLog m pre d own p = p := by
    intro p h; unfold loadLog; simp [h]
  refine ⟨?_, ?_, ?_, ?_, ?_, ?_⟩
  · intro p
    cases h : p.loaded m with
    | true => rw [key2 p h]; exact .refl _
    | false =>
      rw [key p h]
      exact (hpre.grows p.logs).trans ((hd.grows ⟨fun x => decide (x = m) || p.loaded x, pre p.logs⟩).trans (hown.grows _))
  · intro p x hx
    simp only [List.mem_cons, not_or] at hx
    cases h : p.loaded m with
    | true => rw [key2 p h]
    | false =>
      rw [key p h]
      simp only
      rw [hd.out _ x hx.2]
      simp [hx.1]
  · intro p x hx
    cases h : p.loaded m with
    | true => rw [key2 p h]; exact hx
    | false =>
      rw [key p h]
      simp only
      exact hd.mono _ x (by simp [hx])
  · intro p hp x hx hl
    cases h : p.loaded m with
    | true =>
      rw [key2 p h] at hl ⊢
      exact hp x hx hl
    | false =>
      rw [key p h] at hl ⊢
      simp only at hl ⊢
      have hS : ∀ t ∈ S, (d ⟨fun x => decide (x = m) || p.loaded x, pre p.logs⟩).loaded t = true →
          Fin t (d ⟨fun x => decide (x = m) || p.loaded x, pre p.logs⟩).logs := by
        apply hd.fin
        intro t ht htl
        have : t ≠ m := by rintro rfl; exact hm ht
        simp only [this, decide_false, Bool.false_or] at htl
        exact (hp t (List.mem_cons_of_mem _ ht) htl).mono (hpre.grows _)
      rcases List.mem_cons.mp hx with rfl | hxS
      · refine hfin p.logs _ (hd.grows ⟨fun y => decide (y = x) || p.loaded y, pre p.logs⟩) ?_
        intro t ht
        exact hS t (hT t ht) (hd.top _ t ht)
      · exact (hS x hxS hl).mono (hown.grows _)
  · intro p x hx
    simp only [List.mem_singleton] at hx
    subst hx
    cases h : p.loaded x with
    | true => rw [key2 p h]; exact h
    | false =>
      rw [key p h]
      simp only
      exact hd.mono _ x (by simp)
  · intro p n hn
    have h1 : m ∉ makers n := hn m List.mem_cons_self
    cases h : p.loaded m with
    | true => rw [key2 p h]
    | false =>
      rw [key p h]
      simp only
      rw [hown.quiet _ n h1, hd.quiet _ n (fun t ht => hn t (List.mem_cons_of_mem _ ht))]
      exact hpre.quiet _ n h1

theorem step_id (m : Module) : Step m id := ⟨fun L => .refl L, fun _ _ _ => rfl⟩

theorem step_get {m : Module} {n : LogName} (h : m ∈ makers n) : Step m (getLogger n) :=
  ⟨grows_getLogger n, fun L x hx => getLogger_other (by rintro rfl; exact hx h) L⟩

theorem step_set {m : Module} {n : LogName} (h : m ∈ makers n) (hs : setters n ≠ []) : Step m (setLevel n 20) :=
  ⟨grows_setLevel hs, fun L x hx => setLevel_other (by rintro rfl; exact hx h) 20 L⟩

/-- The names that have makers. -/
theorem makers_cases {m : Module} {n : LogName} (h : m ∈ makers n) : n ∈ libraryLoggers := by
  unfold makers at h
  simp only [libraryLoggers, List.mem_cons, List.not_mem_nil, or_false]
  split at h
  · simp [*]
  · split at h
    · simp [*]
    · split at h
      · simp [*]
      · split at h
        · simp [*]
        · split at h
          · simp [*]
          · split at h
            · simp [*]
            · split at h
              · simp [*]
              · simp at h

/-- A module has seen to its loggers when, for each, its own statements or a module it imports have. -/
theorem fin_of {m : Module} {T : List Module} {L L' : Logs} (g : Grows L L') (hT : ∀ t ∈ T, Fin t L)
    (h : ∀ n ∈ libraryLoggers, m ∈ makers n →
      (∃ a, L'.loggers n = some a ∧ (m ∈ setters n → a.level = 20)) ∨
      ∃ t ∈ T, t ∈ makers n ∧ (m ∈ setters n → t ∈ setters n)) : Fin m L' := by
  intro n hn
  rcases h n (makers_cases hn) hn with h | ⟨t, ht, h1, h2⟩
  · exact h
  · obtain ⟨a, h3, h4⟩ := (hT t ht).mono g n h1
    exact ⟨a, h3, fun hs => h4 (h2 hs)⟩

theorem good_util : Good [.util] [.util] logUtil :=
  good_load Good.id' (by simp) (by simp) (step_id _) (step_id _)
    (fun L L' _ _ n hn => absurd hn (by
      have : n ∈ libraryLoggers := makers_cases hn
      revert this hn
      simp only [libraryLoggers, List.mem_cons, List.not_mem_nil, or_false]
      rintro hn (rfl | rfl | rfl | rfl | rfl | rfl | rfl) <;> revert hn <;> decide))

theorem good_role : Good [.role] [.role] logRole := by
  refine good_load Good.id' (by simp) (by simp) (step_id _) (step_get (n := logV1) (by decide)) ?_
  intro L L' _ _
  refine fin_of (T := []) (grows_getLogger logV1 L') (by simp) ?_
  intro n hn hm
  have : n = logV1 := by
    revert hm; revert n
    decide
  subst this
  obtain ⟨a, ha⟩ := getLogger_some logV1 L'
  exact .inl ⟨a, ha, fun h => absurd h (by decide)⟩

theorem good_asynrole : Good [.asynrole, .role] [.asynrole] logAsynrole := by
  refine good_load good_role (by decide) (by decide) (step_id _) (step_id _) ?_
  intro L L' _ hT
  refine fin_of (.refl _) hT ?_
  intro n hn hm
  exact .inr (by revert n; decide)

theorem good_1155 : Good [.rfc1155, .util] [.rfc1155] log1155m := by
  refine good_load good_util (by decide) (by decide) (step_id _) (step_set (n := logAsn1) (by decide) (by decide)) ?_
  intro L L' _ hT
  refine fin_of (grows_setLevel (n := logAsn1) (by decide) L') hT ?_
  intro n hn hm
  have : n = logAsn1 := by revert n; decide
  subst this
  obtain ⟨a, ha, h2⟩ := setLevel_some logAsn1 20 L'
  exact .inl ⟨a, ha, fun _ => h2⟩

theorem good_1157 : Good [.rfc1157, .rfc1155, .util] [.rfc1157] log1157m := by
  refine good_load good_1155 (by decide) (by decide) (step_get (n := log1157) (by decide)) (step_id _) ?_
  intro L L' g hT
  refine fin_of (.refl _) hT ?_
  intro n hn hm
  by_cases h : n = log1157
  · subst h
    obtain ⟨a, ha⟩ := getLogger_some log1157 L
    obtain ⟨v, h3, _⟩ := g.old _ a ha
    exact .inl ⟨_, h3, fun h => absurd h (by decide)⟩
  · exact .inr (by revert h hm; revert n; decide)

theorem good_1902 : Good [.rfc1902, .rfc1155, .util] [.rfc1902] log1902m := by
  refine good_load good_1155 (by decide) (by decide) (step_id _) (step_set (n := log1902) (by decide) (by decide)) ?_
  intro L L' g hT
  refine fin_of (grows_setLevel (n := log1902) (by decide) L') hT ?_
  intro n hn hm
  by_cases h : n = log1902
  · subst h
    obtain ⟨a, ha, h2⟩ := setLevel_some log1902 20 L'
    exact .inl ⟨a, ha, fun _ => h2⟩
  · exact .inr (by revert h hm; revert n; decide)

theorem good_1905 : Good [.rfc1905, .rfc1157, .rfc1155, .util, .rfc1902, .rfc1155, .util] [.rfc1905] log1905m := by
  refine good_load (good_1157.comp good_1902) (by decide) (by decide) (step_id _) (step_get (n := log1905) (by decide)) ?_
  intro L L' g hT
  refine fin_of (grows_getLogger log1905 L') hT ?_
  intro n hn hm
  by_cases h : n = log1905
  · subst h
    obtain ⟨a, ha⟩ := getLogger_some log1905 L'
    exact .inl ⟨a, ha, fun h => absurd h (by decide)⟩
  · exact .inr (by revert h hm; revert n; decide)

theorem good_v1 : Good [.v1, .asynrole, .role, .rfc1157, .rfc1155, .util] [.v1] logV1m := by
  refine good_load (good_asynrole.comp good_1157) (by decide) (by decide) (step_id _)
    (step_set (n := logV1) (by decide) (by decide)) ?_
  intro L L' g hT
  refine fin_of (grows_setLevel (n := logV1) (by decide) L') hT ?_
  intro n hn hm
  by_cases h : n = logV1
  · subst h
    obtain ⟨a, ha, h2⟩ := setLevel_some logV1 20 L'
    exact .inl ⟨a, ha, fun _ => h2⟩
  · exact .inr (by revert h hm; revert n; decide)

/-- `S` only holds modules that make loggers of `m`. -/
def Within (S : List Module) (m : Module) : Prop := ∀ x ∈ S, ∀ n ∈ libraryLoggers, x ∈ makers n → m ∈ makers n

instance (S : List Module) (m : Module) : Decidable (Within S m) := by unfold Within; infer_instance

theorem good_v2 : ∃ S, Good S [.v2] logV2m ∧ Module.snmpmanager ∉ S ∧ Module.v2 ∈ S ∧ Module.debug ∉ S ∧ Within S .v2 := by
  refine ⟨_, good_load (((good_1155.comp good_1157).comp good_1905).comp good_v1) (by decide) (by decide) (step_id _)
    (step_set (n := logV2) (by decide) (by decide)) ?_, by decide, by decide, by decide, by decide⟩
  intro L L' g hT
  refine fin_of (grows_setLevel (n := logV2) (by decide) L') hT ?_
  intro n hn hm
  by_cases h : n = logV2
  · subst h
    obtain ⟨a, ha, h2⟩ := setLevel_some logV2 20 L'
    exact .inl ⟨a, ha, fun _ => h2⟩
  · exact .inr (by revert h hm; revert n; decide)

theorem good_manager : ∃ S, Good S [.snmpmanager] logManagerm ∧ Module.debug ∉ S ∧ Within S .snmpmanager := by
  obtain ⟨S, hS, h1, h2, h4, h3⟩ := good_v2
  refine ⟨_, good_load ((((good_asynrole.comp good_1157).comp good_1905).comp good_v1).comp hS) ?_ ?_ (step_id _)
    (step_get (n := logManager) (by decide)) ?_, ?_, ?_⟩
  · simp only [List.mem_append, not_or]
    exact ⟨by decide, h1⟩
  · intro t ht
    simp only [List.mem_append] at ht
    rcases ht with ht | ht
    · refine List.mem_append_left _ ?_
      have : t ∈ [Module.asynrole, .rfc1157, .rfc1905, .v1] := by simpa [or_assoc] using ht
      revert this
      cases t <;> decide
    · simp only [List.mem_singleton] at ht
      subst ht
      exact List.mem_append_right _ h2
  · intro L L' g hT
    refine fin_of (grows_getLogger logManager L') hT ?_
    intro n hn hm
    by_cases h : n = logManager
    · subst h
      obtain ⟨a, ha⟩ := getLogger_some logManager L'
      exact .inl ⟨a, ha, fun h => absurd h (by decide)⟩
    · exact .inr (by revert h hm; revert n; decide)
  · simp only [List.mem_cons, List.mem_append, not_or]
    exact ⟨by decide, ⟨⟨⟨by decide, by decide⟩, by decide⟩, by decide⟩, h4⟩
  · intro x hx n hn hxn
    clear hxn hx x
    revert n
    decide

/-- Every module but `debug`. -/
theorem good_imp (m : Module) (hm : m ≠ .debug) : ∃ S, Good S [m] m.impLog ∧ Module.debug ∉ S ∧ Within S m := by
  cases m with
  | util => exact ⟨_, good_util, by decide, by decide⟩
  | debug => exact absurd rfl hm
  | role => exact ⟨_, good_role, by decide, by decide⟩
  | asynrole => exact ⟨_, good_asynrole, by decide, by decide⟩
  | rfc1155 => exact ⟨_, good_1155, by decide, by decide⟩
  | rfc1157 => exact ⟨_, good_1157, by decide, by decide⟩
  | rfc1902 => exact ⟨_, good_1902, by decide, by decide⟩
  | rfc1905 => exact ⟨_, good_1905, by decide, by decide⟩
  | v1 => exact ⟨_, good_v1, by decide, by decide⟩
  | v2 => obtain ⟨S, h, _, _, h2, h3⟩ := good_v2; exact ⟨S, h, h2, h3⟩
  | snmpmanager => exact good_manager

/-! ## Histories -/

def hasDebug (l : List LogAct) : Bool := l.any fun | .imp .debug => true | _ => false

theorem debugFirst_append (n : LogName) (l r : List LogAct) :
    debugFirst n (l ++ r) = if hasDebug l || made n l then debugFirst n l else debugFirst n r := by
  induction l with
  | nil => simp [hasDebug, made]
  | cons a l ih =>
    cases a with
    | imp m =>
      by_cases hd : m = .debug
      · subst hd; simp [debugFirst, hasDebug]
      · have h1 : hasDebug (.imp m :: l) = hasDebug l := by
          cases m <;> simp [hasDebug] at hd ⊢
        by_cases hk : (makers n).contains m
        · have h2 : made n (.imp m :: l) = true := by simp only [made, List.any_cons, hk, Bool.true_or]
          simp only [List.cons_append, debugFirst, hd, if_false, hk, if_true, h2, Bool.or_true]
        · have h2 : made n (.imp m :: l) = made n l := by simp only [made, List.any_cons, hk, Bool.false_or]
          simp only [List.cons_append, debugFirst, hd, if_false, hk, h1, h2, ih]
          simp
    | getLogger x => simpa [debugFirst, hasDebug, made] using ih
    | setLevel x v => simpa [debugFirst, hasDebug, made] using ih
    | rootHandler => simpa [debugFirst, hasDebug, made] using ih
    | rootLevel v => simpa [debugFirst, hasDebug, made] using ih

theorem debugFirst_unmade {n : LogName} {l : List LogAct} (h : made n l = false) : debugFirst n l = hasDebug l := by
  induction l with
  | nil => rfl
  | cons a l ih =>
    have h2 : made n l = false := by
      simp only [made, List.any_cons, Bool.or_eq_false_iff] at h ⊢
      exact h.2
    cases a with
    | imp m =>
      by_cases hd : m = .debug
      · subst hd; simp [debugFirst, hasDebug]
      · have h1 : hasDebug (.imp m :: l) = hasDebug l := by
          cases m <;> simp [hasDebug] at hd ⊢
        have hk : (makers n).contains m = false := by
          simp only [made, List.any_cons, Bool.or_eq_false_iff] at h
          exact h.1
        rw [h1, debugFirst, if_neg hd, hk]
        simpa using ih h2
    | getLogger x => simpa [debugFirst, hasDebug] using ih h2
    | setLevel x v => simpa [debugFirst, hasDebug] using ih h2
    | rootHandler => simpa [debugFirst, hasDebug] using ih h2
    | rootLevel v => simpa [debugFirst, hasDebug] using ih h2

/-- The state of the loggers after a history. -/
structure Inv (l : List LogAct) (p : LogProc) : Prop where
  fin : ∀ m, p.loaded m = true → Fin m p.logs
  loaded : ∀ m, .imp m ∈ l → p.loaded m = true
  dbg : p.loaded .debug = true → p.logs.snmpClass = true
  cls : p.logs.snmpClass = hasDebug l
  rootL : p.logs.rootLevel = rootLevelOf l
  rootH : p.logs.rootHandlers = rootHandlersOf l
  above : p.logs.loggers ["v1"] = none ∧ p.logs.loggers ["v2"] = none
  absent : ∀ n ∈ libraryLoggers, made n l = false → p.logs.loggers n = none
  present : ∀ n ∈ libraryLoggers, ∀ g, p.logs.loggers n = some g → made n l = true ∧
    g.handlers = (newLogger (debugFirst n l)).handlers ∧
    (g.level = (newLogger (debugFirst n l)).level ∨ g.level = 20 ∧ setters n ≠ [])

theorem makers_none {n : LogName} (h : n ∉ libraryLoggers) (m : Module) : m ∉ makers n := fun hm => h (makers_cases hm)

theorem made_append (n : LogName) (l r : List LogAct) : made n (l ++ r) = (made n l || made n r) := by simp [made]

theorem inv_nil : Inv [] {} := by
  refine ⟨by simp, by simp, by simp, rfl, rfl, rfl, ⟨rfl, rfl⟩, fun _ _ _ => rfl, ?_⟩
  intro n _ g h
  simp at h

/-- The part of the invariant that speaks of `debugFirst`, when the next action does not decide it. -/
theorem debugFirst_snoc {n : LogName} {l : List LogAct} (a : LogAct) (h : made n l = true) :
    debugFirst n (l ++ [a]) = debugFirst n l := by
  rw [debugFirst_append, h]; simp

theorem hasDebug_append (l r : List LogAct) : hasDebug (l ++ r) = (hasDebug l || hasDebug r) := by simp [hasDebug]

theorem rootHandlers_snoc (l : List LogAct) (a : LogAct) :
    rootHandlersOf (l ++ [a]) = rootHandlersOf l + match a with | .rootHandler => 1 | _ => 0 := by
  cases a <;> simp [rootHandlersOf]

theorem rootLevel_snoc (l : List LogAct) (a : LogAct) :
    rootLevelOf (l ++ [a]) = match a with | .rootLevel w => w | _ => rootLevelOf l := by
  cases a <;> simp [rootLevelOf]

/-- Logging calls of the program on its own names, and configuration of the root logger. -/
theorem inv_own {l : List LogAct} {p : LogProc} (h : Inv l p) (a : LogAct) (ha : ∀ m, a ≠ .imp m) (L' : Logs)
    (h1 : L'.snmpClass = p.logs.snmpClass) (h2 : L'.rootLevel = rootLevelOf (l ++ [a]))
    (h3 : L'.rootHandlers = rootHandlersOf (l ++ [a]))
    (h4 : ∀ n ∈ libraryLoggers ++ [["v1"], ["v2"]], L'.loggers n = p.logs.loggers n) :
    Inv (l ++ [a]) ⟨p.loaded, L'⟩ := by
  have hmade : ∀ n, made n (l ++ [a]) = made n l := by
    intro n
    rw [made_append]
    cases a <;> simp [made] at ha ⊢
  have hdb : hasDebug (l ++ [a]) = hasDebug l := by
    rw [hasDebug_append]
    cases a <;> simp [hasDebug] at ha ⊢
  refine ⟨?_, ?_, fun hd => h1.trans (h.dbg hd), ?_, h2, h3, ?_, ?_, ?_⟩
  · intro m hm n hn
    obtain ⟨g, hg⟩ := h.fin m hm n hn
    rw [← h4 n (List.mem_append_left _ (makers_cases hn))] at hg
    exact ⟨g, hg⟩
  · intro m hm
    simp only [List.mem_append, List.mem_singleton] at hm
    rcases hm with hm | hm
    · exact h.loaded m hm
    · exact absurd hm.symm (ha m)
  · rw [hdb, ← h.cls]; exact h1
  · exact ⟨(h4 ["v1"] (by decide)).trans h.above.1, (h4 ["v2"] (by decide)).trans h.above.2⟩
  · intro n hn hm
    rw [hmade] at hm
    exact (h4 n (List.mem_append_left _ hn)).trans (h.absent n hn hm)
  · intro n hn g hg
    rw [show (⟨p.loaded, L'⟩ : LogProc).logs.loggers n = p.logs.loggers n from h4 n (List.mem_append_left _ hn)] at hg
    obtain ⟨a1, a2, a3⟩ := h.present n hn g hg
    rw [hmade, debugFirst_snoc a a1]
    exact ⟨a1, a2, a3⟩

theorem inv_imp {l : List LogAct} {p : LogProc} (h : Inv l p) (m : Module) (hm : m ≠ .debug) :
    Inv (l ++ [.imp m]) (m.impLog p) := by
  obtain ⟨S, hS, hD, hW⟩ := good_imp m hm
  have g := hS.grows p
  have hdb : hasDebug (l ++ [.imp m]) = hasDebug l := by
    rw [hasDebug_append]
    cases m <;> simp [hasDebug] at hm ⊢
  have hfin : ∀ x, (m.impLog p).loaded x = true → Fin x (m.impLog p).logs := by
    intro x hx
    by_cases hxS : x ∈ S
    · exact hS.fin p (fun y _ hy => h.fin y hy) x hxS hx
    · rw [hS.out p x hxS] at hx
      exact (h.fin x hx).mono g
  have hload : ∀ x, .imp x ∈ l ++ [LogAct.imp m] → (m.impLog p).loaded x = true := by
    intro x hx
    simp only [List.mem_append, List.mem_singleton, LogAct.imp.injEq] at hx
    rcases hx with hx | rfl
    · exact hS.mono p x (h.loaded x hx)
    · exact hS.top p x (by simp)
  have hquiet : ∀ n, n ∉ libraryLoggers → (m.impLog p).logs.loggers n = p.logs.loggers n :=
    fun n hn => hS.quiet p n (fun x _ => makers_none hn x)
  refine ⟨hfin, hload, ?_, ?_, ?_, ?_, ?_, ?_, ?_⟩
  · intro hd
    rw [hS.out p _ hD] at hd
    rw [g.cls]
    exact h.dbg hd
  · rw [g.cls, h.cls, hdb]
  · rw [g.lvl, h.rootL, rootLevel_snoc]
  · rw [g.hnd, h.rootH, rootHandlers_snoc]; rfl
  · exact ⟨(hquiet ["v1"] (by decide)).trans h.above.1, (hquiet ["v2"] (by decide)).trans h.above.2⟩
  · intro n hn hmd
    rw [made_append, Bool.or_eq_false_iff] at hmd
    have : m ∉ makers n := by
      have := hmd.2
      simpa [made] using this
    rw [hS.quiet p n (fun x hx hk => this (hW x hx n hn hk))]
    exact h.absent n hn hmd.1
  · intro n hn a ha
    by_cases hml : made n l = true
    · rw [debugFirst_snoc _ hml]
      refine ⟨by rw [made_append, hml]; rfl, ?_⟩
      cases hb : p.logs.loggers n with
      | none =>
        simp only [made, List.any_eq_true] at hml
        obtain ⟨y, hy, hy2⟩ := hml
        cases y with
        | imp x =>
          obtain ⟨b, hb2, _⟩ := h.fin x (h.loaded x hy) n (by simpa using hy2)
          rw [hb] at hb2; cases hb2
        | _ => simp at hy2
      | some b =>
        obtain ⟨_, b2, b3⟩ := h.present n hn b hb
        obtain ⟨v, c1, c2⟩ := g.old n b hb
        rw [c1] at ha
        cases ha
        refine ⟨b2, ?_⟩
        rcases c2 with c2 | c2
        · simp only [c2]; exact b3
        · exact .inr c2
    · have hml : made n l = false := by simpa using hml
      have hn0 := h.absent n hn hml
      have hmk : m ∈ makers n := by
        by_contra hc
        rw [hS.quiet p n (fun x hx hk => hc (hW x hx n hn hk)), hn0] at ha
        cases ha
      have hdf : debugFirst n (l ++ [.imp m]) = hasDebug l := by
        rw [debugFirst_append, hml]
        cases hd : hasDebug l with
        | true => simp only [Bool.or_false, if_true]; rw [debugFirst_unmade hml, hd]
        | false => simp [debugFirst, hm, hmk]
      refine ⟨by rw [made_append]; simp [made, hmk], ?_⟩
      rw [hdf, ← h.cls]
      rcases g.new n hn0 with c | ⟨v, c1, c2⟩
      · rw [c] at ha; cases ha
      · rw [c1] at ha
        cases ha
        exact ⟨rfl, c2⟩

theorem debug_makers (n : LogName) : Module.debug ∉ makers n := by
  intro h
  have := makers_cases h
  revert h; revert n; decide

theorem inv_debug {l : List LogAct} {p : LogProc} (h : Inv l p) : Inv (l ++ [.imp .debug]) (Module.debug.impLog p) := by
  have hmade : ∀ n, made n (l ++ [.imp .debug]) = made n l := by
    intro n
    rw [made_append]
    simp [made, debug_makers]
  have e : Module.debug.impLog p = if p.loaded .debug then p else
      ⟨fun x => decide (x = .debug) || p.loaded x, { p.logs with snmpClass := true }⟩ := rfl
  have e1 : (Module.debug.impLog p).logs = { p.logs with snmpClass := true } := by
    rw [e]
    split
    · rename_i hd
      have := h.dbg hd
      rw [← this]
    · rfl
  have e6 : ∀ x, (Module.debug.impLog p).loaded x = (decide (x = .debug) || p.loaded x) := by
    intro x
    rw [e]
    split
    · rename_i hd
      by_cases hx : x = .debug
      · subst hx; simp [hd]
      · simp [hx]
    · rfl
  refine ⟨?_, ?_, ?_, ?_, ?_, ?_, ?_, ?_, ?_⟩
  · intro m hm n hn
    rw [e6] at hm
    have : m ≠ .debug := by rintro rfl; exact debug_makers n hn
    simp only [this, decide_false, Bool.false_or] at hm
    rw [e1]
    exact h.fin m hm n hn
  · intro m hm
    rw [e6]
    simp only [List.mem_append, List.mem_singleton, LogAct.imp.injEq] at hm
    rcases hm with hm | hm
    · simp [h.loaded m hm]
    · simp [hm]
  · intro _; rw [e1]
  · rw [e1, hasDebug_append]; simp [hasDebug]
  · rw [e1, rootLevel_snoc]; exact h.rootL
  · rw [e1, rootHandlers_snoc]; exact h.rootH
  · rw [e1]; exact h.above
  · intro n hn hm
    rw [hmade] at hm
    rw [e1]
    exact h.absent n hn hm
  · intro n hn g hg
    rw [e1] at hg
    obtain ⟨a1, a2, a3⟩ := h.present n hn g hg
    rw [hmade, debugFirst_snoc _ a1]
    exact ⟨a1, a2, a3⟩

/-- After every history of a program that leaves the library's loggers alone. -/
theorem inv_after (l : List LogAct) (hl : ∀ a ∈ l, leavesAlone a = true) : Inv l (logsAfter l) := by
  induction l using List.reverseRecOn with
  | nil => exact inv_nil
  | append_singleton l a ih =>
    have h := ih (fun b hb => hl b (List.mem_append_left _ hb))
    have ha := hl a (by simp)
    have e : logsAfter (l ++ [a]) = a.run (logsAfter l) := by simp [logsAfter]
    rw [e]
    cases a with
    | imp m =>
      by_cases hm : m = .debug
      · subst hm; exact inv_debug h
      · exact inv_imp h m hm
    | getLogger n =>
      have hn : ∀ x ∈ libraryLoggers ++ [["v1"], ["v2"]], x ≠ n := by
        rintro x hx rfl
        simp only [leavesAlone, Bool.not_eq_true', List.contains_eq_mem, decide_eq_false_iff_not] at ha
        exact ha hx
      have g := grows_getLogger n (logsAfter l).logs
      exact inv_own h _ (by simp) _ g.cls (by rw [rootLevel_snoc]; exact g.lvl.trans h.rootL)
        (by rw [rootHandlers_snoc]; exact g.hnd.trans h.rootH) (fun x hx => getLogger_other (hn x hx) _)
    | setLevel n v =>
      have hn : ∀ x ∈ libraryLoggers ++ [["v1"], ["v2"]], x ≠ n := by
        rintro x hx rfl
        simp only [leavesAlone, Bool.not_eq_true', List.contains_eq_mem, decide_eq_false_iff_not] at ha
        exact ha hx
      have g := grows_getLogger n (logsAfter l).logs
      exact inv_own h _ (by simp) _ g.cls (by rw [rootLevel_snoc]; exact g.lvl.trans h.rootL)
        (by rw [rootHandlers_snoc]; exact g.hnd.trans h.rootH) (fun x hx => setLevel_other (hn x hx) _ _)
    | rootHandler =>
      exact inv_own h _ (by simp) _ rfl (by rw [rootLevel_snoc]; exact h.rootL)
        (by rw [rootHandlers_snoc]; simp [h.rootH]) (fun _ _ => rfl)
    | rootLevel v =>
      exact inv_own h _ (by simp) _ rfl (by rw [rootLevel_snoc])
        (by rw [rootHandlers_snoc]; exact h.rootH) (fun _ _ => rfl)

theorem setters_makers : ∀ n ∈ libraryLoggers, ∀ m ∈ setters n, m ∈ makers n := by decide

/-- A made logger is there, with its handlers; its level is INFO if one of the modules that say so is imported. -/
theorem logger_after {l : List LogAct} (hl : ∀ a ∈ l, leavesAlone a = true) {n : LogName} (hn : n ∈ libraryLoggers)
    (hm : made n l = true) : ∃ g, (logsAfter l).logs.loggers n = some g ∧
      g.handlers = (newLogger (debugFirst n l)).handlers ∧
      (g.level = (newLogger (debugFirst n l)).level ∨ g.level = 20 ∧ setters n ≠ []) ∧
      (∀ m ∈ setters n, .imp m ∈ l → g.level = 20) := by
  have h := inv_after l hl
  have hm2 := hm
  simp only [made, List.any_eq_true] at hm
  obtain ⟨y, hy, hy2⟩ := hm
  cases y with
  | imp x =>
    obtain ⟨g, hg, _⟩ := h.fin x (h.loaded x hy) n (by simpa using hy2)
    obtain ⟨_, h2, h3⟩ := h.present n hn g hg
    refine ⟨g, hg, h2, h3, ?_⟩
    intro m hms hml
    have hmk : m ∈ makers n := setters_makers n hn m hms
    obtain ⟨g', hg', h4⟩ := h.fin m (h.loaded m hml) n hmk
    rw [hg] at hg'
    cases hg'
    exact h4 hms
  | _ => simp at hy2

end Libsnmp.LogLemmas
