import Verif.Model.Process
import Mathlib.Logic.Relation

/-!
# Executing a module depends only on what it reads

The reads of an execution are recorded; two processes that answer them alike execute the module alike.
-/

namespace Libsnmp.Names

/-- The other modules' names and the dictionary entries that evaluating an expression looks at. -/
def reads (d : Done) : Expr → List Module × List ((Module × Nat) × String)
  | .attr n _ => match d.get n with
    | some (.mod m') => ([m'], [])
    | _ => ([], [])
  | .item n key => match d.get n with
    | some (.dict m' l) => match d.keys.find? fun e => e.1 == (m', l) && e.2.1 == key with
      | some _ => ([], [])
      | none => ([], [((m', l), key)])
    | _ => ([], [])
  | _ => ([], [])

/-- Two views answer these reads alike. -/
def Alike (v w : View) (r : List Module × List ((Module × Nat) × String)) : Prop :=
  (∀ m ∈ r.1, v.names m = w.names m) ∧ ∀ k ∈ r.2, v.key k.1 k.2 = w.key k.1 k.2

theorem eval_alike {v w : View} (m : Module) {d : Done} {e : Expr} (h : Alike v w (reads d e)) :
    eval v m d e = eval w m d e := by
  cases e with
  | attr n a =>
    simp only [eval]
    simp only [reads] at h
    cases hg : d.get n with
    | none => simp only
    | some o =>
      cases o with
      | mod m' =>
        rw [hg] at h
        have : v.names m' = w.names m' := h.1 m' (by simp)
        simp only [this]
      | _ => rfl
  | item n key =>
    simp only [eval]
    simp only [reads] at h
    cases hg : d.get n with
    | none => simp only
    | some o =>
      cases o with
      | dict m' l =>
        rw [hg] at h
        simp only at h ⊢
        cases hf : d.keys.find? fun e => e.1 == (m', l) && e.2.1 == key with
        | some x => rfl
        | none =>
          rw [hf] at h
          have : v.key (m', l) key = w.key (m', l) key := h.2 ((m', l), key) (by simp)
          simp only [this]
      | _ => rfl
  | _ => rfl

/-- The reads of several parts. -/
def both (a b : List Module × List ((Module × Nat) × String)) : List Module × List ((Module × Nat) × String) :=
  (a.1 ++ b.1, a.2 ++ b.2)

theorem Alike.left {v w : View} {a b} (h : Alike v w (both a b)) : Alike v w a :=
  ⟨fun m hm => h.1 m (by simp [both, hm]), fun k hk => h.2 k (by simp [both, hk])⟩

theorem Alike.right {v w : View} {a b} (h : Alike v w (both a b)) : Alike v w b :=
  ⟨fun m hm => h.1 m (by simp [both, hm]), fun k hk => h.2 k (by simp [both, hk])⟩

def readsAll (d : Done) : List Expr → List Module × List ((Module × Nat) × String)
  | [] => ([], [])
  | e :: es => both (reads d e) (readsAll d es)

def readsMembers (d : Done) : List (String × Member) → List Module × List ((Module × Nat) × String)
  | [] => ([], [])
  | (_, .func _) :: ms => readsMembers d ms
  | (_, .val e) :: ms => both (reads d e) (readsMembers d ms)

def readsTags (d : Done) : List (Nat × Expr) → List Module × List ((Module × Nat) × String)
  | [] => ([], [])
  | (_, e) :: es => both (reads d e) (readsTags d es)

theorem evalAll_alike {v w : View} (m : Module) {d : Done} {es : List Expr} (h : Alike v w (readsAll d es)) :
    evalAll v m d es = evalAll w m d es := by
  induction es with
  | nil => rfl
  | cons e es ih => rw [evalAll, evalAll, eval_alike m h.left, ih h.right]

theorem evalMembers_alike {v w : View} (m : Module) {d : Done} {ms : List (String × Member)}
    (h : Alike v w (readsMembers d ms)) : evalMembers v m d ms = evalMembers w m d ms := by
  induction ms with
  | nil => rfl
  | cons x ms ih =>
    obtain ⟨n, x⟩ := x
    cases x with
    | func l => rw [evalMembers, evalMembers, ih h]
    | val e => rw [evalMembers, evalMembers, eval_alike m h.left, ih h.right]

theorem evalTags_alike {v w : View} (m : Module) {d : Done} {es : List (Nat × Expr)} (h : Alike v w (readsTags d es)) :
    evalTags v m d es = evalTags w m d es := by
  induction es with
  | nil => rfl
  | cons x es ih => obtain ⟨t, e⟩ := x; rw [evalTags, evalTags, eval_alike m h.left, ih h.right]

/-- The reads of a statement. -/
def readsStmt (d : Done) : Stmt → List Module × List ((Module × Nat) × String)
  | .star m' => ([m'], [])
  | .cls _ _ bases members => both (readsAll d bases) (readsMembers d members)
  | .registry _ entries => readsTags d entries
  | .assign _ e => reads d e
  | .setTag _ _ e => reads d e
  | _ => ([], [])

theorem exec_alike {v w : View} (m : Module) {d : Done} {s : Stmt} (h : Alike v w (readsStmt d s)) :
    exec v m d s = exec w m d s := by
  cases s with
  | star m' =>
    have : v.names m' = w.names m' := h.1 m' (by simp [readsStmt])
    simp only [exec, this]
  | cls line n bases members => rw [exec, exec, evalAll_alike m h.left, evalMembers_alike m h.right]
  | registry n entries => rw [exec, exec, evalTags_alike m h]
  | assign n e => rw [exec, exec, eval_alike m h]
  | setTag n t e => rw [exec, exec, eval_alike m h]
  | _ => rfl

/-- The reads of executing the statements in the view `v`. -/
def readsRun (v : View) (m : Module) : List Stmt → Done → List Module × List ((Module × Nat) × String)
  | [], _ => ([], [])
  | s :: ss, d => both (readsStmt d s) (match exec v m d s with
    | some d' => readsRun v m ss d'
    | none => ([], []))

theorem execAll_alike {v w : View} (m : Module) {ss : List Stmt} {d : Done} (h : Alike v w (readsRun v m ss d)) :
    execAll v m ss d = execAll w m ss d := by
  induction ss generalizing d with
  | nil => rfl
  | cons s ss ih =>
    rw [execAll, execAll, ← exec_alike m h.left]
    have h2 := h.right
    cases hx : exec v m d s with
    | none => rfl
    | some d' => rw [hx] at h2; exact ih h2

/-! ## The package -/

/-- The modules, each after those it imports. -/
def allModules : List Module :=
  [.util, .debug, .role, .asynrole, .rfc1155, .rfc1157, .rfc1902, .rfc1905, .v1, .v2, .snmpmanager]

theorem mem_allModules (m : Module) : m ∈ allModules := by cases m <;> decide

/-- What is there when the imports of `m` have been done in a new process. -/
def before (m : Module) : Process := ((importsOf (body m)).foldlM (fun p m' => load 8 m' p) []).getD []

/-- What executing `m` leaves behind, in a new process. -/
def final (m : Module) : Done := (execAll (before m).view m (body m) {}).getD {}

/-- The modules executed by `import m` before `m` itself. -/
def needed (m : Module) : List Module := (before m).map (·.1)

theorem final_ok (m : Module) : execAll (before m).view m (body m) {} = some (final m) := by
  have : ∀ m, (execAll (before m).view m (body m) {}).isSome = true := by intro m; cases m <;> decide +kernel
  unfold final
  cases h : execAll (before m).view m (body m) {} with
  | some d => rfl
  | none => have := this m; rw [h] at this; cases this

theorem needed_eq (m : Module) : needed m = match m with
    | .util | .debug | .role => []
    | .asynrole => [.role]
    | .rfc1155 => [.util]
    | .rfc1157 | .rfc1902 => [.rfc1155, .util]
    | .rfc1905 => [.rfc1902, .rfc1157, .rfc1155, .util]
    | .v1 => [.rfc1157, .rfc1155, .util, .asynrole, .role]
    | .v2 => [.v1, .asynrole, .role, .rfc1905, .rfc1902, .rfc1157, .rfc1155, .util]
    | .snmpmanager => [.v2, .v1, .rfc1905, .rfc1902, .rfc1157, .rfc1155, .util, .asynrole, .role] := by
  cases m <;> decide +kernel

theorem before_final (m : Module) : ∀ e ∈ before m, e.2 = final e.1 := by cases m <;> decide +kernel

/-- The entry of a dictionary as a module left it. -/
def keyIn (m : Module) (k : (Module × Nat) × String) : Option Int :=
  ((final m).keys.find? fun e => e.1 == k.1 && e.2.1 == k.2).map (·.2.2)

def keyOk (m : Module) (k : (Module × Nat) × String) : Bool :=
  match (before m).view.key k.1 k.2 with
  | none => false
  | some v => (needed m).any (fun x => keyIn x k == some v) &&
      allModules.all fun x => match keyIn x k with
        | none => true
        | some u => u == v

theorem reads_check (m : Module) :
    (∀ x ∈ (readsRun (before m).view m (body m) {}).1, x ∈ needed m) ∧
    ∀ k ∈ (readsRun (before m).view m (body m) {}).2, keyOk m k = true := by
  cases m <;> decide +kernel

theorem keyOk_spec {m : Module} {k : (Module × Nat) × String} (h : keyOk m k = true) :
    ∃ v, (before m).view.key k.1 k.2 = some v ∧ (∃ x ∈ needed m, keyIn x k = some v) ∧
      ∀ x u, keyIn x k = some u → u = v := by
  unfold keyOk at h
  cases hv : (before m).view.key k.1 k.2 with
  | none => rw [hv] at h; cases h
  | some v =>
    rw [hv] at h
    simp only [Bool.and_eq_true, List.any_eq_true, List.all_eq_true, beq_iff_eq] at h
    refine ⟨v, rfl, h.1, fun x u hu => ?_⟩
    have := h.2 x (mem_allModules x)
    rw [hu] at this
    simpa using this

/-! ## All import orders -/

/-- The module has been executed. -/
def Process.has (p : Process) (m : Module) : Prop := ∃ d, (m, d) ∈ p

theorem lookup_isSome {p : Process} {m : Module} : (p.lookup m).isSome = true ↔ p.has m := by
  induction p with
  | nil => simp [Process.has]
  | cons e p ih =>
    obtain ⟨m', d⟩ := e
    rw [List.lookup_cons]
    by_cases h : m = m'
    · subst h; simp [Process.has]
    · have : (m == m') = false := by simpa using h
      simp only [this]
      rw [ih]
      simp [Process.has, h]

/-- Every module was executed once, after the modules it needs. -/
def Process.Ordered : Process → Prop
  | [] => True
  | (m, _) :: q => (∀ x ∈ needed m, Process.has q x) ∧ ¬ Process.has q m ∧ Process.Ordered q

/-- Every module has left behind what it leaves behind in a new process, and the modules it needs have been executed. -/
def Process.Good (p : Process) : Prop :=
  (∀ m d, (m, d) ∈ p → d = final m ∧ ∀ m' ∈ needed m, p.has m') ∧ p.Ordered

theorem not_needed_self (m : Module) : m ∉ needed m := by cases m <;> decide +kernel

theorem Process.Good.lookup {p : Process} (h : p.Good) {m : Module} (hm : p.has m) : p.lookup m = some (final m) := by
  have h' := lookup_isSome.2 hm
  cases hl : p.lookup m with
  | none => rw [hl] at h'; cases h'
  | some d =>
    have : (m, d) ∈ p := by
      clear h h' hm
      induction p with
      | nil => simp at hl
      | cons e p ih =>
        obtain ⟨m', d'⟩ := e
        rw [List.lookup_cons] at hl
        by_cases hh : m = m'
        · subst hh; simp at hl; simp [hl]
        · have : (m == m') = false := by simpa using hh
          simp only [this] at hl
          exact List.mem_cons_of_mem _ (ih hl)
    rw [(h.1 m d this).1]

theorem findSome?_unique {α β : Type} (f : α → Option β) (l : List α) (v : β) (h1 : ∃ x ∈ l, f x = some v)
    (h2 : ∀ x ∈ l, ∀ u, f x = some u → u = v) : l.findSome? f = some v := by
  induction l with
  | nil => obtain ⟨x, hx, _⟩ := h1; cases hx
  | cons x l ih =>
    rw [List.findSome?_cons]
    cases hf : f x with
    | some u => rw [h2 x (by simp) u hf]
    | none =>
      refine ih ?_ fun y hy => h2 y (by simp [hy])
      obtain ⟨y, hy, he⟩ := h1
      rcases List.mem_cons.1 hy with rfl | hy
      · rw [hf] at he; cases he
      · exact ⟨y, hy, he⟩

/-- With the needed modules there, executing `m` leaves behind the same as in a new process. -/
theorem exec_good {p : Process} (h : p.Good) (m : Module) (hm : ∀ x ∈ needed m, p.has x) :
    execAll p.view m (body m) {} = some (final m) := by
  rw [← final_ok m]
  refine (execAll_alike m ⟨fun x hx => ?_, fun k hk => ?_⟩).symm
  · have hx := (reads_check m).1 x hx
    have hb : (before m).lookup x = some (final x) := by
      have hg : ∀ q : Process, (∀ e ∈ q, e.2 = final e.1) → x ∈ q.map (·.1) → q.lookup x = some (final x) := by
        intro q
        induction q with
        | nil => intro _ h; simp at h
        | cons e q ih =>
          intro h1 h2
          obtain ⟨m', d⟩ := e
          rw [List.lookup_cons]
          by_cases hh : x = m'
          · subst hh; simp [← h1 (x, d) (by simp)]
          · have : (x == m') = false := by simpa using hh
            simp only [this]
            exact ih (fun e he => h1 e (by simp [he])) (by simpa [hh] using h2)
      exact hg _ (before_final m) hx
    simp only [Process.view, hb, h.lookup (hm x hx)]
  · obtain ⟨v, h1, ⟨x, hx, h2⟩, h3⟩ := keyOk_spec ((reads_check m).2 k hk)
    rw [h1]
    refine (findSome?_unique _ _ v ?_ ?_).symm
    · obtain ⟨d, hd⟩ := hm x hx
      refine ⟨(x, d), hd, ?_⟩
      rw [(h.1 x d hd).1]
      exact h2
    · rintro ⟨y, d⟩ hy u hu
      rw [(h.1 y d hy).1] at hu
      exact h3 y u hu

/-- How deep the imports of a module go. -/
def rank : Module → Nat
  | .util | .debug | .role => 0
  | .asynrole | .rfc1155 => 1
  | .rfc1157 | .rfc1902 => 2
  | .rfc1905 | .v1 => 3
  | .v2 => 4
  | .snmpmanager => 5

theorem rank_imports (m m' : Module) (h : m' ∈ importsOf (body m)) : rank m' < rank m := by
  revert m'
  cases m <;> decide +kernel

theorem needed_iff (m x : Module) : x ∈ needed m ↔ ∃ m' ∈ importsOf (body m), x = m' ∨ x ∈ needed m' := by
  revert x
  have : ∀ m, ∀ x ∈ allModules, (decide (x ∈ needed m)) = (importsOf (body m)).any fun m' => decide (x = m') || decide (x ∈ needed m') := by
    intro m; cases m <;> decide +kernel
  intro x
  have h := this m x (mem_allModules x)
  constructor
  · intro hx
    rw [decide_eq_true hx] at h
    obtain ⟨m', h1, h2⟩ := List.any_eq_true.1 h.symm
    exact ⟨m', h1, by simpa using h2⟩
  · rintro ⟨m', h1, h2⟩
    have : ((importsOf (body m)).any fun m' => decide (x = m') || decide (x ∈ needed m')) = true :=
      List.any_eq_true.2 ⟨m', h1, by simpa using h2⟩
    rw [this] at h
    simpa using h

/-- `import m` in a good process succeeds, and adds `m` and what it needs. -/
theorem load_good (n : Nat) : ∀ (m : Module) (p : Process), rank m < n → p.Good →
    ∃ q, load n m p = some q ∧ q.Good ∧ ∀ x, q.has x ↔ p.has x ∨ x = m ∨ x ∈ needed m := by
  induction n with
  | zero => intro m p h; omega
  | succ n ih =>
    intro m p hr hp
    rw [load]
    split
    · next h =>
      have hm := lookup_isSome.1 h
      refine ⟨p, rfl, hp, fun x => ⟨.inl, ?_⟩⟩
      obtain ⟨d, hd⟩ := hm
      rintro (hx | rfl | hx)
      · exact hx
      · exact ⟨d, hd⟩
      · exact (hp.1 m d hd).2 x hx
    · next hnot =>
      have fold : ∀ (l : List Module), (∀ m' ∈ l, rank m' < n) → ∀ p : Process, p.Good →
          ∃ q, l.foldlM (fun p m' => load n m' p) p = some q ∧ q.Good ∧
            ∀ x, q.has x ↔ p.has x ∨ ∃ m' ∈ l, x = m' ∨ x ∈ needed m' := by
        intro l
        induction l with
        | nil => intro _ p hp; exact ⟨p, rfl, hp, by simp⟩
        | cons a l ihl =>
          intro hl p hp
          obtain ⟨q1, h1, h2, h3⟩ := ih a p (hl a (by simp)) hp
          obtain ⟨q2, h4, h5, h6⟩ := ihl (fun m' hm' => hl m' (by simp [hm'])) q1 h2
          refine ⟨q2, by rw [List.foldlM_cons, h1]; exact h4, h5, fun x => ?_⟩
          rw [h6, h3]
          simp [or_assoc]
      obtain ⟨q, h1, h2, h3⟩ := fold (importsOf (body m)) (fun m' hm' => by have := rank_imports m m' hm'; omega) p hp
      have hn : ∀ x ∈ needed m, q.has x := fun x hx => (h3 x).2 (.inr ((needed_iff m x).1 hx))
      rw [h1]
      simp only [exec_good h2 m hn]
      have has : ∀ x, Process.has ((m, final m) :: q) x ↔ x = m ∨ q.has x := by
        intro x
        constructor
        · rintro ⟨d, hd⟩
          rcases List.mem_cons.1 hd with h | h
          · cases h; exact .inl rfl
          · exact .inr ⟨d, h⟩
        · rintro (rfl | ⟨d, hd⟩)
          · exact ⟨final x, by simp⟩
          · exact ⟨d, by simp [hd]⟩
      refine ⟨_, rfl, ⟨?_, hn, ?_, h2.2⟩, fun x => ?_⟩
      · intro x d hd
        rcases List.mem_cons.1 hd with h | h
        · cases h
          exact ⟨rfl, fun y hy => (has y).2 (.inr (hn y hy))⟩
        · exact ⟨(h2.1 x d h).1, fun y hy => (has y).2 (.inr ((h2.1 x d h).2 y hy))⟩
      · intro hm
        rcases (h3 m).1 hm with h | h
        · exact hnot (lookup_isSome.2 h)
        · exact not_needed_self m ((needed_iff m m).2 h)
      · rw [has, h3, needed_iff]
        exact or_left_comm

/-- Any sequence of imports. -/
theorem run_good (l : List Module) :
    ∃ p, run l = some p ∧ p.Good ∧ ∀ x, p.has x ↔ ∃ m ∈ l, x = m ∨ x ∈ needed m := by
  have : ∀ (l : List Module) (p : Process), p.Good →
      ∃ q, l.foldlM (fun p m => load 8 m p) p = some q ∧ q.Good ∧ ∀ x, q.has x ↔ p.has x ∨ ∃ m ∈ l, x = m ∨ x ∈ needed m := by
    intro l
    induction l with
    | nil => intro p hp; exact ⟨p, rfl, hp, by simp⟩
    | cons a l ih =>
      intro p hp
      obtain ⟨q1, h1, h2, h3⟩ := load_good 8 a p (by cases a <;> decide) hp
      obtain ⟨q2, h4, h5, h6⟩ := ih q1 h2
      refine ⟨q2, by rw [List.foldlM_cons, h1]; exact h4, h5, fun x => ?_⟩
      rw [h6, h3]
      simp [or_assoc]
  obtain ⟨q, h1, h2, h3⟩ := this l [] ⟨fun m d h => (by cases h), trivial⟩
  exact ⟨q, h1, h2, fun x => by rw [h3]; simp [Process.has]⟩

end Libsnmp.Names
