import Verif.Lemmas.Receive

/-!
# Invariants of every history

`Stable P` lists the elementary changes of a manager; `exec_stable` lifts it to every program.
-/

namespace Libsnmp
open Spec

/-- An invariant preserved by every elementary change.  `flat` says that callbacks do not themselves receive data, so a
callback that returns normally is still registered. -/
structure Stable (env : Env) (flat : Prop) {k : Kind} (P : Mgr k → Prop) : Prop where
  call : ∀ c s, s.callbacks.Numeric → P s → P (doCall env c s).2
  enterOther : ∀ s cb m, P s → (∀ m', m = some m' → answers k m' = none) → P (s.note (.entered cb m))
  leaveOther : ∀ s cb m r, P s → (∀ m', m = some m' → answers k m' = none) → P (s.note (.left cb m r))
  enter : ∀ s cb m n, P s → answers k m = some n → s.callbacks.at n = some cb → P (s.note (.entered cb (some m)))
  leaveErr : ∀ s cb m n e, P s → answers k m = some n → Obs.entered cb (some m) ∈ s.log → P (s.note (.left cb (some m) (.error e)))
  leaveOk : ∀ s cb m n, P s → answers k m = some n → Obs.entered cb (some m) ∈ s.log →
    (flat → s.callbacks.at n ≠ none) →
    P { (s.note (.left cb (some m) (.ok ()))) with callbacks := s.callbacks.erase n }
  takeLost : ∀ s m r rest, P s → s.outbound = (m, r) :: rest → (∀ m', m = some m' → ∃ e, m'.encode = .error e) →
    P (({ s with outbound := rest } : Mgr k).note (.took (m, r)))
  takeSent : ∀ s m r rest o, P s → s.outbound = (some m, r) :: rest → m.encode = .ok o →
    P ((({ s with outbound := rest } : Mgr k).note (.took (some m, r))).note (.sent o r))

/-- User code only appends to the log. -/
def LogMono {k : Kind} (user : User k) : Prop := ∀ cb m s, s.callbacks.Numeric → s.log <+: (user cb m s).2.log

theorem LogMono.entered {k : Kind} {user : User k} (h : LogMono user) (cb : Nat) (m : Option Msg) (s : Mgr k)
    (hs : s.callbacks.Numeric) : Obs.entered cb m ∈ (user cb m (s.note (.entered cb m))).2.log :=
  (h cb m (s.note (.entered cb m)) hs).subset (by simp [Mgr.note])

/-- User code does not remove callbacks. -/
def Persists {k : Kind} (user : User k) : Prop :=
  ∀ cb m s n, s.callbacks.Numeric → s.callbacks.at n ≠ none → (user cb m s).2.callbacks.at n ≠ none

/-- User code preserves `P`. -/
def Keeps {k : Kind} (P : Mgr k → Prop) (user : User k) : Prop := ∀ cb m s, P s → P (user cb m s).2

theorem receive_stable {env : Env} {flat : Prop} {k : Kind} {P : Mgr k → Prop} (hP : Stable env flat P)
    {user : User k} (hn : KeepsNumeric user) (hl : LogMono user) (hf : flat → Persists user) (hu : Keeps P user) (data : Val) (s : Mgr k) (hsn : s.callbacks.Numeric)
    (hs : P s) : P (receiveData env k user data s).2 := by
  have h := receive_effect env k user hn data s hsn
  generalize (receiveData env k user data s).2 = s' at h
  cases h with
  | nothing => exact hs
  | trap cb m ht hm hd =>
    have ha := answers_trap k m hd
    exact hP.leaveOther _ _ _ _ (hu _ _ _ (hP.enterOther _ _ _ hs (by simp [ha]))) (by simp [ha])
  | raised cb m n e hm ha hat hr =>
    have h1 := hu cb (some m) _ (hP.enter _ _ _ _ hs ha hat)
    have h2 := hP.leaveErr _ cb m n e h1 ha (hl.entered cb (some m) s hsn)
    unfold invoke at hr ⊢
    simp only at hr ⊢
    rw [hr]; exact h2
  | returned cb m n hm ha hat hr =>
    have h1 := hu cb (some m) _ (hP.enter _ _ _ _ hs ha hat)
    have h2 := hP.leaveOk _ cb m n h1 ha (hl.entered cb (some m) s hsn)
      (fun f => hf f cb (some m) _ n hsn (by simp only [Mgr.note]; rw [hat]; simp))
    unfold invoke at hr ⊢
    simp only at hr ⊢
    rw [hr]; exact h2

theorem poll_stable {env : Env} {flat : Prop} {k : Kind} {P : Mgr k → Prop} (hP : Stable env flat P)
    {user : User k} (hn : KeepsNumeric user) (hl : LogMono user) (hf : flat → Persists user) (hu : Keeps P user) (d : Option Val) (s : Mgr k) (hsn : s.callbacks.Numeric)
    (hs : P s) : P (poll env k user d s).2 := by
  unfold poll
  cases d with
  | none => exact hs
  | some data =>
    have := receive_stable hP hn hl hf hu data s hsn hs
    simp only
    split
    · next h => rw [h] at this; exact this
    · next e s' h =>
      rw [h] at this
      unfold handleError
      split <;> exact this

theorem queueEmpty_stable {env : Env} {flat : Prop} {k : Kind} {P : Mgr k → Prop} (hP : Stable env flat P)
    {user : User k} (hu : Keeps P user) (s : Mgr k) (hs : P s) : P (callQueueEmpty env user s).2 := by
  unfold callQueueEmpty
  cases env.queueEmpty with
  | none => exact hs
  | some cb => exact hP.leaveOther _ _ _ _ (hu _ _ _ (hP.enterOther _ _ _ hs (by simp))) (by simp)

theorem takeAndSend_stable {env : Env} {flat : Prop} {k : Kind} {P : Mgr k → Prop} (hP : Stable env flat P)
    (socket : Except Exc Unit) (s : Mgr k) (hs : P s) : P (takeAndSend socket s).2 := by
  unfold takeAndSend
  split
  · exact hs
  · next m remote rest ho =>
    simp only
    split
    · exact hP.takeLost s none remote rest hs ho (by simp)
    · next m =>
      split
      · next e he => exact hP.takeLost s (some m) remote rest hs ho (by simp [he])
      · next o he => exact hP.takeSent s m remote rest o hs ho he

theorem takeAndSend_callbacks {k : Kind} (socket : Except Exc Unit) (s : Mgr k) :
    (takeAndSend socket s).2.callbacks = s.callbacks := by
  unfold takeAndSend
  split
  · rfl
  · simp only
    split
    · rfl
    · split <;> rfl

theorem queueEmpty_numeric {env : Env} {k : Kind} {user : User k} (hn : KeepsNumeric user) (s : Mgr k)
    (hs : s.callbacks.Numeric) : (callQueueEmpty env user s).2.callbacks.Numeric := by
  unfold callQueueEmpty
  cases env.queueEmpty with
  | none => exact hs
  | some cb => exact invoke_numeric hn _ _ hs

theorem receive_numeric {env : Env} {k : Kind} {user : User k} (hn : KeepsNumeric user) (data : Val) (s : Mgr k)
    (hs : s.callbacks.Numeric) : (receiveData env k user data s).2.callbacks.Numeric := by
  have h := receive_effect env k user hn data s hs
  generalize (receiveData env k user data s).2 = s' at h
  cases h with
  | nothing => exact hs
  | trap cb m _ _ _ => exact invoke_numeric hn _ _ hs
  | raised cb m n e _ _ _ _ => exact invoke_numeric hn _ _ hs
  | returned cb m n _ _ _ _ => exact Dict.erase_numeric (invoke_numeric hn _ _ hs) n

theorem poll_numeric {env : Env} {k : Kind} {user : User k} (hn : KeepsNumeric user) (d : Option Val) (s : Mgr k)
    (hs : s.callbacks.Numeric) : (poll env k user d s).2.callbacks.Numeric := by
  unfold poll
  cases d with
  | none => exact hs
  | some data =>
    have := receive_numeric (env := env) hn data s hs
    simp only
    split
    · next h => rw [h] at this; exact this
    · next e s' h =>
      rw [h] at this
      unfold handleError
      split <;> exact this

theorem iterate_stable {env : Env} {flat : Prop} {k : Kind} {P : Mgr k → Prop} (hP : Stable env flat P)
    {user : User k} (hn : KeepsNumeric user) (hl : LogMono user) (hf : flat → Persists user) (hu : Keeps P user) (socket : Except Exc Unit) (d : Option Val) (s : Mgr k)
    (hsn : s.callbacks.Numeric) (hs : P s) :
    P (iterate env k user socket d s).2 ∧ (iterate env k user socket d s).2.callbacks.Numeric := by
  have v1case : P (v1Iterate env k user socket d s).2 ∧ (v1Iterate env k user socket d s).2.callbacks.Numeric := by
    have h1 := takeAndSend_stable hP socket s hs
    have h2 : (takeAndSend socket s).2.callbacks.Numeric := by rw [takeAndSend_callbacks]; exact hsn
    unfold v1Iterate
    split
    · next s' h =>
      rw [h] at h1 h2
      rw [M.bind_def]
      have h3 := queueEmpty_stable hP hu s' h1
      have h4 := queueEmpty_numeric (env := env) hn s' h2
      split
      · next a s'' h' =>
        rw [h'] at h3 h4
        exact ⟨poll_stable hP hn hl hf hu d s'' h4 h3, poll_numeric hn d s'' h4⟩
      · next e s'' h' =>
        rw [h'] at h3 h4
        exact ⟨h3, h4⟩
    · exact ⟨h1, h2⟩
  cases k with
  | v1 => exact v1case
  | v2 => exact v1case
  | sm =>
    clear v1case
    simp only [iterate, smIterate]
    have h1 := poll_stable hP hn hl hf hu d s hsn hs
    have h2 := poll_numeric (env := env) hn d s hsn
    have h3 : P ((do poll env .sm user d; takeAndSend socket : M .sm Unit) s).2 ∧
        ((do poll env .sm user d; takeAndSend socket : M .sm Unit) s).2.callbacks.Numeric := by
      rw [M.bind_def]
      split
      · next a s'' h' =>
        rw [h'] at h1 h2
        exact ⟨takeAndSend_stable hP socket s'' h1, by rw [takeAndSend_callbacks]; exact h2⟩
      · next e s'' h' =>
        rw [h'] at h1 h2
        exact ⟨h1, h2⟩
    split
    · next s' h =>
      rw [h] at h3
      exact ⟨queueEmpty_stable hP hu s' h3.1, queueEmpty_numeric hn s' h3.2⟩
    · exact h3

theorem call_numeric (env : Env) {k : Kind} (c : k.Call) (s : Mgr k) (hs : s.callbacks.Numeric) :
    (doCall env c s).2.callbacks.Numeric := by
  have h := call_effect env k c s
  unfold doCall
  generalize callBody env k c s = q at h
  cases h with
  | failed e j hj => exact hs
  | request ci cb m key d' hcb hm hk hd =>
    obtain ⟨d'', h1, h2, _⟩ := Dict.put_num hs hk cb
    rw [hd] at h1
    cases h1
    exact h2
  | trap m hcb hm => exact hs

theorem call_log (env : Env) {k : Kind} (c : k.Call) (s : Mgr k) : s.log <+: (doCall env c s).2.log := by
  have h := call_effect env k c s
  unfold doCall
  generalize callBody env k c s = q at h
  cases h <;> exact List.prefix_append _ _

theorem stable_log (env : Env) (k : Kind) (l : List (Obs k)) : Stable env False (fun s : Mgr k => l <+: s.log) where
  call c s _ h := h.trans (call_log env c s)
  enterOther s cb m h _ := h.trans (List.prefix_append _ _)
  leaveOther s cb m r h _ := h.trans (List.prefix_append _ _)
  enter s cb m n h _ _ := h.trans (List.prefix_append _ _)
  leaveErr s cb m n e h _ _ := h.trans (List.prefix_append _ _)
  leaveOk s cb m n h _ _ _ := h.trans (List.prefix_append _ _)
  takeLost s m r rest h _ _ := h.trans (List.prefix_append _ _)
  takeSent s m r rest o h _ _ := (h.trans (List.prefix_append _ _)).trans (List.prefix_append _ _)

/-- A predicate together with numeric keys. -/
def WithNumeric {k : Kind} (P : Mgr k → Prop) (s : Mgr k) : Prop := P s ∧ s.callbacks.Numeric

theorem Stable.withNumeric {env : Env} {flat : Prop} {k : Kind} {P : Mgr k → Prop} (hP : Stable env flat P) :
    Stable env flat (WithNumeric P) where
  call c s hn h := ⟨hP.call c s hn h.1, call_numeric env c s h.2⟩
  enterOther s cb m h hm := ⟨hP.enterOther s cb m h.1 hm, h.2⟩
  leaveOther s cb m r h hm := ⟨hP.leaveOther s cb m r h.1 hm, h.2⟩
  enter s cb m n h ha hat := ⟨hP.enter s cb m n h.1 ha hat, h.2⟩
  leaveErr s cb m n e h ha hm := ⟨hP.leaveErr s cb m n e h.1 ha hm, h.2⟩
  leaveOk s cb m n h ha hm hf := ⟨hP.leaveOk s cb m n h.1 ha hm hf, Dict.erase_numeric h.2 n⟩
  takeLost s m r rest h ho hm := ⟨hP.takeLost s m r rest h.1 ho hm, h.2⟩
  takeSent s m r rest o h ho hm := ⟨hP.takeSent s m r rest o h.1 ho hm, h.2⟩

/-- User code keeps the keys numeric, and the log grows. -/
theorem exec_sane (env : Env) {k : Kind} (p : Act k) :
    ∀ s, s.callbacks.Numeric → (p.exec env s).2.callbacks.Numeric ∧ s.log <+: (p.exec env s).2.log := by
  induction p with
  | ret => intro s hs; exact ⟨hs, List.prefix_rfl⟩
  | raise e => intro s hs; exact ⟨hs, List.prefix_rfl⟩
  | call c next ih =>
    intro s hs
    rw [Act.exec]
    have h := ih (doCall env c s).1 _ (call_numeric env c s hs)
    exact ⟨h.1, (call_log env c s).trans h.2⟩
  | receive data user next ihu ihn =>
    intro s hs
    rw [Act.exec]
    have hn : KeepsNumeric (fun cb m => (user cb m).exec env) := fun cb m s h => (ihu cb m s h).1
    have hl : LogMono (fun cb m => (user cb m).exec env) := fun cb m s h => (ihu cb m s h).2
    have h1 := (receive_stable (stable_log env k s.log).withNumeric hn hl False.elim
      (fun cb m s' h => ⟨h.1.trans (ihu cb m s' h.2).2, (ihu cb m s' h.2).1⟩) data s hs ⟨List.prefix_rfl, hs⟩)
    have h2 := ihn (receiveData env k (fun cb m => (user cb m).exec env) data s).1 _ h1.2
    exact ⟨h2.1, h1.1.trans h2.2⟩
  | loop socket d user next ihu ihn =>
    intro s hs
    rw [Act.exec]
    have hn : KeepsNumeric (fun cb m => (user cb m).exec env) := fun cb m s h => (ihu cb m s h).1
    have hl : LogMono (fun cb m => (user cb m).exec env) := fun cb m s h => (ihu cb m s h).2
    have h1 := (iterate_stable (stable_log env k s.log).withNumeric hn hl False.elim
      (fun cb m s' h => ⟨h.1.trans (ihu cb m s' h.2).2, (ihu cb m s' h.2).1⟩) socket d s hs ⟨List.prefix_rfl, hs⟩).1
    have h2 := ihn (iterate env k (fun cb m => (user cb m).exec env) socket d s).1 _ h1.2
    exact ⟨h2.1, h1.1.trans h2.2⟩
  | idle user next ihu ihn =>
    intro s hs
    rw [Act.exec]
    have hn : KeepsNumeric (fun cb m => (user cb m).exec env) := fun cb m s h => (ihu cb m s h).1
    have h1 := (queueEmpty_stable (stable_log env k s.log).withNumeric
      (fun cb m s' h => ⟨h.1.trans (ihu cb m s' h.2).2, (ihu cb m s' h.2).1⟩) s ⟨List.prefix_rfl, hs⟩)
    have h2 := ihn (callQueueEmpty env (fun cb m => (user cb m).exec env) s).1 _ h1.2
    exact ⟨h2.1, h1.1.trans h2.2⟩

/-- User code given as programs keeps the keys numeric and appends to the log. -/
theorem keepsNumeric_exec (env : Env) {k : Kind} (user : Nat → Option Msg → Act k) :
    KeepsNumeric (fun cb m => (user cb m).exec env) := fun cb m s h => (exec_sane env (user cb m) s h).1

theorem logMono_exec (env : Env) {k : Kind} (user : Nat → Option Msg → Act k) :
    LogMono (fun cb m => (user cb m).exec env) := fun cb m s h => (exec_sane env (user cb m) s h).2

/-- Every program preserves a stable invariant. -/
theorem exec_both {env : Env} {k : Kind} {P : Mgr k → Prop} (hP : Stable env False P) (p : Act k) :
    ∀ s, WithNumeric P s → WithNumeric P (p.exec env s).2 := by
  have hQ := hP.withNumeric
  induction p with
  | ret => intro s hs; exact hs
  | raise e => intro s hs; exact hs
  | call c next ih =>
    intro s hs
    rw [Act.exec]
    exact ih _ _ (hQ.call c s hs.2 hs)
  | receive data user next ihu ihn =>
    intro s hs
    rw [Act.exec]
    exact ihn _ _ (receive_stable hQ (keepsNumeric_exec env user) (logMono_exec env user) False.elim
      (fun cb m s h => ihu cb m s h) data s hs.2 hs)
  | loop socket d user next ihu ihn =>
    intro s hs
    rw [Act.exec]
    exact ihn _ _ (iterate_stable hQ (keepsNumeric_exec env user) (logMono_exec env user) False.elim
      (fun cb m s h => ihu cb m s h) socket d s hs.2 hs).1
  | idle user next ihu ihn =>
    intro s hs
    rw [Act.exec]
    exact ihn _ _ (queueEmpty_stable hQ (fun cb m s h => ihu cb m s h) s hs)

theorem reachable_stable {env : Env} {k : Kind} {P : Mgr k → Prop} (hP : Stable env False P) (h0 : P {}) {s : Mgr k}
    (h : Reachable env s) : P s ∧ s.callbacks.Numeric := by
  obtain ⟨p, rfl⟩ := h
  exact exec_both hP p {} ⟨h0, fun p hp => by simp at hp⟩

/-! ## Programs whose callbacks do not receive data themselves -/

/-- Only request calls. -/
inductive Act.CallsOnly {k : Kind} : Act k → Prop
  | ret : CallsOnly .ret
  | raise (e : Exc) : CallsOnly (.raise e)
  | call (c : k.Call) (next : Except Exc Val → Act k) (h : ∀ r, CallsOnly (next r)) : CallsOnly (.call c next)

/-- Every callback makes request calls only; the main program does what it likes. -/
inductive Act.Flat {k : Kind} : Act k → Prop
  | ret : Flat .ret
  | raise (e : Exc) : Flat (.raise e)
  | call (c : k.Call) (next : Except Exc Val → Act k) (h : ∀ r, Flat (next r)) : Flat (.call c next)
  | receive (data : Val) (user : Nat → Option Msg → Act k) (next : Except Exc Unit → Act k)
      (hu : ∀ cb m, (user cb m).CallsOnly) (h : ∀ r, Flat (next r)) : Flat (.receive data user next)
  | loop (socket : Except Exc Unit) (datagram : Option Val) (user : Nat → Option Msg → Act k)
      (next : Except Exc Unit → Act k) (hu : ∀ cb m, (user cb m).CallsOnly) (h : ∀ r, Flat (next r)) :
      Flat (.loop socket datagram user next)
  | idle (user : Nat → Option Msg → Act k) (next : Except Exc Unit → Act k) (hu : ∀ cb m, (user cb m).CallsOnly)
      (h : ∀ r, Flat (next r)) : Flat (.idle user next)

theorem call_persists (env : Env) {k : Kind} (c : k.Call) (s : Mgr k) (n : Int) (hs : s.callbacks.Numeric)
    (h : s.callbacks.at n ≠ none) : (doCall env c s).2.callbacks.at n ≠ none := by
  have he := call_effect env k c s
  unfold doCall
  generalize callBody env k c s = q at he
  cases he with
  | failed e j hj => exact h
  | request ci cb m key d' hcb hm hk hd =>
    obtain ⟨d'', h1, _, h2⟩ := Dict.put_num hs hk cb
    rw [hd] at h1
    cases h1
    simp only [Mgr.note, h2]
    split
    · simp
    · exact h
  | trap m hcb hm => exact h

theorem callsOnly_persists (env : Env) {k : Kind} {p : Act k} (hp : p.CallsOnly) :
    ∀ s n, s.callbacks.Numeric → s.callbacks.at n ≠ none → (p.exec env s).2.callbacks.at n ≠ none := by
  induction hp with
  | ret => intro s n _ h; exact h
  | raise e => intro s n _ h; exact h
  | call c next hc ih =>
    intro s n hs h
    rw [Act.exec]
    exact ih _ _ n (call_numeric env c s hs) (call_persists env c s n hs h)

theorem callsOnly_keeps {env : Env} {k : Kind} {P : Mgr k → Prop} {flat : Prop} (hP : Stable env flat P) {p : Act k}
    (hp : p.CallsOnly) : ∀ s, s.callbacks.Numeric → P s → P (p.exec env s).2 := by
  induction hp with
  | ret => intro s _ h; exact h
  | raise e => intro s _ h; exact h
  | call c next hc ih =>
    intro s hs h
    rw [Act.exec]
    exact ih _ _ (call_numeric env c s hs) (hP.call c s hs h)

/-- Every flat program preserves an invariant that is stable for flat programs. -/
theorem exec_flat {env : Env} {k : Kind} {P : Mgr k → Prop} (hP : Stable env True P) {p : Act k} (hp : p.Flat) :
    ∀ s, WithNumeric P s → WithNumeric P (p.exec env s).2 := by
  have hQ := hP.withNumeric
  induction hp with
  | ret => intro s hs; exact hs
  | raise e => intro s hs; exact hs
  | call c next _ ih =>
    intro s hs
    rw [Act.exec]
    exact ih _ _ (hQ.call c s hs.2 hs)
  | receive data user next hu _ ihn =>
    intro s hs
    rw [Act.exec]
    exact ihn _ _ (receive_stable hQ (keepsNumeric_exec env user) (logMono_exec env user)
      (fun _ cb m s n h h' => callsOnly_persists env (hu cb m) s n h h')
      (fun cb m s h => callsOnly_keeps hQ (hu cb m) s h.2 h) data s hs.2 hs)
  | loop socket d user next hu _ ihn =>
    intro s hs
    rw [Act.exec]
    exact ihn _ _ (iterate_stable hQ (keepsNumeric_exec env user) (logMono_exec env user)
      (fun _ cb m s n h h' => callsOnly_persists env (hu cb m) s n h h')
      (fun cb m s h => callsOnly_keeps hQ (hu cb m) s h.2 h) socket d s hs.2 hs).1
  | idle user next hu _ ihn =>
    intro s hs
    rw [Act.exec]
    exact ihn _ _ (queueEmpty_stable hQ (fun cb m s h => callsOnly_keeps hQ (hu cb m) s h.2 h) s hs)

/-! ## Continuing a history -/

/-- Run `p`, then `q`, whatever `p` ended with. -/
def Act.andThen {k : Kind} : Act k → Act k → Act k
  | .ret, q => q
  | .raise _, q => q
  | .call c next, q => .call c fun r => (next r).andThen q
  | .receive data user next, q => .receive data user fun r => (next r).andThen q
  | .loop socket d user next, q => .loop socket d user fun r => (next r).andThen q
  | .idle user next, q => .idle user fun r => (next r).andThen q

theorem andThen_exec (env : Env) {k : Kind} (p q : Act k) :
    ∀ s, (p.andThen q).exec env s = q.exec env (p.exec env s).2 := by
  induction p with
  | ret => intro s; rfl
  | raise e => intro s; rfl
  | call c next ih => intro s; simp only [Act.andThen, Act.exec, ih]
  | receive data user next _ ih => intro s; simp only [Act.andThen, Act.exec, ih]
  | loop socket d user next _ ih => intro s; simp only [Act.andThen, Act.exec, ih]
  | idle user next _ ih => intro s; simp only [Act.andThen, Act.exec, ih]

theorem Reachable.andThen {env : Env} {k : Kind} {s : Mgr k} (h : Reachable env s) (q : Act k) :
    Reachable env (q.exec env s).2 := by
  obtain ⟨p, rfl⟩ := h
  exact ⟨p.andThen q, by rw [andThen_exec]⟩

theorem Reachable.call {env : Env} {k : Kind} {s : Mgr k} (h : Reachable env s) (c : k.Call) :
    Reachable env (doCall env c s).2 := h.andThen (.call c fun _ => .ret)

theorem Reachable.receive {env : Env} {k : Kind} {s : Mgr k} (h : Reachable env s) (data : Val)
    (user : Nat → Option Msg → Act k) :
    Reachable env (receiveData env k (fun cb m => (user cb m).exec env) data s).2 :=
  h.andThen (.receive data user fun _ => .ret)

theorem Reachable.loop {env : Env} {k : Kind} {s : Mgr k} (h : Reachable env s) (socket : Except Exc Unit)
    (d : Option Val) (user : Nat → Option Msg → Act k) :
    Reachable env (iterate env k (fun cb m => (user cb m).exec env) socket d s).2 :=
  h.andThen (.loop socket d user fun _ => .ret)

end Libsnmp
