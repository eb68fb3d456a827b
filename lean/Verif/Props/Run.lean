import Verif.Model.Run
import Verif.Props.Responses

/-!
# C74: the main loop: latency, idle callback, draining
-/

namespace Libsnmp
open Spec

theorem run_cons (env : Env) (k : Kind) (t : Turn k) (ts : List (Turn k)) (s : Mgr k) :
    run env k (t :: ts) s =
      match iterate env k (fun cb m => (t.user cb m).exec env) t.socket t.datagram s with
      | (.ok (), s') => run env k ts s'
      | (.error e, s') => (.error e, s') := by
  rw [run, M.bind_def]
  rcases iterate env k (fun cb m => (t.user cb m).exec env) t.socket t.datagram s with ⟨r | r, s'⟩ <;> rfl

theorem Reachable.run {env : Env} {k : Kind} (ts : List (Turn k)) : ∀ {s : Mgr k}, Reachable env s →
    Reachable env (run env k ts s).2 := by
  induction ts with
  | nil => intro s h; exact h
  | cons t ts ih =>
    intro s h
    have h' := h.loop t.socket t.datagram t.user
    rw [run_cons]
    generalize iterate env k (fun cb m => (t.user cb m).exec env) t.socket t.datagram s = q at h'
    obtain ⟨r, s'⟩ := q
    cases r with
    | ok u => exact ih h'
    | error e => exact h'

/-! ## Latency -/

/-- Everything ever queued, in order. -/
def everQueued {k : Kind} (s : Mgr k) : List (Option Msg × Nat) := taken s.log ++ s.outbound

theorem everQueued_stable (env : Env) (k : Kind) (l : List (Option Msg × Nat)) :
    Stable env False (fun s : Mgr k => l <+: everQueued s) where
  call c s hn h := by
    have he := call_effect env k c s
    unfold doCall
    generalize callBody env k c s = q at he
    refine h.trans ?_
    unfold everQueued
    cases he with
    | failed e j hj => simp [Mgr.note, taken_append, taken]
    | request ci cb m key d' hcb hm hk hd =>
      simp only [Mgr.note, taken_append]
      rw [show taken [Obs.called c (.ok (.integer ci s.nextRequestID))] = [] from rfl, List.append_nil, ← List.append_assoc]
      exact List.prefix_append _ _
    | trap m hcb hm =>
      simp only [Mgr.note, taken_append]
      rw [show taken [Obs.called c (.ok .none)] = [] from rfl, List.append_nil, ← List.append_assoc]
      exact List.prefix_append _ _
  enterOther s cb m h _ := by simpa [everQueued, Mgr.note, taken_append, taken] using h
  leaveOther s cb m r h _ := by simpa [everQueued, Mgr.note, taken_append, taken] using h
  enter s cb m n h _ _ := by simpa [everQueued, Mgr.note, taken_append, taken] using h
  leaveErr s cb m n e h _ _ := by simpa [everQueued, Mgr.note, taken_append, taken] using h
  leaveOk s cb m n h _ _ _ := by simpa [everQueued, Mgr.note, taken_append, taken] using h
  takeLost s m r rest h ho _ := by
    unfold everQueued at *
    rw [ho] at h
    simpa [Mgr.note, taken_append, taken] using h
  takeSent s m r rest o h ho _ := by
    unfold everQueued at *
    rw [ho] at h
    simpa [Mgr.note, taken_append, taken] using h

theorem taken_stable (env : Env) (k : Kind) (l : List (Option Msg × Nat)) :
    Stable env False (fun s : Mgr k => l <+: taken s.log) where
  call c s hn h := by
    obtain ⟨t, ht⟩ := call_log env c s
    rw [← ht, taken_append]
    exact h.trans (List.prefix_append _ _)
  enterOther s cb m h _ := by simpa [Mgr.note, taken_append, taken] using h
  leaveOther s cb m r h _ := by simpa [Mgr.note, taken_append, taken] using h
  enter s cb m n h _ _ := by simpa [Mgr.note, taken_append, taken] using h
  leaveErr s cb m n e h _ _ := by simpa [Mgr.note, taken_append, taken] using h
  leaveOk s cb m n h _ _ _ := by simpa [Mgr.note, taken_append, taken] using h
  takeLost s m r rest h ho _ := by
    simp only [Mgr.note, taken_append]
    exact h.trans (List.prefix_append _ _)
  takeSent s m r rest o h ho _ := by
    simp only [Mgr.note, taken_append, List.append_assoc]
    exact h.trans (List.prefix_append _ _)

theorem getItem_noEmpty {v : Val} {i : Nat} : v.getItem i ≠ .error .queueEmpty := by
  unfold Val.getItem
  split <;> (try split) <;> simp

theorem msgDecode_noEmpty {reg : Reg} (hreg : Imported reg) {c : SeqCls} {data : Val} :
    msgDecode reg c data ≠ .error .queueEmpty := by
  intro h
  unfold msgDecode at h
  rcases bind_error h with h | ⟨l, hl, h2⟩
  · cases data with
    | str s =>
      rcases C23_decode_outcomes reg hreg s with ⟨objs, ho, _⟩ | ⟨e', he, hmem⟩
      · rw [ho] at h; cases h
      · rw [he] at h; cases h; simp at hmem
    | _ => rw [C23_decode_non_str reg _ (by simp)] at h; cases h
  · split at h2
    · next o =>
      rcases bind_error h2 with h3 | ⟨n, hn, h3⟩
      · unfold Val.len at h3
        split at h3 <;> cases h3
      · split at h3
        · cases h3
        · rcases bind_error h3 with h4 | ⟨a, _, h4⟩
          · exact getItem_noEmpty h4
          · rcases bind_error h4 with h5 | ⟨b, _, h5⟩
            · exact getItem_noEmpty h5
            · rcases bind_error h5 with h6 | ⟨d, _, h6⟩
              · exact getItem_noEmpty h6
              · cases h6
    · cases h2

/-- The callbacks do not raise `queue.Empty`. -/
def NeverEmpty {k : Kind} (env : Env) (user : Nat → Option Msg → Act k) : Prop :=
  ∀ cb m s, ((user cb m).exec env s).1 ≠ .error .queueEmpty

theorem sm_receive_noEmpty {env : Env} (hreg : Imported env.reg) {s : Mgr .sm} (hs : s.callbacks.Numeric)
    {user : Nat → Option Msg → Act .sm} (hu : NeverEmpty env user) (data : Val) :
    (receiveData env .sm (fun cb m => (user cb m).exec env) data s).1 ≠ .error .queueEmpty := by
  have he := receive_eq env .sm (fun cb m => (user cb m).exec env) (keepsNumeric_exec env user) data s hs
  show (receiveRaw env .sm (fun cb m => (user cb m).exec env) data s).1 ≠ _
  rw [he]
  cases hm : msgDecode env.reg (msgCls .sm) data with
  | error e' => intro hx; cases hx; exact msgDecode_noEmpty hreg hm
  | ok m =>
    simp only
    by_cases hv : accepts .sm m
    · rw [if_pos hv]
      unfold dispatched
      cases ha : answers .sm m with
      | some n =>
        simp only
        cases hat : s.callbacks.at n with
        | none => intro hx; cases hx
        | some cb =>
          simp only [deliver]
          cases hi : invoke (fun cb m => (user cb m).exec env) cb (some m) s with
          | mk r s' =>
            cases r with
            | error e' =>
              intro hx
              cases hx
              exact hu cb (some m) (s.note (.entered cb (some m))) (congrArg Prod.fst hi)
            | ok u =>
              simp only
              cases s'.callbacks.at n with
              | none => intro hx; cases hx
              | some _ => intro hx; cases hx
      | none =>
        simp only
        by_cases ht : isTrap .sm m
        · rw [if_pos ht]
          cases env.trapCallback with
          | none => intro hx; cases hx
          | some cb => intro hx; exact hu cb (some m) (s.note (.entered cb (some m))) hx
        · rw [if_neg ht]
          split <;> simp
    · rw [if_neg hv]
      unfold unknownVersion
      split <;> simp

theorem reraise_noEmpty {e : Exc} (h : e ≠ .queueEmpty) : reraiseAs e ≠ .queueEmpty := by
  cases e <;> simp_all [reraiseAs]

theorem sm_poll_noEmpty {env : Env} (hreg : Imported env.reg) {s : Mgr .sm} (hs : s.callbacks.Numeric)
    {user : Nat → Option Msg → Act .sm} (hu : NeverEmpty env user) (d : Option Val) :
    (poll env .sm (fun cb m => (user cb m).exec env) d s).1 ≠ .error .queueEmpty := by
  unfold poll
  cases d with
  | none => simp
  | some data =>
    have := sm_receive_noEmpty hreg hs hu data
    simp only
    split
    · simp
    · next e s' h =>
      rw [h] at this
      have hne : e ≠ .queueEmpty := by rintro rfl; exact this rfl
      unfold handleError
      split <;> simp [M.throw_def, hne, reraise_noEmpty hne]

/-- What one turn does to the record of taken items. -/
theorem taken_takeAndSend {k : Kind} (socket : Except Exc Unit) (s : Mgr k) :
    taken (takeAndSend socket s).2.log = taken s.log ++ s.outbound.take 1 ∧
    (takeAndSend socket s).2.outbound = s.outbound.drop 1 := by
  unfold takeAndSend
  cases ho : s.outbound with
  | nil => simp [ho]
  | cons i rest =>
    obtain ⟨m, r⟩ := i
    cases m with
    | none => simp [Mgr.note, taken_append, taken]
    | some m =>
      simp only
      cases he : m.encode with
      | error e => simp [Mgr.note, taken_append, taken]
      | ok o => simp [Mgr.note, taken_append, taken]

theorem take_prefix {α : Type} {a b : List α} (h : a <+: b) {i j : Nat} (hij : i ≤ j) : a.take i <+: b.take j := by
  obtain ⟨t, rfl⟩ := h
  rw [List.take_append]
  refine .trans ?_ (List.prefix_append _ _)
  rw [List.prefix_take_iff]
  exact ⟨List.take_prefix _ _, by simp; omega⟩

/-- A turn that returns normally takes (at least) the first item waiting at its beginning. -/
theorem turn_takes {env : Env} (hreg : Imported env.reg) {k : Kind} {s : Mgr k} (hs : s.callbacks.Numeric) (t : Turn k)
    (hu : k = .sm → NeverEmpty env t.user)
    (hok : (iterate env k (fun cb m => (t.user cb m).exec env) t.socket t.datagram s).1 = .ok ()) :
    (everQueued s).take ((taken s.log).length + 1) <+:
      taken (iterate env k (fun cb m => (t.user cb m).exec env) t.socket t.datagram s).2.log := by
  have first : ∀ s : Mgr k, (everQueued s).take ((taken s.log).length + 1) = taken (takeAndSend t.socket s).2.log := by
    intro s
    rw [(taken_takeAndSend t.socket s).1, everQueued, List.take_append]
    simp
  have hn := keepsNumeric_exec env t.user
  have hl := logMono_exec env t.user
  have v1case : (everQueued s).take ((taken s.log).length + 1) <+:
      taken (v1Iterate env k (fun cb m => (t.user cb m).exec env) t.socket t.datagram s).2.log := by
    rw [first]
    have h2 : (takeAndSend t.socket s).2.callbacks.Numeric := by rw [takeAndSend_callbacks]; exact hs
    unfold v1Iterate
    split
    · next s' h =>
      rw [h] at h2 ⊢
      have hP := (taken_stable env k (taken s'.log)).withNumeric
      have hk : Keeps (WithNumeric fun x : Mgr k => taken s'.log <+: taken x.log) (fun cb m => (t.user cb m).exec env) :=
        fun cb m s h => exec_both (taken_stable env k (taken s'.log)) (t.user cb m) s h
      have h3 := queueEmpty_stable hP hk s' ⟨List.prefix_rfl, h2⟩
      rw [M.bind_def]
      split
      · next a s'' h' =>
        rw [h'] at h3
        exact (poll_stable hP hn hl False.elim hk t.datagram s'' h3.2 h3).1
      · next e s'' h' =>
        rw [h'] at h3
        exact h3.1
    · exact List.prefix_rfl
  cases k with
  | v1 => exact v1case
  | v2 => exact v1case
  | sm =>
    clear v1case
    simp only [iterate, smIterate] at hok ⊢
    have hP1 := (everQueued_stable env .sm (everQueued s)).withNumeric
    have hP2 := (taken_stable env .sm (taken s.log)).withNumeric
    have h1 := poll_stable hP1 hn hl False.elim
      (fun cb m s h => exec_both (everQueued_stable env .sm _) (t.user cb m) s h) t.datagram s hs ⟨List.prefix_rfl, hs⟩
    have h2 := poll_stable hP2 hn hl False.elim
      (fun cb m s h => exec_both (taken_stable env .sm _) (t.user cb m) s h) t.datagram s hs ⟨List.prefix_rfl, hs⟩
    have h3 := sm_poll_noEmpty hreg hs (hu rfl) t.datagram
    rw [M.bind_def] at hok ⊢
    generalize poll env .sm (fun cb m => (t.user cb m).exec env) t.datagram s = q at h1 h2 h3 hok ⊢
    obtain ⟨r, s1⟩ := q
    cases r with
    | error e =>
      simp only at hok h3
      split at hok
      · next h => cases h; exact absurd rfl h3
      · cases hok
    | ok u =>
      simp only at hok ⊢
      have h4 : (everQueued s).take ((taken s.log).length + 1) <+: taken (takeAndSend t.socket s1).2.log := by
        rw [← first]
        exact take_prefix h1.1 (Nat.succ_le_succ h2.1.length_le)
      have h5 : (takeAndSend t.socket s1).2.callbacks.Numeric := by rw [takeAndSend_callbacks]; exact h1.2
      split
      · next s' h =>
        rw [h] at h4 h5
        exact (queueEmpty_stable (taken_stable env .sm _).withNumeric
          (fun cb m s h => exec_both (taken_stable env .sm _) (t.user cb m) s h) s' ⟨h4, h5⟩).1
      · exact h4

/-- C74: latency.  After any n turns of `run`, whatever datagrams arrived and whatever the callbacks did (requests, nested
`run`, raising inside `v2.SNMP`), at least the first n messages that were waiting have been taken, in order.  (With
`snmpManager` a callback that raises `queue.Empty` delays sending; the theorem excludes that.) -/
theorem C74_latency {env : Env} (hreg : Imported env.reg) {k : Kind} (ts : List (Turn k))
    (hu : k = .sm → ∀ t ∈ ts, NeverEmpty env t.user) : ∀ {s : Mgr k}, Reachable env s → (run env k ts s).1 = .ok () →
    taken s.log ++ s.outbound.take ts.length <+: taken (run env k ts s).2.log := by
  suffices key : ∀ {s : Mgr k}, s.callbacks.Numeric → (run env k ts s).1 = .ok () →
      (everQueued s).take ((taken s.log).length + ts.length) <+: taken (run env k ts s).2.log by
    intro s h hok
    have := key (reachable_numeric h) hok
    rwa [everQueued, List.take_append, List.take_of_length_le (by omega), Nat.add_sub_cancel_left] at this
  induction ts with
  | nil =>
    intro s _ _
    have : (everQueued s).take ((taken s.log).length + 0) = taken s.log := by
      rw [everQueued, List.take_append]; simp
    simp only [List.length_nil]
    rw [this]
    exact List.prefix_rfl
  | cons t ts ih =>
    intro s hs hok
    rw [run_cons] at hok ⊢
    have h1 := turn_takes hreg hs t (fun h => hu h t (by simp))
    have h2 := iterate_stable (everQueued_stable env k (everQueued s)).withNumeric (keepsNumeric_exec env t.user)
      (logMono_exec env t.user) False.elim
      (fun cb m s h => exec_both (everQueued_stable env k _) (t.user cb m) s h) t.socket t.datagram s hs ⟨List.prefix_rfl, hs⟩
    generalize iterate env k (fun cb m => (t.user cb m).exec env) t.socket t.datagram s = q at h1 h2 hok ⊢
    obtain ⟨r, s1⟩ := q
    cases r with
    | error e => cases hok
    | ok u =>
      simp only at hok ⊢
      have h3 := ih (fun h t ht => hu h t (by simp [ht])) h2.2 hok
      refine .trans ?_ h3
      have h4 := h1 rfl
      by_cases hc : (everQueued s).length ≤ (taken s.log).length + 1
      · rw [List.take_of_length_le hc] at h4
        refine (List.take_prefix _ _).trans (h4.trans ?_)
        have : taken s1.log <+: everQueued s1 := List.prefix_append _ _
        rw [List.prefix_take_iff]
        exact ⟨this, by omega⟩
      · have hlen := h4.length_le
        rw [List.length_take] at hlen
        refine take_prefix h2.1.1 ?_
        simp only [List.length_cons]
        simp only at hlen
        omega

/-! ## What a single turn does -/

/-- What an observer sees of an item leaving the queue: it is taken and, if it can be encoded, given to the socket. -/
def leaves (k : Kind) (item : Option Msg × Nat) : List (Obs k) :=
  .took item :: match datagramOf item with
    | some (o, r) => [.sent o r]
    | none => []

/-- The exception of sending an item, if any: encoding fails, or the socket does. -/
def sendOutcome (socket : Except Exc Unit) (item : Option Msg × Nat) : Except Exc Unit :=
  match item.1 with
  | none => .error .attributeError
  | some m => match m.encode with
    | .error e => .error e
    | .ok _ => socket

theorem takeAndSend_leaves {k : Kind} (socket : Except Exc Unit) (s : Mgr k) (item : Option Msg × Nat)
    (rest : List (Option Msg × Nat)) (h : s.outbound = item :: rest) :
    takeAndSend socket s = (sendOutcome socket item, { s with outbound := rest, log := s.log ++ leaves k item }) := by
  obtain ⟨m, r⟩ := item
  unfold takeAndSend sendOutcome leaves datagramOf
  rw [h]
  cases m with
  | none => rfl
  | some m =>
    simp only
    cases he : m.encode with
    | error e => rfl
    | ok o => simp [Mgr.note]

theorem sendOutcome_noEmpty {socket : Except Exc Unit} (hsock : socket ≠ .error .queueEmpty) (item : Option Msg × Nat) :
    sendOutcome socket item ≠ .error .queueEmpty := by
  unfold sendOutcome
  split
  · simp
  · split
    · next e he =>
      rcases msgEncode_exc he with rfl | rfl | rfl <;> simp
    · exact hsock

/-- C74: a turn of `v1.SNMP`/`v2.SNMP` that finds a message queued sends that message and does nothing else: whatever
datagram waits is not read, no callback is invoked, and the turn's outcome is that of sending. -/
theorem C74_sending_turn (env : Env) {k : Kind} (hk : k ≠ .sm) (user : User k) (socket : Except Exc Unit)
    (hsock : socket ≠ .error .queueEmpty) (d : Option Val) (s : Mgr k) (item : Option Msg × Nat)
    (rest : List (Option Msg × Nat)) (h : s.outbound = item :: rest) :
    iterate env k user socket d s =
      (sendOutcome socket item, { s with outbound := rest, log := s.log ++ leaves k item }) := by
  have hne := sendOutcome_noEmpty hsock item
  have he := takeAndSend_leaves socket s item rest h
  have v1case : v1Iterate env k user socket d s =
      (sendOutcome socket item, { s with outbound := rest, log := s.log ++ leaves k item }) := by
    unfold v1Iterate
    rw [he]
    split
    · next hx => exact absurd (congrArg Prod.fst hx) hne
    · rfl
  cases k with
  | v1 => exact v1case
  | v2 => exact v1case
  | sm => exact absurd rfl hk

/-- The same turn of `snmpManager`, when no datagram waits. -/
theorem C74_sm_sending_turn (env : Env) (user : User .sm) (socket : Except Exc Unit)
    (hsock : socket ≠ .error .queueEmpty) (s : Mgr .sm) (item : Option Msg × Nat)
    (rest : List (Option Msg × Nat)) (h : s.outbound = item :: rest) :
    iterate env .sm user socket none s =
      (sendOutcome socket item, { s with outbound := rest, log := s.log ++ leaves .sm item }) := by
  have hne := sendOutcome_noEmpty hsock item
  simp only [iterate, smIterate, poll, M.bind_def]
  rw [takeAndSend_leaves socket s item rest h]
  split
  · next hx => exact absurd (congrArg Prod.fst hx) hne
  · rfl

/-- C74: a message that cannot be encoded or that the socket refuses ends `run` with that exception, and is gone: it is no
longer queued, its request stays registered, and a later `run` goes on with the next message. -/
theorem C74_failed_send (env : Env) {k : Kind} (user : User k) (socket : Except Exc Unit)
    (hsock : socket ≠ .error .queueEmpty) (d : Option Val) (hd : k = .sm → d = none) (s : Mgr k) (item : Option Msg × Nat)
    (rest : List (Option Msg × Nat)) (h : s.outbound = item :: rest) (hf : datagramOf item = none ∨ socket ≠ .ok ()) :
    (∃ e, (iterate env k user socket d s).1 = .error e) ∧ (iterate env k user socket d s).2.outbound = rest ∧
    (iterate env k user socket d s).2.callbacks = s.callbacks := by
  have he : iterate env k user socket d s =
      (sendOutcome socket item, { s with outbound := rest, log := s.log ++ leaves k item }) := by
    by_cases hk : k = .sm
    · subst hk; rw [hd rfl]; exact C74_sm_sending_turn env user socket hsock s item rest h
    · exact C74_sending_turn env hk user socket hsock d s item rest h
  rw [he]
  refine ⟨?_, rfl, rfl⟩
  obtain ⟨m, r⟩ := item
  unfold sendOutcome
  unfold datagramOf at hf
  cases m with
  | none => exact ⟨_, rfl⟩
  | some m =>
    simp only at hf ⊢
    cases he' : m.encode with
    | error e => exact ⟨e, rfl⟩
    | ok o =>
      rw [he'] at hf
      simp only [reduceCtorEq, false_or] at hf
      cases socket with
      | ok u => exact absurd rfl hf
      | error e => exact ⟨e, rfl⟩

/-- C74: a turn of `v1.SNMP`/`v2.SNMP` that finds the queue empty first invokes the idle callback, if there is one - whether
or not requests are unanswered - and then, unless that raised, reads the waiting datagram; it sends nothing itself. -/
theorem C74_idle_turn (env : Env) {k : Kind} (hk : k ≠ .sm) (user : User k) (socket : Except Exc Unit)
    (d : Option Val) (s : Mgr k) (h : s.outbound = []) :
    (env.queueEmpty = none → iterate env k user socket d s = poll env k user d s) ∧
    (∀ cb, env.queueEmpty = some cb →
      let q := user cb none (s.note (.entered cb none))
      iterate env k user socket d s = match q.1 with
        | .ok () => poll env k user d (q.2.note (.left cb none q.1))
        | .error e => (.error e, q.2.note (.left cb none q.1))) := by
  have v1case : v1Iterate env k user socket d s =
      (do callQueueEmpty env user
          poll env k user d : M k Unit) s := by
    unfold v1Iterate takeAndSend
    rw [h]
  have e : iterate env k user socket d s =
      (do callQueueEmpty env user
          poll env k user d : M k Unit) s := by
    cases k with
    | v1 => exact v1case
    | v2 => exact v1case
    | sm => exact absurd rfl hk
  rw [e, M.bind_def]
  constructor
  · intro h0
    simp only [callQueueEmpty, h0, M.pure_def]
  · intro cb hcb
    simp only [callQueueEmpty, hcb, invoke]
    rcases user cb none (s.note (.entered cb none)) with ⟨r | r, s'⟩ <;> rfl

/-- C74: a turn of `snmpManager` that reads nothing (or whose datagram was handled, leaving the state `s1`) and then finds the
queue empty invokes the idle callback, whether or not requests are unanswered. -/
theorem C74_sm_idle_turn (env : Env) (user : User .sm) (socket : Except Exc Unit) (d : Option Val) (s s1 : Mgr .sm)
    (hp : poll env .sm user d s = (.ok (), s1)) (h : s1.outbound = []) :
    (env.queueEmpty = none → iterate env .sm user socket d s = (.ok (), s1)) ∧
    (∀ cb, env.queueEmpty = some cb →
      let q := user cb none (s1.note (.entered cb none))
      iterate env .sm user socket d s = (q.1, q.2.note (.left cb none q.1))) := by
  have e : iterate env .sm user socket d s = callQueueEmpty env user s1 := by
    simp only [iterate, smIterate, M.bind_def, hp, takeAndSend, h]
  rw [e]
  constructor
  · intro h0
    simp only [callQueueEmpty, h0, M.pure_def]
  · intro cb hcb
    simp only [callQueueEmpty, hcb, invoke]

/-! ## Draining -/

/-- A turn in which the socket works and, for `snmpManager`, no datagram waits. -/
def Turn.Quiet {k : Kind} (t : Turn k) : Prop := t.socket = .ok () ∧ (k = .sm → t.datagram = none)

theorem sendOutcome_ok {item : Option Msg × Nat} (h : (datagramOf item).isSome) : sendOutcome (.ok ()) item = .ok () := by
  obtain ⟨m, r⟩ := item
  unfold datagramOf at h
  unfold sendOutcome
  cases m with
  | none => simp at h
  | some m =>
    simp only at h ⊢
    cases he : m.encode with
    | error e => simp [he] at h
    | ok o => rfl

/-- C74: draining.  If every queued message can be encoded, as many turns as there are messages send them all, in order, and
nothing else happens: no callback runs, no request is answered, no ID is used - with `v1.SNMP` and `v2.SNMP` even if
datagrams wait in every turn. -/
theorem C74_drain (env : Env) {k : Kind} : ∀ (ts : List (Turn k)) (s : Mgr k), ts.length = s.outbound.length →
    (∀ t ∈ ts, t.Quiet) → (∀ item ∈ s.outbound, (datagramOf item).isSome) →
    run env k ts s = (.ok (), { s with outbound := [], log := s.log ++ s.outbound.flatMap (leaves k) })
  | [], s, hl, _, _ => by
    have : s.outbound = [] := List.length_eq_zero_iff.mp (by simpa using hl.symm)
    rw [run, M.pure_def, this]
    cases s
    simp_all
  | t :: ts, s, hl, hq, hd => by
    cases ho : s.outbound with
    | nil => rw [ho] at hl; simp at hl
    | cons item rest =>
      obtain ⟨hq1, hq2⟩ := hq t (by simp)
      have hit : (datagramOf item).isSome := hd item (by simp [ho])
      have he : iterate env k (fun cb m => (t.user cb m).exec env) t.socket t.datagram s =
          (.ok (), { s with outbound := rest, log := s.log ++ leaves k item }) := by
        rw [← sendOutcome_ok hit, ← hq1]
        have hsock : t.socket ≠ .error .queueEmpty := by rw [hq1]; simp
        by_cases hk : k = .sm
        · subst hk; rw [hq2 rfl]; exact C74_sm_sending_turn env _ _ hsock s item rest ho
        · exact C74_sending_turn env hk _ _ hsock _ s item rest ho
      rw [run_cons, he]
      simp only
      rw [C74_drain env ts _ (by rw [ho] at hl; simpa using hl) (fun t ht => hq t (by simp [ht]))
        (fun i hi => hd i (by simp [ho, hi]))]
      simp [List.append_assoc]

theorem leaves_issued (k : Kind) (l : List (Option Msg × Nat)) : issued (l.flatMap (leaves k)) = [] := by
  induction l with
  | nil => rfl
  | cons i l ih =>
    rw [List.flatMap_cons, issued_append, ih, List.append_nil]
    unfold leaves
    cases datagramOf i with
    | none => rfl
    | some p => rfl

theorem leaves_left (k : Kind) (l : List (Option Msg × Nat)) (cb : Nat) (m : Option Msg) (r : Except Exc Unit) :
    Obs.left cb m r ∉ l.flatMap (leaves k) := by
  rw [List.mem_flatMap]
  rintro ⟨i, _, hi⟩
  unfold leaves at hi
  cases hd : datagramOf i <;> simp [hd] at hi

theorem run_append (env : Env) (k : Kind) (ts ts' : List (Turn k)) (s : Mgr k) :
    run env k (ts ++ ts') s = match run env k ts s with
      | (.ok (), s') => run env k ts' s'
      | (.error e, s') => (.error e, s') := by
  induction ts generalizing s with
  | nil => rfl
  | cons t ts ih =>
    rw [List.cons_append, run_cons, run_cons]
    rcases iterate env k (fun cb m => (t.user cb m).exec env) t.socket t.datagram s with ⟨r | r, s'⟩
    · rfl
    · exact ih s'

/-- An idle turn enters the idle callback before anything else. -/
theorem idle_entered (env : Env) {k : Kind} (t : Turn k) (s : Mgr k) (hs : s.callbacks.Numeric) (h : s.outbound = [])
    (ht : k = .sm → t.datagram = none) (cb : Nat) (hcb : env.queueEmpty = some cb) :
    s.log ++ [.entered cb none] <+: (run env k [t] s).2.log := by
  have hl := logMono_exec env t.user cb none (s.note (.entered cb none)) hs
  have hn := keepsNumeric_exec env t.user cb none (s.note (.entered cb none)) hs
  have e : run env k [t] s = iterate env k (fun cb m => (t.user cb m).exec env) t.socket t.datagram s := by
    rw [run_cons]
    rcases iterate env k (fun cb m => (t.user cb m).exec env) t.socket t.datagram s with ⟨r | r, s'⟩ <;> rfl
  rw [e]
  by_cases hk : k = .sm
  · subst hk
    rw [ht rfl, (C74_sm_idle_turn env _ t.socket none s s rfl h).2 cb hcb]
    exact hl.trans (List.prefix_append _ _)
  · rw [(C74_idle_turn env hk _ t.socket t.datagram s h).2 cb hcb]
    simp only at hl hn ⊢
    generalize (t.user cb none).exec env (s.note (.entered cb none)) = q at hl hn ⊢
    obtain ⟨r, s'⟩ := q
    cases r with
    | error e => exact hl.trans (List.prefix_append _ _)
    | ok u =>
      have hP := (stable_log env k (s.note (Obs.entered cb none)).log).withNumeric
      exact (poll_stable hP (keepsNumeric_exec env t.user) (logMono_exec env t.user) False.elim
        (fun cb m s h => exec_both (stable_log env k _) (t.user cb m) s h) t.datagram
        (s'.note (.left cb none (.ok u))) hn
        ⟨hl.trans (List.prefix_append _ _), hn⟩).1

theorem leaves_sentOut (k : Kind) (l : List (Option Msg × Nat)) : sentOut (l.flatMap (leaves k)) = l.filterMap datagramOf := by
  induction l with
  | nil => rfl
  | cons i l ih =>
    rw [List.flatMap_cons, sentOut_append, ih, List.filterMap_cons]
    unfold leaves
    cases datagramOf i with
    | none => rfl
    | some p => rfl

/-- C74: "queue empty" does not mean "done".  Once the queued messages are sent, the very next quiet turn invokes the idle
callback, and every request that was pending before is pending at that moment. -/
theorem C74_idle_while_pending (env : Env) {k : Kind} (ts : List (Turn k)) (t : Turn k) {s : Mgr k} (h : Reachable env s)
    (hl : ts.length = s.outbound.length) (hq : ∀ t ∈ ts, t.Quiet) (hd : ∀ item ∈ s.outbound, (datagramOf item).isSome)
    (ht : k = .sm → t.datagram = none) (cb : Nat) (hcb : env.queueEmpty = some cb) :
    ∃ log rest, (run env k (ts ++ [t]) s).2.log = log ++ .entered cb none :: rest ∧
      sentOut log = sentOut s.log ++ s.outbound.filterMap datagramOf ∧
      ∀ n c, Pending s.log n c ↔ Pending log n c := by
  have hs := reachable_numeric h
  refine ⟨s.log ++ s.outbound.flatMap (leaves k), ?_⟩
  have he := idle_entered env t { s with outbound := [], log := s.log ++ s.outbound.flatMap (leaves k) } hs rfl ht cb hcb
  rw [run_append, C74_drain env ts s hl hq hd]
  obtain ⟨rest, hr⟩ := he
  refine ⟨rest, by rw [← hr]; simp, by rw [sentOut_append, leaves_sentOut], fun n c => ?_⟩
  unfold Pending Finished
  rw [issued_append, leaves_issued, List.append_nil]
  have : ∀ cb m, Obs.left cb (some m) (.ok ()) ∈ s.log ++ s.outbound.flatMap (leaves k) ↔
      Obs.left cb (some m) (.ok ()) ∈ s.log := by
    intro cb m
    rw [List.mem_append]
    exact ⟨fun h => h.resolve_right (leaves_left k _ _ _ _), .inl⟩
  simp only [this]


/-! The hypotheses are met: two requests waiting, an idle callback, a datagram waiting in every turn. -/

def runBusy : Act .v1 :=
  .call (V1Call.get (.str (lit ".1.3.6.1.2.1")) 7 1 (lit "public")) fun _ =>
  .call (V1Call.getNext [.seq .varBind [.oid (some [1, 3, 6]), .null .null]] 9 4 (lit "private")) fun _ => .ret

def runBusyEnv : Env := ⟨regV1, none, some 5⟩

def runBusyState : Mgr .v1 := (runBusy.exec runBusyEnv {}).2

def runNoisy : Turn .v1 := { datagram := some (.str [1, 2, 3]), user := fun _ _ => .raise .systemExit }

example : Reachable runBusyEnv runBusyState := ⟨runBusy, rfl⟩

example : runBusyState.outbound.length = 2 := by decide +kernel

example : ∀ item ∈ runBusyState.outbound, (datagramOf item).isSome := by decide +kernel

example : runNoisy.Quiet := ⟨rfl, by simp⟩

example : (0, 1) ∈ issued runBusyState.log := by decide +kernel

theorem not_finished_of_no_left {k : Kind} {log : List (Obs k)} {n : Int}
    (h : log.all (fun o => match o with | .left _ _ _ => false | _ => true) = true) : ¬ Finished log n := by
  rintro ⟨cb, m, hm, _⟩
  have := List.all_eq_true.mp h _ hm
  cases this

example : Pending runBusyState.log 0 1 := by
  refine ⟨by decide +kernel, not_finished_of_no_left ?_⟩
  decide +kernel

example : (run runBusyEnv .v1 [runNoisy, runNoisy] runBusyState).1 = .ok () := by decide +kernel

/-- The third turn is idle: the idle callback ends the program, both requests unanswered. -/
example : (run runBusyEnv .v1 [runNoisy, runNoisy, runNoisy] runBusyState).1 = .error .systemExit := by
  have h := C74_drain runBusyEnv [runNoisy, runNoisy] runBusyState (by decide +kernel)
    (by intro t ht; simp at ht; subst ht; exact ⟨rfl, by simp⟩) (by decide +kernel)
  rw [show [runNoisy, runNoisy, runNoisy] = [runNoisy, runNoisy] ++ [runNoisy] from rfl, run_append, h]
  simp only
  rw [run_cons, (C74_idle_turn runBusyEnv (by decide) _ _ _ _ rfl).2 5 rfl]
  rfl

end Libsnmp
