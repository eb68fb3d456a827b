import Verif.Model.Role
import Verif.Spec.Role
import Verif.Props.Responses

/-! # C58 (sockets), C59 (errors during a read), C54 (bytes and str at the socket) -/

namespace Libsnmp
open Spec

/-! ## C58 -/

theorem roleRun_snoc (h : List RoleOp) (o : RoleOp) : roleRun (h ++ [o]) = o.run (roleRun h) := by
  simp [roleRun, List.foldl_append]

theorem snoc_cases {α : Type} {h : List α} {o x : α} {a b : List α} (e : h ++ [o] = a ++ x :: b) :
    (b = [] ∧ h = a ∧ o = x) ∨ ∃ b', b = b' ++ [o] ∧ h = a ++ x :: b' := by
  rcases List.eq_nil_or_concat b with rfl | ⟨b', y, rfl⟩
  · left
    have := List.append_inj' e rfl
    simp at this
    exact ⟨rfl, this.1, this.2⟩
  · right
    have e' : h ++ [o] = (a ++ x :: b') ++ [y] := by simpa using e
    have := List.append_inj' e' rfl
    simp at this
    exact ⟨b', by simp [this.2], this.1⟩

theorem isOpen_snoc (h : List RoleOp) (o : RoleOp) : IsOpen (h ++ [o]) ↔ Grants o ∨ (IsOpen h ∧ ¬ Closes o) := by
  constructor
  · rintro ⟨a, x, b, e, hg, hc⟩
    rcases snoc_cases e with ⟨rfl, rfl, rfl⟩ | ⟨b', rfl, rfl⟩
    · exact .inl hg
    · exact .inr ⟨⟨a, x, b', rfl, hg, fun c hm => hc c (by simp [hm])⟩, hc o (by simp)⟩
  · rintro (hg | ⟨⟨a, x, b, rfl, hg, hc⟩, ho⟩)
    · exact ⟨h, o, [], rfl, hg, by simp⟩
    · refine ⟨a, x, b ++ [o], by simp, hg, ?_⟩
      intro c hm
      rcases List.mem_append.1 hm with hm | hm
      · exact hc c hm
      · simp at hm; exact hm ▸ ho

theorem not_isOpen_nil : ¬ IsOpen [] := by rintro ⟨a, o, b, e, _⟩; simp at e

/-- What one call does to the current socket. -/
theorem run_current (o : RoleOp) (s : Role) : (o.run s).current ≠ none ↔ Grants o ∨ (s.current ≠ none ∧ ¬ Closes o) := by
  cases o with
  | «open» os =>
    simp only [RoleOp.run, roleOpen, Grants, Closes]
    rcases os with ⟨_ | _, _ | _, _ | _⟩ <;> simp
  | send r o1 o2 =>
    simp only [RoleOp.run, roleSend, roleOpen, Grants, Closes]
    cases hc : s.current with
    | some n => simp [hc]
    | none => rcases o1 with ⟨_ | _, _ | _, _ | _⟩ <;> simp [hc]
  | read os =>
    simp only [RoleOp.run, roleRead, Grants, Closes]
    cases hc : s.current with
    | some n => cases os <;> simp [hc]
    | none => simp [hc]
  | close os =>
    simp only [RoleOp.run, roleClose, Grants, Closes]
    cases hc : s.current with
    | some n => cases os <;> simp [hc]
    | none => simp [hc]

/-- C58: the object has a current socket exactly when the history says that one is open. -/
theorem C58_current (h : List RoleOp) : (roleRun h).current ≠ none ↔ IsOpen h := by
  induction h using List.reverseRecOn with
  | nil => simp [not_isOpen_nil, roleRun]
  | append_singleton h o ih => rw [roleRun_snoc, run_current, ih, isOpen_snoc]

/-- C58: after any history, `read` raises ValueError exactly when no socket is open, provided that `recvfrom` itself does
not raise ValueError; otherwise it returns what the socket delivers.  It never changes anything. -/
theorem C58_read (h : List RoleOp) (os : Except Exc Str) (hos : os ≠ .error .valueError) :
    ((roleRead os (roleRun h)).1 = .error .valueError ↔ ¬ IsOpen h) ∧
    (IsOpen h → (roleRead os (roleRun h)).1 = os.map Val.bytes) ∧ (roleRead os (roleRun h)).2 = roleRun h := by
  rw [← C58_current]
  unfold roleRead
  cases hc : (roleRun h).current with
  | none => simp
  | some n =>
    cases os with
    | error e => simp [Except.map]; rintro rfl; exact hos rfl
    | ok b => simp [Except.map]

/-- C58: `send` on bytes with no socket open opens one and sends through it (if the system allows both); with a socket
open it creates none. -/
theorem C58_send (h : List RoleOp) (b : Str) (o1 : OpenOS) (o2 : Except Exc Unit) :
    let r := roleSend (.bytes b) o1 o2 (roleRun h)
    (IsOpen h → r = (o2, roleRun h)) ∧
    (¬ IsOpen h → o1.socket = .ok () → r.2.current = some (roleRun h).created ∧ r.2.created = (roleRun h).created + 1) ∧
    (¬ IsOpen h → o1.socket = .ok () → o1.bind = .ok () → o1.option = .ok () → r.1 = o2) := by
  rw [← C58_current]
  rcases o1 with ⟨s1, b1, p1⟩
  simp only [roleSend, roleOpen, sendto]
  cases hc : (roleRun h).current with
  | some n => simp
  | none =>
    simp only [ne_eq, not_true_eq_false, false_implies, true_and, not_false_eq_true, true_implies]
    constructor
    · rintro rfl
      cases b1 <;> cases p1 <;> simp
    · rintro rfl rfl rfl
      simp

/-- C58: closing twice is closing once: after a successful `close` nothing is open and another `close` does nothing,
whatever the system would answer. -/
theorem C58_close_idempotent (h : List RoleOp) (os : Except Exc Unit) :
    let s := roleRun (h ++ [.close (.ok ())])
    s.current = none ∧ roleClose os s = (.ok (), s) := by
  intro s
  have hc : s.current = none := by
    have h1 := C58_current (h ++ [.close (.ok ())])
    rw [isOpen_snoc] at h1
    simpa [Grants, Closes] using h1
  exact ⟨hc, by unfold roleClose; rw [hc]⟩

/-- The sockets of an object: numbered from 0, without repetition, the current one among them. -/
def RoleOk (s : Role) : Prop :=
  s.live.Nodup ∧ (∀ n ∈ s.live, n < s.created) ∧ ∀ n, s.current = some n → n ∈ s.live

theorem opened_ok {s : Role} (h : RoleOk s) :
    RoleOk { current := some s.created, live := s.live ++ [s.created], created := s.created + 1 } := by
  obtain ⟨h1, h2, h3⟩ := h
  refine ⟨?_, ?_, ?_⟩
  · rw [List.nodup_append]
    refine ⟨h1, by simp, ?_⟩
    intro a ha b hb
    have := h2 a ha
    simp at hb
    omega
  · intro n hn
    rcases List.mem_append.1 hn with hn | hn
    · have := h2 n hn; show n < s.created + 1; omega
    · simp at hn; show n < s.created + 1; omega
  · intro n hn
    simp at hn
    simp [hn]

theorem roleOpen_state (os : OpenOS) (s : Role) :
    (roleOpen os s).2 = if os.socket = .ok () then
      { current := some s.created, live := s.live ++ [s.created], created := s.created + 1 } else s := by
  unfold roleOpen
  rcases os with ⟨_ | _, _ | _, _ | _⟩ <;> simp

theorem roleSend_state (r : Val) (o1 : OpenOS) (o2 : Except Exc Unit) (s : Role) :
    (roleSend r o1 o2 s).2 = if s.current = none then (roleOpen o1 s).2 else s := by
  unfold roleSend
  cases hc : s.current with
  | some n => simp
  | none =>
    rcases hr : roleOpen o1 s with ⟨_ | _, s'⟩ <;> simp

theorem roleRead_state (os : Except Exc Str) (s : Role) : (roleRead os s).2 = s := by
  unfold roleRead
  cases s.current <;> cases os <;> rfl

theorem run_ok (o : RoleOp) {s : Role} (h : RoleOk s) : RoleOk (o.run s) := by
  cases o with
  | «open» os =>
    simp only [RoleOp.run, roleOpen_state]
    split
    · exact opened_ok h
    · exact h
  | send r o1 o2 =>
    simp only [RoleOp.run, roleSend_state, roleOpen_state]
    split
    · split
      · exact opened_ok h
      · exact h
    · exact h
  | read os => simpa only [RoleOp.run, roleRead_state] using h
  | close os =>
    simp only [RoleOp.run, roleClose]
    cases hc : s.current with
    | none => exact h
    | some n =>
      cases os with
      | error e => exact h
      | ok u =>
        obtain ⟨h1, h2, h3⟩ := h
        exact ⟨h1.filter _, fun m hm => h2 m (List.mem_filter.1 hm).1, by simp⟩

theorem roleRun_ok (h : List RoleOp) : RoleOk (roleRun h) := by
  induction h using List.reverseRecOn with
  | nil => simp [roleRun, RoleOk]
  | append_singleton h o ih => rw [roleRun_snoc]; exact run_ok o ih

/-- C58: the current socket is one of the sockets not yet closed; no socket is counted twice. -/
theorem C58_current_live (h : List RoleOp) :
    (roleRun h).live.Nodup ∧ ∀ n, (roleRun h).current = some n → n ∈ (roleRun h).live :=
  ⟨(roleRun_ok h).1, (roleRun_ok h).2.2⟩

/-- C58: a socket that is not current and was never closed was superseded by an explicit `open`, made while it was
current. -/
theorem C58_superseded (h : List RoleOp) (n : Nat) (hn : n ∈ (roleRun h).live) (hc : (roleRun h).current ≠ some n) :
    ∃ a os b, h = a ++ .open os :: b ∧ os.socket = .ok () ∧ (roleRun a).current = some n := by
  induction h using List.reverseRecOn with
  | nil => simp [roleRun] at hn
  | append_singleton h o ih =>
    have keep : n ∈ (roleRun h).live → (roleRun h).current ≠ some n →
        ∃ a os b, h ++ [o] = a ++ .open os :: b ∧ os.socket = .ok () ∧ (roleRun a).current = some n := by
      intro h1 h2
      obtain ⟨a, os, b, rfl, h3, h4⟩ := ih h1 h2
      exact ⟨a, os, b ++ [o], by simp, h3, h4⟩
    rw [roleRun_snoc] at hn hc
    cases o with
    | «open» os =>
      simp only [RoleOp.run, roleOpen_state] at hn hc
      by_cases hs : os.socket = .ok ()
      · simp only [hs, if_true] at hn hc
        have hn' : n ∈ (roleRun h).live := by
          rcases List.mem_append.1 hn with h1 | h1
          · exact h1
          · simp at h1; exact absurd (by simp [h1]) hc
        by_cases hcur : (roleRun h).current = some n
        · exact ⟨h, os, [], rfl, hs, hcur⟩
        · exact keep hn' hcur
      · simp only [hs, if_false] at hn hc
        exact keep hn hc
    | send r o1 o2 =>
      simp only [RoleOp.run, roleSend_state, roleOpen_state] at hn hc
      by_cases hcn : (roleRun h).current = none
      · by_cases hs : o1.socket = .ok ()
        · simp only [hs, hcn, if_true] at hn hc
          have hn' : n ∈ (roleRun h).live := by
            rcases List.mem_append.1 hn with h1 | h1
            · exact h1
            · simp at h1; exact absurd (by simp [h1]) hc
          exact keep hn' (by simp [hcn])
        · simp only [hs, hcn, if_true, if_false] at hn hc
          exact keep hn (by simp [hcn])
      · simp only [hcn, if_false] at hn hc
        exact keep hn hc
    | read os =>
      simp only [RoleOp.run, roleRead_state] at hn hc
      exact keep hn hc
    | close os =>
      simp only [RoleOp.run, roleClose] at hn hc
      cases hcur : (roleRun h).current with
      | none => simp only [hcur] at hn hc; exact keep hn (by simp [hcur])
      | some m =>
        cases os with
        | error e => simp only [hcur] at hn hc; exact keep hn (by simpa [hcur] using hc)
        | ok u =>
          simp only [hcur, List.mem_filter] at hn hc
          refine keep hn.1 ?_
          rw [hcur]
          intro e
          simp at e
          simp [e] at hn

/-- C58: a program that never calls `open` while a socket is open leaks none: the only socket not closed is the current
one. -/
theorem C58_no_leak (h : List RoleOp) (ht : Tidy h) : (roleRun h).live = (roleRun h).current.toList := by
  have hall : ∀ n ∈ (roleRun h).live, (roleRun h).current = some n := by
    intro n hn
    by_contra hc
    obtain ⟨a, os, b, e, _, hcur⟩ := C58_superseded h n hn hc
    exact ht a os b e ((C58_current a).1 (by simp [hcur]))
  obtain ⟨hnd, _, hin⟩ := roleRun_ok h
  cases hc : (roleRun h).current with
  | none =>
    cases hl : (roleRun h).live with
    | nil => rfl
    | cons n l => have := hall n (by simp [hl]); simp [hc] at this
  | some m =>
    have hm := hin m hc
    have h1 : ∀ n ∈ (roleRun h).live, n = m := by
      intro n hn
      have := hall n hn
      rw [hc] at this
      exact (Option.some.inj this).symm
    generalize (roleRun h).live = l at hm h1 hnd
    match l, hm, h1, hnd with
    | [x], _, h1, _ => simp [h1 x]
    | x :: y :: l, _, h1, hnd =>
      have h2 := h1 x (by simp)
      have h3 := h1 y (by simp)
      rw [h2, h3] at hnd
      simp at hnd

/-- C58: a failed bind (for example, address already in use) raises, but leaves the new, unbound socket installed: the
object counts as open and later calls use that socket. -/
theorem C58_failed_bind (h : List RoleOp) (e : Exc) (os : OpenOS) (hs : os.socket = .ok ()) (hb : os.bind = .error e) :
    (roleOpen os (roleRun h)).1 = .error e ∧ (roleOpen os (roleRun h)).2.current = some (roleRun h).created := by
  simp [roleOpen, hs, hb]

/-! A history with a second open, a failed bind and a close. -/
private def history : List RoleOp :=
  [.open {}, .send (.bytes [1]) {} (.ok ()), .open { bind := .error .osError }, .close (.ok ()), .read (.ok [])]

example : IsOpen (history.take 3) ∧ ¬ IsOpen history :=
  ⟨⟨[], .open {}, (history.take 3).tail, rfl, rfl, by simp [history, Closes]⟩, by
    rw [← C58_current]; decide⟩
example : (roleRun history).live = [0] ∧ (roleRun history).current = none := by decide
example : Tidy [.open {}, .send (.bytes [1]) {} (.ok ()), .close (.ok ()), .send (.bytes [1]) {} (.ok ())] ∧
    (roleRun [.open {}, .send (.bytes [1]) {} (.ok ()), .close (.ok ()), .send (.bytes [1]) {} (.ok ())]).live = [1] := by
  refine ⟨?_, by decide⟩
  intro a os b e
  rcases a with _ | ⟨x, a⟩
  · exact not_isOpen_nil
  · simp at e
    obtain ⟨_, e⟩ := e
    exfalso
    rcases a with _ | ⟨_, _ | ⟨_, _ | ⟨_, _ | ⟨_, _⟩⟩⟩⟩ <;> simp at e

/-! ## C59 -/

/-- C59: when reading the socket raises a ValueError, the callback function is called once with it and its outcome is the
outcome of `poll`; every other exception leaves `poll` unchanged and no callback is called. -/
theorem C59_read_raises {σ : Type} (cb : CbFun σ) (e : Exc) (s : σ) :
    asynRead cb (.error e) s = if e.isValueError then cb.exc e s else (.error e, s) := by
  cases e <;> rfl

/-- C59: the same when the callback function, given the data, raises: a ValueError is handed to the callback function (once
more, as an exception), anything else is re-raised with the state the callback left. -/
theorem C59_handler_raises {σ : Type} (cb : CbFun σ) (d : Val) (s s' : σ) (e : Exc) (h : cb.data d s = (.error e, s')) :
    asynRead cb (.ok d) s = if e.isValueError then cb.exc e s' else (.error e, s') := by
  unfold asynRead asynHandleError
  simp only [h]
  cases e <;> rfl

/-- C59: when the callback returns, so does `poll`. -/
theorem C59_handler_returns {σ : Type} (cb : CbFun σ) (d : Val) (s s' : σ) (h : cb.data d s = (.ok (), s')) :
    asynRead cb (.ok d) s = (.ok (), s') := by
  unfold asynRead; simp only [h]

/-- The `poll` of the manager model is `asynrole.Manager`'s read of a datagram with the manager's own `receiveData` as
callback function. -/
theorem poll_is_asynRead (env : Env) (k : Kind) (user : User k) (d : Val) (s : Mgr k) :
    poll env k user (some d) s = asynRead (managerCbFun env k user) (.ok d) s := by
  unfold poll asynRead asynHandleError managerCbFun handleError
  rcases h : receiveData env k user d s with ⟨e | u, s'⟩
  · simp only [h]
    cases e <;> rfl
  · simp only [h]

/-- The exception that leaves a manager's `poll` when `e` is raised: the same type, except that a UnicodeDecodeError
cannot be rebuilt from one argument, which is a TypeError. -/
theorem reraise_type (e : Exc) : reraiseAs e = if e = .unicodeDecodeError then .typeError else e := by
  cases e <;> simp [reraiseAs]

/-- C59: for the three manager classes, an exception that leaves `receiveData` leaves `poll` too, with its original type
(except UnicodeDecodeError, which becomes TypeError), and nothing else changes. -/
theorem C59_type_kept (env : Env) (k : Kind) (user : User k) (d : Val) (s s' : Mgr k) (e : Exc)
    (h : receiveData env k user d s = (.error e, s')) :
    poll env k user (some d) s = (.error (if e = .unicodeDecodeError then .typeError else e), s') := by
  rw [poll_is_asynRead, C59_handler_raises _ d s s' e h, ← reraise_type]
  cases e <;> rfl

/-- C59: an exception of the socket itself leaves `poll` of every manager class the same way, and no request is touched -
even with `v2.SNMP`, whose `receiveData` otherwise swallows exceptions. -/
theorem C59_socket_error (env : Env) (k : Kind) (user : User k) (e : Exc) (s : Mgr k) :
    asynRead (managerCbFun env k user) (.error e) s =
      (.error (if e = .unicodeDecodeError then .typeError else e), s) := by
  rw [C59_read_raises, ← reraise_type]
  cases e <;> rfl

/-- C59: reading without a socket raises ValueError from `poll`. -/
theorem C59_no_socket (env : Env) (k : Kind) (user : User k) (h : List RoleOp) (ho : ¬ IsOpen h) (os : Except Exc Str)
    (s : Mgr k) : (asynRead (managerCbFun env k user) (roleRead os (roleRun h)).1 s) = (.error .valueError, s) := by
  have hc : (roleRun h).current = none := by
    have := C58_current h; by_contra hc; exact ho (this.1 hc)
  have : (roleRead os (roleRun h)).1 = .error .valueError := by unfold roleRead; rw [hc]
  rw [this, C59_socket_error]; rfl

/-- C59: what `v2.SNMP` swallows (every `Exception` raised while handling a message) does not leave `poll`. -/
theorem C59_v2_swallows (env : Env) (user : User .v2) (d : Val) (s s' : Mgr .v2) (e : Exc) (he : e.isException = true)
    (h : v2ReceiveBody env user d s = (.error e, s')) : poll env .v2 user (some d) s = (.ok (), s') := by
  rw [poll_is_asynRead]
  apply C59_handler_returns
  show v2ReceiveData env user d s = _
  unfold v2ReceiveData
  simp only [h, he, if_true]

/-! ## C54 -/

/-- C54: whatever the socket delivers is bytes, and bytes are never dispatched: no callback runs, nothing changes, and
`receiveData` raises TypeError (`v2.SNMP` swallows it). -/
theorem C54_receive (env : Env) (k : Kind) (user : User k) (b : Str) (s : Mgr k) :
    receiveData env k user (.bytes b) s = (if k = .v2 then .ok () else .error .typeError, s) := by
  cases k <;> rfl

/-- C54: the same through `poll`, from any history of the socket in which `recvfrom` succeeds. -/
theorem C54_poll (env : Env) (k : Kind) (user : User k) (h : List RoleOp) (ho : IsOpen h) (b : Str) (s : Mgr k) :
    asynRead (managerCbFun env k user) (roleRead (.ok b) (roleRun h)).1 s =
      (if k = .v2 then .ok () else .error .typeError, s) := by
  rw [(C58_read h (.ok b) (by simp)).2.1 ho]
  cases k <;> rfl

/-- All data the program feeds to the manager is bytes, as delivered by a socket. -/
def Act.OnlyBytes {k : Kind} : Act k → Prop
  | .ret => True
  | .raise _ => True
  | .call _ next => ∀ r, (next r).OnlyBytes
  | .receive d user next => (∃ b, d = .bytes b) ∧ (∀ cb m, (user cb m).OnlyBytes) ∧ ∀ r, (next r).OnlyBytes
  | .loop _ d user next =>
    (∀ x, d = some x → ∃ b, x = .bytes b) ∧ (∀ cb m, (user cb m).OnlyBytes) ∧ ∀ r, (next r).OnlyBytes
  | .idle user next => (∀ cb m, (user cb m).OnlyBytes) ∧ ∀ r, (next r).OnlyBytes

/-- No callback has been invoked with a message. -/
def NoMessage {k : Kind} (s : Mgr k) : Prop := ∀ cb m, Obs.entered cb (some m) ∉ s.log

theorem poll_bytes (env : Env) (k : Kind) (user : User k) (d : Option Val) (hd : ∀ x, d = some x → ∃ b, x = .bytes b)
    (s : Mgr k) : (poll env k user d s).2 = s := by
  cases d with
  | none => rfl
  | some x =>
    obtain ⟨b, rfl⟩ := hd x rfl
    cases k <;> rfl

theorem takeAndSend_noMessage {k : Kind} (socket : Except Exc Unit) {s : Mgr k} (h : NoMessage s) :
    NoMessage (takeAndSend socket s).2 := by
  unfold takeAndSend
  split
  · exact h
  · rename_i m remote rest hq
    cases m with
    | none => intro cb m; simpa [Mgr.note] using h cb m
    | some m =>
      simp only
      split
      · intro cb m; simpa [Mgr.note] using h cb m
      · intro cb m; simpa [Mgr.note] using h cb m

theorem queueEmpty_noMessage {k : Kind} (env : Env) {user : User k} (hu : ∀ cb m s, NoMessage s → NoMessage (user cb m s).2)
    {s : Mgr k} (h : NoMessage s) : NoMessage (callQueueEmpty env user s).2 := by
  unfold callQueueEmpty
  cases env.queueEmpty with
  | none => exact h
  | some q =>
    simp only [invoke]
    have h1 : NoMessage (s.note (.entered q none)) := by intro cb m; simpa [Mgr.note] using h cb m
    have h2 := hu q none _ h1
    intro cb m
    simpa [Mgr.note] using h2 cb m

theorem iterate_noMessage (env : Env) (k : Kind) {user : User k} (hu : ∀ cb m s, NoMessage s → NoMessage (user cb m s).2)
    (socket : Except Exc Unit) (d : Option Val) (hd : ∀ x, d = some x → ∃ b, x = .bytes b) {s : Mgr k} (h : NoMessage s) :
    NoMessage (iterate env k user socket d s).2 := by
  have hv1 : NoMessage (v1Iterate env k user socket d s).2 := by
    unfold v1Iterate
    have ht := takeAndSend_noMessage socket h
    split
    · rename_i s' he
      rw [he] at ht
      simp only [M.bind_def]
      have hq := queueEmpty_noMessage env hu (s := s') ht
      split
      · rename_i u s2 hs2
        rw [poll_bytes env k user d hd]
        rw [hs2] at hq; exact hq
      · rename_i e s2 hs2
        rw [hs2] at hq; exact hq
    · exact ht
  cases k with
  | v1 => exact hv1
  | v2 => exact hv1
  | sm =>
    show NoMessage (smIterate env user socket d s).2
    unfold smIterate
    have hp := poll_bytes env .sm user d hd s
    rcases hpr : poll env .sm user d s with ⟨e | u, s1⟩
    · rw [hpr] at hp; subst hp
      have : (do poll env .sm user d; takeAndSend socket : M .sm Unit) s1 = (.error e, s1) := by
        rw [M.bind_def, hpr]
      rw [this]
      split
      · rename_i s' he
        simp at he
        exact queueEmpty_noMessage env hu (he.2 ▸ h)
      · exact h
    · rw [hpr] at hp; subst hp
      have : (do poll env .sm user d; takeAndSend socket : M .sm Unit) s1 = takeAndSend socket s1 := by
        rw [M.bind_def, hpr]
      rw [this]
      have ht := takeAndSend_noMessage socket h
      split
      · rename_i s' he
        rw [he] at ht
        exact queueEmpty_noMessage env hu ht
      · exact ht

theorem exec_noMessage (env : Env) {k : Kind} (p : Act k) (hp : p.OnlyBytes) :
    ∀ s : Mgr k, NoMessage s → NoMessage (p.exec env s).2 := by
  induction p with
  | ret => intro s h; exact h
  | raise e => intro s h; exact h
  | call c next ih =>
    intro s h
    simp only [Act.exec]
    apply ih _ (hp _)
    intro cb m hm
    simp only [doCall, Mgr.note] at hm
    rcases List.mem_append.1 hm with hm | hm
    · have hE := call_effect env k c s
      have : (callBody env k c s).2.log = s.log := by
        generalize callBody env k c s = r at hE
        cases hE <;> rfl
      rw [this] at hm
      exact h cb m hm
    · simp at hm
  | receive d user next ihu ihn =>
    intro s h
    obtain ⟨⟨b, rfl⟩, hu, hn⟩ := hp
    simp only [Act.exec]
    rw [C54_receive]
    exact ihn _ (hn _) s h
  | loop socket d user next ihu ihn =>
    intro s h
    obtain ⟨hd, hu, hn⟩ := hp
    simp only [Act.exec]
    apply ihn _ (hn _)
    exact iterate_noMessage env k (fun cb m s hs => ihu cb m (hu cb m) s hs) socket d hd h
  | idle user next ihu ihn =>
    intro s h
    obtain ⟨hu, hn⟩ := hp
    simp only [Act.exec]
    apply ihn _ (hn _)
    exact queueEmpty_noMessage env (fun cb m s hs => ihu cb m (hu cb m) s hs) h

/-- C54: in a program whose datagrams come from a socket, no callback is ever invoked with a message, whatever requests
were made and whatever was received. -/
theorem C54_no_callback_ever (env : Env) {k : Kind} (p : Act k) (hp : p.OnlyBytes) (cb : Nat) (m : Msg) :
    Obs.entered cb (some m) ∉ (p.exec env {}).2.log :=
  exec_noMessage env p hp {} (fun cb m => by simp) cb m

/-- C54: an encoded message is a `str`, and the socket refuses it: `send` raises TypeError. -/
theorem C54_send (h : List RoleOp) (ho : IsOpen h) (octets : Str) (o1 : OpenOS) (o2 : Except Exc Unit) :
    roleSend (.str octets) o1 o2 (roleRun h) = (.error .typeError, roleRun h) := by
  have := (C58_current h).2 ho
  unfold roleSend
  cases hc : (roleRun h).current with
  | none => exact absurd hc this
  | some n => rfl

/-- C54: so a turn of the main loop with an encodable message at the head of the queue ends with TypeError, and the message
is lost. -/
theorem C54_turn (env : Env) (k : Kind) (user : User k) (h : List RoleOp) (ho : IsOpen h) (o1 : OpenOS)
    (o2 : Except Exc Unit) (s : Mgr k) (m : Msg) (r : Nat) (rest : List (Option Msg × Nat)) (octets : Str)
    (hq : s.outbound = (some m, r) :: rest) (he : m.encode = .ok octets) :
    (iterate env k user (roleSend (.str octets) o1 o2 (roleRun h)).1 none s).1 = .error .typeError ∧
    (iterate env k user (roleSend (.str octets) o1 o2 (roleRun h)).1 none s).2.outbound = rest := by
  rw [C54_send h ho]
  have ht : takeAndSend (.error .typeError) s =
      (.error .typeError, (({ s with outbound := rest } : Mgr k).note (.took (some m, r))).note (.sent octets r)) := by
    unfold takeAndSend
    simp only [hq, he]
  cases k with
  | v1 => simp only [iterate, v1Iterate, ht]; exact ⟨trivial, rfl⟩
  | v2 => simp only [iterate, v1Iterate, ht]; exact ⟨trivial, rfl⟩
  | sm =>
    have h2 : (do poll env .sm user none; takeAndSend (.error .typeError) : M .sm Unit) s =
      (.error .typeError, (({ s with outbound := rest } : Mgr .sm).note (.took (some m, r))).note (.sent octets r)) := by
      rw [M.bind_def]; exact ht
    simp only [iterate, smIterate, h2]; exact ⟨trivial, rfl⟩

/-- A program that makes a request, is sent an answer as bytes, and runs the loop. -/
example : (Act.call (k := .v1) (.get (.str (lit ".1.3.6.1")) 0 7 (lit "public")) fun _ =>
    .loop (.error .typeError) (some (.bytes [48, 0])) (fun _ _ => .ret) fun _ => .ret).OnlyBytes := by
  refine fun r => ⟨?_, fun _ _ => trivial, fun _ => trivial⟩
  intro x hx
  exact ⟨[48, 0], by simpa using hx.symm⟩

end Libsnmp
