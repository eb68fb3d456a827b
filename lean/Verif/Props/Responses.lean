import Verif.Props.Requests
import Verif.Lemmas.ReceiveAll

/-!
# C46-C49, C53: received messages and callbacks
-/

namespace Libsnmp
open Spec

/-! ## The invariant -/

/-- Every callback invoked with an answer was registered for it and not yet finished. -/
def Solicited {k : Kind} (log : List (Obs k)) : Prop :=
  ∀ l1 l2 cb m n, log = l1 ++ Obs.entered cb (some m) :: l2 → answers k m = some n → Pending l1 n cb

structure CallbacksOk {k : Kind} (s : Mgr k) : Prop where
  ids : IdsOk s
  table : ∀ n cb, s.callbacks.at n = some cb ↔ Pending s.log n cb
  history : Solicited s.log
  left : ∀ cb m n, Obs.left cb (some m) (.ok ()) ∈ s.log → answers k m = some n → Obs.entered cb (some m) ∈ s.log

theorem split_snoc {α : Type} {l l1 l2 : List α} {o x : α} (h : l ++ [o] = l1 ++ x :: l2) :
    (l2 = [] ∧ l = l1 ∧ o = x) ∨ ∃ l2', l2 = l2' ++ [o] ∧ l = l1 ++ x :: l2' := by
  rcases List.eq_nil_or_concat l2 with rfl | ⟨l2', y, rfl⟩
  · left
    obtain ⟨h1, h2⟩ := List.append_inj' h rfl
    simp only [List.cons.injEq, and_true] at h2
    exact ⟨rfl, h1, h2⟩
  · right
    have : l ++ [o] = (l1 ++ x :: l2') ++ [y] := by simpa using h
    obtain ⟨h1, h2⟩ := List.append_inj' this rfl
    simp only [List.cons.injEq, and_true] at h2
    subst h2
    exact ⟨l2', by simp, h1⟩

theorem solicited_snoc {k : Kind} {log : List (Obs k)} (h : Solicited log) (o : Obs k)
    (ho : ∀ cb m n, o = .entered cb (some m) → answers k m = some n → Pending log n cb) : Solicited (log ++ [o]) := by
  intro l1 l2 cb m n he ha
  rcases split_snoc he with ⟨_, rfl, hx⟩ | ⟨l2', _, hl⟩
  · exact ho cb m n hx ha
  · exact h l1 l2' cb m n hl ha

/-- An event that neither issues an ID nor finishes a request. -/
def Neutral {k : Kind} (o : Obs k) : Prop :=
  (∀ c ci n, o ≠ .called c (.ok (.integer ci n))) ∧ ∀ cb m n, o = .left cb (some m) (.ok ()) → answers k m ≠ some n

theorem issued_neutral {k : Kind} {o : Obs k} (h : Neutral o) (log : List (Obs k)) : issued (log ++ [o]) = issued log := by
  rw [issued_append]
  have : issued [o] = [] := by
    unfold issued
    cases o with
    | called c r =>
      cases r with
      | error e => rfl
      | ok v =>
        cases v with
        | integer ci n => exact absurd rfl (h.1 c ci n)
        | _ => rfl
    | _ => rfl
  rw [this, List.append_nil]

theorem finished_neutral {k : Kind} {o : Obs k} (h : Neutral o) (log : List (Obs k)) (n : Int) :
    Finished (log ++ [o]) n ↔ Finished log n := by
  constructor
  · rintro ⟨cb, m, hm, ha⟩
    rcases List.mem_append.mp hm with hm | hm
    · exact ⟨cb, m, hm, ha⟩
    · simp only [List.mem_singleton] at hm
      exact absurd ha (h.2 cb m n hm.symm)
  · rintro ⟨cb, m, hm, ha⟩
    exact ⟨cb, m, List.mem_append_left _ hm, ha⟩

theorem pending_neutral {k : Kind} {o : Obs k} (h : Neutral o) (log : List (Obs k)) (n : Int) (cb : Nat) :
    Pending (log ++ [o]) n cb ↔ Pending log n cb := by
  unfold Pending
  rw [issued_neutral h, finished_neutral h]

theorem callbacks_neutral {k : Kind} {s s' : Mgr k} (h : CallbacksOk s) (o : Obs k) (hl : s'.log = s.log ++ [o])
    (hcb : s'.callbacks = s.callbacks) (hid : s.nextRequestID ≤ s'.nextRequestID) (hn : Neutral o)
    (ho : ∀ cb m n, o = .entered cb (some m) → answers k m = some n → s.callbacks.at n = some cb) : CallbacksOk s' where
  ids := by
    unfold IdsOk
    rw [hl, issued_neutral hn]
    exact ⟨h.ids.1, fun p hp => by have := h.ids.2 p hp; omega⟩
  table n cb := by rw [hl, hcb, pending_neutral hn]; exact h.table n cb
  history := by
    rw [hl]
    exact solicited_snoc h.history o fun cb m n he ha => (h.table n cb).mp (ho cb m n he ha)
  left cb m n hm ha := by
    rw [hl] at hm ⊢
    rcases List.mem_append.mp hm with hm | hm
    · exact List.mem_append_left _ (h.left cb m n hm ha)
    · simp only [List.mem_singleton] at hm
      exact absurd ha (hn.2 cb m n hm.symm)

theorem CallbacksOk.finished_issued {k : Kind} {s : Mgr k} (h : CallbacksOk s) {n : Int} (hf : Finished s.log n) :
    ∃ cb, (n, cb) ∈ issued s.log := by
  obtain ⟨cb, m, hm, ha⟩ := hf
  obtain ⟨l1, l2, hl⟩ := List.append_of_mem (h.left cb m n hm ha)
  have := h.history l1 l2 cb m n hl ha
  refine ⟨cb, ?_⟩
  rw [hl, issued_append]
  exact List.mem_append_left _ this.1

theorem callbacks_stable (env : Env) (k : Kind) : Stable env False (CallbacksOk (k := k)) where
  call c s hn h := by
    have he := call_effect env k c s
    have hids := (idsOk_stable env k).call c s hn h.ids
    unfold doCall at hids ⊢
    generalize callBody env k c s = q at he hids ⊢
    cases he with
    | failed e j hj =>
      exact callbacks_neutral h _ rfl rfl (by simp [Mgr.note]) ⟨by simp, by simp⟩ (by simp)
    | trap m hcb hm =>
      exact callbacks_neutral h _ rfl rfl (by simp [Mgr.note]) ⟨by simp, by simp⟩ (by simp)
    | request ci cb m key d' hcb hm hk hd =>
      have e : issued ((s.log : List (Obs k)) ++ [Obs.called c (.ok (.integer ci s.nextRequestID))]) =
          issued s.log ++ [((s.nextRequestID : Int), cb)] := by
        rw [issued_append]; simp [issued, hcb]
      have ef : ∀ n, Finished ((s.log : List (Obs k)) ++ [Obs.called c (.ok (.integer ci s.nextRequestID))]) n ↔
          Finished s.log n := by
        intro n
        simp [Finished]
      have hnf : ¬ Finished s.log (s.nextRequestID : Int) := by
        intro hf
        obtain ⟨cb', hcb'⟩ := h.finished_issued hf
        have := (h.ids.2 _ hcb').2
        simp at this
      have hni : ∀ cb', ((s.nextRequestID : Int), cb') ∉ issued s.log := by
        intro cb' hcb'
        have := (h.ids.2 _ hcb').2
        simp at this
      obtain ⟨d'', h1, _, h2⟩ := Dict.put_num hn hk cb
      rw [hd] at h1
      cases h1
      refine ⟨hids, fun n cb' => ?_, solicited_snoc h.history _ (by simp), ?_⟩
      · simp only [Mgr.note]
        unfold Pending
        rw [h2, e, ef, List.mem_append]
        by_cases hj : n = s.nextRequestID
        · subst hj
          simp only [if_true, Option.some.injEq, List.mem_singleton, Prod.mk.injEq, true_and, hnf, not_false_eq_true,
            and_true, hni, false_or]
          exact eq_comm
        · simp only [hj, if_false, List.mem_singleton, Prod.mk.injEq, false_and, or_false]
          exact h.table n cb'
      · intro cb' m' n hm' ha
        simp only [Mgr.note, List.mem_append, List.mem_singleton, reduceCtorEq, or_false] at hm' ⊢
        exact h.left cb' m' n hm' ha
  enterOther s cb m h hm := callbacks_neutral h _ rfl rfl (by simp [Mgr.note]) ⟨by simp, by simp⟩ (by
    intro cb' m' n he ha
    simp only [Obs.entered.injEq] at he
    rw [hm m' he.2] at ha; cases ha)
  leaveOther s cb m r h hm := callbacks_neutral h _ rfl rfl (by simp [Mgr.note]) ⟨by simp, by
    intro cb' m' n he ha
    simp only [Obs.left.injEq] at he
    rw [hm m' he.2.1] at ha; cases ha⟩ (by simp)
  enter s cb m n h ha hat := callbacks_neutral h _ rfl rfl (by simp [Mgr.note]) ⟨by simp, by simp⟩ (by
    intro cb' m' n' he ha'
    simp only [Obs.entered.injEq, Option.some.injEq] at he
    obtain ⟨rfl, rfl⟩ := he
    rw [ha] at ha'; cases ha'; exact hat)
  leaveErr s cb m n e h _ _ := callbacks_neutral h _ rfl rfl (by simp [Mgr.note]) ⟨by simp, by simp⟩ (by simp)
  leaveOk s cb m n h ha hent _ := by
    have hi : ∀ r, issued ((s.log : List (Obs k)) ++ [Obs.left cb (some m) r]) = issued s.log := by
      intro r; rw [issued_append]; simp [issued]
    have hf : ∀ j, Finished ((s.log : List (Obs k)) ++ [Obs.left cb (some m) (.ok ())]) j ↔ (Finished s.log j ∨ j = n) := by
      intro j
      constructor
      · rintro ⟨cb', m', hm, ha'⟩
        rcases List.mem_append.mp hm with hm | hm
        · exact .inl ⟨cb', m', hm, ha'⟩
        · simp only [List.mem_singleton, Obs.left.injEq, Option.some.injEq] at hm
          obtain ⟨rfl, rfl, _⟩ := hm
          rw [ha] at ha'; cases ha'; exact .inr rfl
      · rintro (⟨cb', m', hm, ha'⟩ | rfl)
        · exact ⟨cb', m', List.mem_append_left _ hm, ha'⟩
        · exact ⟨cb, m, List.mem_append_right _ (List.mem_singleton.mpr rfl), ha⟩
    refine ⟨?_, fun j cb' => ?_, solicited_snoc h.history _ (by simp), ?_⟩
    · unfold IdsOk
      simp only [Mgr.note, hi]
      exact h.ids
    · simp only [Mgr.note, Dict.at_erase]
      unfold Pending
      rw [hi, hf]
      by_cases hj : j = n
      · simp [hj]
      · simp only [hj, if_false, or_false]
        exact h.table j cb'
    · intro cb' m' j hm ha'
      simp only [Mgr.note, List.mem_append, List.mem_singleton, Obs.left.injEq, Option.some.injEq, reduceCtorEq,
        or_false] at hm ⊢
      rcases hm with hm | ⟨rfl, rfl, _⟩
      · exact h.left cb' m' j hm ha'
      · exact hent
  takeLost s m r rest h _ _ := callbacks_neutral h (.took (m, r)) rfl rfl (by simp [Mgr.note]) ⟨by simp, by simp⟩ (by simp)
  takeSent s m r rest o h _ _ := by
    have h1 : CallbacksOk (({ s with outbound := rest } : Mgr k).note (.took (some m, r))) :=
      callbacks_neutral h _ rfl rfl (by simp [Mgr.note]) ⟨by simp, by simp⟩ (by simp)
    exact callbacks_neutral h1 _ rfl rfl (by simp [Mgr.note]) ⟨by simp, by simp⟩ (by simp)

theorem reachable_callbacks {env : Env} {k : Kind} {s : Mgr k} (h : Reachable env s) : CallbacksOk s := by
  refine (reachable_stable (callbacks_stable env k) ⟨⟨.nil, by simp [issued]⟩, ?_, ?_, ?_⟩ h).1
  · intro n cb
    simp [Dict.at, Pending, issued]
  · intro l1 l2 cb m n he
    simp at he
  · intro cb m n hm
    simp at hm

/-! ## C46, C47 -/

/-- C46: over every history, a callback invoked with a message that answers the ID `n` is the callback of the request that
was given the ID `n` earlier, and that request was not finished. -/
theorem C46_only_the_right_callback {env : Env} {k : Kind} {s : Mgr k} (h : Reachable env s)
    (l1 l2 : List (Obs k)) (cb : Nat) (m : Msg) (n : Int) (hl : s.log = l1 ++ Obs.entered cb (some m) :: l2)
    (ha : answers k m = some n) : (n, cb) ∈ issued l1 ∧ ¬ Finished l1 n :=
  (reachable_callbacks h).history l1 l2 cb m n hl ha

/-- C46: that request is the only one with this ID. -/
theorem C46_unique_callback {env : Env} {k : Kind} {s : Mgr k} (h : Reachable env s) (n : Int) (cb cb' : Nat)
    (h1 : (n, cb) ∈ issued s.log) (h2 : (n, cb') ∈ issued s.log) : cb = cb' := by
  have hp := (C43_unique h).1
  have : ∀ (l : List (Int × Nat)), l.Pairwise (fun a b => a.1 < b.1) → (n, cb) ∈ l → (n, cb') ∈ l → cb = cb' := by
    intro l hl
    induction hl with
    | nil => simp
    | cons hx _ ih =>
      intro a b
      rcases List.mem_cons.mp a with a | a <;> rcases List.mem_cons.mp b with b | b
      · rw [← a] at b; cases b; rfl
      · have := hx _ b; rw [← a] at this; simp at this
      · have := hx _ a; rw [← b] at this; simp at this
      · exact ih a b
  exact this _ hp h1 h2

/-- C46, C47: the table of pending callbacks holds exactly the requests that were made and are not finished. -/
theorem C46_table {env : Env} {k : Kind} {s : Mgr k} (h : Reachable env s) (n : Int) (cb : Nat) :
    s.callbacks.at n = some cb ↔ (n, cb) ∈ issued s.log ∧ ¬ Finished s.log n :=
  (reachable_callbacks h).table n cb

/-- C47: once a callback has returned normally from an answer to `n`, no callback is ever invoked with an answer to `n`. -/
theorem C47_none_after_return {env : Env} {k : Kind} {s : Mgr k} (h : Reachable env s)
    (l1 l2 : List (Obs k)) (cb cb' : Nat) (m m' : Msg) (n : Int)
    (hl : s.log = l1 ++ Obs.left cb (some m) (.ok ()) :: l2) (ha : answers k m = some n) (ha' : answers k m' = some n) :
    Obs.entered cb' (some m') ∉ l2 := by
  intro hm
  obtain ⟨l3, l4, hl2⟩ := List.append_of_mem hm
  have := (C46_only_the_right_callback h (l1 ++ Obs.left cb (some m) (.ok ()) :: l3) l4 cb' m' n
    (by rw [hl, hl2]; simp) ha').2
  exact this ⟨cb, m, by simp, ha⟩

/-- C46: an answer to a pending request is delivered: the callback of that request is invoked with the decoded message, and
what happens before and after is only what the callback itself does; if it returns normally the request is removed from
the table, if it raises the table is as the callback left it. -/
theorem C46_delivered {env : Env} {k : Kind} {s : Mgr k} (h : Reachable env s) (user : Nat → Option Msg → Act k)
    (data : Val) (m : Msg) (n : Int) (cb : Nat) (hm : msgDecode env.reg (msgCls k) data = .ok m) (hv : accepts k m)
    (ha : answers k m = some n) (hi : (n, cb) ∈ issued s.log) (hf : ¬ Finished s.log n) :
    let q := (user cb (some m)).exec env (s.note (.entered cb (some m)))
    let s' := (receiveData env k (fun cb m => (user cb m).exec env) data s).2
    s'.log = q.2.log ++ [.left cb (some m) q.1] ∧ s'.outbound = q.2.outbound ∧ s'.nextRequestID = q.2.nextRequestID ∧
    ∀ j, s'.callbacks.at j = if q.1 = .ok () ∧ j = n then none else q.2.callbacks.at j := by
  have hn := (reachable_stable (callbacks_stable env k) (by
    refine ⟨⟨.nil, by simp [issued]⟩, ?_, ?_, ?_⟩
    · intro n cb; simp [Dict.at, Pending, issued]
    · intro l1 l2 cb m n he; simp at he
    · intro cb m n hm; simp at hm) h).2
  have hat := (C46_table h n cb).mpr ⟨hi, hf⟩
  intro q s'
  have hs' : s' = (deliver (fun cb m => (user cb m).exec env) cb m n s).2 := by
    have he := receive_eq env k (fun cb m => (user cb m).exec env) (keepsNumeric_exec env user) data s hn
    rw [hm] at he
    simp only [hv, if_true, dispatched, ha, hat] at he
    simp only [s', receive_raw, he]
    cases k with
    | v1 => rfl
    | sm => rfl
    | v2 =>
      generalize deliver (fun cb m => (user cb m).exec env) cb m n s = z
      obtain ⟨r, z⟩ := z
      cases r with
      | ok u => rfl
      | error e => simp only; split <;> rfl
  rw [hs']
  have hq : invoke (fun cb m => (user cb m).exec env) cb (some m) s = (q.1, q.2.note (.left cb (some m) q.1)) := rfl
  unfold deliver
  rw [hq]
  cases hr : q.1 with
  | error e => simp [Mgr.note]
  | ok u =>
    simp only [Mgr.note]
    cases hat' : q.2.callbacks.at n with
    | none =>
      refine ⟨rfl, rfl, rfl, fun j => ?_⟩
      by_cases hj : j = n
      · simp [hj, hat']
      · simp [hj]
    | some x =>
      refine ⟨rfl, rfl, rfl, fun j => ?_⟩
      simp only [Dict.at_erase]
      by_cases hj : j = n <;> simp [hj]

theorem returns_snoc {k : Kind} (log : List (Obs k)) (o : Obs k) (n : Int) :
    returns (log ++ [o]) n = returns log n + returns [o] n := List.countP_append

theorem returns_zero {k : Kind} {log : List (Obs k)} {n : Int} (h : ¬ Finished log n) : returns log n = 0 := by
  unfold returns
  rw [List.countP_eq_zero]
  intro o ho hx
  cases o with
  | left cb m r =>
    cases m with
    | none => simp at hx
    | some m =>
      cases r with
      | error e => simp at hx
      | ok u => exact h ⟨cb, m, ho, by simpa using hx⟩
  | _ => simp at hx

theorem returns_neutral {k : Kind} {o : Obs k} (h : Neutral o) (n : Int) : returns [o] n = 0 := by
  refine returns_zero ?_
  rintro ⟨cb, m, hm, ha⟩
  simp only [List.mem_singleton] at hm
  exact h.2 cb m n hm.symm ha

def Once {k : Kind} (s : Mgr k) : Prop := CallbacksOk s ∧ ∀ n, returns s.log n ≤ 1

theorem once_neutral {k : Kind} {s s' : Mgr k} (h : Once s) (hc : CallbacksOk s') (o : Obs k) (hl : s'.log = s.log ++ [o])
    (hn : ∀ n, returns [o] n = 0) : Once s' := by
  refine ⟨hc, fun n => ?_⟩
  rw [hl, returns_snoc, hn]
  exact h.2 n

theorem once_stable (env : Env) (k : Kind) : Stable env True (Once (k := k)) where
  call c s hn h := by
    have hc := (callbacks_stable env k).call c s hn h.1
    have : ∃ r, (doCall env c s).2.log = s.log ++ [Obs.called c r] := by
      have he := call_effect env k c s
      unfold doCall
      generalize callBody env k c s = q at he
      cases he <;> exact ⟨_, rfl⟩
    obtain ⟨r, hr⟩ := this
    exact once_neutral h hc _ hr fun n => rfl
  enterOther s cb m h hm := once_neutral h ((callbacks_stable env k).enterOther s cb m h.1 hm) _ rfl fun n => rfl
  leaveOther s cb m r h hm := by
    refine once_neutral h ((callbacks_stable env k).leaveOther s cb m r h.1 hm) _ rfl fun n => returns_zero ?_
    rintro ⟨cb', m', hm', ha⟩
    simp only [List.mem_singleton, Obs.left.injEq] at hm'
    rw [hm m' hm'.2.1.symm] at ha
    cases ha
  enter s cb m n h ha hat := once_neutral h ((callbacks_stable env k).enter s cb m n h.1 ha hat) _ rfl fun n => rfl
  leaveErr s cb m n e h ha hent :=
    once_neutral h ((callbacks_stable env k).leaveErr s cb m n e h.1 ha hent) _ rfl fun n => rfl
  leaveOk s cb m n h ha hent hf := by
    refine ⟨(callbacks_stable env k).leaveOk s cb m n h.1 ha hent (fun f => f.elim), fun j => ?_⟩
    simp only [Mgr.note, returns_snoc]
    by_cases hj : j = n
    · subst hj
      obtain ⟨cb', hcb'⟩ := Option.ne_none_iff_exists'.mp (hf trivial)
      have := returns_zero ((h.1.table j cb').mp hcb').2
      rw [this]
      simp [returns, ha]
    · have : returns (k := k) [Obs.left cb (some m) (.ok ())] j = 0 := by
        refine returns_zero ?_
        rintro ⟨cb', m', hm', ha'⟩
        simp only [List.mem_singleton, Obs.left.injEq, Option.some.injEq] at hm'
        obtain ⟨_, rfl, _⟩ := hm'
        rw [ha] at ha'
        cases ha'
        exact hj rfl
      rw [this]
      exact h.2 j
  takeLost s m r rest h ho hm := once_neutral h ((callbacks_stable env k).takeLost s m r rest h.1 ho hm) (.took (m, r)) rfl
    fun n => rfl
  takeSent s m r rest o h ho hm := by
    refine ⟨(callbacks_stable env k).takeSent s m r rest o h.1 ho hm, fun n => ?_⟩
    simp only [Mgr.note, returns_snoc]
    exact h.2 n

/-- C47: if callbacks make request calls only (they do not themselves feed the manager data or run its loop), a request's
callback returns normally at most once over every history, however often its answer is repeated or forged. -/
theorem C47_at_most_once {env : Env} {k : Kind} (p : Act k) (hp : p.Flat) (n : Int) :
    returns (p.exec env {}).2.log n ≤ 1 := by
  refine (exec_flat (once_stable env k) hp {} ⟨⟨⟨⟨.nil, by simp [issued]⟩, ?_, ?_, ?_⟩, by simp [returns]⟩, ?_⟩).1.2 n
  · intro n cb; simp [Dict.at, Pending, issued]
  · intro l1 l2 cb m n he; simp at he
  · intro cb m n hm; simp at hm
  · intro p hp; simp at hp

/-- C47: a callback that raises stays registered: the request is still pending afterwards, so a later answer invokes the
callback again. -/
theorem C47_raising_stays {env : Env} {k : Kind} {s : Mgr k} (h : Reachable env s) (user : Nat → Option Msg → Act k)
    (hu : ∀ cb m, (user cb m).CallsOnly)
    (data : Val) (m : Msg) (n : Int) (cb : Nat) (hm : msgDecode env.reg (msgCls k) data = .ok m) (hv : accepts k m)
    (ha : answers k m = some n) (hi : (n, cb) ∈ issued s.log) (hf : ¬ Finished s.log n) (e : Exc)
    (he : ((user cb (some m)).exec env (s.note (.entered cb (some m)))).1 = .error e) :
    let s' := (receiveData env k (fun cb m => (user cb m).exec env) data s).2
    (n, cb) ∈ issued s'.log ∧ ¬ Finished s'.log n := by
  intro s'
  have hd := C46_delivered h user data m n cb hm hv ha hi hf
  simp only at hd
  have hs' : Reachable env s' := h.receive data user
  have hn := (reachable_stable (idsOk_stable env k) ⟨.nil, by simp [issued]⟩ h).2
  have hat := (C46_table h n cb).mpr ⟨hi, hf⟩
  have hp := callsOnly_persists env (hu cb (some m)) (s.note (.entered cb (some m))) n hn
    (by simp only [Mgr.note]; rw [hat]; simp)
  have hat' := hd.2.2.2 n
  rw [he] at hat'
  simp only [reduceCtorEq, false_and, if_false] at hat'
  obtain ⟨cb', hcb'⟩ := Option.ne_none_iff_exists'.mp hp
  rw [hcb'] at hat'
  have h2 := (C46_table hs' n cb').mp hat'
  have hi' : (n, cb) ∈ issued s'.log := by
    have hpre : s.log <+: s'.log := (exec_sane env (.receive data user fun _ => .ret) s hn).2
    obtain ⟨t, ht⟩ := hpre
    rw [← ht, issued_append]
    exact List.mem_append_left _ hi
  exact ⟨hi', h2.2⟩

/-! ## C48: unsolicited data -/

theorem reachable_numeric {env : Env} {k : Kind} {s : Mgr k} (h : Reachable env s) : s.callbacks.Numeric :=
  (reachable_stable (idsOk_stable env k) ⟨.nil, by simp [issued]⟩ h).2

theorem not_pending {env : Env} {k : Kind} {s : Mgr k} (h : Reachable env s) {n : Int} (hp : ∀ cb, ¬ Pending s.log n cb) :
    s.callbacks.at n = none := by
  cases hat : s.callbacks.at n with
  | none => rfl
  | some cb => exact absurd ((C46_table h n cb).mp hat) (hp cb)

/-- C48: data that does not decode, has a version the class does not handle, answers a request that is not pending, or is
nothing the class reacts to, leaves the manager exactly as it was: the queue, the pending callbacks, the ID counter, and
no callback runs. -/
theorem C48_unsolicited {env : Env} {k : Kind} {s : Mgr k} (h : Reachable env s) (user : Nat → Option Msg → Act k)
    (data : Val)
    (hd : ∀ m, msgDecode env.reg (msgCls k) data = .ok m → accepts k m →
      (∀ n cb, answers k m = some n → ¬ Pending s.log n cb) ∧ (isTrap k m → env.trapCallback = none)) :
    (receiveData env k (fun cb m => (user cb m).exec env) data s).2 = s := by
  have he := receive_eq env k (fun cb m => (user cb m).exec env) (keepsNumeric_exec env user) data s (reachable_numeric h)
  have key : (receiveRaw env k (fun cb m => (user cb m).exec env) data s).2 = s := by
    rw [he]
    cases hm : msgDecode env.reg (msgCls k) data with
    | error e => rfl
    | ok m =>
      simp only
      by_cases hv : accepts k m
      · obtain ⟨h1, h2⟩ := hd m hm hv
        rw [if_pos hv]
        unfold dispatched
        cases ha : answers k m with
        | some n =>
          simp only
          rw [not_pending h fun cb => h1 n cb ha]
        | none =>
          simp only
          by_cases ht : isTrap k m
          · rw [if_pos ht, h2 ht]
          · rw [if_neg ht]
            split <;> rfl
      · rw [if_neg hv]
  rw [receive_raw]
  generalize receiveRaw env k (fun cb m => (user cb m).exec env) data s = q at key ⊢
  cases k with
  | v1 => exact key
  | sm => exact key
  | v2 =>
    obtain ⟨r, s'⟩ := q
    cases r with
    | ok u => exact key
    | error e =>
      simp only
      split <;> exact key

/-! ## C49: exceptions -/

theorem getItem_exc {v : Val} {i : Nat} {e : Exc} (h : v.getItem i = .error e) : e.isException = true := by
  unfold Val.getItem at h
  split at h <;> (try split at h) <;> cases h <;> rfl

theorem msgDecode_exc {reg : Reg} (hreg : Imported reg) {c : SeqCls} {data : Val} {e : Exc}
    (h : msgDecode reg c data = .error e) : e.isException = true := by
  unfold msgDecode at h
  rcases bind_error h with h | ⟨l, hl, h2⟩
  · cases data with
    | str s =>
      rcases C23_decode_outcomes reg hreg s with ⟨objs, ho, _⟩ | ⟨e', he, hmem⟩
      · rw [ho] at h; cases h
      · rw [he] at h; cases h
        revert hmem
        cases e <;> simp [Exc.isException]
    | _ => rw [C23_decode_non_str reg _ (by simp)] at h; cases h; rfl
  · split at h2
    · next o =>
      rcases bind_error h2 with h3 | ⟨n, hn, h3⟩
      · unfold Val.len at h3
        split at h3 <;> cases h3
        rfl
      · split at h3
        · cases h3; rfl
        · rcases bind_error h3 with h4 | ⟨a, _, h4⟩
          · exact getItem_exc h4
          · rcases bind_error h4 with h5 | ⟨b, _, h5⟩
            · exact getItem_exc h5
            · rcases bind_error h5 with h6 | ⟨d, _, h6⟩
              · exact getItem_exc h6
              · cases h6
    · cases h2; rfl

/-- C49: whatever data arrives, in whatever state, `v2.SNMP.receiveData` returns normally, provided the callbacks return or
raise ordinary exceptions (derived from `Exception`). -/
theorem C49_v2_survives {env : Env} (hreg : Imported env.reg) {s : Mgr .v2} (h : Reachable env s)
    (user : Nat → Option Msg → Act .v2)
    (hu : ∀ cb m s e, ((user cb m).exec env s).1 = .error e → e.isException = true) (data : Val) :
    (receiveData env .v2 (fun cb m => (user cb m).exec env) data s).1 = .ok () := by
  have he := receive_eq env .v2 (fun cb m => (user cb m).exec env) (keepsNumeric_exec env user) data s (reachable_numeric h)
  have key : ∀ e, (receiveRaw env .v2 (fun cb m => (user cb m).exec env) data s).1 = .error e → e.isException = true := by
    intro e
    rw [he]
    cases hm : msgDecode env.reg (msgCls .v2) data with
    | error e' => intro hx; cases hx; exact msgDecode_exc hreg hm
    | ok m =>
      simp only
      by_cases hv : accepts .v2 m
      · rw [if_pos hv]
        unfold dispatched
        cases ha : answers .v2 m with
        | some n =>
          simp only
          cases hat : s.callbacks.at n with
          | none => intro hx; cases hx; rfl
          | some cb =>
            simp only [deliver]
            cases hi : invoke (fun cb m => (user cb m).exec env) cb (some m) s with
            | mk r s' =>
              cases r with
              | error e' =>
                intro hx
                cases hx
                refine hu cb (some m) (s.note (.entered cb (some m))) e ?_
                have := congrArg Prod.fst hi
                exact this
              | ok u =>
                simp only
                cases s'.callbacks.at n with
                | none => intro hx; cases hx; rfl
                | some _ => intro hx; cases hx
        | none =>
          simp only
          by_cases ht : isTrap .v2 m
          · rw [if_pos ht]
            cases env.trapCallback with
            | none => intro hx; cases hx; rfl
            | some cb => intro hx; exact hu cb (some m) (s.note (.entered cb (some m))) e hx
          · rw [if_neg ht]
            simp
      · rw [if_neg hv]
        intro hx
        cases hx
        unfold unknownVersion
        split <;> rfl
  rw [receive_raw]
  generalize receiveRaw env .v2 (fun cb m => (user cb m).exec env) data s = q at key ⊢
  obtain ⟨r, s'⟩ := q
  cases r with
  | ok u => rfl
  | error e => simp only [key e rfl, if_true]

/-- C49: the other two classes raise for every datagram that does not decode, for every version they do not handle, and
for every answer to a request that is not pending (KeyError). -/
theorem C49_others_raise {env : Env} {k : Kind} (hk : k ≠ .v2) {s : Mgr k} (h : Reachable env s)
    (user : Nat → Option Msg → Act k) (data : Val) :
    let r := (receiveData env k (fun cb m => (user cb m).exec env) data s).1
    (∀ e, msgDecode env.reg (msgCls k) data = .error e → r = .error e) ∧
    (∀ m, msgDecode env.reg (msgCls k) data = .ok m → ¬ accepts k m → r = .error (unknownVersion m.version)) ∧
    (∀ m n, msgDecode env.reg (msgCls k) data = .ok m → accepts k m → answers k m = some n →
      (∀ cb, ¬ Pending s.log n cb) → r = .error .keyError) := by
  intro r
  have he := receive_eq env k (fun cb m => (user cb m).exec env) (keepsNumeric_exec env user) data s (reachable_numeric h)
  have hr : r = (receiveRaw env k (fun cb m => (user cb m).exec env) data s).1 := by
    cases k with
    | v1 => rfl
    | sm => rfl
    | v2 => exact absurd rfl hk
  refine ⟨fun e hm => ?_, fun m hm hv => ?_, fun m n hm hv ha hp => ?_⟩
  · rw [hr, he, hm]
  · rw [hr, he, hm]; simp only [if_neg hv]
  · rw [hr, he, hm]; simp only [if_pos hv, dispatched, ha, not_pending h hp]

/-- C49: the exception for a version number that is not handled (0 for v1, 0 and 1 for the others) is a ValueError; a
version that is not even an integer gives a TypeError. -/
theorem C49_version_refused {env : Env} {k : Kind} (hk : k ≠ .v2) {s : Mgr k} (h : Reachable env s)
    (user : Nat → Option Msg → Act k) (data : Val) (m : Msg) (hm : msgDecode env.reg (msgCls k) data = .ok m) :
    let r := (receiveData env k (fun cb m => (user cb m).exec env) data s).1
    (∀ ci n, m.version = .integer ci n → n ≠ 0 → (k = .sm → n ≠ 1) → r = .error .valueError) ∧
    (versionNo m = none → r = .error .typeError) := by
  intro r
  have h2 := (C49_others_raise hk h user data).2.1 m hm
  constructor
  · intro ci n hv h0 h1
    have hn : versionNo m = some n := by simp [versionNo, hv]
    have ha : ¬ accepts k m := by
      unfold accepts
      rw [hn]
      rintro (h | ⟨h, h'⟩)
      · exact h0 (Option.some.inj h)
      · cases k with
        | v1 => exact h rfl
        | v2 => exact hk rfl
        | sm => exact h1 rfl (Option.some.inj h')
    have := h2 ha
    rw [hv] at this
    exact this
  · intro hn
    have ha : ¬ accepts k m := by
      unfold accepts
      rw [hn]
      rintro (h | ⟨h, h'⟩) <;> simp_all
    have := h2 ha
    have e : unknownVersion m.version = .typeError := by
      unfold versionNo at hn
      unfold unknownVersion
      split at hn <;> simp_all
    rw [e] at this
    exact this

/-- C49: an exception that leaves `receiveData` leaves the turn of the loop in which the datagram was read, and so ends
`run()` (SNMPv1 and SNMPv2 managers read when nothing is queued; `snmpManager` reads first, and its loop would only
continue after `queue.Empty`). -/
theorem C49_ends_loop (env : Env) (k : Kind) (user : User k) (socket : Except Exc Unit) (data : Val) (s : Mgr k) (e : Exc)
    (hq : k = .sm ∨ s.outbound = [] ∧ env.queueEmpty = none)
    (he : (receiveData env k user data s).1 = .error e) (hne : e ≠ .queueEmpty) :
    (iterate env k user socket (some data) s).1 = .error (reraiseAs e) ∧
    (iterate env k user socket (some data) s).2 = (receiveData env k user data s).2 := by
  have hp : poll env k user (some data) s = (.error (reraiseAs e), (receiveData env k user data s).2) := by
    unfold poll
    simp only
    cases hr : receiveData env k user data s with
    | mk r s' =>
      rw [hr] at he
      simp only at he
      subst he
      simp only [handleError]
      split
      · rfl
      · next hv =>
        have : reraiseAs e = e := by cases e <;> first | rfl | simp [Exc.isValueError] at hv
        rw [this]; rfl
  have hne' : reraiseAs e ≠ .queueEmpty := by cases e <;> simp_all [reraiseAs]
  have v1case (hq : s.outbound = [] ∧ env.queueEmpty = none) :
      v1Iterate env k user socket (some data) s = poll env k user (some data) s := by
    unfold v1Iterate takeAndSend
    rw [hq.1]
    simp only [M.bind_def, callQueueEmpty, hq.2, M.pure_def]
  cases k with
  | v1 =>
    rcases hq with hq | hq
    · cases hq
    · simp only [iterate, v1case hq, hp]; exact ⟨trivial, trivial⟩
  | v2 =>
    rcases hq with hq | hq
    · cases hq
    · simp only [iterate, v1case hq, hp]; exact ⟨trivial, trivial⟩
  | sm =>
    simp only [iterate, smIterate, M.bind_def, hp]
    split
    · next h => simp only [Prod.mk.injEq, Except.error.injEq] at h; exact absurd h.1 hne'
    · exact ⟨rfl, rfl⟩

/-! ## C53: traps -/

/-- C53: a trap message of an accepted version invokes the trap callback once, and everything else is what the trap callback
does; without a trap callback nothing changes, and the SNMPv1 class and `snmpManager` raise TypeError. -/
theorem C53_trap {env : Env} {k : Kind} {s : Mgr k} (h : Reachable env s) (user : Nat → Option Msg → Act k) (data : Val)
    (m : Msg) (hm : msgDecode env.reg (msgCls k) data = .ok m) (hv : accepts k m) (ht : isTrap k m) :
    let q := receiveData env k (fun cb m => (user cb m).exec env) data s
    (∀ cb, env.trapCallback = some cb →
      q.2 = ((user cb (some m)).exec env (s.note (.entered cb (some m)))).2.note
        (.left cb (some m) ((user cb (some m)).exec env (s.note (.entered cb (some m)))).1)) ∧
    (env.trapCallback = none → q.2 = s ∧ q.1 = if k = .v2 then .ok () else .error .typeError) := by
  intro q
  have he := receive_eq env k (fun cb m => (user cb m).exec env) (keepsNumeric_exec env user) data s (reachable_numeric h)
  have ha : answers k m = none := answers_trap k m ht.1
  rw [hm] at he
  simp only [if_pos hv, dispatched, ha, if_pos ht] at he
  have hq : q = _ := receive_raw env k (fun cb m => (user cb m).exec env) data s
  rw [he] at hq
  refine ⟨fun cb hcb => ?_, fun hcb => ?_⟩
  · rw [hcb] at hq
    rw [hq]
    simp only [invoke]
    cases k with
    | v1 => rfl
    | sm => rfl
    | v2 =>
      generalize (user cb (some m)).exec env (s.note (.entered cb (some m))) = z
      obtain ⟨r, z⟩ := z
      cases r with
      | ok u => rfl
      | error e => simp only; split <;> rfl
  · rw [hcb] at hq
    rw [hq]
    cases k with
    | v1 => exact ⟨rfl, rfl⟩
    | sm => exact ⟨rfl, rfl⟩
    | v2 => exact ⟨rfl, rfl⟩

/-- C53: an SNMPv2c message given to `snmpManager` whose PDU is not an rfc1905 PDU - in particular one with the SNMPv1
Trap-PDU - raises AttributeError and changes nothing. -/
theorem C53_sm_v2_trap {env : Env} {s : Mgr .sm} (h : Reachable env s) (user : Nat → Option Msg → Act .sm) (data : Val)
    (m : Msg) (hm : msgDecode env.reg .message2 data = .ok m) (hv : versionNo m = some 1)
    (ht : m.data.isInstance (.seq .pdu2) = false) :
    receiveData env .sm (fun cb m => (user cb m).exec env) data s = (.error .attributeError, s) := by
  have he := receive_eq env .sm (fun cb m => (user cb m).exec env) (keepsNumeric_exec env user) data s (reachable_numeric h)
  have ha : answers .sm m = none := answers_none (by simpa [answerCls, hv] using ht)
  have hacc : accepts .sm m := .inr ⟨by simp, hv⟩
  rw [show msgCls .sm = .message2 from rfl, hm] at he
  simp only [if_pos hacc, dispatched, ha, isTrap, hv, and_self, not_true, and_false, if_false, if_true] at he
  exact he

/-- C53: an SNMPv2-Trap PDU is not seen as a trap by any of the classes: it counts as an answer to the request ID it
carries, so it is unsolicited (C48, C49) or reaches the callback of a pending request (C46). -/
theorem C53_v2_trap_is_an_answer (k : Kind) (m : Msg) (ci : IntCls) (n : Int) (rest : List Val)
    (hm : m.data = .seq .trapV2 (.integer ci n :: rest)) : answers k m = some n ∧ ¬ isTrap k m := by
  constructor
  · refine answers_of_pdu hm ?_
    rw [hm]
    unfold answerCls
    simp only [Val.isInstance, Val.cls?]
    split <;> decide
  · rintro ⟨h, _⟩
    rw [hm] at h
    simp only [Val.isInstance, Val.cls?] at h
    revert h
    decide

/-! ## What a raising callback does to `receiveData`; limits of C47 and C49 -/

/-- C49: an exception of the callback itself leaves `receiveData`, except that `v2.SNMP` swallows what derives from
`Exception`. -/
theorem C49_callback_raises {env : Env} {k : Kind} {s : Mgr k} (h : Reachable env s) (user : Nat → Option Msg → Act k)
    (data : Val) (m : Msg) (n : Int) (cb : Nat) (hm : msgDecode env.reg (msgCls k) data = .ok m) (hv : accepts k m)
    (ha : answers k m = some n) (hi : (n, cb) ∈ issued s.log) (hf : ¬ Finished s.log n) (e : Exc)
    (he : ((user cb (some m)).exec env (s.note (.entered cb (some m)))).1 = .error e) :
    (receiveData env k (fun cb m => (user cb m).exec env) data s).1 =
      if k = .v2 ∧ e.isException = true then .ok () else .error e := by
  have hr := receive_eq env k (fun cb m => (user cb m).exec env) (keepsNumeric_exec env user) data s (reachable_numeric h)
  have hat := (C46_table h n cb).mpr ⟨hi, hf⟩
  rw [hm] at hr
  simp only [if_pos hv, dispatched, ha, hat] at hr
  have hd : deliver (fun cb m => (user cb m).exec env) cb m n s =
      (.error e, (invoke (fun cb m => (user cb m).exec env) cb (some m) s).2) := by
    unfold deliver
    have : (invoke (fun cb m => (user cb m).exec env) cb (some m) s).1 = .error e := he
    generalize invoke (fun cb m => (user cb m).exec env) cb (some m) s = q at this
    obtain ⟨r, q⟩ := q
    simp only at this
    subst this
    rfl
  rw [receive_raw, hr, hd]
  cases k with
  | v1 => simp
  | sm => simp
  | v2 => simp only [true_and]; split <;> rfl

/-- A version 1 response to request 0, as on the wire. -/
def answer0 : Val :=
  .str [48, 35, 2, 1, 0, 4, 6, 112, 117, 98, 108, 105, 99, 162, 22, 2, 1, 0, 2, 1, 0, 2, 1, 0, 48, 11, 48, 9, 6, 5, 43, 6,
    1, 2, 1, 5, 0]

/-- The same with an SNMPv1 trap PDU: enterprise 1.3.6, address 10.0.0.1, coldStart, 0, time 5, no bindings. -/
def trap0 : Val :=
  .str [48, 34, 2, 1, 0, 4, 6, 112, 117, 98, 108, 105, 99, 164, 21, 6, 2, 43, 6, 64, 4, 10, 0, 0, 1, 2, 1, 0, 2, 1, 0, 67,
    1, 5, 48, 0]

def envV1 : Env := ⟨regV1, some 9, none⟩

/-- A program that asks for one object, with callback 1, and goes on with `next`. -/
def ask0 (next : Act .v1) : Act .v1 := .call (V1Call.get (.str (lit ".1.3.6.1.2.1")) 7 1 (lit "public")) fun _ => next

/-- A callback that, while it handles the response, feeds the same response to the manager again. -/
def reentrant : Act .v1 :=
  ask0 (.receive answer0 (fun _ _ => .receive answer0 (fun _ _ => .ret) fun _ => .ret) fun _ => .ret)

/-- C47, first sentence, is false without the restriction of `C47_at_most_once`: a callback that runs the manager's
`receiveData` itself is invoked again before it is removed, and returns normally twice. -/
theorem C47_reentrant_callback_twice : returns (reentrant.exec envV1 {}).2.log 0 = 2 := by decide +kernel

/-- The same history, one event after the other: request, entered, entered again, left, left. -/
example : (reentrant.exec envV1 {}).2.log.map (fun | .called _ _ => 0 | .entered _ _ => 1 | .left _ _ _ => 2 | _ => 3) =
    [0, 1, 1, 2, 2] := by decide +kernel

/-- The state after `ask0`: request 0 is pending with callback 1. -/
def asked : Mgr .v1 := ((ask0 .ret).exec envV1 {}).2

example : Reachable envV1 asked := ⟨_, rfl⟩

/-- The message in `answer0`. -/
def answerMsg : Msg :=
  { cls := .message, version := .integer .integer 0, community := .octets .octetString (lit "public"),
    data := .seq .response [.integer .integer 0, .integer .errorStatus 0, .integer .integer 0,
      .seq .varBindList [.seq .varBind [.oid (some [1, 3, 6, 1, 2, 1]), .null .null]]] }

/-- The hypotheses of `C46_delivered`, `C47_raising_stays` and `C49_callback_raises` hold of `asked` and `answer0`. -/
example : msgDecode envV1.reg (msgCls .v1) answer0 = .ok answerMsg ∧ accepts .v1 answerMsg ∧
    answers .v1 answerMsg = some 0 ∧ ((0 : Int), 1) ∈ issued asked.log ∧ returns asked.log 0 = 0 := by
  decide +kernel

/-- Delivering twice (not nested): the callback is invoked once, and the duplicate raises KeyError. -/
example : ((Act.receive (k := .v1) answer0 (fun _ _ => .ret) fun _ => .ret).andThen
      (.receive answer0 (fun _ _ => .ret) fun r => match r with | .ok _ => .ret | .error e => .raise e)
    |>.exec envV1 asked).1 = .error .keyError := by decide +kernel

/-- A trap reaches the trap callback 9. -/
example : ((Act.receive (k := .v1) trap0 (fun _ _ => .ret) fun _ => .ret).exec envV1 asked).2.log.map
    (fun | .called _ _ => 0 | .entered cb _ => cb | .left cb _ _ => 10 * cb | _ => 3) = [0, 9, 90] := by decide +kernel

end Libsnmp
