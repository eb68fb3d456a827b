import Verif.Lemmas.World
import Verif.Props.Responses

/-!
# C67: several managers in one process

The managers share the process: `asyncore.poll` called by one manager's loop reads the datagrams of all, and user code may
use any of them.
-/

namespace Libsnmp
open Spec

variable {P : Managers}

/-- C67: whatever a process does with any number of managers, what happened to each manager is a history of that manager
alone.  So everything proved about all histories of one manager (C43-C53) holds of each manager of the process. -/
theorem C67_each_alone (p : WAct P) (i : Nat) : Reachable (P.env i) ((p.exec (World.new P)).2 i) := by
  obtain ⟨q, hq⟩ := exec_moves p (World.new P) i id
  exact ⟨q, hq⟩

/-- C67: in every process, the request IDs one manager hands out strictly increase from 0. -/
theorem C67_ids_unique (p : WAct P) (i : Nat) :
    (issued ((p.exec (World.new P)).2 i).log).Pairwise (fun a b => a.1 < b.1) ∧
      ∀ x ∈ issued ((p.exec (World.new P)).2 i).log, 0 ≤ x.1 :=
  ⟨(C43_unique (C67_each_alone p i)).1, fun x hx => ((C43_unique (C67_each_alone p i)).2 x hx).1⟩

/-- C67: in every process, a callback that a manager invokes with an answer to the request ID `n` is the callback of the
request that this very manager gave the ID `n`, even if other managers use the same ID. -/
theorem C67_only_own_callbacks (p : WAct P) (i : Nat) (l1 l2 : List (Obs (P.kind i))) (cb : Nat) (m : Msg) (n : Int)
    (hl : ((p.exec (World.new P)).2 i).log = l1 ++ Obs.entered cb (some m) :: l2) (ha : answers (P.kind i) m = some n) :
    (n, cb) ∈ issued l1 ∧ ¬ Finished l1 n :=
  C46_only_the_right_callback (C67_each_alone p i) l1 l2 cb m n hl ha

/-- C67: what one manager sent and still holds is what its own calls asked for, in order. -/
theorem C67_own_queue (p : WAct P) (i : Nat) :
    List.Forall₂ (fun call item => item.2 = remoteOf call.1 ∧
        match call.2 with
        | .integer _ id => Sends (P.env i) call.1 id item.1
        | _ => ∀ id, Sends (P.env i) call.1 id item.1)
      (successes ((p.exec (World.new P)).2 i).log)
      (taken ((p.exec (World.new P)).2 i).log ++ ((p.exec (World.new P)).2 i).outbound) :=
  C45_fifo (C67_each_alone p i)

/-- C67: an answer to a pending request of manager `j` is delivered by `j` whatever other managers there are, and whoever's
loop read it: the callback runs once, and apart from what the callback did, `j` only forgets the request. -/
theorem C67_delivered (p : WAct P) (j : Nat) (user : Nat → Nat → Option Msg → WAct P) (data : Val) (m : Msg) (n : Int)
    (cb : Nat) (hm : msgDecode (P.env j).reg (msgCls (P.kind j)) data = .ok m) (hv : accepts (P.kind j) m)
    (ha : answers (P.kind j) m = some n) :
    let w := (p.exec (World.new P)).2
    let q := (user j cb (some m)).exec (Function.update w j ((w j).note (.entered cb (some m))))
    let w' := (wReceiveData (fun j cb m => (user j cb m).exec) j data w).2
    Pending (w j).log n cb →
      (w' j).log = (q.2 j).log ++ [.left cb (some m) q.1] ∧ (w' j).outbound = (q.2 j).outbound ∧
      ∀ x, (w' j).callbacks.at x = if q.1 = .ok () ∧ x = n then none else (q.2 j).callbacks.at x := by
  intro w q w' hp
  obtain ⟨acts, hacts⟩ := mimic (user := fun j cb m => (user j cb m).exec) (fun j cb m => exec_moves (user j cb m)) j w
  have hs := sim_receiveData hacts data
  unfold Sim at hs
  have hd := C46_delivered (C67_each_alone p j) acts data m n cb hm hv ha hp.1 hp.2
  have hq := hacts cb (some m)
  simp only at hq
  simp only [show (p.exec (World.new P)).2 = w from rfl] at hd
  rw [hs, hq] at hd
  exact ⟨hd.1, hd.2.1, hd.2.2.2⟩

/-! ## A manager nobody uses -/

/-- The program uses manager `i` nowhere: no call, no data for it, none of its loop turns. -/
def WAct.Avoids (i : Nat) : WAct P → Prop
  | .ret => True
  | .raise _ => True
  | .call j _ next => j ≠ i ∧ ∀ r, (next r).Avoids i
  | .receive j _ user next => j ≠ i ∧ (∀ x cb m, (user x cb m).Avoids i) ∧ ∀ r, (next r).Avoids i
  | .loop j _ ready user next =>
    j ≠ i ∧ (∀ d ∈ ready, d.1 ≠ i) ∧ (∀ x cb m, (user x cb m).Avoids i) ∧ ∀ r, (next r).Avoids i
  | .idle j user next => j ≠ i ∧ (∀ x cb m, (user x cb m).Avoids i) ∧ ∀ r, (next r).Avoids i

/-- `x` leaves manager `i` alone. -/
def Frames (i : Nat) {α : Type} (x : W P α) : Prop := ∀ w, (x w).2 i = w i

theorem Frames.bind {i : Nat} {α β : Type} {x : W P α} {f : α → W P β} (h : Frames i x) (hf : ∀ a, Frames i (f a)) :
    Frames i (x >>= f) := by
  intro w
  have h1 := h w
  rw [W.bind_apply]
  rcases hx : x w with ⟨r, w'⟩
  rw [hx] at h1
  cases r with
  | ok a => exact (hf a w').trans h1
  | error e => exact h1

theorem Frames.on {i j : Nat} (hij : j ≠ i) {α : Type} (y : M (P.kind j) α) : Frames i (W.on j y) := by
  intro w
  simp only [W.on]
  rw [Function.update_of_ne (Ne.symm hij)]

theorem Frames.ite {i : Nat} {α : Type} {c : Prop} [Decidable c] {x x' : W P α} (h : Frames i x) (h' : Frames i x') :
    Frames i (if c then x else x') := by
  split <;> assumption

theorem Frames.pure {i : Nat} {α : Type} (a : α) : Frames i (pure a : W P α) := fun _ => rfl
theorem Frames.throw {i : Nat} {α : Type} (e : Exc) : Frames i (W.throw e : W P α) := fun _ => rfl

section
variable {user : WUser P} {i : Nat} (hu : ∀ x cb m, Frames i (user x cb m)) {j : Nat} (hij : j ≠ i)
include hu hij

theorem frames_invoke (cb : Nat) (m : Option Msg) : Frames i (wInvoke user j cb m) := by
  intro w
  simp only [wInvoke]
  rw [Function.update_of_ne (Ne.symm hij), hu, Function.update_of_ne (Ne.symm hij)]

theorem frames_invokeTrap (m : Msg) : Frames i (wInvokeTrap user j m) := by
  unfold wInvokeTrap
  split
  · exact Frames.throw _
  · exact frames_invoke hu hij _ _

theorem frames_callQueueEmpty : Frames i (wCallQueueEmpty user j) := by
  unfold wCallQueueEmpty
  split
  · exact Frames.pure _
  · exact frames_invoke hu hij _ _

theorem frames_v1Dispatch (msg : Msg) : Frames i (wV1Dispatch user j msg) := by
  unfold wV1Dispatch
  exact Frames.ite ((Frames.on hij _).bind fun r => (Frames.on hij _).bind fun key => (Frames.on hij _).bind fun cb =>
    (frames_invoke hu hij _ _).bind fun _ => Frames.on hij _)
    (Frames.ite (frames_invokeTrap hu hij msg) (Frames.pure _))

theorem frames_receiveData (data : Val) : Frames i (wReceiveData user j data) := by
  unfold wReceiveData
  split
  · unfold wV1ReceiveData
    exact (Frames.on hij _).bind fun msg => (Frames.on hij _).bind fun is0 =>
      Frames.ite (frames_v1Dispatch hu hij msg) (Frames.throw _)
  · have h : Frames i (wV2ReceiveBody user j data) := by
      unfold wV2ReceiveBody
      exact (Frames.on hij _).bind fun msg => (Frames.on hij _).bind fun is0 =>
        Frames.ite (frames_v1Dispatch hu hij msg) ((Frames.on hij _).bind fun is1 =>
          Frames.ite (frames_v1Dispatch hu hij msg) (Frames.throw _))
    intro w
    have h1 := h w
    unfold wV2ReceiveData
    rcases hx : wV2ReceiveBody user j data w with ⟨r, w'⟩
    rw [hx] at h1
    cases r with
    | ok a => exact h1
    | error e => simp only; split <;> exact h1
  · unfold wSmReceiveData
    refine (Frames.on hij _).bind fun msg => (Frames.on hij _).bind fun is0 => Frames.ite ?_
      ((Frames.on hij _).bind fun is1 => Frames.ite ?_ (Frames.throw _))
    · unfold wHandleV1Message
      exact Frames.ite ((Frames.on hij _).bind fun r => (Frames.on hij _).bind fun cb =>
        (frames_invoke hu hij _ _).bind fun _ => Frames.on hij _)
        (Frames.ite (frames_invokeTrap hu hij msg) (Frames.pure _))
    · unfold wHandleV2Message
      exact Frames.ite ((Frames.on hij _).bind fun r => (Frames.on hij _).bind fun cb =>
        (frames_invoke hu hij _ _).bind fun _ => Frames.on hij _) (Frames.throw _)

omit hij j in
theorem frames_poll (ready : List (Nat × Val)) (hr : ∀ d ∈ ready, d.1 ≠ i) : Frames i (wPoll user ready) := by
  induction ready with
  | nil => exact Frames.pure _
  | cons p rest ih =>
    refine Frames.bind ?_ fun _ => ih fun d hd => hr d (List.mem_cons_of_mem _ hd)
    intro w
    have h := frames_receiveData hu (hr p List.mem_cons_self) p.2 w
    unfold wRead
    rcases hx : wReceiveData user p.1 p.2 w with ⟨r, w'⟩
    rw [hx] at h
    cases r <;> exact h

theorem frames_iterate (socket : Except Exc Unit) (ready : List (Nat × Val)) (hr : ∀ d ∈ ready, d.1 ≠ i) :
    Frames i (wIterate user j socket ready) := by
  have hq := frames_callQueueEmpty hu hij
  have hp := frames_poll hu ready hr
  unfold wIterate
  split
  · intro w
    have hb : Frames i (wPoll user ready >>= fun _ => W.on j (takeAndSend socket)) := hp.bind fun _ => Frames.on hij _
    have h1 := hb w
    unfold wSmIterate
    rcases hx : (wPoll user ready >>= fun _ => W.on j (takeAndSend socket)) w with ⟨r, w'⟩
    rw [hx] at h1
    cases r with
    | ok u => exact h1
    | error e => cases e <;> first | exact h1 | exact (hq w').trans h1
  · intro w
    have h1 := Frames.on hij (takeAndSend socket) w
    unfold wV1Iterate
    rcases hx : W.on j (takeAndSend socket) w with ⟨r, w'⟩
    rw [hx] at h1
    have h2 := (hq.bind fun _ => hp) w'
    cases r with
    | ok u => exact h1
    | error e => cases e <;> first | exact h1 | exact h2.trans h1

end

/-- C67: a manager that a program does not use stays exactly as it is, whatever the program does with other managers. -/
theorem C67_untouched (p : WAct P) (i : Nat) (h : p.Avoids i) (w : World P) : (p.exec w).2 i = w i := by
  induction p generalizing w with
  | ret => rfl
  | raise e => rfl
  | call j c next ih =>
    simp only [WAct.exec]
    exact (ih _ (h.2 _) _).trans (Frames.on h.1 _ w)
  | receive j data user next ihu ihn =>
    simp only [WAct.exec]
    exact (ihn _ (h.2.2 _) _).trans
      (frames_receiveData (fun x cb m w => ihu x cb m (h.2.1 x cb m) w) h.1 data w)
  | loop j socket ready user next ihu ihn =>
    simp only [WAct.exec]
    exact (ihn _ (h.2.2.2 _) _).trans
      (frames_iterate (fun x cb m w => ihu x cb m (h.2.2.1 x cb m) w) h.1 socket ready h.2.1 w)
  | idle j user next ihu ihn =>
    simp only [WAct.exec]
    exact (ihn _ (h.2.2 _) _).trans (frames_callQueueEmpty (fun x cb m w => ihu x cb m (h.2.1 x cb m) w) h.1 w)

/-! ## The shared loop -/

/-- C67: the loop of a manager that has nothing to send reads the datagrams of every manager, in the given order, and the
first one that raises ends it: the rest is not read. -/
theorem C67_loop_serves_all (user : WUser P) (i : Nat) (socket : Except Exc Unit) (hq : (P.env i).queueEmpty = none)
    (w : World P) (he : (w i).outbound = []) (pre : List (Nat × Val)) (w1 : World P)
    (hpre : wPoll user pre w = (.ok (), w1)) (hk : P.kind i ≠ .sm) (j : Nat) (d : Val) (post : List (Nat × Val)) :
    wIterate user i socket (pre ++ (j, d) :: post) w =
      match wRead user j d w1 with
      | (.ok (), w2) => wPoll user post w2
      | (.error e, w2) => (.error e, w2) := by
  have h1 : wIterate user i socket (pre ++ (j, d) :: post) w = wPoll user (pre ++ (j, d) :: post) w := by
    have : wIterate user i socket (pre ++ (j, d) :: post) = wV1Iterate user i socket (pre ++ (j, d) :: post) := by
      unfold wIterate
      split
      · exact absurd (by assumption) hk
      · rfl
    rw [this]
    unfold wV1Iterate
    have : W.on i (takeAndSend socket) w = (.error .queueEmpty, w) := by simp [W.on, takeAndSend, he]
    rw [this]
    simp only [wCallQueueEmpty, hq]
    rfl
  rw [h1]
  have h2 : ∀ (pre : List (Nat × Val)) (w : World P), wPoll user pre w = (.ok (), w1) →
      ∀ rest, wPoll user (pre ++ rest) w = wPoll user rest w1 := by
    intro pre
    induction pre with
    | nil => intro w h rest; cases h; rfl
    | cons a pre ih =>
      intro w h rest
      simp only [List.cons_append, wPoll, W.bind_apply] at h ⊢
      rcases hx : wRead user a.1 a.2 w with ⟨r, w'⟩
      rw [hx] at h
      cases r with
      | error e => simp at h
      | ok u => exact ih w' h rest
  rw [h2 pre w hpre]
  simp only [wPoll, W.bind_apply]
  rcases wRead user j d w1 with ⟨_ | _, _⟩ <;> rfl

/-- C67, negative: managers are not isolated from each other's garbage.  A datagram that does not decode, sent to manager
`j` of the classes `v1.SNMP` or `snmpManager`, makes the loop of manager `i` raise, although nothing is wrong with `i`; and
nothing changed. -/
theorem C67_foreign_garbage_ends_my_loop (user : WUser P) (i j : Nat) (socket : Except Exc Unit)
    (hq : (P.env i).queueEmpty = none) (w : World P) (he : (w i).outbound = []) (hk : P.kind i ≠ .sm)
    (hj : P.kind j ≠ .v2) (d : Val) (e : Exc) (hd : msgDecode (P.env j).reg (msgCls (P.kind j)) d = .error e)
    (post : List (Nat × Val)) :
    wIterate user i socket ((j, d) :: post) w = (.error (if e.isValueError then reraiseAs e else e), w) := by
  rw [show (j, d) :: post = [] ++ (j, d) :: post from rfl,
    C67_loop_serves_all user i socket hq w he [] w rfl hk j d post]
  have hc : ∀ c, P.kind j = c → hWReceiveData user c j d w = (.error e, w) := by
    intro c h
    cases c
    · rw [h] at hd
      simp [hWReceiveData, wV1ReceiveData, W.bind_apply, W.on_lift, show msgDecode (P.env j).reg .message d = .error e from hd]
    · exact absurd (by assumption) hj
    · rw [h] at hd
      simp [hWReceiveData, wSmReceiveData, W.bind_apply, W.on_lift, show msgDecode (P.env j).reg .message2 d = .error e from hd]
  unfold wRead
  rw [wReceiveData_eq, hc _ rfl]

/-! ## One manager as a process -/

/-- A program of manager `i` alone, as a program of the process. -/
def WAct.ofAct (P : Managers) (i : Nat) : Act (P.kind i) → WAct P
  | .ret => .ret
  | .raise e => .raise e
  | .call c next => .call i c fun r => ofAct P i (next r)
  | .receive d user next => .receive i d (fun _ cb m => ofAct P i (user cb m)) fun r => ofAct P i (next r)
  | .loop socket d user next =>
    .loop i socket (d.toList.map fun d => (i, d)) (fun _ cb m => ofAct P i (user cb m)) fun r => ofAct P i (next r)
  | .idle user next => .idle i (fun _ cb m => ofAct P i (user cb m)) fun r => ofAct P i (next r)

/-- `x` does to manager `i` what `y` does, and nothing else. -/
def Exactly (i : Nat) {α : Type} (x : W P α) (y : M (P.kind i) α) : Prop :=
  ∀ w, x w = ((y (w i)).1, Function.update w i (y (w i)).2)

theorem Exactly.on {i : Nat} {α : Type} (y : M (P.kind i) α) : Exactly i (W.on i y) y := fun _ => rfl

theorem Exactly.pure {i : Nat} {α : Type} (a : α) : Exactly i (pure a : W P α) (pure a : M (P.kind i) α) := by
  intro w
  simp [Pure.pure]

theorem Exactly.throw {i : Nat} {α : Type} (e : Exc) : Exactly i (W.throw e : W P α) (M.throw e : M (P.kind i) α) := by
  intro w
  simp [W.throw, M.throw]

theorem Exactly.bind {i : Nat} {α β : Type} {x : W P α} {y : M (P.kind i) α} {f : α → W P β} {g : α → M (P.kind i) β}
    (h : Exactly i x y) (hf : ∀ a, Exactly i (f a) (g a)) : Exactly i (x >>= f) (y >>= g) := by
  intro w
  rw [W.bind_apply, M.bind_apply, h w]
  rcases y (w i) with ⟨r, s⟩
  cases r with
  | error e => rfl
  | ok a =>
    simp only
    rw [hf a]
    simp

theorem Exactly.ite {i : Nat} {α : Type} {c : Prop} [Decidable c] {x x' : W P α} {y y' : M (P.kind i) α}
    (h : Exactly i x y) (h' : Exactly i x' y') : Exactly i (if c then x else x') (if c then y else y') := by
  split <;> assumption

section
variable {i : Nat} {user : WUser P} {user' : User (P.kind i)} (hu : ∀ cb m, Exactly i (user i cb m) (user' cb m))
include hu

theorem exactly_invoke (cb : Nat) (m : Option Msg) : Exactly i (wInvoke user i cb m) (invoke user' cb m) := by
  intro w
  simp [wInvoke, invoke, hu cb m _]

theorem exactly_invokeTrap (m : Msg) : Exactly i (wInvokeTrap user i m) (invokeTrap (P.env i) user' m) := by
  unfold wInvokeTrap invokeTrap
  cases (P.env i).trapCallback
  · exact Exactly.throw _
  · exact exactly_invoke hu _ _

theorem exactly_callQueueEmpty : Exactly i (wCallQueueEmpty user i) (callQueueEmpty (P.env i) user') := by
  unfold wCallQueueEmpty callQueueEmpty
  cases (P.env i).queueEmpty
  · exact Exactly.pure _
  · exact exactly_invoke hu _ _

theorem exactly_v1Dispatch (msg : Msg) : Exactly i (wV1Dispatch user i msg) (v1Dispatch (P.env i) user' msg) := by
  unfold wV1Dispatch v1Dispatch
  exact Exactly.ite ((Exactly.on _).bind fun r => (Exactly.on _).bind fun key => (Exactly.on _).bind fun cb =>
    (exactly_invoke hu _ _).bind fun _ => Exactly.on _) (Exactly.ite (exactly_invokeTrap hu msg) (Exactly.pure _))

theorem exactly_receiveData (data : Val) :
    Exactly i (wReceiveData user i data) (receiveData (P.env i) (P.kind i) user' data) := by
  rw [receiveData_eq_h, wReceiveData_eq]
  have h : ∀ c, Exactly i (hWReceiveData user c i data) (hReceiveData (P.env i) c user' data) := ?_
  · exact h _
  intro c
  cases c with
  | v1 =>
    refine (Exactly.on _).bind fun msg => (Exactly.on _).bind fun is0 => ?_
    exact Exactly.ite (exactly_v1Dispatch hu msg) (Exactly.throw _)
  | v2 =>
    have hb : Exactly i (wV2ReceiveBody user i data) (gV2ReceiveBody (P.env i) user' data) := by
      refine (Exactly.on _).bind fun msg => (Exactly.on _).bind fun is0 => ?_
      refine Exactly.ite (exactly_v1Dispatch hu msg) ((Exactly.on _).bind fun is1 => ?_)
      exact Exactly.ite (exactly_v1Dispatch hu msg) (Exactly.throw _)
    intro w
    simp only [hWReceiveData, wV2ReceiveData, hReceiveData, gV2ReceiveData]
    rw [hb w]
    rcases gV2ReceiveBody (P.env i) user' data (w i) with ⟨r, s⟩
    cases r with
    | ok u => rfl
    | error e => simp only; split <;> rfl
  | sm =>
    refine (Exactly.on _).bind fun msg => (Exactly.on _).bind fun is0 => ?_
    refine Exactly.ite ?_ ((Exactly.on _).bind fun is1 => Exactly.ite ?_ (Exactly.throw _))
    · unfold wHandleV1Message gHandleV1Message
      exact Exactly.ite ((Exactly.on _).bind fun r => (Exactly.on _).bind fun cb =>
        (exactly_invoke hu _ _).bind fun _ => Exactly.on _) (Exactly.ite (exactly_invokeTrap hu msg) (Exactly.pure _))
    · unfold wHandleV2Message gHandleV2Message
      exact Exactly.ite ((Exactly.on _).bind fun r => (Exactly.on _).bind fun cb =>
        (exactly_invoke hu _ _).bind fun _ => Exactly.on _) (Exactly.throw _)

theorem exactly_poll (d : Option Val) :
    Exactly i (wPoll user (d.toList.map fun d => (i, d))) (poll (P.env i) (P.kind i) user' d) := by
  intro w
  cases d with
  | none => simp [wPoll, poll, Pure.pure]
  | some d =>
    have h := exactly_receiveData hu d w
    simp only [Option.toList, List.map_cons, List.map_nil, wPoll, poll, W.bind_apply, wRead, h]
    rcases receiveData (P.env i) (P.kind i) user' d (w i) with ⟨r, s⟩
    cases r with
    | ok u => rfl
    | error e =>
      simp only [handleError]
      split <;> rfl

theorem exactly_iterate (socket : Except Exc Unit) (d : Option Val) :
    Exactly i (wIterate user i socket (d.toList.map fun d => (i, d)))
      (iterate (P.env i) (P.kind i) user' socket d) := by
  rw [iterate_eq_h]
  have hsm : Exactly i (wSmIterate user i socket (d.toList.map fun d => (i, d)))
      (gSmIterate (P.env i) user' socket d) := by
    intro w
    have h := ((exactly_poll hu d).bind fun _ => Exactly.on (takeAndSend socket)) w
    have hq := exactly_callQueueEmpty hu
    simp only [wSmIterate, gSmIterate]
    rw [h]
    generalize (poll (P.env i) (P.kind i) user' d >>= fun _ => takeAndSend socket) (w i) = t
    rcases t with ⟨r, s⟩
    cases r with
    | ok u => rfl
    | error e =>
      cases e <;> first | rfl | skip
      simp only [hq _, Function.update_self, Function.update_idem]
  have hv1 : Exactly i (wV1Iterate user i socket (d.toList.map fun d => (i, d)))
      (v1Iterate (P.env i) (P.kind i) user' socket d) := by
    intro w
    have h := Exactly.on (takeAndSend socket) w (i := i)
    have hq := (exactly_callQueueEmpty hu).bind fun _ => exactly_poll hu d
    simp only [wV1Iterate, v1Iterate]
    rw [h]
    generalize takeAndSend socket (w i) = t
    rcases t with ⟨r, s⟩
    cases r with
    | ok u => rfl
    | error e =>
      cases e <;> first | rfl | skip
      simp only [hq _, Function.update_self, Function.update_idem]
  have hw : wIterate user i socket (d.toList.map fun d => (i, d)) =
      match P.kind i with
      | .sm => wSmIterate user i socket (d.toList.map fun d => (i, d))
      | _ => wV1Iterate user i socket (d.toList.map fun d => (i, d)) := rfl
  rw [hw]
  have : ∀ c : Kind, Exactly i (match c with
      | .sm => wSmIterate user i socket (d.toList.map fun d => (i, d))
      | _ => wV1Iterate user i socket (d.toList.map fun d => (i, d))) (hIterate (P.env i) c user' socket d) := by
    intro c
    cases c
    · exact hv1
    · exact hv1
    · exact hsm
  exact this _

end

/-- C67: conversely every history of one manager is one of a process with other managers in it, who stay as they are; so
`C67_each_alone` describes the histories of a manager in a process exactly. -/
theorem C67_alone_is_a_process (i : Nat) (p : Act (P.kind i)) (w : World P) :
    (WAct.ofAct P i p).exec w = ((p.exec (P.env i) (w i)).1, Function.update w i (p.exec (P.env i) (w i)).2) := by
  induction p generalizing w with
  | ret => simp [WAct.ofAct, WAct.exec, Act.exec]
  | raise e => simp [WAct.ofAct, WAct.exec, Act.exec]
  | call c next ih =>
    simp only [WAct.ofAct, WAct.exec, Act.exec, W.on, ih, Function.update_self, Function.update_idem]
  | receive d user next ihu ihn =>
    have h := exactly_receiveData (user := fun j cb m => (WAct.ofAct P i (user cb m)).exec)
      (user' := fun cb m => (user cb m).exec (P.env i)) (fun cb m w => ihu cb m w) d w
    simp only [WAct.ofAct, WAct.exec, Act.exec, h, ihn, Function.update_self, Function.update_idem]
  | loop socket d user next ihu ihn =>
    have h := exactly_iterate (user := fun j cb m => (WAct.ofAct P i (user cb m)).exec)
      (user' := fun cb m => (user cb m).exec (P.env i)) (fun cb m w => ihu cb m w) socket d w
    simp only [WAct.ofAct, WAct.exec, Act.exec, h, ihn, Function.update_self, Function.update_idem]
  | idle user next ihu ihn =>
    have h := exactly_callQueueEmpty (user := fun j cb m => (WAct.ofAct P i (user cb m)).exec)
      (user' := fun cb m => (user cb m).exec (P.env i)) (fun cb m w => ihu cb m w) w
    simp only [WAct.ofAct, WAct.exec, Act.exec, h, ihn, Function.update_self, Function.update_idem]

theorem C67_same_histories (i : Nat) (s : Mgr (P.kind i)) :
    Reachable (P.env i) s ↔ ∃ p : WAct P, (p.exec (World.new P)).2 i = s := by
  constructor
  · rintro ⟨p, rfl⟩
    exact ⟨WAct.ofAct P i p, by rw [C67_alone_is_a_process]; simp [World.new]⟩
  · rintro ⟨p, rfl⟩
    exact C67_each_alone p i

/-! ## Examples -/

/-- Two SNMPv1 managers in one process (and more that nobody uses). -/
def twoV1 : Managers := ⟨fun _ => .v1, fun _ => envV1⟩

/-- Both ask for an object - manager 0 with callback 1, manager 1 with callback 2 - then the loop of manager 0, with nothing
left to send, reads the answer that came for manager 1. -/
def bothAsk : WAct twoV1 :=
  .call 0 (V1Call.get (.str (lit ".1.3.6.1.2.1")) 7 1 (lit "public")) fun _ =>
  .call 1 (V1Call.get (.str (lit ".1.3.6.1.2.1")) 8 2 (lit "public")) fun _ =>
  .loop 0 (.ok ()) [] (fun _ _ _ => .ret) fun _ =>
  .loop 0 (.ok ()) [(1, answer0)] (fun _ _ _ => .ret) fun r =>
  match r with
  | .ok _ => .ret
  | .error e => .raise e

/-- An observation as a number. -/
def kindOf {k : Kind} : Obs k → Nat
  | .called _ _ => 0
  | .entered cb _ => cb
  | .left cb _ _ => 10 * cb
  | .took _ => 100
  | .sent _ _ => 200

/-- Both got the request ID 0, and the answer reached callback 2 of manager 1 and nobody else. -/
example : (bothAsk.exec (World.new twoV1)).1 = .ok () ∧
    issued ((bothAsk.exec (World.new twoV1)).2 0).log = [(0, 1)] ∧
    issued ((bothAsk.exec (World.new twoV1)).2 1).log = [(0, 2)] ∧
    ((bothAsk.exec (World.new twoV1)).2 0).log.map kindOf = [0, 100, 200] ∧
    ((bothAsk.exec (World.new twoV1)).2 1).log.map kindOf = [0, 2, 20] := by decide +kernel

/-- A program that avoids manager 1. -/
example : (WAct.ofAct twoV1 0 (ask0 .ret)).Avoids 1 := ⟨by decide, fun _ => trivial⟩

/-- Garbage for manager 1 ends the turn of manager 0: the hypotheses of `C67_foreign_garbage_ends_my_loop` are met. -/
example : ∃ e, msgDecode (twoV1.env 1).reg (msgCls (twoV1.kind 1)) (.str [0]) = .error e ∧ twoV1.kind 0 ≠ .sm ∧
    twoV1.kind 1 ≠ .v2 ∧ (twoV1.env 0).queueEmpty = none ∧ (World.new twoV1 0).outbound = [] :=
  ⟨.indexError, by decide +kernel, by decide, by decide, rfl, rfl⟩

end Libsnmp
