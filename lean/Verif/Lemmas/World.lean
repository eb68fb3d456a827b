import Verif.Model.World
import Verif.Lemmas.Stable

/-!
# Each manager of a process, seen alone

What the others do never changes a manager except through user code that uses it; so the history of each manager is a
history of that manager alone, under some user code.
-/

namespace Libsnmp

/-! ## `receiveData` for every class of manager at once -/

/-- `v1ReceiveData`, whatever the class. -/
def gV1ReceiveData {k : Kind} (env : Env) (user : User k) (data : Val) : M k Unit := do
  let msg ← M.lift (msgDecode env.reg .message data)
  let is0 ← M.lift (versionIs msg.version 0)
  if is0 then v1Dispatch env user msg
  else M.throw (unknownVersion msg.version)

def gV2ReceiveBody {k : Kind} (env : Env) (user : User k) (data : Val) : M k Unit := do
  let msg ← M.lift (msgDecode env.reg .message2 data)
  let is0 ← M.lift (versionIs msg.version 0)
  if is0 then v1Dispatch env user msg
  else do
    let is1 ← M.lift (versionIs msg.version 1)
    if is1 then v1Dispatch env user msg
    else M.throw (unknownVersion msg.version)

def gV2ReceiveData {k : Kind} (env : Env) (user : User k) (data : Val) : M k Unit := fun s =>
  match gV2ReceiveBody env user data s with
  | (.ok (), s') => (.ok (), s')
  | (.error e, s') => if e.isException then (.ok (), s') else (.error e, s')

def gHandleV1Message {k : Kind} (env : Env) (user : User k) (msg : Msg) : M k Unit :=
  if msg.data.isInstance (.seq .pdu) then do
    let requestID ← M.lift (pduRequestID msg.data)
    let cb ← getCallback requestID
    invoke user cb (some msg)
    delCallback requestID
  else if msg.data.isInstance (.seq .trapPDU) then invokeTrap env user msg
  else pure ()

def gHandleV2Message {k : Kind} (user : User k) (msg : Msg) : M k Unit :=
  if msg.data.isInstance (.seq .pdu2) then do
    let requestID ← M.lift (pduRequestID msg.data)
    let cb ← getCallback requestID
    invoke user cb (some msg)
    delCallback requestID
  else M.throw .attributeError

def gSmReceiveData {k : Kind} (env : Env) (user : User k) (data : Val) : M k Unit := do
  let msg ← M.lift (msgDecode env.reg .message2 data)
  let is0 ← M.lift (versionIs msg.version 0)
  if is0 then gHandleV1Message env user msg
  else do
    let is1 ← M.lift (versionIs msg.version 1)
    if is1 then gHandleV2Message user msg
    else M.throw (unknownVersion msg.version)

/-- `receiveData` with the class named separately, so that it can be split. -/
def hReceiveData (env : Env) {k : Kind} (c : Kind) (user : User k) (data : Val) : M k Unit :=
  match c with
  | .v1 => gV1ReceiveData env user data
  | .v2 => gV2ReceiveData env user data
  | .sm => gSmReceiveData env user data

theorem receiveData_eq_h (env : Env) (k : Kind) (user : User k) (data : Val) :
    receiveData env k user data = hReceiveData env k user data := by
  cases k with
  | v1 => rfl
  | sm => rfl
  | v2 =>
    funext s
    have h : v2ReceiveBody env user data s = gV2ReceiveBody env user data s := rfl
    simp only [receiveData, v2ReceiveData, hReceiveData, gV2ReceiveData, h]
    rcases gV2ReceiveBody env user data s with ⟨_ | _, _⟩ <;> rfl

/-- `wReceiveData` likewise. -/
def hWReceiveData {P : Managers} (user : WUser P) (c : Kind) (i : Nat) (data : Val) : W P Unit :=
  match c with
  | .v1 => wV1ReceiveData user i data
  | .v2 => wV2ReceiveData user i data
  | .sm => wSmReceiveData user i data

/-- One turn of the loop of `snmpManager`, whatever the class. -/
def gSmIterate (env : Env) {k : Kind} (user : User k) (socket : Except Exc Unit) (d : Option Val) : M k Unit := fun s =>
  match (do poll env k user d
            takeAndSend socket : M k Unit) s with
  | (.error .queueEmpty, s') => callQueueEmpty env user s'
  | r => r

/-- One turn of the loop for every class at once. -/
def hIterate (env : Env) {k : Kind} (c : Kind) (user : User k) (socket : Except Exc Unit) (d : Option Val) : M k Unit :=
  match c with
  | .sm => gSmIterate env user socket d
  | _ => v1Iterate env k user socket d

theorem iterate_eq_h (env : Env) (k : Kind) (user : User k) (socket : Except Exc Unit) (d : Option Val) :
    iterate env k user socket d = hIterate env k user socket d := by
  cases k with
  | v1 => rfl
  | v2 => rfl
  | sm =>
    funext s
    simp only [iterate, smIterate, hIterate, gSmIterate]
    generalize (poll env .sm user d >>= fun _ => takeAndSend socket) s = t
    rcases t with ⟨e | _, _⟩
    · cases e <;> rfl
    · rfl

/-! ## Simulation -/

variable {P : Managers}

/-- Started in `w`, `x` does to manager `j` what `y` does, with the same outcome. -/
def Sim (j : Nat) {α : Type} (x : W P α) (y : M (P.kind j) α) (w : World P) : Prop := y (w j) = ((x w).1, (x w).2 j)

theorem W.bind_apply {α β : Type} (x : W P α) (f : α → W P β) (w : World P) :
    (x >>= f) w = match x w with
      | (.ok a, w') => f a w'
      | (.error e, w') => (.error e, w') := rfl

theorem M.bind_apply {k : Kind} {α β : Type} (x : M k α) (f : α → M k β) (s : Mgr k) :
    (x >>= f) s = match x s with
      | (.ok a, s') => f a s'
      | (.error e, s') => (.error e, s') := rfl

theorem Sim.on {j : Nat} {α : Type} (y : M (P.kind j) α) (w : World P) : Sim j (W.on j y) y w := by
  simp [Sim, W.on]

theorem Sim.throw {j : Nat} {α : Type} (e : Exc) (w : World P) : Sim (α := α) j (W.throw e) (M.throw e) w := rfl

theorem Sim.pure {j : Nat} {α : Type} (a : α) (w : World P) : Sim j (pure a : W P α) (pure a : M (P.kind j) α) w := rfl

theorem Sim.bind {j : Nat} {α β : Type} {x : W P α} {y : M (P.kind j) α} {f : α → W P β} {g : α → M (P.kind j) β}
    {w : World P} (h : Sim j x y w) (hf : ∀ a w', x w = (.ok a, w') → Sim j (f a) (g a) w') :
    Sim j (x >>= f) (y >>= g) w := by
  unfold Sim at h ⊢
  rw [W.bind_apply, M.bind_apply, h]
  rcases hx : x w with ⟨r, w'⟩
  cases r with
  | ok a => exact hf a w' hx
  | error e => rfl

theorem Sim.ite {j : Nat} {α : Type} {c : Prop} [Decidable c] {x x' : W P α} {y y' : M (P.kind j) α} {w : World P}
    (h : Sim j x y w) (h' : Sim j x' y' w) : Sim j (if c then x else x') (if c then y else y') w := by
  split <;> assumption

/-- A step that only looks. -/
theorem W.on_lift {j : Nat} {α : Type} (x : Except Exc α) (w : World P) : W.on j (M.lift x) w = (x, w) := by
  simp [W.on, M.lift]

theorem W.on_get {j : Nat} (key : Val) (w : World P) : W.on j (getCallback key) w = ((w j).callbacks.get key, w) := by
  simp [W.on, getCallback]

theorem Sim.bindLift {j : Nat} {α β : Type} {x : Except Exc α} {f : α → W P β} {g : α → M (P.kind j) β}
    {w : World P} (hf : ∀ a, Sim j (f a) (g a) w) : Sim j (W.on j (M.lift x) >>= f) (M.lift x >>= g) w := by
  refine Sim.bind (Sim.on _ _) fun a w' h => ?_
  rw [W.on_lift] at h
  cases h
  exact hf a

theorem Sim.bindGet {j : Nat} {β : Type} {key : Val} {f : Nat → W P β} {g : Nat → M (P.kind j) β}
    {w : World P} (hf : ∀ a, Sim j (f a) (g a) w) : Sim j (W.on j (getCallback key) >>= f) (getCallback key >>= g) w := by
  refine Sim.bind (Sim.on _ _) fun a w' h => ?_
  rw [W.on_get, Prod.mk.injEq] at h
  obtain ⟨-, rfl⟩ := h
  exact hf a

/-- `user'` does to manager `j` what the callbacks of `j` do, when invoked in `w`. -/
def Mimics (user : WUser P) (j : Nat) (w : World P) (user' : User (P.kind j)) : Prop :=
  ∀ cb m, user' cb m ((w j).note (.entered cb m)) =
    ((user j cb m (Function.update w j ((w j).note (.entered cb m)))).1,
     (user j cb m (Function.update w j ((w j).note (.entered cb m)))).2 j)

section
variable {user : WUser P} {j : Nat} {w : World P} {user' : User (P.kind j)} (hu : Mimics user j w user')
include hu

theorem sim_invoke (cb : Nat) (m : Option Msg) : Sim j (wInvoke user j cb m) (invoke user' cb m) w := by
  simp [Sim, wInvoke, invoke, hu cb m]

theorem sim_invokeTrap (m : Msg) : Sim j (wInvokeTrap user j m) (invokeTrap (P.env j) user' m) w := by
  unfold wInvokeTrap invokeTrap
  cases (P.env j).trapCallback
  · exact Sim.throw _ _
  · exact sim_invoke hu _ _

theorem sim_callQueueEmpty : Sim j (wCallQueueEmpty user j) (callQueueEmpty (P.env j) user') w := by
  unfold wCallQueueEmpty callQueueEmpty
  cases (P.env j).queueEmpty
  · exact Sim.pure _ _
  · exact sim_invoke hu _ _

theorem sim_v1Dispatch (msg : Msg) : Sim j (wV1Dispatch user j msg) (v1Dispatch (P.env j) user' msg) w := by
  unfold wV1Dispatch v1Dispatch
  refine Sim.ite (Sim.bindLift fun r => Sim.bindLift fun key => Sim.bindGet fun cb => ?_)
    (Sim.ite (sim_invokeTrap hu msg) (Sim.pure _ _))
  exact Sim.bind (sim_invoke hu _ _) fun _ w' _ => Sim.on _ _

theorem sim_handleV1 (msg : Msg) : Sim j (wHandleV1Message user j msg) (gHandleV1Message (P.env j) user' msg) w := by
  unfold wHandleV1Message gHandleV1Message
  refine Sim.ite (Sim.bindLift fun r => Sim.bindGet fun cb => ?_) (Sim.ite (sim_invokeTrap hu msg) (Sim.pure _ _))
  exact Sim.bind (sim_invoke hu _ _) fun _ w' _ => Sim.on _ _

theorem sim_handleV2 (msg : Msg) : Sim j (wHandleV2Message user j msg) (gHandleV2Message user' msg) w := by
  unfold wHandleV2Message gHandleV2Message
  refine Sim.ite (Sim.bindLift fun r => Sim.bindGet fun cb => ?_) (Sim.throw _ _)
  exact Sim.bind (sim_invoke hu _ _) fun _ w' _ => Sim.on _ _

theorem sim_v2Body (data : Val) : Sim j (wV2ReceiveBody user j data) (gV2ReceiveBody (P.env j) user' data) w := by
  unfold wV2ReceiveBody gV2ReceiveBody
  exact Sim.bindLift fun msg => Sim.bindLift fun is0 => Sim.ite (sim_v1Dispatch hu msg)
    (Sim.bindLift fun is1 => Sim.ite (sim_v1Dispatch hu msg) (Sim.throw _ _))

omit hu in
theorem wReceiveData_eq (user : WUser P) (j : Nat) (data : Val) : wReceiveData user j data =
    hWReceiveData user (P.kind j) j data := rfl

/-- Receiving: manager `j` sees what it would see alone. -/
theorem sim_receiveData (data : Val) : Sim j (wReceiveData user j data) (receiveData (P.env j) (P.kind j) user' data) w := by
  rw [receiveData_eq_h, wReceiveData_eq]
  have h : ∀ c, Sim j (hWReceiveData user c j data) (hReceiveData (P.env j) c user' data) w := ?_
  · exact h _
  intro c
  cases c with
  | v1 =>
    refine Sim.bindLift fun msg => Sim.bindLift fun is0 => ?_
    exact Sim.ite (sim_v1Dispatch hu msg) (Sim.throw _ _)
  | v2 =>
    have h := sim_v2Body hu data
    unfold Sim at h ⊢
    simp only [hWReceiveData, wV2ReceiveData, hReceiveData, gV2ReceiveData]
    rw [h]
    rcases wV2ReceiveBody user j data w with ⟨r, w'⟩
    cases r with
    | ok a => rfl
    | error e => simp only; split <;> rfl
  | sm =>
    refine Sim.bindLift fun msg => Sim.bindLift fun is0 => ?_
    refine Sim.ite (sim_handleV1 hu msg) (Sim.bindLift fun is1 => ?_)
    exact Sim.ite (sim_handleV2 hu msg) (Sim.throw _ _)

end

/-! ## The other managers -/

/-- Some program of manager `i` alone leads from `s` to `s'`. -/
def Leads (env : Env) {k : Kind} (s s' : Mgr k) : Prop := ∃ p : Act k, (p.exec env s).2 = s'

theorem Leads.refl (env : Env) {k : Kind} (s : Mgr k) : Leads env s s := ⟨.ret, rfl⟩

theorem Leads.trans {env : Env} {k : Kind} {s s' s'' : Mgr k} (h : Leads env s s') (h' : Leads env s' s'') :
    Leads env s s'' := by
  obtain ⟨p, rfl⟩ := h
  obtain ⟨q, rfl⟩ := h'
  exact ⟨p.andThen q, by rw [andThen_exec]⟩

/-- ... and with any outcome. -/
theorem Leads.outcome {env : Env} {k : Kind} {s s' : Mgr k} (h : Leads env s s') (r : Except Exc Unit) :
    ∃ p : Act k, p.exec env s = (r, s') := by
  obtain ⟨p, rfl⟩ := h
  cases r with
  | ok u => exact ⟨p.andThen .ret, by rw [andThen_exec]; rfl⟩
  | error e => exact ⟨p.andThen (.raise e), by rw [andThen_exec]; rfl⟩

/-- Whatever the world, `x` takes every manager (except those in `out`) along a history of its own. -/
def Moves (out : Nat → Prop) {α : Type} (x : W P α) : Prop := ∀ w i, ¬ out i → Leads (P.env i) (w i) ((x w).2 i)

theorem Moves.mono {out out' : Nat → Prop} {α : Type} {x : W P α} (h : Moves out x) (hm : ∀ i, out i → out' i) :
    Moves out' x := fun w i hi => h w i fun hi' => hi (hm i hi')

theorem Moves.bind {out : Nat → Prop} {α β : Type} {x : W P α} {f : α → W P β} (h : Moves out x)
    (hf : ∀ a, Moves out (f a)) : Moves out (x >>= f) := by
  intro w i hi
  have h1 := h w i hi
  rw [W.bind_apply]
  rcases hx : x w with ⟨r, w'⟩
  rw [hx] at h1
  cases r with
  | ok a => exact h1.trans (hf a w' i hi)
  | error e => exact h1

theorem Moves.pure {out : Nat → Prop} {α : Type} (a : α) : Moves out (pure a : W P α) := fun _ _ _ => Leads.refl _ _

theorem Moves.throw {out : Nat → Prop} {α : Type} (e : Exc) : Moves out (W.throw e : W P α) := fun _ _ _ => Leads.refl _ _

theorem Moves.on {out : Nat → Prop} {j : Nat} (hj : out j) {α : Type} (y : M (P.kind j) α) : Moves out (W.on j y) := by
  intro w i hi
  have hne : i ≠ j := fun h => hi (h ▸ hj)
  simp only [W.on, Function.update_of_ne hne]
  exact Leads.refl _ _

theorem Moves.self {j : Nat} {α : Type} (y : M (P.kind j) α) : Moves (· = j) (W.on j y) :=
  Moves.on (out := (· = j)) rfl y

theorem Moves.ite {out : Nat → Prop} {α : Type} {c : Prop} [Decidable c] {x x' : W P α} (h : Moves out x)
    (h' : Moves out x') : Moves out (if c then x else x') := by
  split <;> assumption

/-- User code that takes every manager along a history of its own. -/
def Good (user : WUser P) : Prop := ∀ j cb m, Moves (fun _ => False) (user j cb m)

section
variable {user : WUser P} (hu : Good user) (j : Nat)
include hu

theorem moves_invoke (cb : Nat) (m : Option Msg) : Moves (· = j) (wInvoke user j cb m) := by
  intro w i hi
  simp only [wInvoke, Function.update_of_ne hi]
  have := hu j cb m (Function.update w j ((w j).note (.entered cb m))) i id
  rwa [Function.update_of_ne hi] at this

theorem moves_invokeTrap (m : Msg) : Moves (· = j) (wInvokeTrap user j m) := by
  unfold wInvokeTrap
  split
  · exact Moves.throw _
  · exact moves_invoke hu j _ _

theorem moves_callQueueEmpty : Moves (· = j) (wCallQueueEmpty user j) := by
  unfold wCallQueueEmpty
  split
  · exact Moves.pure _
  · exact moves_invoke hu j _ _

theorem moves_v1Dispatch (msg : Msg) : Moves (· = j) (wV1Dispatch user j msg) := by
  unfold wV1Dispatch
  refine Moves.ite ((Moves.self _).bind fun r => (Moves.self _).bind fun key => (Moves.self _).bind fun cb => ?_)
    (Moves.ite (moves_invokeTrap hu j msg) (Moves.pure _))
  exact (moves_invoke hu j _ _).bind fun _ => Moves.self _

theorem moves_handleV1 (msg : Msg) : Moves (· = j) (wHandleV1Message user j msg) := by
  unfold wHandleV1Message
  refine Moves.ite ((Moves.self _).bind fun r => (Moves.self _).bind fun cb => ?_)
    (Moves.ite (moves_invokeTrap hu j msg) (Moves.pure _))
  exact (moves_invoke hu j _ _).bind fun _ => Moves.self _

theorem moves_handleV2 (msg : Msg) : Moves (· = j) (wHandleV2Message user j msg) := by
  unfold wHandleV2Message
  refine Moves.ite ((Moves.self _).bind fun r => (Moves.self _).bind fun cb => ?_) (Moves.throw _)
  exact (moves_invoke hu j _ _).bind fun _ => Moves.self _

theorem moves_receiveData_others (data : Val) : Moves (· = j) (wReceiveData user j data) := by
  unfold wReceiveData
  split
  · unfold wV1ReceiveData
    exact (Moves.self _).bind fun msg => (Moves.self _).bind fun is0 =>
      Moves.ite (moves_v1Dispatch hu j msg) (Moves.throw _)
  · have h : Moves (· = j) (wV2ReceiveBody user j data) := by
      unfold wV2ReceiveBody
      exact (Moves.self _).bind fun msg => (Moves.self _).bind fun is0 =>
        Moves.ite (moves_v1Dispatch hu j msg) ((Moves.self _).bind fun is1 =>
          Moves.ite (moves_v1Dispatch hu j msg) (Moves.throw _))
    intro w i hi
    have h1 := h w i hi
    unfold wV2ReceiveData
    rcases hx : wV2ReceiveBody user j data w with ⟨r, w'⟩
    rw [hx] at h1
    cases r with
    | ok a => exact h1
    | error e => simp only; split <;> exact h1
  · unfold wSmReceiveData
    exact (Moves.self _).bind fun msg => (Moves.self _).bind fun is0 =>
      Moves.ite (moves_handleV1 hu j msg) ((Moves.self _).bind fun is1 =>
        Moves.ite (moves_handleV2 hu j msg) (Moves.throw _))

/-- For every world there is user code of manager `j` alone that does the same. -/
theorem mimic (w : World P) : ∃ acts : Nat → Option Msg → Act (P.kind j),
    Mimics user j w fun cb m => (acts cb m).exec (P.env j) := by
  have h : ∀ cb m, ∃ p : Act (P.kind j), p.exec (P.env j) ((w j).note (.entered cb m)) =
      ((user j cb m (Function.update w j ((w j).note (.entered cb m)))).1,
       (user j cb m (Function.update w j ((w j).note (.entered cb m)))).2 j) := by
    intro cb m
    apply Leads.outcome
    have := hu j cb m (Function.update w j ((w j).note (.entered cb m))) j id
    rwa [Function.update_self] at this
  choose acts hacts using h
  exact ⟨acts, hacts⟩

theorem moves_receiveData (data : Val) : Moves (fun _ => False) (wReceiveData user j data) := by
  intro w i _
  by_cases hi : i = j
  · subst hi
    obtain ⟨acts, hacts⟩ := mimic hu i w
    refine ⟨.receive data acts fun _ => .ret, ?_⟩
    have h := sim_receiveData hacts data
    unfold Sim at h
    simp only [Act.exec, h]
  · exact moves_receiveData_others hu j data w i hi

theorem moves_read (data : Val) : Moves (fun _ => False) (wRead user j data) := by
  intro w i hi
  have h := moves_receiveData hu j data w i hi
  unfold wRead
  rcases hx : wReceiveData user j data w with ⟨r, w'⟩
  rw [hx] at h
  cases r <;> exact h

theorem moves_idle : Moves (fun _ => False) (wCallQueueEmpty user j) := by
  intro w i _
  by_cases hi : i = j
  · subst hi
    obtain ⟨acts, hacts⟩ := mimic hu i w
    refine ⟨.idle acts fun _ => .ret, ?_⟩
    have h := sim_callQueueEmpty hacts
    unfold Sim at h
    simp only [Act.exec, h]
  · exact moves_callQueueEmpty hu j w i hi

omit j in
theorem moves_poll (ready : List (Nat × Val)) : Moves (fun _ => False) (wPoll user ready) := by
  induction ready with
  | nil => exact Moves.pure _
  | cons p rest ih => exact (moves_read hu p.1 p.2).bind fun _ => ih

/-- Taking one item from the queue, for manager `j` itself: the loop without a datagram. -/
theorem moves_sendOrIdle (socket : Except Exc Unit) (w : World P) :
    match W.on j (takeAndSend socket) w with
    | (.error .queueEmpty, w') => ∀ i, Leads (P.env i) (w i) ((wCallQueueEmpty user j w').2 i)
    | (_, w') => ∀ i, Leads (P.env i) (w i) (w' i) := by
  rcases hw : W.on j (takeAndSend socket) w with ⟨r, w'⟩
  have hother : ∀ i, i ≠ j → Leads (P.env i) (w i) (w' i) := by
    intro i hi
    have : Leads (P.env i) (w i) ((W.on j (takeAndSend socket) w).2 i) := Moves.on (out := (· = j)) rfl _ w i hi
    rwa [hw] at this
  have hown : takeAndSend socket (w j) = (r, w' j) := by
    have := Sim.on (P := P) (takeAndSend socket) w (j := j)
    unfold Sim at this
    rw [this, hw]
  obtain ⟨acts, hacts⟩ := mimic hu j w'
  have h := sim_callQueueEmpty hacts
  unfold Sim at h
  have hstep : ∀ (c : Kind), hIterate (P.env j) c (fun cb m => (acts cb m).exec (P.env j)) socket none (w j) =
      match (r, w' j) with
      | (.error .queueEmpty, s') => callQueueEmpty (P.env j) (fun cb m => (acts cb m).exec (P.env j)) s'
      | x => x := by
    intro c
    rw [← hown]
    have hsm : gSmIterate (P.env j) (fun cb m => (acts cb m).exec (P.env j)) socket none (w j) =
        match takeAndSend socket (w j) with
        | (.error .queueEmpty, s') => callQueueEmpty (P.env j) (fun cb m => (acts cb m).exec (P.env j)) s'
        | x => x := by
      simp only [gSmIterate, poll, M.bind_apply]
      generalize takeAndSend socket (w j) = t
      rcases t with ⟨e | _, s'⟩
      · cases e <;> rfl
      · rfl
    have hv1 : v1Iterate (P.env j) (P.kind j) (fun cb m => (acts cb m).exec (P.env j)) socket none (w j) =
        match takeAndSend socket (w j) with
        | (.error .queueEmpty, s') => callQueueEmpty (P.env j) (fun cb m => (acts cb m).exec (P.env j)) s'
        | x => x := by
      simp only [v1Iterate, poll, M.bind_apply]
      generalize takeAndSend socket (w j) = t
      rcases t with ⟨e | _, s'⟩
      · cases e <;> first | rfl | skip
        simp only
        generalize callQueueEmpty (P.env j) (fun cb m => (acts cb m).exec (P.env j)) s' = t
        rcases t with ⟨_ | _, _⟩ <;> rfl
      · rfl
    cases c
    · exact hv1
    · exact hv1
    · exact hsm
  have key : Leads (P.env j) (w j) (match (r, w' j) with
      | (.error .queueEmpty, s') => callQueueEmpty (P.env j) (fun cb m => (acts cb m).exec (P.env j)) s'
      | x => x).2 := by
    refine ⟨.loop socket none acts fun _ => .ret, ?_⟩
    simp only [Act.exec, iterate_eq_h, hstep]
  split
  · rename_i heq
    cases heq
    intro i
    by_cases hi : i = j
    · subst hi
      simp only [h] at key
      exact key
    · exact (hother i hi).trans (moves_callQueueEmpty hu j _ i hi)
  · rename_i hne heq
    cases heq
    intro i
    by_cases hi : i = j
    · subst hi
      cases r with
      | ok u => exact key
      | error e => cases e <;> first | exact key | exact (hne rfl).elim
    · exact hother i hi

theorem moves_iterate (socket : Except Exc Unit) (ready : List (Nat × Val)) :
    Moves (fun _ => False) (wIterate user j socket ready) := by
  intro w i _
  have hc : wIterate user j socket ready = wSmIterate user j socket ready ∨
      wIterate user j socket ready = wV1Iterate user j socket ready := by
    unfold wIterate
    split
    · exact .inl rfl
    · exact .inr rfl
  rcases hc with hc | hc <;> rw [hc]
  · unfold wSmIterate
    rw [W.bind_apply]
    have hp := moves_poll hu ready w i id
    rcases hx : wPoll user ready w with ⟨r, w1⟩
    rw [hx] at hp
    cases r with
    | error e =>
      have hq := moves_idle hu j w1 i id
      cases e <;> first | exact hp | exact hp.trans hq
    | ok u =>
      have hs := moves_sendOrIdle hu j socket w1
      simp only
      rcases hy : W.on j (takeAndSend socket) w1 with ⟨r, w2⟩
      rw [hy] at hs
      cases r with
      | ok u => exact hp.trans (hs i)
      | error e => cases e <;> exact hp.trans (hs i)
  · unfold wV1Iterate
    have hs := moves_sendOrIdle hu j socket w
    rcases hy : W.on j (takeAndSend socket) w with ⟨r, w1⟩
    rw [hy] at hs
    cases r with
    | ok u => exact hs i
    | error e =>
      cases e <;> first | exact hs i | skip
      simp only [W.bind_apply]
      have h1 := hs i
      rcases hz : wCallQueueEmpty user j w1 with ⟨r, w2⟩
      rw [hz] at h1
      cases r with
      | error e => exact h1
      | ok u => exact h1.trans (moves_poll hu ready w2 i id)

end

/-- Every program takes every manager along a history of its own. -/
theorem exec_moves (p : WAct P) : Moves (fun _ => False) p.exec := by
  induction p with
  | ret => exact fun _ _ _ => Leads.refl _ _
  | raise e => exact fun _ _ _ => Leads.refl _ _
  | call j c next ih =>
    intro w i _
    simp only [WAct.exec]
    rcases hx : W.on j (doCall (P.env j) c) w with ⟨r, w'⟩
    refine Leads.trans ?_ (ih r w' i id)
    by_cases hi : i = j
    · subst hi
      refine ⟨.call c fun _ => .ret, ?_⟩
      have := Sim.on (P := P) (doCall (P.env i) c) w (j := i)
      unfold Sim at this
      rw [hx] at this
      simp only [Act.exec, this]
    · have : Leads (P.env i) (w i) ((W.on j (doCall (P.env j) c) w).2 i) := Moves.on (out := (· = j)) rfl _ w i hi
      rwa [hx] at this
  | receive j data user next ihu ihn =>
    intro w i _
    rw [WAct.exec]
    have := moves_receiveData (user := fun j cb m => (user j cb m).exec) (fun j cb m => ihu j cb m) j data w i id
    exact this.trans (ihn _ _ i id)
  | loop j socket ready user next ihu ihn =>
    intro w i _
    rw [WAct.exec]
    have := moves_iterate (user := fun j cb m => (user j cb m).exec) (fun j cb m => ihu j cb m) j socket ready w i id
    exact this.trans (ihn _ _ i id)
  | idle j user next ihu ihn =>
    intro w i _
    rw [WAct.exec]
    have := moves_idle (user := fun j cb m => (user j cb m).exec) (fun j cb m => ihu j cb m) j w i id
    exact this.trans (ihn _ _ i id)

end Libsnmp
