import Verif.Lemmas.Stable
import Verif.Lemmas.Exhaust

/-!
# C43, C44, C45, C50, C51, C52: requests, request IDs, the outbound queue
-/

namespace Libsnmp
open Spec

/-! ## The effect of a call on the log -/

theorem issued_append {k : Kind} (a b : List (Obs k)) : issued (a ++ b) = issued a ++ issued b := List.filterMap_append
theorem successes_append {k : Kind} (a b : List (Obs k)) : successes (a ++ b) = successes a ++ successes b :=
  List.filterMap_append
theorem taken_append {k : Kind} (a b : List (Obs k)) : taken (a ++ b) = taken a ++ taken b := List.filterMap_append
theorem sentOut_append {k : Kind} (a b : List (Obs k)) : sentOut (a ++ b) = sentOut a ++ sentOut b :=
  List.filterMap_append

/-- Invariant of C43. -/
def IdsOk {k : Kind} (s : Mgr k) : Prop :=
  (issued s.log).Pairwise (fun a b => a.1 < b.1) ∧ (∀ p ∈ issued s.log, 0 ≤ p.1 ∧ p.1 < s.nextRequestID)

theorem idsOk_stable (env : Env) (k : Kind) : Stable env False (IdsOk (k := k)) where
  call c s hn h := by
    have he := call_effect env k c s
    unfold doCall
    generalize callBody env k c s = q at he
    obtain ⟨h1, h2⟩ := h
    cases he with
    | failed e j hj =>
      refine ⟨?_, fun p hp => ?_⟩
      · simpa [Mgr.note, issued_append, issued] using h1
      · have := h2 p (by simpa [Mgr.note, issued_append, issued] using hp)
        simp only [Mgr.note]
        omega
    | request ci cb m key d' hcb hm hk hd =>
      have e : issued ((s.log : List (Obs k)) ++ [Obs.called c (.ok (.integer ci s.nextRequestID))]) =
          issued s.log ++ [((s.nextRequestID : Int), cb)] := by
        rw [issued_append]; simp [issued, hcb]
      simp only [IdsOk, Mgr.note, e]
      refine ⟨?_, fun p hp => ?_⟩
      · rw [List.pairwise_append]
        exact ⟨h1, List.pairwise_singleton _ _, fun a ha b hb => by
          simp only [List.mem_singleton] at hb; subst hb; exact (h2 a ha).2⟩
      · rcases List.mem_append.mp hp with hp | hp
        · have := h2 p hp
          omega
        · simp only [List.mem_singleton] at hp; subst hp
          simp only
          omega
    | trap m hcb hm =>
      refine ⟨?_, fun p hp => ?_⟩
      · simpa [Mgr.note, issued_append, issued] using h1
      · exact h2 p (by simpa [Mgr.note, issued_append, issued] using hp)
  enterOther s cb m h _ := by simpa [IdsOk, Mgr.note, issued_append, issued] using h
  leaveOther s cb m r h _ := by simpa [IdsOk, Mgr.note, issued_append, issued] using h
  enter s cb m n h _ _ := by simpa [IdsOk, Mgr.note, issued_append, issued] using h
  leaveErr s cb m n e h _ _ := by simpa [IdsOk, Mgr.note, issued_append, issued] using h
  leaveOk s cb m n h _ _ _ := by simpa [IdsOk, Mgr.note, issued_append, issued] using h
  takeLost s m r rest h _ _ := by simpa [IdsOk, Mgr.note, issued_append, issued] using h
  takeSent s m r rest o h _ _ := by simpa [IdsOk, Mgr.note, issued_append, issued] using h

/-- C43: over every history of one manager object - request calls, received datagrams, loop turns, callbacks that
themselves do all of this - the request IDs handed out strictly increase, so no two requests share one. -/
theorem C43_unique {env : Env} {k : Kind} {s : Mgr k} (h : Reachable env s) :
    (issued s.log).Pairwise (fun a b => a.1 < b.1) ∧ ∀ p ∈ issued s.log, 0 ≤ p.1 ∧ p.1 < s.nextRequestID :=
  (reachable_stable (idsOk_stable env k) ⟨.nil, by simp [issued]⟩ h).1

/-- C43: a call that returns an ID returns the counter and advances it by one; whatever a call does, it advances the
counter by at most one. -/
theorem C43_next (env : Env) {k : Kind} (c : k.Call) (s : Mgr k) :
    (∀ v, (doCall env c s).1 = .ok v → callbackOf c ≠ none →
      (∃ ci, v = .integer ci s.nextRequestID) ∧ (doCall env c s).2.nextRequestID = s.nextRequestID + 1) ∧
    (doCall env c s).2.nextRequestID ≤ s.nextRequestID + 1 ∧ s.nextRequestID ≤ (doCall env c s).2.nextRequestID := by
  have he := call_effect env k c s
  unfold doCall
  generalize callBody env k c s = q at he
  cases he with
  | failed e j hj => simp [Mgr.note]; omega
  | request ci cb m key d' hcb hm hk hd =>
    refine ⟨fun v hv _ => ?_, by simp [Mgr.note], by simp [Mgr.note]⟩
    cases hv
    exact ⟨⟨ci, rfl⟩, rfl⟩
  | trap m hcb hm => simp [Mgr.note, hcb]

/-- No request call failed. -/
def NoFailure {k : Kind} (log : List (Obs k)) : Prop := ∀ c e, Obs.called c (.error e) ∉ log

def Consecutive {k : Kind} (s : Mgr k) : Prop :=
  NoFailure s.log → (issued s.log).map (·.1) = (List.range s.nextRequestID).map Int.ofNat

theorem NoFailure.left {k : Kind} {a b : List (Obs k)} (h : NoFailure (a ++ b)) : NoFailure a :=
  fun c e hc => h c e (List.mem_append_left _ hc)

theorem consecutive_other {k : Kind} {s s' : Mgr k} (o : List (Obs k)) (h : Consecutive s) (hl : s'.log = s.log ++ o)
    (hi : issued o = []) (hn : s'.nextRequestID = s.nextRequestID) : Consecutive s' := by
  intro hf
  rw [hl] at hf ⊢
  rw [issued_append, hi, List.append_nil, hn]
  exact h hf.left

theorem consecutive_stable (env : Env) (k : Kind) : Stable env False (Consecutive (k := k)) where
  call c s hn h := by
    have he := call_effect env k c s
    unfold doCall
    generalize callBody env k c s = q at he
    cases he with
    | failed e j hj =>
      intro hf
      exact absurd (List.mem_append_right _ (List.mem_singleton.mpr rfl)) (hf c e)
    | request ci cb m key d' hcb hm hk hd =>
      intro hf
      have e : issued ((s.log : List (Obs k)) ++ [Obs.called c (.ok (.integer ci s.nextRequestID))]) =
          issued s.log ++ [((s.nextRequestID : Int), cb)] := by
        rw [issued_append]; simp [issued, hcb]
      have := h (NoFailure.left hf)
      simp only [Mgr.note, e, List.map_append, this, List.range_succ]
      rfl
    | trap m hcb hm => exact consecutive_other [_] h rfl (by simp [issued]) rfl
  enterOther s cb m h _ := consecutive_other [_] h rfl (by simp [issued]) rfl
  leaveOther s cb m r h _ := consecutive_other [_] h rfl (by simp [issued]) rfl
  enter s cb m n h _ _ := consecutive_other [_] h rfl (by simp [issued]) rfl
  leaveErr s cb m n e h _ _ := consecutive_other [_] h rfl (by simp [issued]) rfl
  leaveOk s cb m n h _ _ _ := consecutive_other [_] h rfl (by simp [issued]) rfl
  takeLost s m r rest h _ _ := consecutive_other [_] h rfl (by simp [issued]) rfl
  takeSent s m r rest o h _ _ :=
    consecutive_other [.took (some m, r), .sent o r] h (by simp [Mgr.note]) (by simp [issued]) rfl

/-- C43: as long as no call failed, the IDs handed out are exactly 0, 1, 2, ... in this order. -/
theorem C43_consecutive {env : Env} {k : Kind} {s : Mgr k} (h : Reachable env s)
    (hf : ∀ c e, Obs.called c (.error e) ∉ s.log) :
    (issued s.log).map (·.1) = (List.range s.nextRequestID).map Int.ofNat :=
  (reachable_stable (consecutive_stable env k) (fun _ => rfl) h).1 hf

/-! ## C50: failed calls -/

/-- C50: if a request or trap call raises, the queue and the table of callbacks are exactly as before. -/
theorem C50_failed_registers_nothing (env : Env) {k : Kind} (c : k.Call) (s : Mgr k) (e : Exc)
    (h : (doCall env c s).1 = .error e) :
    (doCall env c s).2.outbound = s.outbound ∧ (doCall env c s).2.callbacks = s.callbacks := by
  have he := call_effect env k c s
  unfold doCall at h ⊢
  generalize callBody env k c s = q at he h
  cases he with
  | failed e j hj => exact ⟨rfl, rfl⟩
  | request ci cb m key d' hcb hm hk hd => cases h
  | trap m hcb hm => cases h

/-- C50: conversely a request call that returns has queued one message and registered the callback under the returned ID,
changing no other entry. -/
theorem C50_succeeded_registers {env : Env} {k : Kind} {s : Mgr k} (hs : Reachable env s) (c : k.Call) (cb : Nat)
    (hc : callbackOf c = some cb) (v : Val) (h : (doCall env c s).1 = .ok v) :
    ∃ ci id m, v = .integer ci id ∧ (doCall env c s).2.outbound = s.outbound ++ [(some m, remoteOf c)] ∧
      Sends env c id (some m) ∧
      ∀ j, (doCall env c s).2.callbacks.at j = if j = id then some cb else s.callbacks.at j := by
  have hn := (reachable_stable (idsOk_stable env k) ⟨.nil, by simp [issued]⟩ hs).2
  have he := call_effect env k c s
  unfold doCall at h ⊢
  generalize callBody env k c s = q at he h
  cases he with
  | failed e j hj => cases h
  | request ci cb' m key d' hcb hm hk hd =>
    cases h
    rw [hc] at hcb
    cases hcb
    refine ⟨ci, _, m, rfl, rfl, hm, ?_⟩
    obtain ⟨d'', h1, _, h2⟩ := Dict.put_num hn hk cb
    rw [hd] at h1
    cases h1
    exact h2
  | trap m hcb hm => rw [hc] at hcb; cases hcb

/-! ## C45: the queue -/

/-- The item a successful call (with its result) must put in the queue. -/
def ItemOf (env : Env) {k : Kind} (call : k.Call × Val) (item : Option Msg × Nat) : Prop :=
  item.2 = remoteOf call.1 ∧
  match call.2 with
  | .integer _ id => Sends env call.1 id item.1
  | _ => ∀ id, Sends env call.1 id item.1

def QueueOk (env : Env) {k : Kind} (s : Mgr k) : Prop :=
  List.Forall₂ (ItemOf env) (successes s.log) (taken s.log ++ s.outbound)

theorem queue_other {env : Env} {k : Kind} {s s' : Mgr k} (o : Obs k) (h : QueueOk env s) (hl : s'.log = s.log ++ [o])
    (hs : successes [o] = []) (ht : taken [o] = []) (ho : s'.outbound = s.outbound) : QueueOk env s' := by
  unfold QueueOk at *
  rw [hl, successes_append, taken_append, hs, ht, ho]
  simpa using h

theorem queue_take {env : Env} {k : Kind} {s s' : Mgr k} {m : Option Msg} {r : Nat} {rest : List (Option Msg × Nat)}
    (o : List (Obs k)) (h : QueueOk env s) (hr : s.outbound = (m, r) :: rest)
    (hl : s'.log = s.log ++ .took (m, r) :: o) (hs : successes o = []) (ht : taken o = []) (ho : s'.outbound = rest) :
    QueueOk env s' := by
  unfold QueueOk at *
  have e1 : successes (Obs.took (m, r) :: o) = [] := by
    change successes ([Obs.took (m, r)] ++ o) = []
    rw [successes_append, hs]; rfl
  have e2 : taken (Obs.took (m, r) :: o) = [(m, r)] := by
    change taken ([Obs.took (m, r)] ++ o) = _
    rw [taken_append, ht]; rfl
  rw [hl, successes_append, taken_append, e1, e2, ho]
  rw [hr] at h
  simpa using h

theorem queue_stable (env : Env) (k : Kind) : Stable env False (QueueOk env (k := k)) where
  call c s hn h := by
    have he := call_effect env k c s
    unfold doCall
    generalize callBody env k c s = q at he
    cases he with
    | failed e j hj => exact queue_other _ h rfl (by simp [successes]) (by simp [taken]) rfl
    | request ci cb m key d' hcb hm hk hd =>
      unfold QueueOk at *
      simp only [Mgr.note, successes_append, taken_append]
      rw [show taken [Obs.called c (.ok (.integer ci s.nextRequestID))] = [] from rfl, List.append_nil,
        ← List.append_assoc]
      exact List.rel_append h (.cons ⟨rfl, hm⟩ .nil)
    | trap m hcb hm =>
      unfold QueueOk at *
      simp only [Mgr.note, successes_append, taken_append]
      rw [show taken [Obs.called c (.ok .none)] = [] from rfl, List.append_nil, ← List.append_assoc]
      exact List.rel_append h (.cons ⟨rfl, hm⟩ .nil)
  enterOther s cb m h _ := queue_other _ h rfl rfl rfl rfl
  leaveOther s cb m r h _ := queue_other _ h rfl rfl rfl rfl
  enter s cb m n h _ _ := queue_other _ h rfl rfl rfl rfl
  leaveErr s cb m n e h _ _ := queue_other _ h rfl rfl rfl rfl
  leaveOk s cb m n h _ _ _ := queue_other _ h rfl rfl rfl rfl
  takeLost s m r rest h ho _ := queue_take [] h ho rfl rfl rfl rfl
  takeSent s m r rest o h ho _ := queue_take [.sent o r] h ho (by simp [Mgr.note]) rfl rfl rfl

/-- C45: over every history, what the loop took so far followed by what is still queued is, item by item and in order,
what the successful calls asked for: nothing is lost, duplicated, reordered, invented or sent to another address. -/
theorem C45_fifo {env : Env} {k : Kind} {s : Mgr k} (h : Reachable env s) :
    List.Forall₂ (fun call item => item.2 = remoteOf call.1 ∧
        match call.2 with
        | .integer _ id => Sends env call.1 id item.1
        | _ => ∀ id, Sends env call.1 id item.1)
      (successes s.log) (taken s.log ++ s.outbound) :=
  (reachable_stable (queue_stable env k) .nil h).1

def SentOk {k : Kind} (s : Mgr k) : Prop := sentOut s.log = (taken s.log).filterMap datagramOf

theorem sent_other {k : Kind} {s s' : Mgr k} (o : Obs k) (h : SentOk s) (hl : s'.log = s.log ++ [o])
    (ht : taken [o] = []) (hs : sentOut [o] = []) : SentOk s' := by
  unfold SentOk at *
  rw [hl, sentOut_append, taken_append, hs, ht, List.append_nil, List.append_nil, h]

theorem sent_stable (env : Env) (k : Kind) : Stable env False (SentOk (k := k)) where
  call c s hn h := by
    have he := call_effect env k c s
    unfold doCall
    generalize callBody env k c s = q at he
    cases he <;> exact sent_other _ h rfl rfl rfl
  enterOther s cb m h _ := sent_other _ h rfl rfl rfl
  leaveOther s cb m r h _ := sent_other _ h rfl rfl rfl
  enter s cb m n h _ _ := sent_other _ h rfl rfl rfl
  leaveErr s cb m n e h _ _ := sent_other _ h rfl rfl rfl
  leaveOk s cb m n h _ _ _ := sent_other _ h rfl rfl rfl
  takeLost s m r rest h ho hm := by
    unfold SentOk at *
    simp only [Mgr.note, sentOut_append, taken_append, List.filterMap_append, h]
    have : datagramOf (m, r) = none := by
      unfold datagramOf
      cases m with
      | none => rfl
      | some m =>
        obtain ⟨e, he⟩ := hm m rfl
        simp [he]
    simp [sentOut, taken, this]
  takeSent s m r rest o h ho hm := by
    unfold SentOk at *
    simp only [Mgr.note, sentOut_append, taken_append, List.filterMap_append, h]
    simp [sentOut, taken, datagramOf, hm]

/-- C45: the datagrams given to `send()` are, in order, the encodings of the messages taken from the queue, each to its
own address; an item whose message cannot be encoded is dropped. -/
theorem C45_sent {env : Env} {k : Kind} {s : Mgr k} (h : Reachable env s) :
    sentOut s.log = (taken s.log).filterMap datagramOf :=
  (reachable_stable (sent_stable env k) rfl h).1

/-- The exceptions an encoding can end in. -/
def EncodeExc (e : Exc) : Prop := e = .attributeError ∨ e = .typeError ∨ e = .indexError

theorem identifier_exc (c : Cls) {e : Exc} (h : c.identifier = .error e) : e = .typeError := by
  rcases c with _ | c | c | _ | c | c <;> first
    | (cases h; rfl)
    | (cases h; done)
    | (cases c <;> first | (cases h; rfl) | (cases h; done))

theorem tlv_exc {c : Cls} {s : Str} {e : Exc} (h : tlv c s = .error e) : EncodeExc e := by
  unfold tlv at h
  split at h
  · next e' he =>
    cases h
    exact .inr (.inl (identifier_exc c he))
  · cases h

mutual
theorem encode_exc : ∀ (v : Val) (e : Exc), v.encode = .error e → EncodeExc e
  | .none, e, h => by simp only [Val.encode, Except.error.injEq] at h; exact .inl h.symm
  | .int _, e, h => by simp only [Val.encode, Except.error.injEq] at h; exact .inl h.symm
  | .bytes _, e, h => by simp only [Val.encode, Except.error.injEq] at h; exact .inl h.symm
  | .str s, e, h => by simp [Val.encode] at h
  | .integer c v, e, h => by rw [Val.encode] at h; exact tlv_exc h
  | .octets c v, e, h => by rw [Val.encode] at h; exact tlv_exc h
  | .raw _ _, e, h => by simp only [Val.encode, Except.error.injEq] at h; exact .inr (.inl h.symm)
  | .oid v, e, h => by
    rw [Val.encode] at h
    split at h
    · next e' he =>
      cases h
      unfold oidEncode at he
      split at he
      · cases he; exact .inr (.inl rfl)
      · split at he <;> cases he
        exact .inr (.inr rfl)
    · exact tlv_exc h
  | .null c, e, h => by rw [Val.encode] at h; exact tlv_exc h
  | .seq c items, e, h => by
    rw [Val.encode] at h
    split at h
    · next e' he => cases h; exact encodeItems_exc items _ he
    · exact tlv_exc h
theorem encodeItems_exc : ∀ (l : List Val) (e : Exc), encodeItems l = .error e → EncodeExc e
  | [], e, h => by simp [encodeItems] at h
  | v :: vs, e, h => by
    rw [encodeItems] at h
    split at h
    · next e' he => cases h; exact encode_exc v _ he
    · split at h
      · next e' he => cases h; exact encodeItems_exc vs _ he
      · cases h
end

theorem msgEncode_exc {m : Msg} {e : Exc} (h : m.encode = .error e) : EncodeExc e := by
  unfold Msg.encode at h
  split at h
  · next e' he => cases h; exact encodeItems_exc _ _ he
  · exact tlv_exc h

theorem takeAndSend_item {k : Kind} (socket : Except Exc Unit) (hsock : socket ≠ .error .queueEmpty)
    (s : Mgr k) (item : Option Msg × Nat) (rest : List (Option Msg × Nat)) (h : s.outbound = item :: rest) :
    (takeAndSend socket s).2.outbound = rest ∧ (takeAndSend socket s).2.callbacks = s.callbacks ∧
    taken (takeAndSend socket s).2.log = taken s.log ++ [item] ∧
    ((takeAndSend socket s).1 = .ok () ↔ (datagramOf item).isSome ∧ socket = .ok ()) ∧
    (takeAndSend socket s).1 ≠ .error .queueEmpty := by
  obtain ⟨m, r⟩ := item
  unfold takeAndSend
  rw [h]
  cases m with
  | none => simp [Mgr.note, taken_append, taken, datagramOf]
  | some m =>
    simp only
    cases he : m.encode with
    | error e =>
      have := msgEncode_exc he
      have hq : e ≠ .queueEmpty := by rcases this with rfl | rfl | rfl <;> decide
      simp [Mgr.note, taken_append, taken, datagramOf, he, hq]
    | ok o =>
      refine ⟨rfl, rfl, ?_, ?_, hsock⟩
      · simp [Mgr.note, taken_append, taken]
      · simp [datagramOf, he]

/-- C45: progress.  A turn of the loop with something queued takes the first item, and returns normally exactly if the
message could be encoded and the socket took it.  (`snmpManager` reads the socket first, so for it this is stated for a
turn in which no datagram is waiting; a socket does not raise `queue.Empty`.) -/
theorem C45_turn (env : Env) (k : Kind) (user : User k) (socket : Except Exc Unit) (hsock : socket ≠ .error .queueEmpty)
    (d : Option Val) (hd : k = .sm → d = none) (s : Mgr k) (item : Option Msg × Nat) (rest : List (Option Msg × Nat))
    (h : s.outbound = item :: rest) :
    (iterate env k user socket d s).2.outbound = rest ∧
    (iterate env k user socket d s).2.callbacks = s.callbacks ∧
    taken (iterate env k user socket d s).2.log = taken s.log ++ [item] ∧
    ((iterate env k user socket d s).1 = .ok () ↔ (datagramOf item).isSome ∧ socket = .ok ()) := by
  have key := takeAndSend_item socket hsock s item rest h
  have e : iterate env k user socket d s = takeAndSend socket s := by
    cases k with
    | v1 =>
      simp only [iterate, v1Iterate]
      split
      · next h' => rw [h'] at key; exact absurd rfl key.2.2.2.2
      · rfl
    | v2 =>
      simp only [iterate, v1Iterate]
      split
      · next h' => rw [h'] at key; exact absurd rfl key.2.2.2.2
      · rfl
    | sm =>
      rw [hd rfl]
      simp only [iterate, smIterate, poll, M.bind_def]
      split
      · next h' => rw [h'] at key; exact absurd rfl key.2.2.2.2
      · rfl
  rw [e]
  exact ⟨key.1, key.2.1, key.2.2.1, key.2.2.2.1⟩

/-! ## C44: exhaustion -/

/-- C44: a request call succeeds exactly if its arguments are acceptable and the counter has not passed the largest ID its
PDU can carry; with acceptable arguments and the counter beyond, it raises ValueError. -/
theorem C44_exact (env : Env) {k : Kind} (c : k.Call) (hc : callbackOf c ≠ none) (s : Mgr k) :
    ((∃ v, (doCall env c s).1 = .ok v) ↔ CallOk env c ∧ s.nextRequestID ≤ lastID c) ∧
    (CallOk env c → lastID c < s.nextRequestID → (doCall env c s).1 = .error .valueError) := by
  obtain ⟨h1, h2, h3⟩ := call_outcome env k c hc s
  have e : (doCall env c s).1 = (callBody env k c s).1 := rfl
  rw [e]
  refine ⟨⟨fun ⟨v, hv⟩ => ?_, fun ⟨a, b⟩ => h1 a b⟩, h2⟩
  by_cases hok : CallOk env c
  · refine ⟨hok, ?_⟩
    by_cases hb : s.nextRequestID ≤ lastID c
    · exact hb
    · rw [h2 hok (by omega)] at hv; cases hv
  · obtain ⟨x, hx⟩ := h3 hok
    rw [hx] at hv; cases hv

/-- The call never gives an ID beyond 2^31 - 1 (SNMPv1) or 2^31 (SNMPv2). -/
theorem lastID_bounds {k : Kind} (c : k.Call) : lastID c = 2 ^ 31 - 1 ∨ lastID c = 2 ^ 31 := by
  cases k with
  | v1 => left; rfl
  | v2 => right; rfl
  | sm =>
    cases c with
    | get _ _ _ _ v =>
      by_cases h : v = 2
      · exact .inr (if_pos h)
      · exact .inl (if_neg h)
    | getNext _ _ _ _ v =>
      by_cases h : v = 2
      · exact .inr (if_pos h)
      · exact .inl (if_neg h)
    | set => left; rfl
    | trap => left; rfl

/-- C44: once 2^31 + 1 IDs are gone, no request call of any manager class with any argument succeeds again: it raises,
queues nothing and registers nothing.  For `v1.SNMP` this already holds from 2^31 on. -/
theorem C44_exhausted (env : Env) {k : Kind} (c : k.Call) (hc : callbackOf c ≠ none) (s : Mgr k)
    (h : 2 ^ 31 < s.nextRequestID ∨ k = .v1 ∧ 2 ^ 31 ≤ s.nextRequestID) :
    (∃ e, (doCall env c s).1 = .error e ∧ (CallOk env c → e = .valueError)) ∧
    (doCall env c s).2.outbound = s.outbound ∧ (doCall env c s).2.callbacks = s.callbacks := by
  obtain ⟨h1, h2⟩ := C44_exact env c hc s
  have hl : lastID c < s.nextRequestID := by
    rcases h with h | ⟨rfl, h⟩
    · rcases lastID_bounds c with e | e <;> omega
    · have : lastID (k := .v1) c = 2147483647 := rfl
      omega
  cases he : (doCall env c s).1 with
  | ok v => exact absurd (h1.mp ⟨v, he⟩).2 (by omega)
  | error e =>
    refine ⟨⟨e, rfl, fun hok => ?_⟩, C50_failed_registers_nothing env c s e he⟩
    have := h2 hok hl
    rw [he] at this
    cases this; rfl

/-- A call that consumes an ID in every state. -/
def consume : (k : Kind) → k.Call
  | .v1 => V1Call.getNext [] 0 0 []
  | .v2 => V2Call.set [] 0 0 []
  | .sm => SmCall.getNext [] 0 0 [] 1

theorem consume_next (env : Env) (k : Kind) (s : Mgr k) :
    (doCall env (consume k) s).2.nextRequestID = s.nextRequestID + 1 := by
  cases k with
  | v1 =>
    simp only [doCall, consume, callBody, v1SnmpGetNext, v1CreateGetNextRequestMessage, v1CreateGetNextRequestPDU,
      M.bind_def, assign_def, M.lift_def, mkPDU_v1 .getNext (.inr (.inl rfl))]
    by_cases h : s.nextRequestID ≤ 2147483647 ∧ allVarBinds [] = true
    · simp only [h, and_self, if_true, mkMessage_01 _ 0 (.inl rfl)]
      obtain ⟨d', hd', he⟩ := v1Enqueue_def (k := .v1) (wrap .message 0 [] (.seq .getNext [.integer .integer s.nextRequestID,
        .integer .errorStatus 0, .integer .integer 0, .seq .varBindList []]))
        0 0 { s with nextRequestID := s.nextRequestID + 1 } _ _ _ _ rfl
      rw [he]
      rfl
    · simp only [h, if_false]
      rfl
  | v2 => rfl
  | sm =>
    simp only [doCall, consume, callBody, smSnmpGetNext, smCreateGetNextRequestMessage, smCreatePDU, if_true,
      M.bind_def, assign_def, M.lift_def, mkPDU_v1 .getNext (.inr (.inl rfl))]
    by_cases h : s.nextRequestID ≤ 2147483647 ∧ allVarBinds [] = true
    · simp only [h, and_self, if_true, mkMessage_01 _ 0 (.inl rfl), M.pure_def]
      obtain ⟨d', hd', he⟩ := smEnqueue_def (wrap .message 0 [] (.seq .getNext [.integer .integer s.nextRequestID,
        .integer .errorStatus 0, .integer .integer 0, .seq .varBindList []]))
        0 0 { s with nextRequestID := s.nextRequestID + 1 } _ _ _ _ rfl
      rw [he]
      rfl
    · simp only [h, if_false]
      rfl

/-- A program that calls `consume` `n` times. -/
def consumeProgram (k : Kind) : Nat → Act k
  | 0 => .ret
  | n + 1 => .call (consume k) fun _ => consumeProgram k n

theorem consumeProgram_next (env : Env) (k : Kind) (n : Nat) :
    ∀ s, ((consumeProgram k n).exec env s).2.nextRequestID = s.nextRequestID + n := by
  induction n with
  | zero => intro s; rfl
  | succ n ih =>
    intro s
    rw [consumeProgram, Act.exec]
    simp only [ih, consume_next]
    omega

/-- C44: every value of the counter is reached by some history, so exhaustion does happen. -/
theorem C44_reached (env : Env) (k : Kind) (n : Nat) : ∃ s : Mgr k, Reachable env s ∧ s.nextRequestID = n :=
  ⟨_, ⟨consumeProgram k n, rfl⟩, by rw [consumeProgram_next]; simp⟩

/-! ## C51: the PDU kind on the wire -/

/-- C51: the message queued by a successful request carries the caller's community, the ID returned, no error, and a PDU of
the requested kind - except that `v1.SNMP.snmpSet` always queues a GetNext (0xa1) and never a Set (0xa3). -/
theorem C51_message (env : Env) {k : Kind} (c : k.Call) (hc : callbackOf c ≠ none) (id : Int) (m : Msg)
    (h : Sends env c id (some m)) :
    m.community = .octets .octetString (communityOf c) ∧
    ∃ cls ci ce cl vbs, m.data = .seq cls [.integer ci id, .integer ce 0, .integer .integer 0, .seq cl vbs] ∧
      ∃ t, (Cls.seq cls).identifier = .ok [t] ∧
        some t = if isV1Set c then some 0xa1 else askedTag c := by
  cases k with
  | v1 =>
    cases c with
    | get oid r cb com => obtain ⟨vb, _, hm⟩ := h; cases hm; exact ⟨rfl, _, _, _, _, _, rfl, 0xa0, rfl, rfl⟩
    | getNext vbs r cb com =>
      cases (h : some m = some (v1Msg .getNext com id vbs)); exact ⟨rfl, _, _, _, _, _, rfl, 0xa1, rfl, rfl⟩
    | set vbs r cb com =>
      cases (h : some m = some (v1Msg .getNext com id vbs)); exact ⟨rfl, _, _, _, _, _, rfl, 0xa1, rfl, rfl⟩
    | trap => exact absurd rfl hc
  | v2 =>
    cases c with
    | get oid r cb com => obtain ⟨vb, _, hm⟩ := h; cases hm; exact ⟨rfl, _, _, _, _, _, rfl, 0xa0, rfl, rfl⟩
    | getNext vbs r cb com => exact h.elim
    | set vbs r cb com => exact h.elim
    | trap => exact absurd rfl hc
  | sm =>
    cases c with
    | get oid r cb com version =>
      rcases h with ⟨_, vb, _, hm⟩ | ⟨_, vb, _, hm⟩ <;> cases hm
      · exact ⟨rfl, _, _, _, _, _, rfl, 0xa0, rfl, rfl⟩
      · exact ⟨rfl, _, _, _, _, _, rfl, 0xa0, rfl, rfl⟩
    | getNext vbs r cb com version =>
      rcases h with ⟨_, hm⟩ | ⟨_, hm⟩ <;> cases hm
      · exact ⟨rfl, _, _, _, _, _, rfl, 0xa1, rfl, rfl⟩
      · exact ⟨rfl, _, _, _, _, _, rfl, 0xa1, rfl, rfl⟩
    | set oid valtype value r cb com version =>
      obtain ⟨v, x, _, _, ⟨_, hm⟩ | ⟨_, hm⟩⟩ := h <;> cases hm
      · exact ⟨rfl, _, _, _, _, _, rfl, 0xa3, rfl, rfl⟩
      · exact ⟨rfl, _, _, _, _, _, rfl, 0xa3, rfl, rfl⟩
    | trap => exact absurd rfl hc

/-- C51: every successful request call, in every reachable state, queues exactly one message, for the caller's address,
which is the one the call asks for. -/
theorem C51_queued {env : Env} {k : Kind} {s : Mgr k} (hs : Reachable env s) (c : k.Call) (hc : callbackOf c ≠ none)
    (v : Val) (h : (doCall env c s).1 = .ok v) :
    ∃ ci id m, v = .integer ci id ∧ Sends env c id (some m) ∧
      (doCall env c s).2.outbound = s.outbound ++ [(some m, remoteOf c)] := by
  obtain ⟨cb, hcb⟩ := Option.ne_none_iff_exists'.mp hc
  obtain ⟨ci, id, m, h1, h2, h3, _⟩ := C50_succeeded_registers hs c cb hcb v h
  exact ⟨ci, id, m, h1, h3, h2⟩

/-- C51 is false of `v1.SNMP.snmpSet`: no argument and no state makes it queue a Set PDU. -/
theorem C51_v1_set_never_set (env : Env) (vbs : List Val) (r cb : Nat) (com : Str) (id : Int) (m : Msg)
    (h : Sends env (k := .v1) (.set vbs r cb com) id (some m)) : ∃ items, m.data = .seq .getNext items := by
  cases (h : some m = some (v1Msg .getNext com id vbs)); exact ⟨_, rfl⟩

/-! ## C52: calls that cannot succeed -/

/-- C52: `v2.SNMP.snmpGetNext` raises AttributeError for every argument and in every state; nothing changes. -/
theorem C52_v2_getNext (env : Env) (vbs : List Val) (r cb : Nat) (com : Str) (s : Mgr .v2) :
    callBody env .v2 (.getNext vbs r cb com) s = (.error .attributeError, s) := rfl

/-- C52: `v2.SNMP.snmpSet` raises AttributeError for every argument and in every state; an ID is consumed. -/
theorem C52_v2_set (env : Env) (vbs : List Val) (r cb : Nat) (com : Str) (s : Mgr .v2) :
    callBody env .v2 (.set vbs r cb com) s =
      (.error .attributeError, { s with nextRequestID := s.nextRequestID + 1 }) := rfl

/-- C52: `snmpManager.snmpTrap` for SNMP version 1 or 2 raises AttributeError, whatever the PDU, and changes nothing; for
any other version it queues `None`, on which the loop then fails. -/
theorem C52_sm_trap (env : Env) (pdu : Val) (r : Nat) (com : Str) (version : Int) (s : Mgr .sm) :
    callBody env .sm (.trap r pdu com version) s =
      if version = 1 ∨ version = 2 then (.error .attributeError, s)
      else (.ok .none, { s with outbound := s.outbound ++ [(none, r)] }) := by
  simp only [callBody, smSnmpTrap, smCreateTrapMessage, M.bind_def]
  by_cases h1 : version = 1
  · simp [h1, M.throw_def]
  · by_cases h2 : version = 2
    · simp [h2, M.throw_def]
    · simp [h1, h2, M.pure_def, putOutbound]

/-- C52: a queued `None` ends the turn of the loop that takes it with AttributeError. -/
theorem C52_none_kills_loop (env : Env) (user : User .sm) (socket : Except Exc Unit) (s : Mgr .sm) (r : Nat)
    (rest : List (Option Msg × Nat)) (h : s.outbound = (none, r) :: rest) :
    (iterate env .sm user socket none s).1 = .error .attributeError := by
  simp only [iterate, smIterate, poll, M.bind_def, takeAndSend, h]

/-- C52: the SNMPv2 OctetString constructor returns for no argument at all: TypeError for what has no length, ValueError
beyond 65535, otherwise RecursionError. -/
theorem C52_octetString2 (s : Str) (value : Arg) :
    mkOctetString .octetString2 s = .error (if 65535 < s.length then .valueError else .recursionError) ∧
    ∃ e, mkOctetStringArg .octetString2 value = .error e ∧
      (e = .typeError ∨ e = .valueError ∨ e = .recursionError) ∧
      (∀ n, value.len = .ok n → e = if 65535 < n then .valueError else .recursionError) := by
  have this : (Cls.oct .octetString2).isSubclass (.oct .octetString2) = true := by decide
  constructor
  · unfold mkOctetString mkOctetStringArg
    rw [this, if_pos rfl]
    simp only [Arg.len]
    split <;> rfl
  · unfold mkOctetStringArg
    rw [this, if_pos rfl]
    cases hl : value.len with
    | error e =>
      refine ⟨e, rfl, .inl ?_, by simp⟩
      revert hl
      cases value with
      | obj v => cases v <;> simp [Arg.len, Val.len] <;> (try split) <;> simp_all
      | _ => simp [Arg.len] <;> exact fun h => h.symm
    | ok n =>
      by_cases h : 65535 < n
      · refine ⟨.valueError, by simp [h], by simp, ?_⟩
        intro m hm; cases hm; simp [h]
      · refine ⟨.recursionError, by simp [h], by simp, ?_⟩
        intro m hm; cases hm; simp [h]

/-- The argument is not a text, and not a kind of object the model leaves out (a Sequence, or an OctetString which itself
holds no text). -/
def NotText : Arg → Prop
  | .str _ => False
  | .obj (.integer _ _) | .obj (.octets _ _) | .obj (.oid _) | .obj (.null _) => True
  | .obj _ => False
  | _ => True

theorem raw_of_notText {c : OctCls} (hc : c = .octetString ∨ c = .opaque) {value : Arg} (h : NotText value) :
    ∃ v, construct (.oct c) value = .ok (.raw c v) := by
  have h1 : (Cls.oct c).isSubclass (.oct .ipAddress) = false := by rcases hc with rfl | rfl <;> decide
  have h2 : (Cls.oct c).isSubclass (.oct .octetString2) = false := by rcases hc with rfl | rfl <;> decide
  unfold construct
  simp only [h1, mkOctetStringArg, h2]
  cases value with
  | str _ => exact h.elim
  | obj v => cases v <;> first | exact h.elim | exact ⟨_, rfl⟩
  | _ => exact ⟨_, rfl⟩

/-- C52: `snmpManager.snmpSet` of an OctetString or an Opaque with something that is no text (an int, None, bytes, a list, an
SNMP object) is accepted: the call returns a request ID, queues a message and registers the callback.  The turn of the loop
that takes the message raises TypeError (if the name could be encoded; an exception in any case) and sends nothing. -/
theorem C52_unencodable_set {env : Env} {s : Mgr .sm} (hs : Reachable env s) (t : Nat) (c : OctCls)
    (ht : env.reg t = some (.oct c)) (hc : c = .octetString ∨ c = .opaque) (value : Arg) (hv : NotText value)
    (oid : Arg) (name : Option (List Int)) (ho : mkOid oid = .ok name) (remote cb : Nat) (community : Str) (version : Int)
    (hver : version = 1 ∨ version = 2) (hid : s.nextRequestID ≤ 2147483647) :
    ∃ ci id m, doCall env (k := .sm) (.set oid t value remote cb community version) s =
        (.ok (.integer ci id), (doCall env (k := .sm) (.set oid t value remote cb community version) s).2) ∧
      (doCall env (k := .sm) (.set oid t value remote cb community version) s).2.outbound =
        s.outbound ++ [(some m, remote)] ∧
      (doCall env (k := .sm) (.set oid t value remote cb community version) s).2.callbacks.at id = some cb ∧
      ∀ (user : User .sm) (socket : Except Exc Unit) (s' : Mgr .sm) (rest : List (Option Msg × Nat)),
        s'.outbound = (some m, remote) :: rest →
        sentOut (iterate env .sm user socket none s').2.log = sentOut s'.log ∧
        ∃ e, (iterate env .sm user socket none s').1 = .error e ∧
          ((∃ o, oidEncode name = .ok o) → e = .typeError) := by
  obtain ⟨w, hw⟩ := raw_of_notText hc hv
  have hct : constructTag env.reg t value = .ok (.raw c w) := by
    have h0 : ¬ ((t : Int) < 0) := by omega
    simp only [constructTag, h0, if_false, Int.toNat_natCast, ht, hw]
  obtain ⟨v, hok⟩ := (C44_exact env (k := .sm) (.set oid t value remote cb community version) (by simp [callbackOf]) s).1.2
    ⟨⟨hver, ⟨name, ho⟩, ⟨_, hct⟩⟩, hid⟩
  obtain ⟨ci, id, m, rfl, h2, h3, h4⟩ := C50_succeeded_registers hs _ cb rfl v hok
  refine ⟨ci, id, m, Prod.ext hok rfl, h2, by rw [h4, if_pos rfl], ?_⟩
  have hbad : ∃ e, m.encode = .error e ∧ e ≠ .queueEmpty ∧ ((∃ o, oidEncode name = .ok o) → e = .typeError) := by
    obtain ⟨n', x, hn', hx, h5⟩ := h3
    rw [ho] at hn'; cases hn'
    rw [hct] at hx; cases hx
    have i1 : (Cls.int .integer).identifier = .ok [2] := by decide +kernel
    have i2 : (Cls.oct .octetString).identifier = .ok [4] := by decide +kernel
    have i3 : Cls.oid.identifier = .ok [6] := by decide +kernel
    have i4 : (Cls.int .errorStatus).identifier = .ok [2] := by decide +kernel
    cases hn : oidEncode name with
    | error e =>
      refine ⟨e, ?_, ?_, by rintro ⟨o, h⟩; cases h⟩
      · rcases h5 with ⟨_, h6⟩ | ⟨_, h6⟩ <;> cases h6 <;>
          simp [v1Msg, wrap, Msg.encode, encodeItems, Val.encode, tlv, hn, i1, i2, i4]
      · rintro rfl
        unfold oidEncode at hn
        split at hn
        · cases hn
        · split at hn <;> cases hn
    | ok o =>
      refine ⟨.typeError, ?_, by decide, fun _ => rfl⟩
      rcases h5 with ⟨_, h6⟩ | ⟨_, h6⟩ <;> cases h6 <;>
        simp [v1Msg, wrap, Msg.encode, encodeItems, Val.encode, tlv, hn, i1, i2, i3, i4]
  obtain ⟨e, he, hq, hte⟩ := hbad
  intro user socket s' rest hs'
  have e1 : takeAndSend socket s' = (.error e, (takeAndSend socket s').2) ∧
      sentOut (takeAndSend socket s').2.log = sentOut s'.log := by
    simp [takeAndSend, hs', he, Mgr.note, sentOut_append, sentOut]
  have e2 : iterate env .sm user socket none s' = takeAndSend socket s' := by
    simp only [iterate, smIterate, poll, M.bind_def]
    split
    · next h' => rw [e1.1] at h'; cases h'; exact absurd rfl hq
    · rfl
  rw [e2]
  exact ⟨e1.2, e, by rw [e1.1], hte⟩

/-! ## The hypotheses are met -/

/-- Two requests, one failing in between (the name is not an object identifier), then a turn of the loop. -/
def demoV1 : Act .v1 :=
  .call (V1Call.get (.str (lit ".1.3.6.1.2.1")) 7 1 (lit "public")) fun _ =>
  .call (V1Call.get (.str (lit "bad")) 8 2 (lit "public")) fun _ =>
  .call (V1Call.getNext [.int 3] 8 3 (lit "public")) fun _ =>
  .call (V1Call.set [.seq .varBind [.oid (some [1, 3, 6]), .integer .integer 5]] 9 4 (lit "private")) fun _ =>
  .loop (.ok ()) none (fun _ _ => .ret) fun _ => .ret

example : issued (demoV1.exec ⟨regV1, none, none⟩ {}).2.log = [(0, 1), (2, 4)] := by decide +kernel

example : (demoV1.exec ⟨regV1, none, none⟩ {}).2.nextRequestID = 3 := by decide +kernel

example : sentOut (demoV1.exec ⟨regV1, none, none⟩ {}).2.log =
    [([48, 35, 2, 1, 0, 4, 6, 112, 117, 98, 108, 105, 99, 160, 22, 2, 1, 0, 2, 1, 0, 2, 1, 0, 48, 11, 48, 9, 6, 5, 43,
       6, 1, 2, 1, 5, 0], 7)] := by decide +kernel

example : CallOk ⟨regV1, none, none⟩ (k := .v1) (.get (.str (lit ".1.3")) 7 1 (lit "public")) := ⟨some [1, 3], by decide +kernel⟩

/-- `m.snmpSet('.1.3.6', 0x04, 5, …)`: the request gets ID 0, its callback is registered, the next turn raises TypeError
and nothing has been sent. -/
example :
    let s := (doCall ⟨regFull, none, none⟩ (k := .sm) (.set (.str (lit ".1.3.6")) 0x04 (.int 5) 7 1 (lit "private") 1) {}).2
    s.callbacks.at 0 = some 1 ∧ s.outbound.length = 1 ∧
    (iterate ⟨regFull, none, none⟩ .sm (fun _ _ => pure ()) (.ok ()) none s).1 = .error .typeError ∧
    sentOut (iterate ⟨regFull, none, none⟩ .sm (fun _ _ => pure ()) (.ok ()) none s).2.log = [] := by decide +kernel

example : regFull 0x04 = some (.oct .octetString) ∧ regFull 0x44 = some (.oct .opaque) ∧ NotText (.int 5) ∧
    mkOid (.str (lit ".1.3.6")) = .ok (some [1, 3, 6]) ∧ Reachable (k := .sm) ⟨regFull, none, none⟩ {} :=
  ⟨by decide, by decide, trivial, by decide +kernel, .ret, rfl⟩

end Libsnmp
