import Verif.Props.Walk

/-!
# C77: walks that go wrong
-/

namespace Libsnmp
open Spec

/-- The last turn of a walk. -/
theorem walk_last_turn {remote : Nat} {community : Str} {s s2 : Mgr .sm} (d : Option Val) (r : Except Exc Unit)
    (hp : poll scriptEnv .sm (fun cb m => (walkUser remote community cb m).exec scriptEnv) d s = (r, s2)) (ho : s2.outbound = [])
    (hr : r ≠ .error .queueEmpty) (socket : Except Exc Unit) (rest : List Net) :
    (runScript scriptEnv (walkUser remote community) walkPrints (⟨socket, d⟩ :: rest) s).status =
      (if r = .ok () then .exit 0 else endOf r) ∧
    (runScript scriptEnv (walkUser remote community) walkPrints (⟨socket, d⟩ :: rest) s).out = printed walkPrints s2.log ∧
    sentOut (runScript scriptEnv (walkUser remote community) walkPrints (⟨socket, d⟩ :: rest) s).mgr.log = sentOut s2.log := by
  rw [runScript_eq, List.map_cons, run_cons]
  simp only
  cases r with
  | ok u =>
    have := (C74_sm_idle_turn scriptEnv _ socket d s s2 hp ho).2 idleCb rfl
    simp only [walkUser, Act.exec] at this
    simp only [walkUser]
    rw [this]
    simp [endOf, Mgr.note, printed, sentOut]
  | error e =>
    have : iterate scriptEnv .sm (fun cb m => (walkUser remote community cb m).exec scriptEnv) socket d s = (.error e, s2) := by
      simp only [iterate, smIterate, M.bind_def, hp]
      split
      · next h =>
        simp only [Prod.mk.injEq, Except.error.injEq] at h
        exact absurd (by rw [h.1]) hr
      · rfl
    rw [this]
    simp

/-- An answer after which the walk does not ask again. -/
theorem walk_final {remote i : Nat} {s : Mgr .sm} {out : List Str} {prev : List (Str × Nat)} {o : Str} {community : Str}
    (hs : Walking remote i s out prev o) {m : Msg} {l : List Str} {res : Except Exc (Option (List Val))}
    (hres : res = .ok none ∨ ∃ e, res = .error e ∧ e ≠ .queueEmpty ∧ e ≠ .systemExit) {d : Val}
    (hck : walkCheck scriptTexts m = (l, res))
    (hrd : receiveData scriptEnv .sm (fun cb m => (walkUser remote community cb m).exec scriptEnv) d s =
        deliver (fun cb m => (walkUser remote community cb m).exec scriptEnv) responseCb m i s) (socket : Except Exc Unit)
    (rest : List Net) :
    let r := runScript scriptEnv (walkUser remote community) walkPrints (⟨socket, some d⟩ :: rest) s
    r.status = (match res with | .ok _ => .exit 0 | .error e => .traceback (reraiseAs e)) ∧ r.out = out ++ l := by
  intro r
  rcases hres with rfl | ⟨e, rfl, h1, h2⟩
  · have hu : walkUser remote community responseCb (some m) = .ret := by simp only [walkUser, hck]
    have hpoll : poll scriptEnv .sm (fun cb m => (walkUser remote community cb m).exec scriptEnv) (some d) s =
        (.ok (), { ((s.note (.entered responseCb (some m))).note (.left responseCb (some m) (.ok ()))) with
          callbacks := s.callbacks.erase i }) := by
      simp only [poll, hrd, deliver, invoke, hu, Act.exec]
      simp only [Mgr.note, hs.pending]
    obtain ⟨k1, k2, _⟩ := walk_last_turn (some d) _ hpoll hs.outbound (by simp) socket rest
    refine ⟨by simpa using k1, ?_⟩
    rw [k2]
    simp only [Mgr.note, printed_append, hs.shown]
    simp [printed, walkPrints, hck]
  · have hu : walkUser remote community responseCb (some m) = .raise e := by simp only [walkUser, hck]
    have hd : deliver (fun cb m => (walkUser remote community cb m).exec scriptEnv) responseCb m i s =
        (.error e, (s.note (.entered responseCb (some m))).note (.left responseCb (some m) (.error e))) := by
      simp only [deliver, invoke, hu, Act.exec]
    have hpoll : poll scriptEnv .sm (fun cb m => (walkUser remote community cb m).exec scriptEnv) (some d) s =
        (.error (reraiseAs e), (s.note (.entered responseCb (some m))).note (.left responseCb (some m) (.error e))) := by
      simp only [poll, hrd, hd]
      cases e <;> rfl
    obtain ⟨k1, k2, _⟩ := walk_last_turn (some d) _ hpoll hs.outbound
      (by intro hx; exact reraise_noEmpty h1 (Except.error.inj hx)) socket rest
    refine ⟨?_, ?_⟩
    · have e1 : r.status = _ := k1
      rw [e1]
      cases e <;> first | rfl | exact absurd rfl h2
    · rw [k2]
      simp only [Mgr.note, printed_append, hs.shown]
      simp [printed, walkPrints, hck]

/-- A datagram that is not delivered to the callback. -/
theorem walk_undelivered {remote i : Nat} {s : Mgr .sm} {out : List Str} {prev : List (Str × Nat)} {o : Str} {community : Str}
    (hs : Walking remote i s out prev o) {d : Val} {e : Exc} (h1 : e ≠ .queueEmpty) (h2 : e ≠ .systemExit)
    (hrd : receiveData scriptEnv .sm (fun cb m => (walkUser remote community cb m).exec scriptEnv) d s = (.error e, s))
    (socket : Except Exc Unit) (rest : List Net) :
    let r := runScript scriptEnv (walkUser remote community) walkPrints (⟨socket, some d⟩ :: rest) s
    r.status = .traceback (reraiseAs e) ∧ r.out = out := by
  intro r
  have hpoll : poll scriptEnv .sm (fun cb m => (walkUser remote community cb m).exec scriptEnv) (some d) s = (.error (reraiseAs e), s) := by
    simp only [poll, hrd]
    cases e <;> rfl
  obtain ⟨k1, k2, _⟩ := walk_last_turn (some d) _ hpoll hs.outbound
    (by intro hx; exact reraise_noEmpty h1 (Except.error.inj hx)) socket rest
  refine ⟨?_, by rw [k2, hs.shown]⟩
  have e1 : r.status = _ := k1
  rw [e1]
  cases e <;> first | rfl | exact absurd rfl h2

/-- The walk up to any entry it shows, and from there whatever happens. -/
theorem mib_point (addr : Str → Nat) {server community oid : Str} {ids : List Nat} (ho : OidNames (.str oid) ids)
    (hr : ∃ x, Denotes regFull (.oid ids) x) {mib : List VB} (hm : GoodMib mib) {agent : Str → Option Str}
    (hagent : Agent community (GetAnswer mib) (nextAnswer mib) agent)
    (hshort : ShortDatagrams agent (snmpwalk addr [server, community, oid])) :
    ∃ b, GetAnswer mib ids b ∧ ∀ pre c post, shown mib b = pre ++ c :: post → (∀ x ∈ pre, ¬ HasCounter64 x.value) →
      ∀ lines, AllLines pre lines → ∃ s prev o, Walking (addr server) pre.length s lines prev o ∧ pre.length ≤ 2147483647 ∧
        ∀ net, snmpwalk addr [server, community, oid]
            (closedNet agent (snmpwalk addr [server, community, oid]) (pre.length + 1) ++ net) =
          runScript scriptEnv (walkUser (addr server) community) walkPrints net s := by
  obtain ⟨s0, b, h1, h2, h3⟩ := mib_walk (server := server) addr ho hr hm hagent hshort
  refine ⟨b, h2, fun pre c post hsh hpre lines hlines => ?_⟩
  obtain ⟨⟨s, o, a, hrec⟩, hold, hlen⟩ := h3 pre c post hsh hpre lines hlines
  refine ⟨s, _, o, hrec.closed.walking, hlen, fun net => ?_⟩
  rw [h1.runs, runScript_eq, runScript_eq, List.map_append, run_append, hrec.closed.ran]

/-- What ends a walk instead of the agent's answer to request `i`: the datagram, the program's status, the lines added. -/
inductive Disturbed (i : Nat) : Val → Status → List Str → Prop
  /-- An answer with an error status that has a text. -/
  | error {version : Int} {com : Str} {p : Pdu} {a t : Str} {text : String} : version = 0 ∨ version = 1 → p.tag = 0xa2 → p.requestID = i →
      Int32 p.errorStatus → Int32 p.errorIndex → (∀ b ∈ p.bindings, Holdable regFull b) → p.bindings.length ≤ 2147483647 →
      MessageOctets version com p a → p.errorStatus ≠ 0 → Decimal p.errorStatus t → StatusText True p.errorStatus text →
      Disturbed i (.str a) (.exit 0) [lit "Error: " ++ (t ++ lit ": " ++ lit text)]
  /-- One with another error status. -/
  | noText {version : Int} {com : Str} {p : Pdu} {a : Str} : version = 0 ∨ version = 1 → p.tag = 0xa2 → p.requestID = i →
      Int32 p.errorStatus → Int32 p.errorIndex → (∀ b ∈ p.bindings, Holdable regFull b) → p.bindings.length ≤ 2147483647 →
      MessageOctets version com p a → ¬ (0 ≤ p.errorStatus ∧ p.errorStatus ≤ 18) → Disturbed i (.str a) (.traceback .keyError) []
  /-- One without bindings. -/
  | nothing {version : Int} {com : Str} {p : Pdu} {a : Str} : version = 0 ∨ version = 1 → p.tag = 0xa2 → p.requestID = i →
      Int32 p.errorIndex → MessageOctets version com p a → p.errorStatus = 0 → p.bindings = [] →
      Disturbed i (.str a) (.traceback .indexError) []
  /-- An answer to another request, such as one that came twice. -/
  | other {version : Int} {com : Str} {p : Pdu} {a : Str} : version = 0 ∨ version = 1 → p.tag = 0xa2 → p.requestID ≠ i →
      Int32 p.requestID → Int32 p.errorStatus → Int32 p.errorIndex → (∀ b ∈ p.bindings, Holdable regFull b) →
      p.bindings.length ≤ 2147483647 → MessageOctets version com p a → Disturbed i (.str a) (.traceback .keyError) []
  /-- Octets that the decoder refuses. -/
  | refused {d : Val} {e : Exc} : msgDecode regFull .message2 d = .error e → Disturbed i d (.traceback (reraiseAs e)) []

theorem walk_disturbed {remote i : Nat} {s : Mgr .sm} {out : List Str} {prev : List (Str × Nat)} {o : Str} {community : Str}
    (hs : Walking remote i s out prev o) (hi : i ≤ 2147483647) {d : Val} {status : Status} {l : List Str}
    (hd : Disturbed i d status l) (socket : Except Exc Unit) (rest : List Net) :
    let r := runScript scriptEnv (walkUser remote community) walkPrints (⟨socket, some d⟩ :: rest) s
    r.status = status ∧ r.out = out ++ l := by
  have hid : Int32 (i : Int) := ⟨by omega, by omega⟩
  have hes : ∀ {m : Msg} {es ei : Int} {ys : List Val}, m.data = response2Object i es ei ys → es ≠ 0 →
      walkCheck scriptTexts m = ((printError scriptTexts (.integer .errorStatus2 es)).1,
        (printError scriptTexts (.integer .errorStatus2 es)).2.map fun _ => none) := by
    intro m es ei ys h1 hne
    unfold walkCheck
    rw [h1]
    simp only [response2Object, pduErrorStatus, Val.toInt, if_pos hne]
  cases hd with
  | @error version com p a t text hv hp hr he hx hb hl ha hne ht htext =>
    obtain ⟨m, ys, h1, h2, h3⟩ := sm_answer (walkUser remote community) hs.numeric hv hp ha (by rw [hr]; exact hid) he hx hb hl
      (cb := responseCb) (by rw [hr]; exact hs.pending)
    rw [hr] at h1 h3
    have hck := hes h1 hne
    have hst := (script_text (.integer .errorStatus2 p.errorStatus) _).mpr (.status (.inr rfl) ht htext)
    simp only [printError, hst] at hck
    exact walk_final hs (.inl rfl) hck h3 socket rest
  | @noText version com p a hv hp hr he hx hb hl ha hne =>
    obtain ⟨m, ys, h1, h2, h3⟩ := sm_answer (walkUser remote community) hs.numeric hv hp ha (by rw [hr]; exact hid) he hx hb hl
      (cb := responseCb) (by rw [hr]; exact hs.pending)
    rw [hr] at h1 h3
    have hck := hes h1 (by omega)
    have hst : valStr scriptTexts (.integer .errorStatus2 p.errorStatus) = .error .keyError := by
      rw [← installed_texts]
      have := (C57_which installed p.errorStatus).2 (by rw [installed_iff]; simp only [and_true]; omega)
      simpa [valStr] using this
    simp only [printError, hst] at hck
    exact walk_final hs (.inr ⟨_, rfl, by simp, by simp⟩) hck h3 socket rest
  | @nothing version com p a hv hp hr hx ha h0 hnil =>
    have he : Int32 p.errorStatus := by rw [h0]; exact ⟨by decide, by decide⟩
    obtain ⟨m, ys, h1, h2, h3⟩ := sm_answer (walkUser remote community) hs.numeric hv hp ha (by rw [hr]; exact hid) he hx
      (by rw [hnil]; simp) (by rw [hnil]; simp) (cb := responseCb) (by rw [hr]; exact hs.pending)
    rw [hr] at h1 h3
    rw [hnil] at h2
    cases h2
    have hck : walkCheck scriptTexts m = ([], .error .indexError) := by
      unfold walkCheck
      rw [h1]
      simp only [response2Object, pduErrorStatus, Val.toInt, h0, pduVarBindList]
      rfl
    exact walk_final hs (.inr ⟨_, rfl, by simp, by simp⟩) hck h3 socket rest
  | @other version com p a hv hp hne hr he hx hb hl ha =>
    have := walk_undelivered (community := community) hs (d := .str a) (e := .keyError) (by simp) (by simp) ?_ socket rest
    · simpa [reraiseAs] using this
    have hreg : Understands1155 regFull := imported_understands imported_full
    have hc : regFull p.tag = some (.seq .response2) := by rw [hp]; rfl
    obtain ⟨ci, co, y, ys, hm, hmk, hf, hcar⟩ := message_decoded hreg .message2 .response2 ha (by rw [hp]; decide) hc
      (by decide) hr he hx hb hl
    have e := receive_eq scriptEnv .sm (fun cb m => (walkUser remote community cb m).exec scriptEnv) (keepsNumeric_exec scriptEnv _)
      (.str a) s hs.numeric
    show receiveRaw scriptEnv .sm _ (.str a) s = _
    have hm' : msgDecode scriptEnv.reg (msgCls .sm) (.str a) = _ := hm
    rw [e, hm']
    have ha : accepts .sm ⟨.message2, .integer ci version, .octets co com, y⟩ := by
      rcases hv with rfl | rfl <;> simp [accepts, versionNo]
    have hn : answers .sm ⟨.message2, .integer ci version, .octets co com, y⟩ = some p.requestID := by
      obtain ⟨c1, c2, c3, cl, hcl, rfl⟩ := hf
      simp only [answers, answerCls]
      rw [if_pos]
      split <;> decide
    simp only [ha, if_true, dispatched, hn, hs.others _ hne]
  | @refused _ e h =>
    have hn := msgDecode_exc imported_full h
    have := walk_undelivered (community := community) hs (d := d) (e := e) (by rintro rfl; exact msgDecode_noEmpty imported_full h)
      (by rintro rfl; simp [Exc.isException] at hn) ?_ socket rest
    · simpa using this
    have he := receive_eq scriptEnv .sm (fun cb m => (walkUser remote community cb m).exec scriptEnv) (keepsNumeric_exec scriptEnv _)
      d s hs.numeric
    have hd' : msgDecode scriptEnv.reg (msgCls .sm) d = .error e := h
    rw [hd'] at he
    exact he

/-- **C77**: what ends a walk at any point other than the end: an answer with an error status (its text is printed, status
0), with one that has no text (KeyError) or without bindings (IndexError); and any datagram from anywhere that is well-formed
but answers another request - such as a duplicate of an earlier answer (KeyError) - or that is not well-formed.  In each case
everything before has been shown, and nothing after it is. -/
theorem C77_disturbed (addr : Str → Nat) {server community oid : Str} {ids : List Nat} (ho : OidNames (.str oid) ids)
    (hr : ∃ x, Denotes regFull (.oid ids) x) {mib : List VB} (hm : GoodMib mib)
    {agent : Str → Option Str} (hagent : Agent community (GetAnswer mib) (nextAnswer mib) agent)
    (hshort : ShortDatagrams agent (snmpwalk addr [server, community, oid])) :
    ∃ b, GetAnswer mib ids b ∧ ∀ pre c post, shown mib b = pre ++ c :: post → (∀ x ∈ pre, ¬ HasCounter64 x.value) →
      ∀ lines, AllLines pre lines → ∀ d status l, Disturbed pre.length d status l → ∀ socket rest,
      let r := snmpwalk addr [server, community, oid]
        (closedNet agent (snmpwalk addr [server, community, oid]) (pre.length + 1) ++ ⟨socket, some d⟩ :: rest)
      r.status = status ∧ r.out = lines ++ l := by
  obtain ⟨b, h1, h2⟩ := mib_point (server := server) addr ho hr hm hagent hshort
  refine ⟨b, h1, fun pre c post hsh hpre lines hlines d status l hd socket rest => ?_⟩
  obtain ⟨s, prev, o, g1, g2, g3⟩ := h2 pre c post hsh hpre lines hlines
  intro r
  have : r = _ := g3 _
  rw [this]
  exact walk_disturbed g1 g2 hd socket rest

/-- **C77**: a wrong number of arguments gives the usage line of snmpget.py and exit status 1; a text that is no object
identifier is a ValueError. -/
theorem C77_not_started (addr : Str → Nat) :
    (∀ args, args.length ≠ 3 → FailsAtOnce (snmpwalk addr args) (.exit 1) [lit "Usage: snmpget.py <server> <community> <oid>"]) ∧
    (∀ server community oid, (∀ v, mkOid (.str oid) ≠ .ok v) →
      FailsAtOnce (snmpwalk addr [server, community, oid]) (.traceback .valueError) []) := by
  refine ⟨fun args h net => ?_, fun server community oid h => ?_⟩
  · unfold snmpwalk
    split
    · exact absurd rfl h
    · exact ⟨rfl, rfl, rfl, rfl⟩
  · have hm : mkOid (.str oid) = .error .valueError := by
      rcases C16_oid_text_validated oid with h1 | ⟨ids, h1, _⟩
      · exact h1
      · exact absurd h1 (h _)
    refine fails_at_once ?_ _ _
    simp [callBody, smSnmpGet, smCreateGetRequestMessage, hm, M.bind_def, M.lift_def]

-- a garbage datagram
example : Disturbed 3 (.str [4, 1, 0]) (.traceback .typeError) [] := by
  have h : msgDecode regFull .message2 (.str [4, 1, 0]) = .error .typeError := by decide +kernel
  exact .refused h

end Libsnmp
