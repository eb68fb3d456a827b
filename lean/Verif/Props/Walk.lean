import Verif.Spec.Walk
import Verif.Props.Scripts
import Verif.Props.Relay

/-!
# C77: snmpwalk.py
-/

namespace Libsnmp
open Spec

/-- What the callback of snmpwalk.py prints. -/
abbrev walkPrints : Msg → List Str := fun m => (walkCheck scriptTexts m).1

/-- The state between two turns of a walk: request `i` is the only one pending and was the last to be sent. -/
structure Walking (remote i : Nat) (s : Mgr .sm) (out : List Str) (prev : List (Str × Nat)) (o : Str) : Prop where
  outbound : s.outbound = []
  numeric : s.callbacks.Numeric
  pending : s.callbacks.at i = some responseCb
  others : ∀ j, j ≠ (i : Int) → s.callbacks.at j = none
  next : s.nextRequestID = i + 1
  sent : sentOut s.log = prev ++ [(o, remote)]
  shown : printed walkPrints s.log = out

theorem printed_append {k : Kind} (f : Msg → List Str) (a b : List (Obs k)) :
    printed f (a ++ b) = printed f a ++ printed f b := List.flatMap_append ..

/-- The program: a Get, then the loop. -/
theorem walk_start (addr : Str → Nat) {server community oid : Str} {ids : List Nat} (ho : OidNames (.str oid) ids) :
    ∃ o s0 s1, (o.length < 256 ^ 127 → MessageOctets 1 community { tag := 0xa0, requestID := 0, bindings := [⟨ids, .null .null⟩] } o) ∧
      (∀ net, snmpwalk addr [server, community, oid] net =
        runScript scriptEnv (walkUser (addr server) community) walkPrints net s0) ∧
      sentOut s0.log = [] ∧ Walking (addr server) 0 s1 [] [] o ∧
      iterate scriptEnv .sm (fun cb m => (walkUser (addr server) community cb m).exec scriptEnv) (.ok ()) none s0 = (.ok (), s1) := by
  let c : SmCall := SmCall.get (.str oid) (addr server) responseCb community 2
  have ha : AsksFor scriptEnv (k := .sm) c 1 0xa0 [⟨ids, .null .null⟩] := ⟨by omega, rfl, ids, ho, rfl⟩
  have hok : CallOk scriptEnv (k := .sm) c := ⟨.inr rfl, _, ho.1⟩
  rcases first_call scriptEnv c responseCb rfl with ⟨e, s, h1, _⟩ | ⟨ci, m, s, h1, h2, h3, h4, h5, h6, h7, h8⟩
  · have := (C44_exact scriptEnv (k := .sm) c (by simp [c, callbackOf]) {}).1.mpr ⟨hok, Nat.zero_le _⟩
    rw [h1] at this
    obtain ⟨v, hv⟩ := this
    cases hv
  · obtain ⟨o, e1, e2⟩ := C72_request_octets scriptEnv (k := .sm) c 0 (by decide) m h2 1 0xa0 [⟨ids, .null .null⟩] ha
    have hd : datagramOf (some m, remoteOf (k := .sm) c) = some (o, addr server) := by simp [datagramOf, e1, c, remoteOf]
    refine ⟨o, s, { s with outbound := [], log := s.log ++ leaves .sm (some m, remoteOf (k := .sm) c) }, e2, ?_, ?_, ?_, ?_⟩
    · intro net; exact askAndRun_ok h1 _ _ _
    · rw [h8]; rfl
    · refine ⟨rfl, h4, h5, h6, h7, ?_, ?_⟩
      · simp only [leaves, hd, h8]; rfl
      · simp only [leaves, hd, h8]; rfl
    · rw [C74_sm_sending_turn scriptEnv _ (.ok ()) (by simp) s _ _ h3]
      simp only [sendOutcome, e1]

/-- An answer reaches the callback. -/
theorem walk_answer {remote i : Nat} {s : Mgr .sm} {out : List Str} {prev : List (Str × Nat)} {o : Str} {community com : Str}
    (hs : Walking remote i s out prev o) (hi : i ≤ 2147483647) {b : VB} {a : Str}
    (ha : MessageOctets 1 com { tag := 0xa2, requestID := i, bindings := [b] } a) (hb : Holdable regFull b) {l : List Str}
    (hl : WalkLines b l) :
    ∃ m ys, Carries regFull [b] ys ∧
      walkCheck scriptTexts m = (l, if isEnd b.value then .error .systemExit else .ok (some ys)) ∧
      receiveData scriptEnv .sm (fun cb m => (walkUser remote community cb m).exec scriptEnv) (.str a) s =
        deliver (fun cb m => (walkUser remote community cb m).exec scriptEnv) responseCb m i s := by
  have h0 : Int32 0 := ⟨by decide, by decide⟩
  obtain ⟨m, ys, h1, h2, h3⟩ := sm_answer (walkUser remote community) hs.numeric (.inr rfl) rfl ha
    (show Int32 (i : Int) from ⟨by omega, by omega⟩) h0 h0 (by simpa using hb) (by simp) (cb := responseCb) hs.pending
  refine ⟨m, ys, h2, ?_, h3⟩
  unfold walkCheck
  rw [h1]
  simp only [response2Object, pduErrorStatus, Val.toInt, pduVarBindList, ne_eq, not_true_eq_false, if_false,
    walkUnwrap_lines h2 hl]
  cases isEnd b.value <;> rfl

/-- A turn that receives the end. -/
theorem walk_end {remote i : Nat} {s : Mgr .sm} {out : List Str} {prev : List (Str × Nat)} {o : Str} {community com : Str}
    (hs : Walking remote i s out prev o) (hi : i ≤ 2147483647) {b : VB} {a : Str}
    (ha : MessageOctets 1 com { tag := 0xa2, requestID := i, bindings := [b] } a) (hb : Holdable regFull b) {l : List Str}
    (hl : WalkLines b l) (he : isEnd b.value = true) :
    ∃ s', iterate scriptEnv .sm (fun cb m => (walkUser remote community cb m).exec scriptEnv) (.ok ()) (some (.str a)) s =
        (.error .systemExit, s') ∧ printed walkPrints s'.log = out ++ l ∧ sentOut s'.log = sentOut s.log := by
  obtain ⟨m, ys, h1, h2, h3⟩ := walk_answer (community := community) hs hi ha hb hl
  rw [he, if_pos rfl] at h2
  have hu : walkUser remote community responseCb (some m) = .raise .systemExit := by simp only [walkUser, h2]
  have hd : deliver (fun cb m => (walkUser remote community cb m).exec scriptEnv) responseCb m i s =
      (.error .systemExit, (s.note (.entered responseCb (some m))).note (.left responseCb (some m) (.error .systemExit))) := by
    simp only [deliver, invoke, hu, Act.exec]
  refine ⟨(s.note (.entered responseCb (some m))).note (.left responseCb (some m) (.error .systemExit)), ?_, ?_, ?_⟩
  · simp only [iterate, smIterate, M.bind_def, poll, h3, hd, handleError]
    rfl
  · simp only [Mgr.note, printed_append, hs.shown]
    simp [printed, walkPrints, h2]
  · simp [Mgr.note, sentOut]

/-- A turn without a datagram. -/
theorem walk_idle {remote i : Nat} {s : Mgr .sm} {out : List Str} {prev : List (Str × Nat)} {o : Str} {community : Str}
    (hs : Walking remote i s out prev o) :
    ∃ s', iterate scriptEnv .sm (fun cb m => (walkUser remote community cb m).exec scriptEnv) (.ok ()) none s =
        (.error .systemExit, s') ∧ printed walkPrints s'.log = out ∧ sentOut s'.log = sentOut s.log := by
  have := (C74_sm_idle_turn scriptEnv (fun cb m => (walkUser remote community cb m).exec scriptEnv) (.ok ()) none s s rfl
    hs.outbound).2 idleCb rfl
  refine ⟨_, this, ?_, ?_⟩
  · simp only [Mgr.note, printed_append]
    simp only [walkUser, Act.exec, printed_append, hs.shown]
    simp [printed]
  · simp [Mgr.note, sentOut, walkUser, Act.exec]

/-- A turn that receives an answer and asks for its successor. -/
theorem walk_step {remote i : Nat} {s : Mgr .sm} {out : List Str} {prev : List (Str × Nat)} {o : Str} {community com : Str}
    (hs : Walking remote i s out prev o) (hi : i ≤ 2147483647) {b : VB} {a : Str}
    (ha : MessageOctets 1 com { tag := 0xa2, requestID := i, bindings := [b] } a) (hb : Holdable regFull b) {l : List Str}
    (hl : WalkLines b l) (he : isEnd b.value = false) :
    ∃ ys m, Carries regFull [b] ys ∧
      Sends scriptEnv (k := .sm) (SmCall.getNext ys remote responseCb community 2) ((i + 1 : Nat) : Int) (some m) ∧
      ∀ o', m.encode = .ok o' → ∃ s',
        iterate scriptEnv .sm (fun cb m => (walkUser remote community cb m).exec scriptEnv) (.ok ()) (some (.str a)) s =
          (.ok (), s') ∧ Walking remote (i + 1) s' (out ++ l) (sentOut s.log) o' := by
  obtain ⟨m, ys, h1, h2, h3⟩ := walk_answer (community := community) hs hi ha hb hl
  rw [he] at h2
  simp only [Bool.false_eq_true, if_false] at h2
  let c : SmCall := SmCall.getNext ys remote responseCb community 2
  let s1 := s.note (.entered responseCb (some m))
  obtain ⟨i1, i2⟩ := carries_instances h1
  have hok : CallOk scriptEnv (k := .sm) c := ⟨.inr ⟨rfl, by simp [i1]⟩, i2⟩
  have hlast : s1.nextRequestID ≤ lastID (k := .sm) c := by
    show s.nextRequestID ≤ 2147483648
    rw [hs.next]; omega
  obtain ⟨v, hv⟩ := (C44_exact scriptEnv (k := .sm) c (by simp [c, callbackOf]) s1).1.mpr ⟨hok, hlast⟩
  have hef := call_effect scriptEnv .sm c s1
  unfold doCall at hv
  generalize hq : callBody scriptEnv .sm c s1 = q at hef hv
  cases hef with
  | failed e j hj => cases hv
  | trap m' hcb hm => simp [c, callbackOf] at hcb
  | request ci cb m' key d' hcb hm hk hd =>
    have hcb' : cb = responseCb := by simpa [c, callbackOf] using hcb.symm
    subst hcb'
    have hn : s1.nextRequestID = i + 1 := hs.next
    rw [hn] at hm hk
    have hnum : s1.callbacks.Numeric := hs.numeric
    obtain ⟨d2, g1, g2, g3⟩ := Dict.put_num hnum hk responseCb
    rw [g1] at hd
    cases hd
    refine ⟨ys, m', h1, hm, fun o' ho' => ?_⟩
    have hu : walkUser remote community responseCb (some m) = .call c fun r => match r with
        | .ok _ => .ret
        | .error e => .raise e := by
      simp only [walkUser, h2]
      rfl
    have hcall : doCall scriptEnv (k := .sm) c s1 = (.ok (.integer ci (i + 1 : Nat)),
        ({ s1 with nextRequestID := s1.nextRequestID + 1, outbound := s1.outbound ++ [(some m', remoteOf (k := .sm) c)], callbacks := d' } : Mgr .sm).note (.called c (.ok (.integer ci (i + 1 : Nat))))) := by
      unfold doCall
      rw [hq, hn]
    generalize hs2 : ({ s1 with nextRequestID := s1.nextRequestID + 1, outbound := s1.outbound ++ [(some m', remoteOf (k := .sm) c)], callbacks := d' } : Mgr .sm).note (.called c (.ok (.integer ci (i + 1 : Nat)))) = s2 at hcall
    have hat : d'.at i = some responseCb := by
      rw [g3, if_neg (by omega)]; exact hs.pending
    have hd : deliver (fun cb m => (walkUser remote community cb m).exec scriptEnv) responseCb m i s =
        (.ok (), { (s2.note (.left responseCb (some m) (.ok ()))) with callbacks := d'.erase i }) := by
      have hc2 : s2.callbacks = d' := by rw [← hs2]; rfl
      simp only [deliver, invoke, hu, Act.exec, hcall, s1]
      simp only [Mgr.note, hc2, hat]
    have hdg : datagramOf (some m', remote) = some (o', remote) := by simp [datagramOf, ho']
    generalize hs3 : ({ (s2.note (.left responseCb (some m) (.ok ()))) with callbacks := d'.erase i } : Mgr .sm) = s3 at hd
    have ho3 : s3.outbound = [(some m', remote)] := by
      rw [← hs3, ← hs2]
      show s.outbound ++ [(some m', remote)] = _
      rw [hs.outbound]; rfl
    have hlog : s3.log = s.log ++ [.entered responseCb (some m)] ++ [.called c (.ok (.integer ci (i + 1 : Nat)))] ++
        [.left responseCb (some m) (.ok ())] := by rw [← hs3, ← hs2]; rfl
    refine ⟨{ s3 with outbound := [], log := s3.log ++ leaves .sm (some m', remote) }, ?_, ?_⟩
    · simp only [iterate, smIterate, M.bind_def, poll, h3, hd]
      rw [takeAndSend_leaves (.ok ()) s3 _ [] ho3]
      simp only [sendOutcome, ho']
    · have hcb3 : s3.callbacks = d'.erase i := by rw [← hs3]
      refine ⟨rfl, ?_, ?_, ?_, ?_, ?_, ?_⟩
      · show s3.callbacks.Numeric
        rw [hcb3]; exact Dict.erase_numeric g2 _
      · show s3.callbacks.at _ = _
        rw [hcb3, Dict.at_erase, if_neg (by push_cast; omega), g3, if_pos rfl]
      · intro j hj
        show s3.callbacks.at _ = _
        rw [hcb3, Dict.at_erase]
        by_cases hji : j = (i : Int)
        · rw [if_pos hji]
        · rw [if_neg hji, g3, if_neg hj]; exact hs.others j hji
      · rw [← hs3, ← hs2]
        show s.nextRequestID + 1 = _
        rw [hs.next]
      · simp only [hlog, leaves, hdg, sentOut_append]
        simp [sentOut]
      · simp only [hlog, leaves, hdg, printed_append, hs.shown]
        simp [printed, walkPrints, h2]

/-! ## Octets -/

theorem tlv_prefix {t t' : Nat} {c c' o o' r r' : Str} (h : Tlv t c o) (h' : Tlv t' c' o') (e : o ++ r = o' ++ r') :
    o = o' ∧ r = r' := by
  rcases List.append_eq_append_iff.mp e with ⟨q, e1, e2⟩ | ⟨q, e1, e2⟩
  · subst e1
    obtain ⟨-, -, rfl⟩ := tlv_unique h h'
    simpa using e2
  · subst e1
    obtain ⟨-, -, rfl⟩ := tlv_unique h' h
    simpa using e2.symm

theorem message_value {version : Int} {com : Str} {tag : Nat} {id : Int} {b : VB} {a : Str}
    (h : MessageOctets version com { tag := tag, requestID := id, bindings := [b] } a) :
    (∃ s, Ber (.oid b.name) s) ∧ ∃ s, Ber b.value s := by
  cases h with
  | mk _ _ h3 _ =>
    cases h3 with
    | mk _ _ _ h4 _ =>
      cases h4 with
      | seq _ _ _ hl _ =>
        cases hl with
        | cons hb _ =>
          cases hb with
          | seq _ _ _ hl _ =>
            cases hl with
            | cons hn ht =>
              cases ht with
              | cons hv _ => exact ⟨⟨_, hn⟩, _, hv⟩

/-- A name that came from the wire is sent on as it is; so the echo of a binding is a binding of the same name. -/
theorem echo_name {ids ids' : List Nat} (h : Echo (.oid ids) (.oid ids')) : ids' = ids := by cases h; rfl

theorem echo_binding {b : VB} (h1 : ∃ s, Ber (.oid b.name) s) (h2 : ∃ s, Ber b.value s) (hc : ¬ HasCounter64 b.value) :
    ∃ b', EchoVB b b' ∧ b'.name = b.name := by
  obtain ⟨s1, h1⟩ := h1
  obtain ⟨s2, h2⟩ := h2
  obtain ⟨v, hv⟩ := (echo_exists _ _ h2).resolve_right hc
  obtain ⟨n, hn⟩ := (echo_exists _ _ h1).resolve_right (by intro h; cases h)
  obtain ⟨name, value⟩ := b
  cases hn with
  | oid ha hb => exact ⟨⟨_, v⟩, ⟨.oid ha hb, hv⟩, rfl⟩

/-- What is sent after a binding with a Counter64 in its value is no SNMP message. -/
theorem counter64_message {ys : List Val} {b : VB} (hc : Carries regFull [b] ys) (h1 : ∃ s, Ber (.oid b.name) s)
    (h2 : ∃ s, Ber b.value s) (h64 : HasCounter64 b.value) {id : Int} (hid : 0 ≤ id) {m : Msg} {remote cb : Nat} {community : Str}
    (hm : Sends scriptEnv (k := .sm) (SmCall.getNext ys remote cb community 2) id (some m)) :
    ∃ o, m.encode = .ok o ∧ (o.length < 256 ^ 127 → ∀ v c p, ¬ MessageOctets v c p o) := by
  rcases hm with ⟨h, _⟩ | ⟨-, hm⟩
  · cases h
  cases hm
  cases hc with
  | cons hy ht =>
    cases ht
    obtain ⟨cb', name, value, hcb', rfl, d1, d2⟩ := hy
    obtain ⟨s1, h1⟩ := h1
    obtain ⟨s2, h2⟩ := h2
    obtain ⟨t, et, gt⟩ := denotesList_counter64 imported_full [.oid b.name, b.value] (s1 ++ (s2 ++ [])) (.cons h1 (.cons h2 .nil))
      [name, value] (.cons d1 (.cons d2 .nil))
    have h0 : OutOfBand 0 := outOfBand_nonneg (by decide)
    obtain ⟨y, ey, ly, ty⟩ := tlv_ok t (sequence_identifier (c := cb') (by rcases hcb' with rfl | rfl <;> decide))
    obtain ⟨l, el, ll, tl⟩ := tlv_ok y (sequence_identifier (c := .varBindList2) (by decide))
    obtain ⟨i1, e1, b1⟩ := encode_ber _ _ (.integer .integer32 id (by decide) (outOfBand_nonneg hid))
    obtain ⟨i2, e2, b2⟩ := encode_ber _ _ (.integer .errorStatus2 0 (by decide) h0)
    obtain ⟨i3, e3, b3⟩ := encode_ber _ _ (.integer .integer 0 (by decide) h0)
    obtain ⟨v1, f1, g1⟩ := encode_ber _ _ (.integer .integer 1 (by decide) (outOfBand_nonneg (by decide)))
    obtain ⟨v2, f2, g2⟩ := encode_ber _ _ (.string .octetString .octetString community (by decide))
    obtain ⟨p, ep, lp, tp⟩ := tlv_ok (c := .seq .getNext2) (t := 0xa1) (i1 ++ (i2 ++ (i3 ++ l))) (by decide +kernel)
    obtain ⟨o, eo, lo, to'⟩ := tlv_ok (c := .seq .message2) (t := 0x30) (v1 ++ (v2 ++ p)) (by decide +kernel)
    have hl : (Val.seq .varBindList2 [.seq cb' [name, value]]).encode = .ok l := by
      rw [Val.encode]
      simp only [encodeItems]
      rw [Val.encode, et]
      simp only [ey, List.append_nil]
      exact el
    have hp : (Val.seq .getNext2 [.integer .integer32 id, .integer .errorStatus2 0, .integer .integer 0,
        .seq .varBindList2 [.seq cb' [name, value]]]).encode = .ok p := by
      rw [Val.encode]
      simp only [encodeItems, e1, e2, e3, hl, List.append_nil]
      exact ep
    refine ⟨o, ?_, fun hlen v c q hq => ?_⟩
    · unfold Msg.encode
      simp only [v2Msg, encodeItems, f1, f2, hp, List.append_nil]
      exact eo
    · simp only [List.length_append] at lp lo
      obtain ⟨k1, a1⟩ := ber_tag (g1 (by omega))
      obtain ⟨k2, a2⟩ := ber_tag (g2 (by omega))
      obtain ⟨k3, a3⟩ := ber_tag (b1 (by omega))
      obtain ⟨k4, a4⟩ := ber_tag (b2 (by omega))
      obtain ⟨k5, a5⟩ := ber_tag (b3 (by omega))
      cases hq with
      | mk w1 w2 w3 w =>
        obtain ⟨-, u, -⟩ := tlv_unique (r := []) (to' hlen) (by rw [List.append_nil]; exact w)
        obtain ⟨j1, x1⟩ := ber_tag w1
        obtain ⟨j2, x2⟩ := ber_tag w2
        obtain ⟨-, u⟩ := tlv_prefix a1 x1 u
        obtain ⟨-, u⟩ := tlv_prefix a2 x2 u
        subst u
        cases w3 with
        | mk w1 w2 w3 w4 w =>
          obtain ⟨-, u, -⟩ := tlv_unique (r := []) (tp (by omega)) (by rw [List.append_nil]; exact w)
          obtain ⟨j1, x1⟩ := ber_tag w1
          obtain ⟨j2, x2⟩ := ber_tag w2
          obtain ⟨j3, x3⟩ := ber_tag w3
          obtain ⟨-, u⟩ := tlv_prefix a3 x1 u
          obtain ⟨-, u⟩ := tlv_prefix a4 x2 u
          obtain ⟨-, u⟩ := tlv_prefix a5 x3 u
          subst u
          cases w4 with
          | seq _ c' _ hl' ht' =>
            obtain ⟨-, u, -⟩ := tlv_unique (r := []) (tl (by omega)) (by rw [List.append_nil]; exact ht')
            subst u
            have : y = y ++ [] := by simp
            rw [this] at hl'
            obtain ⟨x, xs, he, hx, _⟩ := berList_split (ty (by omega)) hl'
            cases hbs : q.bindings with
            | nil => rw [hbs] at he; simp at he
            | cons q0 qs =>
              rw [hbs] at he
              simp only [List.map_cons, List.cons.injEq] at he
              rw [← he.1] at hx
              cases hx with
              | seq _ c'' _ hl'' ht'' =>
                obtain ⟨-, u, -⟩ := tlv_unique (r := []) (ty (by omega)) (by rw [List.append_nil]; exact ht'')
                subst u
                exact gt (by omega) ⟨b.value, by simp, h64⟩ _ hl''

/-! ## The closed loop -/

/-- The fixed things of a walk. -/
structure Setting (addr : Str → Nat) (server community oid : Str) (agent : Str → Option Str) (s0 : Mgr .sm) : Prop where
  runs : ∀ net, snmpwalk addr [server, community, oid] net =
    runScript scriptEnv (walkUser (addr server) community) walkPrints net s0

/-- After `n` turns of the closed loop the walk is waiting for the answer to its last request `o`, request number `i`. -/
structure Closed (addr : Str → Nat) (server community oid : Str) (agent : Str → Option Str) (s0 : Mgr .sm) (n i : Nat)
    (s : Mgr .sm) (out : List Str) (o : Str) : Prop where
  ran : run scriptEnv .sm ((closedNet agent (snmpwalk addr [server, community, oid]) n).map
    fun t => ⟨t.socket, t.datagram, walkUser (addr server) community⟩) s0 = (.ok (), s)
  walking : Walking (addr server) i s out
    (sentOut (snmpwalk addr [server, community, oid] (closedNet agent (snmpwalk addr [server, community, oid]) n).dropLast).mgr.log) o

theorem closedNet_succ (agent : Str → Option Str) (prog : List Net → ScriptRun .sm) (n : Nat) :
    ∃ t, closedNet agent prog (n + 1) = closedNet agent prog n ++ [t] := ⟨_, rfl⟩

theorem closedNet_prefix (agent : Str → Option Str) (prog : List Net → ScriptRun .sm) {n m : Nat} (h : n ≤ m) :
    ∃ l, closedNet agent prog m = closedNet agent prog n ++ l := by
  induction h with
  | refl => exact ⟨[], by simp⟩
  | step _ ih =>
    obtain ⟨l, ih⟩ := ih
    obtain ⟨t, ht⟩ := closedNet_succ agent prog ‹_›
    exact ⟨l ++ [t], by rw [ht, ih, List.append_assoc]⟩

variable {addr : Str → Nat} {server community oid : Str} {agent : Str → Option Str} {s0 : Mgr .sm}

/-- One turn of the closed loop. -/
theorem closed_turn (hset : Setting addr server community oid agent s0) {n i : Nat} {s : Mgr .sm} {out : List Str} {o : Str}
    (h : Closed addr server community oid agent s0 n i s out o) :
    run scriptEnv .sm ((closedNet agent (snmpwalk addr [server, community, oid]) (n + 1)).map
        fun t => ⟨t.socket, t.datagram, walkUser (addr server) community⟩) s0 =
      iterate scriptEnv .sm (fun cb m => (walkUser (addr server) community cb m).exec scriptEnv) (.ok ())
        ((agent o).map .str) s := by
  have hmgr : (snmpwalk addr [server, community, oid] (closedNet agent (snmpwalk addr [server, community, oid]) n)).mgr = s := by
    rw [hset.runs, runScript_eq]
    simp only [h.ran]
  rw [closedNet]
  simp only [hmgr, h.walking.sent, List.drop_left']
  rw [List.map_append, run_append, h.ran]
  simp only [List.map_cons, List.map_nil]
  rw [run_cons]
  simp only
  generalize iterate scriptEnv .sm _ _ _ s = q
  obtain ⟨r | r, s'⟩ := q
  · rfl
  · rfl

theorem closed_next (hset : Setting addr server community oid agent s0) {n i : Nat} {s : Mgr .sm} {out : List Str} {o : Str}
    (h : Closed addr server community oid agent s0 n i s out o) {s' : Mgr .sm} {out' : List Str} {o' : Str}
    (hi : iterate scriptEnv .sm (fun cb m => (walkUser (addr server) community cb m).exec scriptEnv) (.ok ())
        ((agent o).map .str) s = (.ok (), s'))
    (hw : Walking (addr server) (i + 1) s' out' (sentOut s.log) o') :
    Closed addr server community oid agent s0 (n + 1) (i + 1) s' out' o' := by
  refine ⟨by rw [closed_turn hset h, hi], ?_⟩
  obtain ⟨t, ht⟩ := closedNet_succ agent (snmpwalk addr [server, community, oid]) n
  rw [ht, List.dropLast_concat, hset.runs, runScript_eq]
  simp only [h.ran]
  exact hw

theorem closed_end (hset : Setting addr server community oid agent s0) {n i : Nat} {s : Mgr .sm} {out : List Str} {o : Str}
    (h : Closed addr server community oid agent s0 n i s out o) {s' : Mgr .sm}
    (hi : iterate scriptEnv .sm (fun cb m => (walkUser (addr server) community cb m).exec scriptEnv) (.ok ())
        ((agent o).map .str) s = (.error .systemExit, s')) {m : Nat} (hm : n + 1 ≤ m) :
    snmpwalk addr [server, community, oid] (closedNet agent (snmpwalk addr [server, community, oid]) m) =
      ⟨.exit 0, printed walkPrints s'.log, s'⟩ := by
  obtain ⟨l, hl⟩ := closedNet_prefix agent (snmpwalk addr [server, community, oid]) hm
  rw [hl, hset.runs, runScript_eq, List.map_append, run_append, closed_turn hset h, hi]
  rfl

/-- Answer after answer, from the first to the last, all but the last ordinary values. -/
inductive Path (next : List Nat → VB) : VB → List VB → VB → Prop
  | here {b} : Path next b [] b
  | step {b l c} : isEnd b.value = false → ¬ HasCounter64 b.value → Path next (next b.name) l c → Path next b (b :: l) c

theorem closed_short (hset : Setting addr server community oid agent s0) {n i : Nat} {s : Mgr .sm} {out : List Str} {o : Str}
    (h : Closed addr server community oid agent s0 n i s out o)
    {N : Nat} (hshort : ShortUpTo N agent (snmpwalk addr [server, community, oid])) (hN : n ≤ N) : o.length ≤ udpMax := by
  have := hshort n hN (o, addr server)
  rw [hset.runs, runScript_eq] at this
  simp only [h.ran, h.walking.sent] at this
  exact this (by simp)

theorem udp_ber {n : Nat} (h : n ≤ udpMax) : n < 256 ^ 127 :=
  lt_of_le_of_lt h (by decide +kernel)

/-- The walk is at binding `b`: it has been answered with it, and the answer is on its way. -/
structure Receives (addr : Str → Nat) (server community oid : Str) (agent : Str → Option Str) (s0 : Mgr .sm) (n i : Nat)
    (out : List Str) (b : VB) (s : Mgr .sm) (o a : Str) : Prop where
  closed : Closed addr server community oid agent s0 n i s out o
  answers : agent o = some a
  answer : MessageOctets 1 community { tag := 0xa2, requestID := i, bindings := [b] } a

/-- The walk follows the path. -/
theorem closed_path (hset : Setting addr server community oid agent s0) {get : List Nat → VB → Prop} {next : List Nat → VB}
    (hagent : Agent community get next agent) {N : Nat} (hshort : ShortUpTo N agent (snmpwalk addr [server, community, oid]))
    {l : List VB} {b c : VB} (hp : Path next b l c) : (∀ x ∈ l, Holdable regFull x) → ∀ (ls : List Str), AllLines l ls →
      ∀ (n i : Nat) (s : Mgr .sm) (out : List Str) (o a : Str), Receives addr server community oid agent s0 n i out b s o a →
      i + l.length ≤ 2147483648 → n + l.length ≤ N →
      ∃ s' o' a', Receives addr server community oid agent s0 (n + l.length) (i + l.length) (out ++ ls) c s' o' a' := by
  induction hp with
  | here =>
    intro _ ls hls n i s out o a h hi _
    cases hls
    exact ⟨s, o, a, by simpa using h⟩
  | @step b l c he h64 _ ih =>
    intro hb ls hls n i s out o a h hi hN
    cases hls with
    | @cons _ _ l1 ls hl ht =>
      simp only [List.length_cons] at hi hN ⊢
      obtain ⟨hc, ho, ha⟩ := h
      obtain ⟨ys, msg, g1, g2, g3⟩ := walk_step (community := community) hc.walking (by omega) ha (hb b (by simp)) hl he
      obtain ⟨w1, w2⟩ := message_value ha
      obtain ⟨b', hb1, hb2⟩ := echo_binding w1 w2 h64
      obtain ⟨-, f2⟩ := C76_getNext (env := scriptEnv) imported_full (.sm (remote := addr server) (cb := responseCb)
        (community := community) (.inr rfl)) g1 (.cons hb1 .nil) (by simp)
      obtain ⟨o', e1, e2⟩ := f2 _ msg (by omega) g2
      obtain ⟨s', k1, k2⟩ := g3 o' e1
      have k1' : iterate scriptEnv .sm (fun cb m => (walkUser (addr server) community cb m).exec scriptEnv) (.ok ())
        ((agent o).map .str) s = (.ok (), s') := by rw [ho]; exact k1
      have hc' := closed_next hset hc k1' k2
      have hmsg := e2 (udp_ber (closed_short hset hc' hshort (by omega)))
      obtain ⟨a', q1, q2⟩ := hagent.getNext o' _ b' (closed_short hset hc' hshort (by omega)) hmsg
      rw [hb2] at q2
      obtain ⟨s2, o2, a2, h2⟩ := ih (fun x hx => hb x (by simp [hx])) ls ht (n + 1) (i + 1) s' (out ++ l1) o' a' ⟨hc', q1, q2⟩
        (by omega) (by omega)
      refine ⟨s2, o2, a2, ?_⟩
      rw [List.append_assoc] at h2
      rw [show n + (l.length + 1) = n + 1 + l.length from by omega, show i + (l.length + 1) = i + 1 + l.length from by omega]
      exact h2

/-- The first answer. -/
theorem closed_first (addr : Str → Nat) {server community oid : Str} {ids : List Nat} (ho : OidNames (.str oid) ids)
    {agent : Str → Option Str} {get : List Nat → VB → Prop} {next : List Nat → VB} (hagent : Agent community get next agent)
    {N : Nat} (hshort : ShortUpTo N agent (snmpwalk addr [server, community, oid])) (hN : 1 ≤ N) :
    ∃ s0 s o a b, Setting addr server community oid agent s0 ∧ get ids b ∧
      Receives addr server community oid agent s0 1 0 [] b s o a := by
  obtain ⟨o, s0, s1, h1, h2, h3, h4, h5⟩ := walk_start (server := server) (community := community) addr ho
  have hset : Setting addr server community oid agent s0 := ⟨h2⟩
  have hc : Closed addr server community oid agent s0 1 0 s1 [] o := by
    refine ⟨?_, ?_⟩
    · simp only [closedNet, List.nil_append, List.drop_nil, h2]
      have : sentOut (runScript scriptEnv (walkUser (addr server) community) walkPrints ([] : List Net) s0).mgr.log = [] := h3
      simp only [this, List.drop_nil, List.map_cons, List.map_nil]
      rw [run_cons]
      simp only [h5]
      rfl
    · have : sentOut (snmpwalk addr [server, community, oid] (closedNet agent (snmpwalk addr [server, community, oid]) 1).dropLast).mgr.log = [] := by
        rw [h2]; exact h3
      rw [this]
      exact h4
  obtain ⟨a, b, q1, q2, q3⟩ := hagent.get o 0 _ (closed_short hset hc hshort (by omega)) (h1 (udp_ber (closed_short hset hc hshort (by omega))))
  exact ⟨s0, s1, o, a, b, hset, q2, hc, q1, q3⟩

/-- How a walk goes on: it has shown `l` and then gets `c`. -/
theorem closed_walk (addr : Str → Nat) {server community oid : Str} {ids : List Nat} (ho : OidNames (.str oid) ids)
    {agent : Str → Option Str} {get : List Nat → VB → Prop} {next : List Nat → VB} (hagent : Agent community get next agent)
    {N : Nat} (hshort : ShortUpTo N agent (snmpwalk addr [server, community, oid])) (hN : 1 ≤ N) :
    ∃ s0 b, Setting addr server community oid agent s0 ∧ get ids b ∧ ∀ l c, Path next b l c →
      (∀ x ∈ l, Holdable regFull x) → l.length ≤ 2147483648 → l.length + 1 ≤ N → ∀ ls, AllLines l ls →
      ∃ s o a, Receives addr server community oid agent s0 (l.length + 1) l.length ls c s o a := by
  obtain ⟨s0, s, o, a, b, h1, h2, h3⟩ := closed_first addr ho hagent hshort hN
  refine ⟨s0, b, h1, h2, fun l c hp hb hl hlN ls hls => ?_⟩
  obtain ⟨s', o', a', h⟩ := closed_path h1 hagent hshort hp hb ls hls 1 0 s [] o a h3 (by omega) (by omega)
  refine ⟨s', o', a', ?_⟩
  simp only [Nat.zero_add, List.nil_append, Nat.add_comm 1] at h
  exact h

theorem receives_end (hset : Setting addr server community oid agent s0) {n i : Nat} {out : List Str} {c : VB} {s : Mgr .sm}
    {o a : Str} (h : Receives addr server community oid agent s0 n i out c s o a) (hi : i ≤ 2147483647)
    (hc : Holdable regFull c) {l : List Str} (hl : WalkLines c l) (he : isEnd c.value = true) {m : Nat} (hm : n + 1 ≤ m) :
    (snmpwalk addr [server, community, oid] (closedNet agent (snmpwalk addr [server, community, oid]) m)).status = .exit 0 ∧
    (snmpwalk addr [server, community, oid] (closedNet agent (snmpwalk addr [server, community, oid]) m)).out = out ++ l := by
  obtain ⟨s', g1, g2, g3⟩ := walk_end (community := community) h.closed.walking hi h.answer hc hl he
  have : iterate scriptEnv .sm (fun cb m => (walkUser (addr server) community cb m).exec scriptEnv) (.ok ())
    ((agent o).map .str) s = (.error .systemExit, s') := by rw [h.answers]; exact g1
  rw [closed_end hset h.closed this hm]
  exact ⟨rfl, g2⟩

theorem receives_counter64 (hset : Setting addr server community oid agent s0) {get : List Nat → VB → Prop} {next : List Nat → VB}
    (hagent : Agent community get next agent) {N : Nat} (hshort : ShortUpTo N agent (snmpwalk addr [server, community, oid]))
    {n i : Nat} {out : List Str} {c : VB} {s : Mgr .sm} {o a : Str}
    (h : Receives addr server community oid agent s0 n i out c s o a) (hi : i ≤ 2147483647)
    (hc : Holdable regFull c) {l : List Str} (hl : WalkLines c l) (h64 : HasCounter64 c.value) (hN : n + 1 ≤ N) {m : Nat} (hm : n + 2 ≤ m) :
    (snmpwalk addr [server, community, oid] (closedNet agent (snmpwalk addr [server, community, oid]) m)).status = .exit 0 ∧
    (snmpwalk addr [server, community, oid] (closedNet agent (snmpwalk addr [server, community, oid]) m)).out = out ++ l := by
  have he : isEnd c.value = false := by
    generalize c.value = v at h64
    cases h64 <;> rfl
  obtain ⟨ys, msg, g1, g2, g3⟩ := walk_step (community := community) h.closed.walking hi h.answer hc hl he
  obtain ⟨w1, w2⟩ := message_value h.answer
  obtain ⟨o', e1, e2⟩ := counter64_message g1 w1 w2 h64 (by omega) g2
  obtain ⟨s', k1, k2⟩ := g3 o' e1
  have k1' : iterate scriptEnv .sm (fun cb m => (walkUser (addr server) community cb m).exec scriptEnv) (.ok ())
    ((agent o).map .str) s = (.ok (), s') := by rw [h.answers]; exact k1
  have hc' := closed_next hset h.closed k1' k2
  have hs := hagent.silent o' (e2 (udp_ber (closed_short hset hc' hshort (by omega))))
  obtain ⟨s2, j1, j2, j3⟩ := walk_idle (community := community) hc'.walking
  have : iterate scriptEnv .sm (fun cb m => (walkUser (addr server) community cb m).exec scriptEnv) (.ok ())
    ((agent o').map .str) s' = (.error .systemExit, s2) := by rw [hs]; exact j1
  rw [closed_end hset hc' this (by omega)]
  exact ⟨rfl, j2⟩

/-! ## An agent with a MIB -/

theorem after_tail {mib : List VB} (hs : SortedMib mib) {name : List Nat} {b : VB} {l : List VB} (h : after mib name = b :: l) :
    after mib b.name = l := by
  induction mib with
  | nil => simp [after] at h
  | cons x xs ih =>
    have hs' : SortedMib xs := (List.pairwise_cons.mp hs).2
    have hx := (List.pairwise_cons.mp hs).1
    have tail : ∀ n : List Nat, n ≤ x.name → after xs n = xs := by
      intro n hn
      unfold after
      rw [List.filter_eq_self]
      intro y hy
      simpa using lt_of_le_of_lt hn (hx y hy)
    unfold after at h
    rw [List.filter_cons] at h
    split at h
    · next hlt =>
      have hlt : name < x.name := by simpa using hlt
      simp only [List.cons.injEq] at h
      obtain ⟨rfl, h⟩ := h
      have e1 : after xs name = l := h
      rw [tail name (le_of_lt hlt)] at e1
      subst e1
      show List.filter _ (x :: xs) = xs
      rw [List.filter_cons, if_neg (by simp)]
      exact tail x.name (le_refl _)
    · have hb : after xs name = b :: l := h
      have := ih hs' hb
      have hmem : b ∈ xs := by
        have : b ∈ after xs name := by rw [hb]; simp
        exact (List.mem_filter.mp this).1
      show List.filter _ (x :: xs) = l
      rw [List.filter_cons, if_neg]
      · exact this
      · simpa using le_of_lt (hx b hmem)

/-- The path through the MIB: any initial part of what is shown leads to the binding that follows it. -/
theorem mib_path {mib : List VB} (hs : SortedMib mib) (hend : ∀ x ∈ mib, isEnd x.value = false) :
    ∀ (l : List VB) (b : VB), after mib b.name = l → isEnd b.value = false → ∀ (pre : List VB) (c : VB) (post : List VB),
      shown mib b = pre ++ c :: post → (∀ x ∈ pre, ¬ HasCounter64 x.value) → Path (nextAnswer mib) b pre c := by
  intro l
  induction l with
  | nil =>
    intro b hl he pre c post hsh h64
    unfold shown at hsh
    rw [he, hl] at hsh
    simp only [Bool.false_eq_true, if_false, List.nil_append, List.getLast?_nil, Option.getD_none] at hsh
    match pre, hsh with
    | [], hsh => cases hsh; exact .here
    | [x], hsh =>
      cases hsh
      refine .step he (h64 _ (by simp)) ?_
      unfold nextAnswer
      rw [hl]
      exact .here
    | x :: y :: z, hsh => have := congrArg List.length hsh; simp at this
  | cons d l ih =>
    intro b hl he pre c post hsh h64
    have hd : d ∈ mib := by
      have : d ∈ after mib b.name := by rw [hl]; simp
      exact (List.mem_filter.mp this).1
    have htl := after_tail hs hl
    have e : shown mib b = b :: shown mib d := by
      unfold shown
      rw [he, hend d hd, hl, htl]
      simp only [Bool.false_eq_true, if_false, List.cons_append, List.cons.injEq, true_and]
      rw [List.getLast?_cons, Option.getD_some]
    rw [e] at hsh
    match pre, hsh with
    | [], hsh => cases hsh; exact .here
    | x :: pre, hsh =>
      simp only [List.cons_append, List.cons.injEq] at hsh
      obtain ⟨rfl, hsh⟩ := hsh
      refine .step he (h64 _ (by simp)) ?_
      have hn : nextAnswer mib b.name = d := by unfold nextAnswer; rw [hl]
      rw [hn]
      exact ih d htl (hend d hd) pre c post hsh (fun x hx => h64 x (by simp [hx]))

theorem getAnswer_name {mib : List VB} {name : List Nat} {b : VB} (h : GetAnswer mib name b) : b.name = name := by
  cases h with
  | found _ h => exact h
  | noObject => rfl
  | noInstance => rfl

theorem getAnswer_holdable {mib : List VB} (hm : GoodMib mib) {name : List Nat} (hr : ∃ x, Denotes regFull (.oid name) x) {b : VB}
    (h : GetAnswer mib name b) : Holdable regFull b := by
  cases h with
  | found h _ => exact hm.holdable b h
  | noObject => exact ⟨hr, _, .null .noSuchObject .noSuchObject rfl⟩
  | noInstance => exact ⟨hr, _, .null .noSuchInstance .noSuchInstance rfl⟩

theorem shown_holdable {mib : List VB} (hm : GoodMib mib) {b : VB} (hb : Holdable regFull b) : ∀ x ∈ shown mib b, Holdable regFull x := by
  have hafter : ∀ x ∈ after mib b.name, Holdable regFull x := fun x hx => hm.holdable x (List.mem_filter.mp hx).1
  intro x hx
  unfold shown at hx
  split at hx
  · simp only [List.mem_cons, List.not_mem_nil, or_false] at hx
    rw [hx]; exact hb
  · simp only [List.mem_cons, List.mem_append, List.not_mem_nil, or_false] at hx
    rcases hx with rfl | hx | rfl
    · exact hb
    · exact hafter x hx
    · refine ⟨?_, _, .null .endOfMibView .endOfMibView rfl⟩
      cases hl : (after mib b.name).getLast? with
      | none => exact hb.1
      | some y => exact (hafter y (List.mem_of_getLast? hl)).1

theorem shown_length {mib : List VB} (hm : GoodMib mib) (b : VB) : (shown mib b).length ≤ 2147483648 := by
  have : (after mib b.name).length ≤ mib.length := List.length_filter_le ..
  have := hm.size
  unfold shown
  split
  · simp
  · simp only [List.length_cons, List.length_append, List.length_nil]; omega

/-- How far a walk through a MIB gets. -/
theorem mib_walk (addr : Str → Nat) {server community oid : Str} {ids : List Nat} (ho : OidNames (.str oid) ids)
    (hr : ∃ x, Denotes regFull (.oid ids) x) {mib : List VB} (hm : GoodMib mib) {agent : Str → Option Str}
    (hagent : Agent community (GetAnswer mib) (nextAnswer mib) agent)
    (hshort : ShortDatagrams agent (snmpwalk addr [server, community, oid])) :
    ∃ s0 b, Setting addr server community oid agent s0 ∧ GetAnswer mib ids b ∧ ∀ pre c post, shown mib b = pre ++ c :: post →
      (∀ x ∈ pre, ¬ HasCounter64 x.value) → ∀ ls, AllLines pre ls →
      (∃ s o a, Receives addr server community oid agent s0 (pre.length + 1) pre.length ls c s o a) ∧
      Holdable regFull c ∧ pre.length ≤ 2147483647 := by
  obtain ⟨s0, b, h1, h2, h3⟩ := closed_walk addr ho hagent (hshort 2147483649) (by omega)
  refine ⟨s0, b, h1, h2, fun pre c post hsh h64 ls hls => ?_⟩
  have hold := shown_holdable hm (getAnswer_holdable hm hr h2)
  rw [hsh] at hold
  have hlen := shown_length hm b
  rw [hsh] at hlen
  simp only [List.length_append, List.length_cons] at hlen
  have hp : Path (nextAnswer mib) b pre c := by
    cases he : isEnd b.value with
    | false => exact mib_path hm.sorted hm.proper _ b rfl he pre c post hsh h64
    | true =>
      unfold shown at hsh
      rw [he, if_pos rfl] at hsh
      match pre, hsh with
      | [], hsh => cases hsh; exact .here
      | x :: pre, hsh => have := congrArg List.length hsh; simp at this
  exact ⟨h3 pre c hp (fun x hx => hold x (by simp [hx])) (by omega) (by omega) ls hls, hold c (by simp), by omega⟩

theorem allLines_append {a b : List VB} {ls : List Str} (h : AllLines (a ++ b) ls) :
    ∃ l1 l2, AllLines a l1 ∧ AllLines b l2 ∧ ls = l1 ++ l2 := by
  induction a generalizing ls with
  | nil => exact ⟨[], ls, .nil, h, rfl⟩
  | cons x a ih =>
    cases h with
    | cons h1 h2 =>
      obtain ⟨l1, l2, g1, g2, rfl⟩ := ih h2
      exact ⟨_, l2, .cons h1 g1, g2, by rw [List.append_assoc]⟩

theorem shown_last {mib : List VB} (hm : GoodMib mib) (b : VB) :
    ∃ pre c, shown mib b = pre ++ [c] ∧ isEnd c.value = true ∧ ∀ x ∈ pre, x = b ∨ x ∈ mib := by
  unfold shown
  split
  · next h => exact ⟨[], b, rfl, h, by simp⟩
  · refine ⟨b :: after mib b.name, _, by rw [List.cons_append], rfl, ?_⟩
    intro x hx
    rcases List.mem_cons.mp hx with rfl | hx
    · exact .inl rfl
    · exact .inr (List.mem_filter.mp hx).1

/-- **C77**: a walk against an agent whose information contains no Counter64, on a network that loses nothing: the program
shows the answer to the Get for the root and then - unless that was NoSuchObject - every entry after it, in order and to the
end of everything the agent has (not just below the root), then EndOfMibView, and ends with status 0. -/
theorem C77_walk (addr : Str → Nat) {server community oid : Str} {ids : List Nat} (ho : OidNames (.str oid) ids)
    (hr : ∃ x, Denotes regFull (.oid ids) x) {mib : List VB} (hm : GoodMib mib) (h64 : ∀ x ∈ mib, ¬ HasCounter64 x.value)
    {agent : Str → Option Str} (hagent : Agent community (GetAnswer mib) (nextAnswer mib) agent)
    (hshort : ShortDatagrams agent (snmpwalk addr [server, community, oid])) :
    ∃ b, GetAnswer mib ids b ∧ ∀ lines, AllLines (shown mib b) lines → ∀ n, (shown mib b).length < n →
      let r := snmpwalk addr [server, community, oid] (closedNet agent (snmpwalk addr [server, community, oid]) n)
      r.status = .exit 0 ∧ r.out = lines := by
  obtain ⟨s0, b, h1, h2, h3⟩ := mib_walk (server := server) addr ho hr hm hagent hshort
  refine ⟨b, h2, fun lines hlines n hn => ?_⟩
  obtain ⟨pre, c, e1, e2, e3⟩ := shown_last hm b
  rw [e1] at hlines hn
  obtain ⟨l1, l2, g1, g2, rfl⟩ := allLines_append hlines
  cases g2 with
  | cons g2 g3 =>
    cases g3
    have hb64 : ¬ HasCounter64 b.value := by
      intro h
      cases h2 with
      | found hx _ => exact h64 b hx h
      | noObject => cases h
      | noInstance => cases h
    obtain ⟨⟨s, o, a, hrec⟩, hold, hlen⟩ := h3 pre c [] e1 (by
      intro x hx
      rcases e3 x hx with rfl | hx
      · exact hb64
      · exact h64 x hx) l1 g1
    simp only [List.length_append, List.length_cons, List.length_nil] at hn
    have := receives_end h1 hrec hlen hold g2 e2 (m := n) (by omega)
    simpa using this

/-- **C77**: at the first entry with a Counter64 the walk breaks off: the entry is shown, the next request is no SNMP message
(C76), the agent says nothing, and the program ends with status 0 as if it were done. -/
theorem C77_counter64 (addr : Str → Nat) {server community oid : Str} {ids : List Nat} (ho : OidNames (.str oid) ids)
    (hr : ∃ x, Denotes regFull (.oid ids) x) {mib : List VB} (hm : GoodMib mib)
    {agent : Str → Option Str} (hagent : Agent community (GetAnswer mib) (nextAnswer mib) agent)
    (hshort : ShortDatagrams agent (snmpwalk addr [server, community, oid])) :
    ∃ b, GetAnswer mib ids b ∧ ∀ pre c post, shown mib b = pre ++ c :: post → (∀ x ∈ pre, ¬ HasCounter64 x.value) →
      HasCounter64 c.value → ∀ lines, AllLines (pre ++ [c]) lines → ∀ n, pre.length + 3 ≤ n →
      let r := snmpwalk addr [server, community, oid] (closedNet agent (snmpwalk addr [server, community, oid]) n)
      r.status = .exit 0 ∧ r.out = lines := by
  obtain ⟨s0, b, h1, h2, h3⟩ := mib_walk (server := server) addr ho hr hm hagent hshort
  refine ⟨b, h2, fun pre c post hsh hpre hc lines hlines n hn => ?_⟩
  obtain ⟨l1, l2, g1, g2, rfl⟩ := allLines_append hlines
  cases g2 with
  | cons g2 g3 =>
    cases g3
    obtain ⟨⟨s, o, a, hrec⟩, hold, hlen⟩ := h3 pre c post hsh hpre l1 g1
    have := receives_counter64 h1 hagent (hshort (pre.length + 2)) hrec hlen hold g2 hc (by omega) (m := n) (by omega)
    simpa using this

/-- **C77**: one lost datagram ends the walk: there is no timeout and no retry; the program has shown what it got and ends
with status 0. -/
theorem C77_lost (addr : Str → Nat) {server community oid : Str} {ids : List Nat} (ho : OidNames (.str oid) ids)
    (hr : ∃ x, Denotes regFull (.oid ids) x) {mib : List VB} (hm : GoodMib mib)
    {agent : Str → Option Str} (hagent : Agent community (GetAnswer mib) (nextAnswer mib) agent)
    (hshort : ShortDatagrams agent (snmpwalk addr [server, community, oid])) :
    ∃ b, GetAnswer mib ids b ∧ ∀ pre c post, shown mib b = pre ++ c :: post → (∀ x ∈ pre, ¬ HasCounter64 x.value) →
      ∀ lines, AllLines pre lines → ∀ rest,
      let r := snmpwalk addr [server, community, oid]
        (closedNet agent (snmpwalk addr [server, community, oid]) (pre.length + 1) ++ ⟨.ok (), none⟩ :: rest)
      r.status = .exit 0 ∧ r.out = lines := by
  obtain ⟨s0, b, h1, h2, h3⟩ := mib_walk (server := server) addr ho hr hm hagent hshort
  refine ⟨b, h2, fun pre c post hsh hpre lines hlines rest => ?_⟩
  obtain ⟨⟨s, o, a, hrec⟩, hold, hlen⟩ := h3 pre c post hsh hpre lines hlines
  obtain ⟨s2, j1, j2, j3⟩ := walk_idle (community := community) hrec.closed.walking
  intro r
  have : r = _ := h1.runs _
  rw [this, runScript_eq, List.map_append, run_append, hrec.closed.ran]
  simp only [List.map_cons]
  rw [run_cons]
  simp only [j1]
  exact ⟨rfl, j2⟩

theorem walkLines_exists (b : VB) : ∃ l, WalkLines b l := by
  obtain ⟨name', n, hn⟩ := displayed_exists (.oid b.name)
  obtain ⟨name, t, ht⟩ := displayed_exists b.value
  cases hn with
  | oid h1 h2 => exact ⟨_, _, name, t, .oid h1 h2, ht, rfl⟩

theorem allLines_exist (l : List VB) : ∃ ls, AllLines l ls := by
  induction l with
  | nil => exact ⟨[], .nil⟩
  | cons b l ih =>
    obtain ⟨l1, h1⟩ := walkLines_exists b
    obtain ⟨ls, h2⟩ := ih
    exact ⟨_, .cons h1 h2⟩

/-- **C77**: the program believes any agent: against one whose answers never end (such as one that always names the same
object) it is still running after any number of turns for which there are request IDs. -/
theorem C77_endless (addr : Str → Nat) {server community oid : Str} {ids : List Nat} (ho : OidNames (.str oid) ids)
    {agent : Str → Option Str} {get : List Nat → VB → Prop} {next : List Nat → VB} (hagent : Agent community get next agent)
    (hget : ∀ b, get ids b → isEnd b.value = false ∧ ¬ HasCounter64 b.value ∧ Holdable regFull b)
    (hnext : ∀ name, isEnd (next name).value = false ∧ ¬ HasCounter64 (next name).value ∧ Holdable regFull (next name))
    (n : Nat) (hn : n ≤ 2147483648) (hshort : ShortUpTo n agent (snmpwalk addr [server, community, oid])) :
    let r := snmpwalk addr [server, community, oid] (closedNet agent (snmpwalk addr [server, community, oid]) n)
    r.status = .running := by
  have path : ∀ (k : Nat) (b : VB), isEnd b.value = false ∧ ¬ HasCounter64 b.value ∧ Holdable regFull b →
      ∃ l c, l.length = k ∧ Path next b l c ∧ ∀ x ∈ l, Holdable regFull x := by
    intro k
    induction k with
    | zero => intro b _; exact ⟨[], b, rfl, .here, by simp⟩
    | succ k ih =>
      intro b ⟨q1, q2, q3⟩
      obtain ⟨l, c, p1, p2, p3⟩ := ih (next b.name) (hnext _)
      exact ⟨b :: l, c, by simp [p1], .step q1 q2 p2, by
        intro x hx
        rcases List.mem_cons.mp hx with rfl | hx
        · exact q3
        · exact p3 x hx⟩
  cases n with
  | zero =>
    intro r
    obtain ⟨o, s0, s1, _, h2, _⟩ := walk_start (server := server) (community := community) addr ho
    have : r = _ := h2 _
    rw [this, runScript_eq]
    rfl
  | succ n =>
    obtain ⟨s0, b, h1, h2, h3⟩ := closed_walk (server := server) addr ho hagent hshort (by omega)
    obtain ⟨l, c, p1, p2, p3⟩ := path n b (hget b h2)
    obtain ⟨ls, hls⟩ := allLines_exist l
    obtain ⟨s, o, a, hrec⟩ := h3 l c p2 p3 (by omega) (by omega) ls hls
    rw [p1] at hrec
    intro r
    have : r = _ := h1.runs _
    rw [this, runScript_eq, hrec.closed.ran]
    rfl

end Libsnmp
