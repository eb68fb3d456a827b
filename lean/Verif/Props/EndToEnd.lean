import Verif.Spec.Relay
import Verif.Props.Pdus
import Verif.Props.Responses

/-!
# C72: from a request call to the wire and from the wire to the callback

The pieces (C21, C20, C45, C46, C51, C56) put together, against the message grammar of `Spec/Protocol.lean`.
-/

namespace Libsnmp
open Spec

/-! ## Requests -/

theorem holds_represents {xs : List Val} {bs : List VB} (h : List.Forall₂ HoldsVB xs bs) :
    RepresentsList xs (bs.map VB.asn) := by
  induction h with
  | nil => exact .nil
  | cons h _ ih =>
    obtain ⟨c, name, value, hc, rfl, h1, h2⟩ := h
    exact .cons (.seq c _ _ (by rcases hc with rfl | rfl <;> decide) (.cons h1 (.cons h2 .nil))) ih

theorem names_represents {oid : Arg} {ids : List Nat} (h : OidNames oid ids) :
    ∃ v, mkOid oid = .ok v ∧ Represents (.oid v) (.oid ids) := by
  obtain ⟨h1, a, b, rest, rfl, ha, hb⟩ := h
  exact ⟨_, h1, .oid a b rest ha hb⟩

theorem emit_message {cm c : SeqCls} {t : Nat} (hcm : cm = .message ∨ cm = .message2)
    (hid : (Cls.seq c).identifier = .ok [t]) {c1 c2 : IntCls} {cl : SeqCls} (h1 : c1 ∈ signedClasses)
    (h2 : c2 ∈ signedClasses) (v : Int) (hv : OutOfBand v) (com : Str) (id : Int)
    (hi : OutOfBand id) {xs : List Val} {bs : List VB} (hx : Emits (.seq cl xs) (.seq (bs.map VB.asn))) :
    ∃ o, (Msg.mk cm (.integer .integer v) (.octets .octetString com)
        (.seq c [.integer c1 id, .integer c2 0, .integer .integer 0, .seq cl xs])).encode = .ok o ∧
      (o.length < 256 ^ 127 → MessageOctets v com { tag := t, requestID := id, bindings := bs } o) := by
  have h0 : OutOfBand 0 := outOfBand_nonneg (by decide)
  obtain ⟨s1, e1, b1⟩ := encode_ber _ _ (.integer c1 id h1 hi)
  obtain ⟨s2, e2, b2⟩ := encode_ber _ _ (.integer c2 0 h2 h0)
  obtain ⟨s3, e3, b3⟩ := encode_ber _ _ (.integer .integer 0 (by decide) h0)
  obtain ⟨s4, e4, b4⟩ := hx
  obtain ⟨v1, f1, d1⟩ := encode_ber _ _ (.integer .integer v (by decide) hv)
  obtain ⟨v2, f2, d2⟩ := encode_ber _ _ (.string .octetString .octetString com (by decide))
  obtain ⟨p, g1, g2, g3⟩ := tlv_ok (s1 ++ (s2 ++ (s3 ++ s4))) hid
  have hidm : (Cls.seq cm).identifier = .ok [0x30] := by rcases hcm with rfl | rfl <;> decide +kernel
  obtain ⟨o, k1, k2, k3⟩ := tlv_ok (v1 ++ (v2 ++ p)) hidm
  have hp : (Val.seq c [.integer c1 id, .integer c2 0, .integer .integer 0, .seq cl xs]).encode = .ok p := by
    rw [Val.encode]
    simp only [encodeItems, e1, e2, e3, e4, List.append_nil]
    exact g1
  refine ⟨o, ?_, fun hl => ?_⟩
  · unfold Msg.encode
    simp only [encodeItems, f1, f2, hp, List.append_nil]
    exact k1
  · simp only [List.length_append] at g2 k2
    exact .mk (d1 (by omega)) (d2 (by omega))
      (.mk (b1 (by omega)) (b2 (by omega)) (b3 (by omega)) (b4 (by omega)) (g3 (by omega))) (k3 hl)

theorem encode_message {cm c : SeqCls} {t : Nat} (hcm : cm = .message ∨ cm = .message2)
    (hid : (Cls.seq c).identifier = .ok [t]) {c1 c2 : IntCls} {cl : SeqCls} (h1 : c1 ∈ signedClasses)
    (h2 : c2 ∈ signedClasses) (hcl : cl ∈ sequenceClasses) (v : Int) (hv : OutOfBand v) (com : Str) (id : Int)
    (hi : OutOfBand id) {xs : List Val} {bs : List VB} (hx : RepresentsList xs (bs.map VB.asn)) :
    ∃ o, (Msg.mk cm (.integer .integer v) (.octets .octetString com)
        (.seq c [.integer c1 id, .integer c2 0, .integer .integer 0, .seq cl xs])).encode = .ok o ∧
      (o.length < 256 ^ 127 → MessageOctets v com { tag := t, requestID := id, bindings := bs } o) :=
  emit_message hcm hid h1 h2 v hv com id hi (encode_ber _ _ (.seq cl xs _ hcl hx))

theorem queries_represent {c : SeqCls} (hc : c ∈ sequenceClasses) {oids : List Arg} {vbs : List Val} {bs : List VB}
    (h : List.Forall₂ (Query c) oids vbs)
    (h' : List.Forall₂ (fun oid b => ∃ ids, OidNames oid ids ∧ b = VB.mk ids (.null .null)) oids bs) :
    RepresentsList vbs (bs.map VB.asn) := by
  induction h generalizing bs with
  | nil => cases h'; exact .nil
  | cons hq _ ih =>
    cases h' with
    | cons hb ht =>
      obtain ⟨v, e1, rfl⟩ := hq
      obtain ⟨ids, hn, rfl⟩ := hb
      obtain ⟨v', e2, hr⟩ := names_represents hn
      rw [e1] at e2
      cases e2
      exact .cons (.seq c _ _ hc (.cons hr (.cons .null .nil))) (ih ht)

theorem query_represents {c : SeqCls} (hc : c ∈ sequenceClasses) {oid : Arg} {vb : Val} {bs : List VB}
    (h : Query c oid vb) (h' : ∃ ids, OidNames oid ids ∧ bs = [VB.mk ids (.null .null)]) :
    RepresentsList [vb] (bs.map VB.asn) := by
  obtain ⟨ids, hn, rfl⟩ := h'
  exact queries_represent hc (.cons h .nil) (.cons ⟨ids, hn, rfl⟩ .nil)

/-- **C72**, requests: the message a call puts into the queue encodes to an SNMP message with the call's version and
community, whose PDU is of the kind of the call, with the request ID the call was given and exactly the bindings asked
for. -/
theorem C72_request_octets (env : Env) {k : Kind} (c : k.Call) (id : Int) (hid : 0 ≤ id) (m : Msg)
    (h : Sends env c id (some m)) (v : Int) (t : Nat) (bs : List VB) (ha : AsksFor env c v t bs) :
    ∃ o, m.encode = .ok o ∧ (o.length < 256 ^ 127 →
      MessageOctets v (communityOf c) { tag := t, requestID := id, bindings := bs } o) := by
  have hi := outOfBand_nonneg hid
  have v0 : OutOfBand 0 := outOfBand_nonneg (by decide)
  have v1 : OutOfBand 1 := outOfBand_nonneg (by decide)
  cases k with
  | v1 =>
    cases c with
    | get oid r cb com =>
      obtain ⟨vb, hq, hm⟩ := h
      obtain ⟨rfl, rfl, hb⟩ := ha
      cases hm
      exact encode_message (.inl rfl) (by decide +kernel) (by decide) (by decide) (by decide) 0 v0 com id hi
        (query_represents (by decide) hq hb)
    | getNext vbs r cb com =>
      obtain ⟨rfl, rfl, hb⟩ := ha
      cases (h : some m = some (v1Msg .getNext com id vbs))
      exact encode_message (.inl rfl) (by decide +kernel) (by decide) (by decide) (by decide) 0 v0 com id hi
        (holds_represents hb)
    | set vbs r cb com =>
      obtain ⟨rfl, rfl, hb⟩ := ha
      cases (h : some m = some (v1Msg .getNext com id vbs))
      exact encode_message (.inl rfl) (by decide +kernel) (by decide) (by decide) (by decide) 0 v0 com id hi
        (holds_represents hb)
    | trap => exact ha.elim
  | v2 =>
    cases c with
    | get oids r cb com =>
      obtain ⟨vbs, hq, hm⟩ := h
      obtain ⟨rfl, rfl, hb⟩ := ha
      cases hm
      exact encode_message (.inr rfl) (by decide +kernel) (by decide) (by decide) (by decide) 1 v1 com id hi
        (queries_represent (by decide) hq hb)
    | getNext => exact ha.elim
    | set => exact ha.elim
    | trap => exact ha.elim
  | sm =>
    cases c with
    | get oid r cb com version =>
      obtain ⟨rfl, rfl, hb⟩ := ha
      rcases h with ⟨rfl, vb, hq, hm⟩ | ⟨rfl, vb, hq, hm⟩ <;> cases hm
      · exact encode_message (.inl rfl) (by decide +kernel) (by decide) (by decide) (by decide) 0 v0 com id hi
          (query_represents (by decide) hq hb)
      · exact encode_message (.inr rfl) (by decide +kernel) (by decide) (by decide) (by decide) 1 v1 com id hi
          (query_represents (by decide) hq hb)
    | getNext vbs r cb com version =>
      obtain ⟨rfl, rfl, hb⟩ := ha
      rcases h with ⟨rfl, hm⟩ | ⟨rfl, hm⟩ <;> cases hm
      · exact encode_message (.inl rfl) (by decide +kernel) (by decide) (by decide) (by decide) 0 v0 com id hi
          (holds_represents hb)
      · exact encode_message (.inr rfl) (by decide +kernel) (by decide) (by decide) (by decide) 1 v1 com id hi
          (holds_represents hb)
    | set oid valtype value r cb com version =>
      obtain ⟨rfl, rfl, ids, a, x, hn, hx, hr, rfl⟩ := ha
      obtain ⟨v, y, e1, e2, h⟩ := h
      obtain ⟨v', e3, hr'⟩ := names_represents hn
      rw [e1] at e3
      rw [hx] at e2
      cases e3
      cases e2
      rcases h with ⟨rfl, hm⟩ | ⟨rfl, hm⟩ <;> cases hm
      · exact encode_message (.inl rfl) (by decide +kernel) (by decide) (by decide) (by decide) 0 v0 com id hi
          (.cons (.seq .varBind _ _ (by decide) (.cons hr' (.cons hr .nil))) .nil)
      · exact encode_message (.inr rfl) (by decide +kernel) (by decide) (by decide) (by decide) 1 v1 com id hi
          (.cons (.seq .varBind2 _ _ (by decide) (.cons hr' (.cons hr .nil))) .nil)
    | trap => exact ha.elim

theorem issued_successes {k : Kind} {log : List (Obs k)} {c : k.Call} {ci : IntCls} {id : Int} {cb : Nat}
    (h : (c, Val.integer ci id) ∈ successes log) (hcb : callbackOf c = some cb) : (id, cb) ∈ issued log := by
  unfold successes at h
  unfold issued
  rw [List.mem_filterMap] at h ⊢
  obtain ⟨o, ho, he⟩ := h
  refine ⟨o, ho, ?_⟩
  cases o with
  | called c' r =>
    cases r with
    | ok v => simp only [Option.some.injEq, Prod.mk.injEq] at he; obtain ⟨rfl, rfl⟩ := he; simp [hcb]
    | error e => simp at he
  | _ => simp at he

theorem asks_request {env : Env} {k : Kind} {c : k.Call} {v : Int} {t : Nat} {bs : List VB} (h : AsksFor env c v t bs) :
    ∃ cb, callbackOf c = some cb := by
  cases k <;> cases c <;> first | exact ⟨_, rfl⟩ | exact h.elim

theorem sends_needs_id {env : Env} {k : Kind} {c : k.Call} {v : Int} {t : Nat} {bs : List VB} (ha : AsksFor env c v t bs)
    {m : Option Msg} (h0 : Sends env c 0 m) (h1 : Sends env c 1 m) : False := by
  have e1 : ∀ c com vbs vbs', v1Msg c com 0 vbs ≠ v1Msg c com 1 vbs' := by intro _ _ _ _ h; simp [v1Msg] at h
  have e2 : ∀ c com vbs vbs', v2Msg c com 0 vbs ≠ v2Msg c com 1 vbs' := by intro _ _ _ _ h; simp [v2Msg] at h
  cases k with
  | v1 =>
    cases c with
    | get oid r cb com =>
      obtain ⟨_, _, h0⟩ := h0
      obtain ⟨_, _, h1⟩ := h1
      exact e1 _ _ _ _ (Option.some.inj (h0.symm.trans h1))
    | getNext vbs r cb com => exact e1 _ _ _ _ (Option.some.inj (Eq.trans (Eq.symm h0) h1))
    | set vbs r cb com => exact e1 _ _ _ _ (Option.some.inj (Eq.trans (Eq.symm h0) h1))
    | trap => exact ha.elim
  | v2 =>
    cases c with
    | get oids r cb com =>
      obtain ⟨_, _, h0⟩ := h0
      obtain ⟨_, _, h1⟩ := h1
      exact e2 _ _ _ _ (Option.some.inj (h0.symm.trans h1))
    | getNext => exact ha.elim
    | set => exact ha.elim
    | trap => exact ha.elim
  | sm =>
    cases c with
    | get oid r cb com version =>
      rcases h0 with ⟨a, _, _, h0⟩ | ⟨a, _, _, h0⟩ <;> rcases h1 with ⟨b, _, _, h1⟩ | ⟨b, _, _, h1⟩
      · exact e1 _ _ _ _ (Option.some.inj (h0.symm.trans h1))
      · omega
      · omega
      · exact e2 _ _ _ _ (Option.some.inj (h0.symm.trans h1))
    | getNext vbs r cb com version =>
      rcases h0 with ⟨a, h0⟩ | ⟨a, h0⟩ <;> rcases h1 with ⟨b, h1⟩ | ⟨b, h1⟩
      · exact e1 _ _ _ _ (Option.some.inj (h0.symm.trans h1))
      · omega
      · omega
      · exact e2 _ _ _ _ (Option.some.inj (h0.symm.trans h1))
    | set oid valtype value r cb com version =>
      obtain ⟨_, _, _, _, h0⟩ := h0
      obtain ⟨_, _, _, _, h1⟩ := h1
      rcases h0 with ⟨a, h0⟩ | ⟨a, h0⟩ <;> rcases h1 with ⟨b, h1⟩ | ⟨b, h1⟩
      · exact e1 _ _ _ _ (Option.some.inj (h0.symm.trans h1))
      · omega
      · omega
      · have := Option.some.inj (h0.symm.trans h1)
        simp [wrap, v1Msg] at this
    | trap => exact ha.elim

/-- **C72**, requests: over every history, item by item and in order, what the loop took and what it will take are the
datagrams of the successful request calls: addressed as asked, and BER encodings of the SNMP message asked for, with the
request ID that the call returned. -/
theorem C72_queue {env : Env} {k : Kind} {s : Mgr k} (h : Reachable env s) :
    List.Forall₂ (fun call item => ∀ v t bs, AsksFor env call.1 v t bs →
        ∃ ci id o, call.2 = .integer ci id ∧ datagramOf item = some (o, remoteOf call.1) ∧ (o.length < 256 ^ 127 →
          MessageOctets v (communityOf call.1) { tag := t, requestID := id, bindings := bs } o))
      (successes s.log) (taken s.log ++ s.outbound) := by
  have hq := C45_fifo h
  have hids := (C43_unique h).2
  have hmem : ∀ p ∈ successes s.log, ∀ ci id, p.2 = .integer ci id → callbackOf p.1 ≠ none → 0 ≤ id := by
    intro p hp ci id e hc
    obtain ⟨cb, hcb⟩ := Option.ne_none_iff_exists'.mp hc
    exact (hids _ (issued_successes (c := p.1) (ci := ci) (by rw [← e]; exact hp) hcb)).1
  generalize successes s.log = l1 at hq hmem
  generalize taken s.log ++ s.outbound = l2 at hq
  induction hq with
  | nil => exact .nil
  | @cons call item l1 l2 h1 _ ih =>
    refine .cons ?_ (ih (fun p hp => hmem p (List.mem_cons_of_mem _ hp)))
    intro v t bs ha
    obtain ⟨cb, hcb⟩ := asks_request ha
    obtain ⟨hr, hs⟩ := h1
    have key : ∃ ci id, call.2 = .integer ci id ∧ Sends env call.1 id item.1 := by
      obtain ⟨c, r⟩ := call
      cases r with
      | integer ci id => exact ⟨ci, id, rfl, hs⟩
      | _ => exact (sends_needs_id ha (hs 0) (hs 1)).elim
    obtain ⟨ci, id, e, hs⟩ := key
    have hid := hmem call (List.mem_cons_self) ci id e (by rw [hcb]; simp)
    obtain ⟨m, r⟩ := item
    cases m with
    | none =>
      exfalso
      obtain ⟨c, v'⟩ := call
      cases k with
      | v1 =>
        cases c with
        | get => obtain ⟨_, _, hs⟩ := hs; cases hs
        | getNext => cases hs
        | set => cases hs
        | trap => exact ha.elim
      | v2 =>
        cases c with
        | get => obtain ⟨_, _, hs⟩ := hs; cases hs
        | getNext => exact ha.elim
        | set => exact ha.elim
        | trap => exact ha.elim
      | sm =>
        cases c with
        | get => rcases hs with ⟨_, _, _, hs⟩ | ⟨_, _, _, hs⟩ <;> cases hs
        | getNext => rcases hs with ⟨_, hs⟩ | ⟨_, hs⟩ <;> cases hs
        | set => obtain ⟨_, _, _, _, hs⟩ := hs; rcases hs with ⟨_, hs⟩ | ⟨_, hs⟩ <;> cases hs
        | trap => exact ha.elim
    | some m =>
      obtain ⟨o, ho, hm⟩ := C72_request_octets env call.1 id hid m hs v t bs ha
      refine ⟨ci, id, o, e, ?_, hm⟩
      have hr : r = remoteOf call.1 := hr
      simp only [datagramOf, ho, hr]

/-- **C72**, requests: every datagram ever handed to the socket stems from a successful call, goes where that call said,
and (for a request) is an encoding of the message it asked for. -/
theorem C72_sent {env : Env} {k : Kind} {s : Mgr k} (h : Reachable env s) (o : Str) (r : Nat) (ho : (o, r) ∈ sentOut s.log) :
    ∃ call ∈ successes s.log, remoteOf call.1 = r ∧ ∀ v t bs, AsksFor env call.1 v t bs →
      ∃ ci id, call.2 = .integer ci id ∧ (o.length < 256 ^ 127 →
        MessageOctets v (communityOf call.1) { tag := t, requestID := id, bindings := bs } o) := by
  rw [C45_sent h, List.mem_filterMap] at ho
  obtain ⟨item, hi, hd⟩ := ho
  have hq := C72_queue h
  have hf := C45_fifo h
  obtain ⟨i, hi', hget⟩ := List.mem_iff_getElem.mp (List.mem_append_left s.outbound hi)
  have hlen := hq.length_eq
  have hi2 : i < (successes s.log).length := by omega
  have w := hq.get (i := i) hi2 hi'
  have f := hf.get (i := i) hi2 hi'
  simp only [List.get_eq_getElem, hget] at w f
  refine ⟨(successes s.log)[i], List.getElem_mem _, ?_, ?_⟩
  · rw [← f.1]
    obtain ⟨m, r'⟩ := item
    cases m with
    | none => simp [datagramOf] at hd
    | some m =>
      simp only [datagramOf] at hd
      split at hd
      · cases hd; rfl
      · cases hd
  · intro v t bs ha
    obtain ⟨ci, id, o', e, hd', hm⟩ := w v t bs ha
    rw [hd] at hd'
    cases hd'
    exact ⟨ci, id, e, hm⟩

/-! ## Answers -/

theorem denotes_asn1 {reg : Reg} {a : Asn} {y : Val} (h : Denotes reg a y) : y.isInstance .asn1Object = true := by
  cases h with
  | integer _ c => cases c <;> rfl
  | unsigned _ _ c => cases c <;> rfl
  | string _ _ c => cases c <;> rfl
  | null _ c => cases c <;> rfl
  | oid => rfl
  | seq => rfl

theorem bindings_carried {reg : Reg} (hr : reg 0x30 = some (.seq .sequence)) (cb : SeqCls)
    (hcb : cb = .varBind ∨ cb = .varBind2) (bs : List VB) (h : ∀ b ∈ bs, Holdable reg b) :
    ∃ zs ys, DenotesList reg (bs.map VB.asn) zs ∧ mkVarBinds cb zs = .ok ys ∧ Carries reg bs ys := by
  induction bs with
  | nil => exact ⟨[], [], .nil, rfl, .nil⟩
  | cons b bs ih =>
    obtain ⟨zs, ys, h1, h2, h3⟩ := ih (fun b hb => h b (List.mem_cons_of_mem _ hb))
    obtain ⟨⟨name, hn⟩, value, hv⟩ := h b List.mem_cons_self
    refine ⟨.seq .sequence [name, value] :: zs, .seq cb [name, value] :: ys,
      .cons (.seq _ _ hr (.cons hn (.cons hv .nil))) h1, ?_, .cons ⟨cb, name, value, hcb, rfl, hn, hv⟩ h3⟩
    have hvb : mkVarBind cb name value = .ok (.seq cb [name, value]) := by
      unfold mkVarBind
      have e1 : ∀ ids, Denotes reg (.oid ids) name → name.isInstance .oid = true := by intro ids h; cases h; rfl
      simp [e1 _ hn, denotes_asn1 hv]
    simp only [mkVarBinds, Val.getItem, List.getElem?_cons_zero, List.getElem?_cons_succ, bind, Except.bind, hvb, h2]

theorem carries_varBinds {reg : Reg} {bs : List VB} {ys : List Val} (h : Carries reg bs ys) :
    ys.all (·.isInstance (.seq .varBind)) = true ∧ ys.length = bs.length := by
  induction h with
  | nil => exact ⟨rfl, rfl⟩
  | cons h _ ih =>
    obtain ⟨cb, name, value, hcb, rfl, _⟩ := h
    refine ⟨?_, by simp [ih.2]⟩
    rw [List.all_cons, ih.1]
    rcases hcb with rfl | rfl <;> rfl

/-- The PDU constructors accept 32-bit integers and lists of VarBinds. -/
theorem mkPDU_accepts (c : SeqCls) {r e i : Int} (hr : Int32 r) (he : Int32 e) (hi : Int32 i) {ys : List Val}
    (hy : ys.all (·.isInstance (.seq .varBind)) = true) (hl : ys.length ≤ 2147483647) :
    ∃ y, mkPDU c r e i ys = .ok y ∧ PduFields y c r e i ys := by
  have m : ∀ (ci : IntCls) (v : Int), Int32 v → (ci = .integer ∨ ci = .integer32 ∨ ci = .errorStatus ∨ ci = .errorStatus2) →
      mkInteger ci v = .ok (.integer ci v) := by
    intro ci v hv hc
    unfold mkInteger
    rw [if_pos]
    obtain ⟨h1, h2⟩ := hv
    rcases hc with rfl | rfl | rfl | rfl
    · exact ⟨h1, h2⟩
    · exact ⟨h1, Int.le_trans h2 (by decide)⟩
    · exact ⟨h1, h2⟩
    · exact ⟨h1, h2⟩
  have l : ∀ cl, mkVarBindList cl ys = .ok (.seq cl ys) := by
    intro cl
    unfold mkVarBindList
    rw [if_neg (by simp; intro; omega), if_pos hy]
  unfold mkPDU
  split
  · unfold mkPDU2
    rw [if_neg (by have := hi.2; omega), m _ r hr (by simp), m _ e he (by simp), m _ i hi (by simp), l]
    exact ⟨_, rfl, _, _, _, _, .inr rfl, rfl⟩
  · split
    · unfold mkBulk
      rw [if_neg (by have := he.2; omega), if_neg (by have := hi.2; omega), m _ r hr (by simp), m _ e he (by simp),
        m _ i hi (by simp), l]
      exact ⟨_, rfl, _, _, _, _, .inr rfl, rfl⟩
    · unfold mkPDU1
      rw [m _ r hr (by simp), m _ e he (by simp), m _ i hi (by simp), l]
      exact ⟨_, rfl, _, _, _, _, .inl rfl, rfl⟩

/-- The decoded PDU is the one its class's constructor makes. -/
theorem message_decoded {reg : Reg} (hreg : Understands1155 reg) (cm c : SeqCls) {version : Int} {community : Str}
    {p : Pdu} {o : Str} (ho : MessageOctets version community p o) (ht : p.tag % 32 ≠ 31)
    (hc : reg p.tag = some (.seq c)) (hp : c ∈ pduClasses) (hr : Int32 p.requestID) (he : Int32 p.errorStatus)
    (hi : Int32 p.errorIndex) (hb : ∀ b ∈ p.bindings, Holdable reg b) (hl : p.bindings.length ≤ 2147483647) :
    ∃ ci co y ys, msgDecode reg cm (.str o) = .ok ⟨cm, .integer ci version, .octets co community, y⟩ ∧
      mkPDU c p.requestID p.errorStatus p.errorIndex ys = .ok y ∧
      PduFields y c p.requestID p.errorStatus p.errorIndex ys ∧ Carries reg p.bindings ys := by
  obtain ⟨h1, h2, h3, h⟩ := ho
  obtain ⟨g1, g2, g3, g4, g⟩ := h3
  obtain ⟨ci, hci, hcs⟩ := hreg.integer
  obtain ⟨co, hco, hcos⟩ := hreg.octetString
  have hcb : (if (Cls.seq c).isSubclass (.seq .bulkPDU) = true then SeqCls.varBind2 else SeqCls.varBind) = .varBind ∨
      (if (Cls.seq c).isSubclass (.seq .bulkPDU) = true then SeqCls.varBind2 else SeqCls.varBind) = .varBind2 := by
    split <;> simp
  obtain ⟨zs, ys, b1, b2, b3⟩ := bindings_carried hreg.sequence _ hcb p.bindings hb
  obtain ⟨hall, hlen⟩ := carries_varBinds b3
  obtain ⟨y, hy, hf⟩ := mkPDU_accepts c hr he hi hall (by omega)
  refine ⟨ci, co, y, ys, ?_, hy, hf, b3⟩
  have hpdu : decodeAll reg (_ ++ []) = _ := decodeAll_tlv reg g ht []
  rw [hc] at hpdu
  simp only [decodeContents_seq] at hpdu
  rw [ber_decode reg _ _ _ g1 (.integer _ ci hci hcs), ber_decode reg _ _ _ g2 (.integer _ ci hci hcs),
    ber_decode reg _ _ _ g3 (.integer _ ci hci hcs)] at hpdu
  have d4 := ber_decode reg _ _ _ g4 (.seq _ _ hreg.sequence b1) []
  rw [List.append_nil, decodeAll_nil] at d4
  rw [d4] at hpdu
  simp only at hpdu
  have fin : finishSeq c [.integer ci p.requestID, .integer ci p.errorStatus, .integer ci p.errorIndex, .seq .sequence zs] =
      .ok y := by
    unfold finishSeq
    rw [if_pos (by simpa using (pdu_classes_iff c).mp hp)]
    unfold finishPDU
    simp only [Val.iter, Val.toInt, bind, Except.bind]
    rw [b2]
    exact hy
  rw [fin, decodeAll_nil] at hpdu
  simp only [List.append_nil] at hpdu
  have hmsg : decode reg (.str o) = .ok [.seq .sequence [.integer ci version, .octets co community, y]] := by
    simp only [decode]
    have := decodeAll_tlv reg h (by decide) []
    rw [List.append_nil, hreg.sequence] at this
    simp only [decodeContents_seq] at this
    rw [ber_decode reg _ _ _ h1 (.integer _ ci hci hcs), ber_decode reg _ _ _ h2 (.string _ _ co hco), hpdu,
      decodeAll_nil] at this
    rw [this]
    simp only [finishSeq_sequence]
  unfold msgDecode
  rw [hmsg]
  rfl

/-- **C72**, answers: every BER form of a message whose PDU kind the registry knows, whose numbers are 32-bit and whose
bindings can be held is decoded to a message with the version, community, PDU kind, numbers and bindings it encodes. -/
theorem C72_message_decoded {reg : Reg} (hreg : Understands1155 reg) (cm c : SeqCls) {version : Int} {community : Str}
    {p : Pdu} {o : Str} (ho : MessageOctets version community p o) (ht : p.tag % 32 ≠ 31)
    (hc : reg p.tag = some (.seq c)) (hp : c ∈ pduClasses) (hr : Int32 p.requestID) (he : Int32 p.errorStatus)
    (hi : Int32 p.errorIndex) (hb : ∀ b ∈ p.bindings, Holdable reg b) (hl : p.bindings.length ≤ 2147483647) :
    ∃ ci co y ys, msgDecode reg cm (.str o) = .ok ⟨cm, .integer ci version, .octets co community, y⟩ ∧
      PduFields y c p.requestID p.errorStatus p.errorIndex ys ∧ Carries reg p.bindings ys := by
  obtain ⟨ci, co, y, ys, h1, _, h2, h3⟩ := message_decoded hreg cm c ho ht hc hp hr he hi hb hl
  exact ⟨ci, co, y, ys, h1, h2, h3⟩

theorem registryFor_uses {k : Kind} {reg : Reg} (h : RegistryFor k reg) :
    ∃ b c d, reg = decoder true b c d ∧ b = true ∧ (k ≠ .v1 → d = true) := by
  obtain ⟨l, hl, rfl⟩ := h
  have key : ∀ ms : List Module, ms.contains (moduleOf k) = true → uses l ms = true := by
    intro ms hm
    exact List.any_eq_true.mpr ⟨_, hl, hm⟩
  refine ⟨uses l needs1157, uses l needs1902, uses l needs1905, ?_, ?_, ?_⟩
  · rw [C56_registry, Spec.registry, key needs1155 (by cases k <;> rfl)]
  · exact key _ (by cases k <;> rfl)
  · intro hk
    exact key _ (by cases k <;> first | rfl | exact absurd rfl hk)

theorem registryFor_imported {k : Kind} {reg : Reg} (h : RegistryFor k reg) : Imported reg := by
  obtain ⟨l, hl, rfl⟩ := h
  exact ⟨l, List.any_eq_true.mpr ⟨_, hl, by cases k <;> rfl⟩, rfl⟩

/-- A manager takes an accepted message with a PDU of a fitting class as the answer to its request ID. -/
theorem deliver_octets {env : Env} {k : Kind} (hreg : Understands1155 env.reg) {s : Mgr k} (h : Reachable env s)
    (user : Nat → Option Msg → Act k) {version : Int} (hv : version = 0 ∨ k ≠ .v1 ∧ version = 1) {community : Str}
    {p : Pdu} {o : Str} (ho : MessageOctets version community p o) (c : SeqCls) (ht : p.tag % 32 ≠ 31)
    (hc : env.reg p.tag = some (.seq c)) (hp : c ∈ pduClasses)
    (hsub : (Cls.seq c).isSubclass (.seq (if k = .sm ∧ version = 1 then .pdu2 else .pdu)) = true)
    (hr : Int32 p.requestID) (he : Int32 p.errorStatus)
    (hi : Int32 p.errorIndex) (hb : ∀ b ∈ p.bindings, Holdable env.reg b) (hl : p.bindings.length ≤ 2147483647)
    (cb : Nat) (hiss : (p.requestID, cb) ∈ issued s.log) (hf : ¬ Finished s.log p.requestID) :
    ∃ m ys, versionNo m = some version ∧ (∃ co, m.community = .octets co community) ∧
      PduFields m.data c p.requestID p.errorStatus p.errorIndex ys ∧ Carries env.reg p.bindings ys ∧
      let q := (user cb (some m)).exec env (s.note (.entered cb (some m)))
      let s' := (receiveData env k (fun cb m => (user cb m).exec env) (.str o) s).2
      s'.log = q.2.log ++ [.left cb (some m) q.1] ∧ s'.outbound = q.2.outbound ∧ s'.nextRequestID = q.2.nextRequestID ∧
      ∀ j, s'.callbacks.at j = if q.1 = .ok () ∧ j = p.requestID then none else q.2.callbacks.at j := by
  obtain ⟨ci, co, y, ys, hm, hfld, hcar⟩ :=
    C72_message_decoded hreg (msgCls k) c ho ht hc hp hr he hi hb hl
  refine ⟨⟨msgCls k, .integer ci version, .octets co community, y⟩, ys, rfl, ⟨co, rfl⟩, hfld, hcar, ?_⟩
  refine C46_delivered h user (.str o) _ p.requestID cb hm (by simpa [accepts, versionNo] using hv) ?_ hiss hf
  obtain ⟨c1, c2, c3, cl, hcl, rfl⟩ := hfld
  simp only [answers]
  rw [if_pos]
  unfold answerCls
  simpa [versionNo] using hsub

/-- **C72**, answers: in every reachable state, whatever BER form the peer chose, a Response with the ID of a pending
request is handed to exactly the callback of that request, as a message with the version, community, error status, error
index and bindings it encodes; the callback is then forgotten if it returned. -/
theorem C72_answer {env : Env} {k : Kind} (hreg : RegistryFor k env.reg) {s : Mgr k} (h : Reachable env s)
    (user : Nat → Option Msg → Act k) {version : Int} (hv : version = 0 ∨ k ≠ .v1 ∧ version = 1) {community : Str}
    {p : Pdu} (hp : p.tag = 0xa2) {o : Str} (ho : MessageOctets version community p o)
    (hr : Int32 p.requestID) (he : Int32 p.errorStatus) (hi : Int32 p.errorIndex)
    (hb : ∀ b ∈ p.bindings, Holdable env.reg b) (hl : p.bindings.length ≤ 2147483647)
    (cb : Nat) (hiss : (p.requestID, cb) ∈ issued s.log) (hf : ¬ Finished s.log p.requestID) :
    ∃ m ys, versionNo m = some version ∧ (∃ co, m.community = .octets co community) ∧
      (∃ c, (c = .response ∨ c = .response2) ∧ PduFields m.data c p.requestID p.errorStatus p.errorIndex ys) ∧
      Carries env.reg p.bindings ys ∧
      let q := (user cb (some m)).exec env (s.note (.entered cb (some m)))
      let s' := (receiveData env k (fun cb m => (user cb m).exec env) (.str o) s).2
      s'.log = q.2.log ++ [.left cb (some m) q.1] ∧ s'.outbound = q.2.outbound ∧ s'.nextRequestID = q.2.nextRequestID ∧
      ∀ j, s'.callbacks.at j = if q.1 = .ok () ∧ j = p.requestID then none else q.2.callbacks.at j := by
  have hu := imported_understands (registryFor_imported hreg)
  obtain ⟨b, c, d, hdec, rfl, hd⟩ := registryFor_uses hreg
  have hcls : ∃ c, env.reg p.tag = some (.seq c) ∧ (c = .response ∨ c = .response2) ∧
      (Cls.seq c).isSubclass (.seq (if k = .sm ∧ version = 1 then .pdu2 else .pdu)) = true := by
    rw [hp, hdec]
    cases d with
    | true => exact ⟨.response2, rfl, .inr rfl, by split <;> decide⟩
    | false =>
      refine ⟨.response, rfl, .inl rfl, ?_⟩
      rw [if_neg (by rintro ⟨rfl, _⟩; simp at hd)]
      decide
  obtain ⟨cr, h1, h2, h3⟩ := hcls
  obtain ⟨m, ys, a1, a2, a3, a4, a5⟩ := deliver_octets hu h user hv ho cr (by rw [hp]; decide) h1
    (by rcases h2 with rfl | rfl <;> decide) h3 hr he hi hb hl cb hiss hf
  exact ⟨m, ys, a1, a2, ⟨cr, h2, a3⟩, a4, a5⟩

/-- **C72**, answers: the PDU kind is not looked at. A Get, GetNext or Set that comes in with the ID of a pending request
is handed to that request's callback like an answer (`snmpManager` does so for SNMPv1 messages only). -/
theorem C72_any_kind_is_an_answer {env : Env} {k : Kind} (hreg : RegistryFor k env.reg) {s : Mgr k} (h : Reachable env s)
    (user : Nat → Option Msg → Act k) {version : Int} (hv : version = 0 ∨ k = .v2 ∧ version = 1) {community : Str}
    {p : Pdu} (hp : p.tag = 0xa0 ∨ p.tag = 0xa1 ∨ p.tag = 0xa3) {o : Str} (ho : MessageOctets version community p o)
    (hr : Int32 p.requestID) (he : Int32 p.errorStatus) (hi : Int32 p.errorIndex)
    (hb : ∀ b ∈ p.bindings, Holdable env.reg b) (hl : p.bindings.length ≤ 2147483647)
    (cb : Nat) (hiss : (p.requestID, cb) ∈ issued s.log) (hf : ¬ Finished s.log p.requestID) :
    ∃ m ys, versionNo m = some version ∧ (∃ co, m.community = .octets co community) ∧
      (∃ c, (c = .get ∨ c = .getNext ∨ c = .set) ∧ PduFields m.data c p.requestID p.errorStatus p.errorIndex ys) ∧
      Carries env.reg p.bindings ys ∧
      let q := (user cb (some m)).exec env (s.note (.entered cb (some m)))
      let s' := (receiveData env k (fun cb m => (user cb m).exec env) (.str o) s).2
      s'.log = q.2.log ++ [.left cb (some m) q.1] ∧ s'.outbound = q.2.outbound ∧ s'.nextRequestID = q.2.nextRequestID ∧
      ∀ j, s'.callbacks.at j = if q.1 = .ok () ∧ j = p.requestID then none else q.2.callbacks.at j := by
  have hu := imported_understands (registryFor_imported hreg)
  obtain ⟨b, c, d, hdec, rfl, hd⟩ := registryFor_uses hreg
  have hn : ¬ (k = .sm ∧ version = 1) := by
    rintro ⟨rfl, rfl⟩
    rcases hv with hv | ⟨hv, _⟩
    · omega
    · cases hv
  have hcls : ∃ c, env.reg p.tag = some (.seq c) ∧ (c = .get ∨ c = .getNext ∨ c = .set) ∧ p.tag % 32 ≠ 31 := by
    rcases hp with hp | hp | hp <;> rw [hp, hdec]
    · exact ⟨.get, rfl, .inl rfl, by decide⟩
    · exact ⟨.getNext, rfl, .inr (.inl rfl), by decide⟩
    · exact ⟨.set, rfl, .inr (.inr rfl), by decide⟩
  obtain ⟨cr, h1, h2, h4⟩ := hcls
  have h3 : (Cls.seq cr).isSubclass (.seq (if k = .sm ∧ version = 1 then .pdu2 else .pdu)) = true := by
    rw [if_neg hn]; rcases h2 with rfl | rfl | rfl <;> decide
  have hv' : version = 0 ∨ k ≠ .v1 ∧ version = 1 := by
    rcases hv with hv | ⟨rfl, hv⟩
    · exact .inl hv
    · exact .inr ⟨by decide, hv⟩
  obtain ⟨m, ys, a1, a2, a3, a4, a5⟩ := deliver_octets hu h user hv' ho cr h4 h1
    (by rcases h2 with rfl | rfl | rfl <;> decide) h3 hr he hi hb hl cb hiss hf
  exact ⟨m, ys, a1, a2, ⟨cr, h2, a3⟩, a4, a5⟩

/-! ## Traps -/

/-- **C73**, sending: a trap call queues one message for the given address, which encodes to a message carrying the trap
held by the PDU object (`snmpManager` cannot send traps, C52). -/
theorem C73_trap_sent (env : Env) (remote : Nat) (pdu : Val) (com : Str) (p : Trap) (hp : HoldsTrap pdu p) :
    (∀ s : Mgr .v1, ∃ m o, doCall env (k := .v1) (V1Call.trap remote pdu com) s =
        (.ok .none, ({ s with outbound := s.outbound ++ [(some m, remote)] } : Mgr .v1).note
          (.called (V1Call.trap remote pdu com) (.ok .none))) ∧
      m.encode = .ok o ∧ (o.length < 256 ^ 127 → TrapMessageOctets 0 com p o)) ∧
    (∀ s : Mgr .v2, ∃ m o, doCall env (k := .v2) (V2Call.trap remote pdu com) s =
        (.ok .none, ({ s with outbound := s.outbound ++ [(some m, remote)] } : Mgr .v2).note
          (.called (V2Call.trap remote pdu com) (.ok .none))) ∧
      m.encode = .ok o ∧ (o.length < 256 ^ 127 → TrapMessageOctets 1 com p o)) := by
  have key : ∀ (cm : SeqCls) (v : Int), cm = .message ∨ cm = .message2 → 0 ≤ v → ∃ o,
      (wrap cm v com pdu).encode = .ok o ∧ (o.length < 256 ^ 127 → TrapMessageOctets v com p o) := by
    intro cm v hcm hv
    obtain ⟨ent, addr, cg, cs, ct, cl, xs, rfl, he, ha, hcg, hcs, hg, hs, hct, hcl, hb⟩ := hp
    obtain ⟨s1, e1, b1⟩ := encode_ber _ _ he
    obtain ⟨s2, e2, b2⟩ := encode_ber _ _ ha
    obtain ⟨s3, e3, b3⟩ := encode_ber _ _ (.integer cg _ hcg hg)
    obtain ⟨s4, e4, b4⟩ := encode_ber _ _ (.integer cs _ hcs hs)
    obtain ⟨s5, e5, b5⟩ := encode_ber _ _ (.unsigned .timeTicks ct p.timestamp hct)
    obtain ⟨s6, e6, b6⟩ := encode_ber _ _ (.seq cl xs _ hcl (holds_represents hb))
    obtain ⟨v1, f1, d1⟩ := encode_ber _ _ (.integer .integer v (by decide) (outOfBand_nonneg hv))
    obtain ⟨v2, f2, d2⟩ := encode_ber _ _ (.string .octetString .octetString com (by decide))
    have hid : (Cls.seq .trapPDU).identifier = .ok [0xa4] := by decide +kernel
    obtain ⟨q, g1, g2, g3⟩ := tlv_ok (s1 ++ (s2 ++ (s3 ++ (s4 ++ (s5 ++ s6))))) hid
    have hidm : (Cls.seq cm).identifier = .ok [0x30] := by rcases hcm with rfl | rfl <;> decide +kernel
    obtain ⟨o, k1, k2, k3⟩ := tlv_ok (v1 ++ (v2 ++ q)) hidm
    refine ⟨o, ?_, fun hl => ?_⟩
    · unfold wrap Msg.encode
      simp only [encodeItems, f1, f2, Val.encode, List.append_nil]
      rw [show tlv (.int .integer) (intEncode v) = (Val.integer .integer v).encode from rfl] at *
      simp only [e1, e2, e3, e4, e5, e6, g1, f1, f2]
      simp only [Val.encode] at *
      simp_all
    · simp only [List.length_append] at g2 k2
      exact .mk (d1 (by omega)) (d2 (by omega)) (.mk (b1 (by omega)) (b2 (by omega)) (b3 (by omega)) (b4 (by omega))
        (b5 (by omega)) (b6 (by omega)) (g3 (by omega))) (k3 hl)
  constructor
  · intro s
    obtain ⟨o, h1, h2⟩ := key .message 0 (.inl rfl) (by decide)
    exact ⟨_, o, rfl, h1, h2⟩
  · intro s
    obtain ⟨o, h1, h2⟩ := key .message2 1 (.inr rfl) (by decide)
    exact ⟨_, o, rfl, h1, h2⟩

/-- **C73**, receiving: every BER form of a message carrying an SNMPv1 trap decodes to that trap. -/
theorem C73_trap_decoded {reg : Reg} (hreg : Understands1155 reg) (htag : reg 0xa4 = some (.seq .trapPDU)) (cm : SeqCls)
    {version : Int} {community : Str} {p : Trap} {o : Str} (ho : TrapMessageOctets version community p o)
    (hg : Int32 p.generic) (he : ∃ x, Denotes reg (.oid p.enterprise) x) (hb : ∀ b ∈ p.bindings, Holdable reg b) :
    ∃ ci co y, msgDecode reg cm (.str o) = .ok ⟨cm, .integer ci version, .octets co community, y⟩ ∧
      CarriesTrap reg p y := by
  obtain ⟨h1, h2, h3, h⟩ := ho
  obtain ⟨g1, g2, g3, g4, g5, g6, g⟩ := h3
  obtain ⟨ci, hci, hcs⟩ := hreg.integer
  obtain ⟨co, hco, hcos⟩ := hreg.octetString
  obtain ⟨ca, hca, hcas⟩ := hreg.ipAddress
  obtain ⟨ct, hct, hcts⟩ := hreg.timeTicks
  obtain ⟨ent, hent⟩ := he
  obtain ⟨zs, ys, b1, b2, b3⟩ := bindings_carried hreg.sequence .varBind (.inl rfl) p.bindings hb
  have haddr : Denotes reg (.string .ipAddress p.agent) (.octets ca p.agent) := .string _ _ ca hca
  refine ⟨ci, co, mkTrap ent (.octets ca p.agent) (.integer .genericTrap p.generic) (.integer ci p.specific)
    (.integer ct p.timestamp) (.seq .varBindList ys), ?_, ⟨_, _, _, _, _, rfl, hent, haddr, .integer _ ci hci hcs, .unsigned _ _ ct hct, b3⟩⟩
  have hpdu : decodeAll reg (_ ++ []) = _ := decodeAll_tlv reg g (by decide) []
  rw [htag] at hpdu
  simp only [decodeContents_seq] at hpdu
  rw [ber_decode reg _ _ _ g1 hent, ber_decode reg _ _ _ g2 haddr, ber_decode reg _ _ _ g3 (.integer _ ci hci hcs),
    ber_decode reg _ _ _ g4 (.integer _ ci hci hcs), ber_decode reg _ _ _ g5 (.unsigned _ _ ct hct)] at hpdu
  have d6 := ber_decode reg _ _ _ g6 (.seq _ _ hreg.sequence b1) []
  rw [List.append_nil, decodeAll_nil] at d6
  rw [d6] at hpdu
  simp only at hpdu
  have fin : finishSeq .trapPDU [ent, .octets ca p.agent, .integer ci p.generic, .integer ci p.specific,
      .integer ct p.timestamp, .seq .sequence zs] =
      .ok (mkTrap ent (.octets ca p.agent) (.integer .genericTrap p.generic) (.integer ci p.specific)
        (.integer ct p.timestamp) (.seq .varBindList ys)) := by
    unfold finishSeq
    rw [if_neg (by decide), if_pos (by decide)]
    unfold finishTrap
    have hmk : mkInteger .genericTrap p.generic = .ok (.integer .genericTrap p.generic) := by
      unfold mkInteger
      rw [if_pos]
      exact hg
    simp only [Val.iter, Val.toInt, bind, Except.bind, b2, hmk]
  rw [fin, decodeAll_nil] at hpdu
  simp only [List.append_nil] at hpdu
  have hmsg : decode reg (.str o) = .ok [.seq .sequence [.integer ci version, .octets co community,
      mkTrap ent (.octets ca p.agent) (.integer .genericTrap p.generic) (.integer ci p.specific)
        (.integer ct p.timestamp) (.seq .varBindList ys)]] := by
    simp only [decode]
    have := decodeAll_tlv reg h (by decide) []
    rw [List.append_nil, hreg.sequence] at this
    simp only [decodeContents_seq] at this
    rw [ber_decode reg _ _ _ h1 (.integer _ ci hci hcs), ber_decode reg _ _ _ h2 (.string _ _ co hco), hpdu,
      decodeAll_nil] at this
    rw [this]
    simp only [finishSeq_sequence]
  unfold msgDecode
  rw [hmsg]
  rfl

/-- **C73**, receiving: in every reachable state, every BER form of an SNMPv1 trap in a message of an accepted version
(`snmpManager`: version 0 only) is handed to the trap callback once, as an object holding that trap, and changes nothing
else; no request's callback is involved. -/
theorem C73_trap_delivered {env : Env} {k : Kind} (hreg : RegistryFor k env.reg) {s : Mgr k} (h : Reachable env s)
    (user : Nat → Option Msg → Act k) {version : Int} (hv : version = 0 ∨ k = .v2 ∧ version = 1) {community : Str}
    {p : Trap} {o : Str} (ho : TrapMessageOctets version community p o)
    (hg : Int32 p.generic) (he : ∃ x, Denotes env.reg (.oid p.enterprise) x) (hb : ∀ b ∈ p.bindings, Holdable env.reg b) :
    ∃ m, versionNo m = some version ∧ (∃ co, m.community = .octets co community) ∧ CarriesTrap env.reg p m.data ∧
      let q := receiveData env k (fun cb m => (user cb m).exec env) (.str o) s
      (∀ cb, env.trapCallback = some cb →
        q.2 = ((user cb (some m)).exec env (s.note (.entered cb (some m)))).2.note
          (.left cb (some m) ((user cb (some m)).exec env (s.note (.entered cb (some m)))).1)) ∧
      (env.trapCallback = none → q.2 = s ∧ q.1 = if k = .v2 then .ok () else .error .typeError) := by
  have hu := imported_understands (registryFor_imported hreg)
  obtain ⟨b, c, d, hdec, rfl, hd⟩ := registryFor_uses hreg
  obtain ⟨ci, co, y, hm, hy⟩ := C73_trap_decoded hu (by rw [hdec]; rfl) (msgCls k) ho hg he hb
  refine ⟨⟨msgCls k, .integer ci version, .octets co community, y⟩, rfl, ⟨co, rfl⟩, hy, ?_⟩
  refine C53_trap h user (.str o) _ hm ?_ ?_
  · rcases hv with rfl | ⟨rfl, rfl⟩
    · exact .inl rfl
    · exact .inr ⟨by decide, rfl⟩
  · refine ⟨?_, ?_⟩
    · obtain ⟨_, _, _, _, _, hy, _⟩ := hy
      show y.isInstance (.seq .trapPDU) = true
      rw [hy]; rfl
    · rintro ⟨rfl, hv1⟩
      simp only [versionNo, Option.some.injEq] at hv1
      rcases hv with hv | ⟨hv, _⟩
      · omega
      · cases hv

/-! ## A concrete exchange -/

/-- The message of `answer0`: Response to request 0, one binding. -/
def answer0Octets : Str :=
  [48, 35, 2, 1, 0, 4, 6, 112, 117, 98, 108, 105, 99, 162, 22, 2, 1, 0, 2, 1, 0, 2, 1, 0, 48, 11, 48, 9, 6, 5, 43, 6,
    1, 2, 1, 5, 0]

/-- The PDU of an exchange about the object 1.3.6.1.2.1. -/
def askedPdu (tag : Nat) : Pdu := { tag := tag, requestID := 0, bindings := [⟨[1, 3, 6, 1, 2, 1], .null .null⟩] }

theorem ber_zero : Ber (.integer 0) [2, 1, 0] :=
  .integer [0] [2, 1, 0] (by simp) (by decide) ⟨[1], .short 1 (by decide), rfl⟩

theorem askedPdu_octets (tag : Nat) :
    PduOctets (askedPdu tag) (tag :: [22, 2, 1, 0, 2, 1, 0, 2, 1, 0, 48, 11, 48, 9, 6, 5, 43, 6, 1, 2, 1, 5, 0]) := by
  refine .mk (s1 := [2, 1, 0]) (s2 := [2, 1, 0]) (s3 := [2, 1, 0]) (s4 := [48, 11, 48, 9, 6, 5, 43, 6, 1, 2, 1, 5, 0])
    ber_zero ber_zero ber_zero ?_ ⟨[22], .short 22 (by decide), rfl⟩
  refine .seq _ [48, 9, 6, 5, 43, 6, 1, 2, 1, 5, 0] _ ?_ ⟨[11], .short 11 (by decide), rfl⟩
  refine .cons (s := [48, 9, 6, 5, 43, 6, 1, 2, 1, 5, 0]) (t := []) ?_ .nil
  refine .seq _ [6, 5, 43, 6, 1, 2, 1, 5, 0] _ ?_ ⟨[9], .short 9 (by decide), rfl⟩
  refine .cons (s := [6, 5, 43, 6, 1, 2, 1]) (t := [5, 0]) ?_ (.cons (s := [5, 0]) (t := []) ?_ .nil)
  · refine .oid _ [43, 6, 1, 2, 1] _ ?_ ⟨[5], .short 5 (by decide), rfl⟩
    have g : ∀ n < 128, Base128 n [n] := fun n h => by simpa [ofDigits] using Base128.mk [] n (by simp) h
    exact OidContents.mk 1 3 [6, 1, 2, 1] [43] [6, 1, 2, 1] (by decide) (by decide) (g 43 (by decide)) (by decide)
      (.cons (g 6 (by decide)) (.cons (g 1 (by decide)) (.cons (g 2 (by decide)) (.cons (g 1 (by decide)) .nil))))
  · exact .null .null _ ⟨[0], .short 0 (by decide), rfl⟩

theorem message_octets (tag : Nat) : MessageOctets 0 (lit "public") (askedPdu tag)
    ([48, 35, 2, 1, 0, 4, 6, 112, 117, 98, 108, 105, 99] ++
      tag :: [22, 2, 1, 0, 2, 1, 0, 2, 1, 0, 48, 11, 48, 9, 6, 5, 43, 6, 1, 2, 1, 5, 0]) :=
  .mk (s1 := [2, 1, 0]) (s2 := [4, 6, 112, 117, 98, 108, 105, 99]) ber_zero
    (.string .octetString (lit "public") _ ⟨[6], .short 6 (by decide), rfl⟩) (askedPdu_octets tag)
    ⟨[35], .short 35 (by decide), rfl⟩

/-- The hypotheses of `C72_answer` are met by `asked` (request 0 pending with callback 1) and `answer0`. -/
example : RegistryFor .v1 envV1.reg ∧ Reachable envV1 asked ∧ MessageOctets 0 (lit "public") (askedPdu 0xa2) answer0Octets ∧
    (∀ b ∈ (askedPdu 0xa2).bindings, Holdable envV1.reg b) ∧ ((askedPdu 0xa2).requestID, 1) ∈ issued asked.log ∧
    ¬ Finished asked.log (askedPdu 0xa2).requestID := by
  refine ⟨⟨[.v1], by simp [moduleOf], C56_v1.symm⟩, ⟨_, rfl⟩, message_octets 0xa2, ?_, by decide +kernel, ?_⟩
  · intro b hb
    simp only [askedPdu, List.mem_singleton] at hb
    subst hb
    exact ⟨⟨_, .oid 1 3 [6, 1, 2, 1] rfl (by decide)⟩, ⟨_, .null .null .null rfl⟩⟩
  · rintro ⟨cb, m, hm, _⟩
    have : asked.log.all (fun o => match o with | .left .. => false | _ => true) = true := by decide +kernel
    have := List.all_eq_true.mp this _ hm
    simp at this

/-- The program that asks and runs one turn of the loop. -/
def askAndSend : Mgr .v1 := ((ask0 (.loop (.ok ()) none (fun _ _ => .ret) fun _ => .ret)).exec envV1 {}).2

/-- The hypotheses of `C72_sent` are met: the call asks for a Get of 1.3.6.1.2.1, and this is the datagram sent. -/
example : AsksFor envV1 (k := .v1) (V1Call.get (.str (lit ".1.3.6.1.2.1")) 7 1 (lit "public")) 0 0xa0
      [⟨[1, 3, 6, 1, 2, 1], .null .null⟩] ∧
    sentOut askAndSend.log = [([48, 35, 2, 1, 0, 4, 6, 112, 117, 98, 108, 105, 99] ++
      0xa0 :: [22, 2, 1, 0, 2, 1, 0, 2, 1, 0, 48, 11, 48, 9, 6, 5, 43, 6, 1, 2, 1, 5, 0], 7)] := by
  refine ⟨⟨rfl, rfl, [1, 3, 6, 1, 2, 1], ⟨by decide +kernel, 1, 3, [6, 1, 2, 1], rfl, by decide, by decide⟩, rfl⟩, by decide +kernel⟩

/-- A coldStart trap of 10.0.0.1. -/
def coldStart : Trap := ⟨[1, 3, 6], [10, 0, 0, 1], 0, 0, 5, []⟩

/-- The hypotheses of `C73_trap_delivered` are met by `trap0`, those of `C73_trap_sent` by the corresponding object. -/
example : TrapMessageOctets 0 (lit "public") coldStart
      [48, 34, 2, 1, 0, 4, 6, 112, 117, 98, 108, 105, 99, 164, 21, 6, 2, 43, 6, 64, 4, 10, 0, 0, 1, 2, 1, 0, 2, 1, 0, 67,
        1, 5, 48, 0] ∧
    (∃ x, Denotes envV1.reg (.oid coldStart.enterprise) x) ∧
    HoldsTrap (.seq .trapPDU [.oid (some [1, 3, 6]), .octets .networkAddress [10, 0, 0, 1], .integer .genericTrap 0,
      .integer .integer 0, .integer .timeTicks 5, .seq .varBindList []]) coldStart := by
  refine ⟨?_, ⟨_, .oid 1 3 [6] rfl (by decide)⟩, ?_⟩
  · refine .mk (s1 := [2, 1, 0]) (s2 := [4, 6, 112, 117, 98, 108, 105, 99])
      (s3 := [164, 21, 6, 2, 43, 6, 64, 4, 10, 0, 0, 1, 2, 1, 0, 2, 1, 0, 67, 1, 5, 48, 0]) ber_zero
      (.string .octetString (lit "public") _ ⟨[6], .short 6 (by decide), rfl⟩) ?_ ⟨[34], .short 34 (by decide), rfl⟩
    refine .mk (s1 := [6, 2, 43, 6]) (s2 := [64, 4, 10, 0, 0, 1]) (s3 := [2, 1, 0]) (s4 := [2, 1, 0])
      (s5 := [67, 1, 5]) (s6 := [48, 0]) ?_ (.string .ipAddress [10, 0, 0, 1] _ ⟨[4], .short 4 (by decide), rfl⟩) ber_zero ber_zero
      (.unsigned .timeTicks 5 [5] _ (by simp) (by decide) (by decide) ⟨[1], .short 1 (by decide), rfl⟩)
      (.seq [] [] _ .nil ⟨[0], .short 0 (by decide), rfl⟩) ⟨[21], .short 21 (by decide), rfl⟩
    refine .oid _ [43, 6] _ ?_ ⟨[2], .short 2 (by decide), rfl⟩
    have g : ∀ n < 128, Base128 n [n] := fun n h => by simpa [ofDigits] using Base128.mk [] n (by simp) h
    exact OidContents.mk 1 3 [6] [43] [6] (by decide) (by decide) (g 43 (by decide)) (by decide) (.cons (g 6 (by decide)) .nil)
  · exact ⟨_, _, _, _, _, _, _, rfl, .oid 1 3 [6] (by decide) (by decide), .string _ _ _ (by decide), by decide, by decide,
      outOfBand_nonneg (by decide), outOfBand_nonneg (by decide), by decide, by decide, .nil⟩

end Libsnmp
