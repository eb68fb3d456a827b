import Verif.Lemmas.Decode
import Verif.Lemmas.ValEq
import Verif.Props.Objects

/-!
# What `decode` returns and raises: C23, C24, C28, C31
-/

namespace Libsnmp
open Spec

/-- C23. On every `str`, octets or not, `decode` returns a list of at most half as many objects as there are
characters, or raises one of six exception classes. -/
theorem C23_decode_outcomes (reg : Reg) (hreg : Imported reg) (s : Str) :
    (∃ objs, decode reg (.str s) = .ok objs ∧ 2 * objs.length ≤ s.length) ∨
    (∃ e, decode reg (.str s) = .error e ∧
      e ∈ [Exc.valueError, .typeError, .indexError, .notImplementedError, .pduError, .pduError2]) := by
  have hb : ∀ t, reg t ≠ some .asn1Object := imported_no_base hreg
  simp only [decode]
  cases h : decodeAll reg s with
  | ok objs => exact .inl ⟨objs, rfl, decodeAll_count reg s objs h⟩
  | error e => exact .inr ⟨e, rfl, (decodeAll_exceptions reg hb s).2 e h⟩

/-- C23. Anything that is not a `str` is a TypeError. -/
theorem C23_decode_non_str (reg : Reg) (v : Val) (h : ∀ s, v ≠ .str s) : decode reg v = .error .typeError := by
  cases v <;> first | rfl | exact absurd rfl (h _)

/-- Each of the six exceptions does occur. -/
example : decode regFull (.str [0x02]) = .error .indexError ∧ decode regFull (.str [0x01, 0]) = .error .valueError ∧
    decode regFull (.str [0x06, 1, 200]) = .error .notImplementedError ∧
    decode regFull (.str [0xa0, 0]) = .error .pduError ∧ decode regFull (.str [0xa5, 0]) = .error .pduError2 ∧
    decode regFull (.str [0xa0, 8, 5, 0, 5, 0, 5, 0, 5, 0]) = .error .typeError := by decide +kernel

theorem pdu_classes_iff (c : SeqCls) : c ∈ pduClasses ↔
    ((Cls.seq c).isSubclass (.seq .pdu) = true ∨ (Cls.seq c).isSubclass (.seq .bulkPDU) = true) := by
  cases c <;> decide
theorem trap_class_iff (c : SeqCls) : c = .trapPDU ↔ (Cls.seq c).isSubclass (.seq .trapPDU) = true := by
  cases c <;> decide

theorem finishSeq_cls {c : SeqCls} {items : List Val} {v : Val} (h : finishSeq c items = .ok v) :
    v.cls? = some (.seq c) := by
  rcases finishSeq_ok h with ⟨rfl, _⟩ | ⟨o0, o1, o2, o3, l, vbs, a, b, d, cb, rfl, hpdu, _, _, _, _, _, _, h6⟩ |
    ⟨o0, o1, o2, o3, o4, o5, l, vbs, g, rfl, _, _, _, _, _, _, ht, rfl⟩
  · rfl
  · obtain ⟨c1, c2, cl, rfl, _⟩ := mkPDU_ok h6
    rfl
  · rw [(trap_class_iff c).mpr ht]; rfl

/-- C24. Every object `decode` returns, and every object inside it outside PDUs, is of a class the registry assigns to
some identifier. -/
theorem C24_only_registered (reg : Reg) (s : Str) (objs : List Val) (h : decode reg (.str s) = .ok objs) :
    ∀ o ∈ objs, ∀ p, Inside o p → ∃ tag cls, reg tag = some cls ∧ p.cls? = some cls := by
  simp only [decode] at h
  refine (decodeAll_inv reg (fun o => ∀ p, Inside o p → ∃ tag cls, reg tag = some cls ∧ p.cls? = some cls)
    (fun _ => True) trivial trivial ?_ s).1 objs h
  intro cls t data hr ⟨ih, _⟩
  refine ⟨?_, fun _ _ => trivial⟩
  intro v hv p hp
  cases cls with
  | asn1Object => simp [decodeContents_asn1] at hv
  | int c =>
    rw [decodeContents_int] at hv
    split at hv <;> simp only [Except.ok.injEq, reduceCtorEq] at hv
    subst hv; cases hp; exact ⟨t, _, hr, rfl⟩
  | oct c =>
    rw [decodeContents_oct] at hv
    simp only [Except.ok.injEq] at hv
    subst hv; cases hp; exact ⟨t, _, hr, rfl⟩
  | oid =>
    rw [decodeContents_oid] at hv
    split at hv <;> simp only [Except.ok.injEq, reduceCtorEq] at hv
    subst hv; cases hp; exact ⟨t, _, hr, rfl⟩
  | null c =>
    rw [decodeContents_null] at hv
    split at hv <;> simp only [Except.ok.injEq, reduceCtorEq] at hv
    subst hv; cases hp; exact ⟨t, _, hr, rfl⟩
  | seq c =>
    rw [decodeContents_seq] at hv
    split at hv
    · simp at hv
    · next items hi =>
      have hcls := finishSeq_cls hv
      cases hp with
      | refl => exact ⟨t, _, hr, hcls⟩
      | @step x _ c' items' hc1 hc2 hx hxp =>
        have e : c' = c := by simpa [Val.cls?] using hcls
        subst e
        rcases finishSeq_ok hv with ⟨e, _⟩ | ⟨o0, o1, o2, o3, l, vbs, a, b, d, cb, rfl, hpdu, _, _, _, _, _, _, h6⟩ |
          ⟨o0, o1, o2, o3, o4, o5, l, vbs, g, rfl, _, _, _, _, _, _, ht, _⟩
        · simp only [Val.seq.injEq, true_and] at e
          subst e
          exact ih _ hi x hx p hxp
        · exact absurd ((pdu_classes_iff _).mpr (by simpa using hpdu)) hc1
        · exact absurd ((trap_class_iff _).mpr ht) hc2

/-- What C28 says of one object. -/
def GoodPdu (p : Val) : Prop :=
  ∀ c, p.cls? = some (.seq c) → (c ∈ pduClasses → WellFormedPdu c p) ∧ (c = .trapPDU → WellFormedTrap p)

def DeepGood (v : Val) : Prop := ∀ p, Component v p → GoodPdu p

theorem deepGood_leaf {v : Val} (h : ∀ c items, v ≠ .seq c items) : DeepGood v := by
  intro p hp
  cases hp with
  | refl =>
    intro c hc
    cases v <;> simp [Val.cls?] at hc
    exact absurd rfl (h _ _)
  | step => exact absurd rfl (h _ _)

theorem deepGood_seq {c : SeqCls} {items : List Val} (h : GoodPdu (.seq c items)) (hi : ∀ x ∈ items, DeepGood x) :
    DeepGood (.seq c items) := by
  intro p hp
  cases hp with
  | refl => exact h
  | step hx hxp => exact hi _ hx _ hxp

theorem deepGood_items {c : SeqCls} {items : List Val} (h : DeepGood (.seq c items)) : ∀ x ∈ items, DeepGood x :=
  fun _ hx _ hp => h _ (.step hx hp)

theorem goodPdu_other {c : SeqCls} {items : List Val} (h1 : c ∉ pduClasses) (h2 : c ≠ .trapPDU) :
    GoodPdu (.seq c items) := by
  intro c' h
  have : c = c' := by simpa [Val.cls?] using h
  subst this
  exact ⟨fun h => absurd h h1, fun h => absurd h h2⟩

theorem iter_good {v : Val} (h : DeepGood v) {l : List Val} (hl : v.iter = .ok l) : ∀ x ∈ l, DeepGood x := by
  unfold Val.iter at hl
  split at hl <;> simp only [Except.ok.injEq, reduceCtorEq] at hl <;> subst hl
  · exact deepGood_items h
  all_goals
    intro x hx
    obtain ⟨y, _, rfl⟩ := List.mem_map.mp hx
    exact deepGood_leaf (by simp)

theorem getItem_good {v : Val} (h : DeepGood v) {i : Nat} {x : Val} (hx : v.getItem i = .ok x) : DeepGood x := by
  unfold Val.getItem at hx
  split at hx
  case h_1 c items =>
    split at hx <;> simp only [Except.ok.injEq, reduceCtorEq] at hx
    next y hy => subst hx; exact deepGood_items h _ (List.mem_of_getElem? hy)
  case h_3 => simp at hx
  case h_6 => simp at hx
  all_goals
    split at hx <;> simp only [Except.ok.injEq, reduceCtorEq] at hx
    subst hx; exact deepGood_leaf (by simp)

theorem isInstance_oid {n : Val} (h : n.isInstance .oid = true) : ∃ ids, n = .oid ids := by
  unfold Val.isInstance at h
  cases n with
  | oid v => exact ⟨v, rfl⟩
  | integer c v => cases c <;> exact absurd h (by simp [Val.cls?]; decide)
  | octets c v => cases c <;> exact absurd h (by simp [Val.cls?]; decide)
  | raw c v => cases c <;> exact absurd h (by simp [Val.cls?]; decide)
  | null c => cases c <;> exact absurd h (by simp [Val.cls?]; decide)
  | seq c v => cases c <;> exact absurd h (by simp [Val.cls?]; decide)
  | _ => simp [Val.cls?] at h

theorem mkVarBinds_good {cb : SeqCls} (hcb : cb = .varBind ∨ cb = .varBind2) {l vbs : List Val}
    (h : mkVarBinds cb l = .ok vbs) (hl : ∀ x ∈ l, DeepGood x) :
    ∀ x ∈ vbs, IsBinding x ∧ DeepGood x := by
  intro x hx
  obtain ⟨item, hi, n, v, h1, h2, rfl, h3, _⟩ := mkVarBinds_ok h x hx
  refine ⟨⟨cb, n, v, hcb, rfl, fun ht => isInstance_oid (h3 ht)⟩, ?_⟩
  apply deepGood_seq
  · apply goodPdu_other
    · rcases hcb with rfl | rfl <;> decide
    · rcases hcb with rfl | rfl <;> decide
  · simp only [List.mem_cons, List.not_mem_nil, or_false]
    rintro y (rfl | rfl)
    · exact getItem_good (hl item hi) h1
    · exact getItem_good (hl item hi) h2

theorem vbl_good {cl : SeqCls} (hcl : cl = .varBindList ∨ cl = .varBindList2) {vbs : List Val}
    (h : ∀ x ∈ vbs, IsBinding x ∧ DeepGood x) : DeepGood (.seq cl vbs) := by
  apply deepGood_seq
  · apply goodPdu_other
    · rcases hcl with rfl | rfl <;> decide
    · rcases hcl with rfl | rfl <;> decide
  · exact fun x hx => (h x hx).2

theorem finishSeq_good {c : SeqCls} {items : List Val} (hs : ∀ x ∈ items, DeepGood x) {v : Val}
    (h : finishSeq c items = .ok v) : DeepGood v := by
  rcases finishSeq_ok h with ⟨rfl, h1, h2, h3⟩ | ⟨o0, o1, o2, o3, l, vbs, a, b, d, cb, rfl, hpdu, h1, hcb, h2, _, _, _, h6⟩ |
    ⟨o0, o1, o2, o3, o4, o5, l, vbs, g, rfl, h1, h2, _, hg, h4, h5, ht, rfl⟩
  · apply deepGood_seq _ hs
    apply goodPdu_other
    · rw [pdu_classes_iff]; simp [h1, h2]
    · intro hc; rw [trap_class_iff] at hc; simp [h3] at hc
  · have hvbs := mkVarBinds_good hcb h2 (iter_good (hs o3 (by simp)) h1)
    obtain ⟨c1, c2, cl, rfl, hcl, hc1, hc2, p1, p2, p3⟩ := mkPDU_ok h6
    apply deepGood_seq
    · intro c' hc'
      have : c = c' := by simpa [Val.cls?] using hc'
      subst this
      refine ⟨fun _ => ⟨a, b, d, vbs, ⟨c1, c2, _, cl, hcl, rfl⟩, ?_⟩, fun hc => ?_⟩
      · have q3 : -2147483648 ≤ d ∧ d ≤ 2147483647 := p3
        have q1 : -2147483648 ≤ a ∧ a ≤ 2147483648 := by
          rcases hc1 with rfl | rfl
          · have : -2147483648 ≤ a ∧ a ≤ 2147483647 := p1
            omega
          · exact p1
        have q2 : -2147483648 ≤ b ∧ b ≤ 2147483647 := by rcases hc2 with rfl | rfl | rfl <;> exact p2
        exact ⟨q1.1, q1.2, q2.1, q2.2, q3.1, q3.2, fun vb hvb => (hvbs vb hvb).1⟩
      · exfalso
        subst hc
        revert hpdu; decide
    · simp only [List.mem_cons, List.not_mem_nil, or_false]
      rintro y (rfl | rfl | rfl | rfl)
      · exact deepGood_leaf (by simp)
      · exact deepGood_leaf (by simp)
      · exact deepGood_leaf (by simp)
      · exact vbl_good hcl hvbs
  · have hvbs := mkVarBinds_good (.inl rfl) h2 (iter_good (hs o5 (by simp)) h1)
    unfold mkTrap
    apply deepGood_seq
    · intro c' hc'
      have : SeqCls.trapPDU = c' := by simpa [Val.cls?] using hc'
      subst this
      exact ⟨fun hc => absurd hc (by decide),
        fun _ => ⟨o0, o1, g, o3, o4, vbs, rfl, hg.1, hg.2, fun vb hvb => (hvbs vb hvb).1⟩⟩
    · simp only [List.mem_cons, List.not_mem_nil, or_false]
      rintro y (rfl | rfl | rfl | rfl | rfl | rfl)
      · exact hs _ (by simp)
      · exact hs _ (by simp)
      · exact deepGood_leaf (by simp)
      · exact hs _ (by simp)
      · exact hs _ (by simp)
      · exact vbl_good (.inl rfl) hvbs

/-- C28. Every PDU `decode` returns, on its own or inside other objects, is well-formed: integers within range in the
first three places, a list of name/value pairs in the fourth; and likewise for SNMPv1 traps. -/
theorem C28_decoded_pdus_wellformed (reg : Reg) (s : Str) (objs : List Val) (h : decode reg (.str s) = .ok objs) :
    ∀ o ∈ objs, ∀ p, Component o p → ∀ c, p.cls? = some (.seq c) →
      (c ∈ pduClasses → WellFormedPdu c p) ∧ (c = .trapPDU → WellFormedTrap p) := by
  simp only [decode] at h
  refine (decodeAll_inv reg DeepGood (fun _ => True) trivial trivial ?_ s).1 objs h
  intro cls t data hr ⟨ih, _⟩
  refine ⟨?_, fun _ _ => trivial⟩
  intro v hv
  cases cls with
  | asn1Object => simp [decodeContents_asn1] at hv
  | int c =>
    rw [decodeContents_int] at hv
    split at hv <;> simp only [Except.ok.injEq, reduceCtorEq] at hv
    subst hv; exact deepGood_leaf (by simp)
  | oct c =>
    rw [decodeContents_oct] at hv
    simp only [Except.ok.injEq] at hv
    subst hv; exact deepGood_leaf (by simp)
  | oid =>
    rw [decodeContents_oid] at hv
    split at hv <;> simp only [Except.ok.injEq, reduceCtorEq] at hv
    subst hv; exact deepGood_leaf (by simp)
  | null c =>
    rw [decodeContents_null] at hv
    split at hv <;> simp only [Except.ok.injEq, reduceCtorEq] at hv
    subst hv; exact deepGood_leaf (by simp)
  | seq c =>
    rw [decodeContents_seq] at hv
    split at hv
    · simp at hv
    · next items hi => exact finishSeq_good (ih _ hi) hv

/-- C28. A PDU sequence whose contents decode to other than four objects (six for a trap) is rejected with PDUError. -/
theorem C28_wrong_count (reg : Reg) (c : SeqCls) (data : Str) (items : List Val)
    (h : decode reg (.str data) = .ok items) :
    (c ∈ pduClasses → items.length ≠ 4 →
      decodeContents reg (.seq c) data = .error (if c = .bulkPDU ∨ c = .getBulk then .pduError2 else .pduError)) ∧
    (items.length ≠ 6 → decodeContents reg (.seq .trapPDU) data = .error .pduError) := by
  simp only [decode] at h
  constructor
  · intro hc hl
    rw [decodeContents_seq, h]
    simp only
    unfold finishSeq
    rw [if_pos (by simpa using (pdu_classes_iff c).mp hc)]
    unfold finishPDU
    simp only
    split
    · simp at hl
    · congr 1
      revert hc; cases c <;> decide
  · intro hl
    rw [decodeContents_seq, h]
    simp only
    have : finishSeq .trapPDU items = finishTrap items := by
      unfold finishSeq
      rw [if_neg (by decide), if_pos (by decide)]
    rw [this]
    unfold finishTrap
    split
    · simp at hl
    · rfl

/-- A real SNMP GetResponse, decoded. -/
example : decode regFull (.str [0xa2, 26, 2, 1, 7, 2, 1, 0, 2, 1, 0, 0x30, 15, 0x30, 13, 6, 8, 43, 6, 1, 2, 1, 1, 3, 0, 0x43, 1,
    9]) = .ok [.seq .response2 [.integer .integer32 7, .integer .errorStatus2 0, .integer .integer 0,
      .seq .varBindList2 [.seq .varBind [.oid (some [1, 3, 6, 1, 2, 1, 1, 3, 0]), .integer .timeTicks 9]]]] := by
  decide +kernel

/-- C31. `Message.decode` succeeds exactly when the stream decodes to one object that is a sequence of three components
- or an ObjectID with three sub-identifiers, which then are the "version", "community" and "data". -/
theorem C31_message_decode_ok (reg : Reg) (hreg : Imported reg) (c : SeqCls) (s : Str) (m : Msg) :
    msgDecode reg c (.str s) = .ok m ↔
      ∃ a b d, m = ⟨c, a, b, d⟩ ∧
        ((∃ c', decode reg (.str s) = .ok [.seq c' [a, b, d]]) ∨
          (∃ i j k, decode reg (.str s) = .ok [.oid (some [i, j, k])] ∧ a = .int i ∧ b = .int j ∧ d = .int k)) := by
  have hb : ∀ t, reg t ≠ some .asn1Object := imported_no_base hreg
  constructor
  · intro h
    unfold msgDecode at h
    obtain ⟨l, hl, h⟩ := bind_ok h
    have hset := (decodeAll_exceptions reg hb s).1 l hl
    rw [hl]
    match l, h with
    | [], h => simp at h
    | _ :: _ :: _, h => simp at h
    | [o], h =>
      simp only at h
      obtain ⟨n, hn, h⟩ := bind_ok h
      split at h
      · simp at h
      · next hn3 =>
        simp only [ne_eq, Decidable.not_not] at hn3
        obtain ⟨a, ha, h⟩ := bind_ok h
        obtain ⟨b, hb, h⟩ := bind_ok h
        obtain ⟨d, hd, h⟩ := bind_ok h
        cases h
        refine ⟨a, b, d, rfl, ?_⟩
        cases o with
        | seq c' items =>
          left
          refine ⟨c', ?_⟩
          simp only [Val.len, Except.ok.injEq] at hn
          match items, (by omega : items.length = 3) with
          | [x, y, z], _ =>
            simp [Val.getItem] at ha hb hd
            rw [ha, hb, hd]
        | oid v =>
          right
          cases v with
          | none => exact absurd (hset (.oid none) (by simp)) (by simp [Val.allSet])
          | some ids =>
            simp only [Val.len, Except.ok.injEq, Option.getD_some] at hn
            match ids, (by omega : ids.length = 3) with
            | [x, y, z], _ =>
              simp [Val.getItem] at ha hb hd
              exact ⟨x, y, z, rfl, ha.symm, hb.symm, hd.symm⟩
        | str v =>
          exfalso
          have := C24_only_registered reg s [.str v] hl (.str v) (by simp) _ (.refl _)
          obtain ⟨_, _, _, h⟩ := this
          simp [Val.cls?] at h
        | bytes v =>
          exfalso
          have := C24_only_registered reg s [.bytes v] hl (.bytes v) (by simp) _ (.refl _)
          obtain ⟨_, _, _, h⟩ := this
          simp [Val.cls?] at h
        | _ => simp [Val.len] at hn
  · rintro ⟨a, b, d, rfl, ⟨c', h⟩ | ⟨i, j, k, h, rfl, rfl, rfl⟩⟩
    · unfold msgDecode
      rw [h]; rfl
    · unfold msgDecode
      rw [h]; rfl

/-- C31. The failures: those of the decoding itself; TypeError for a number of objects other than one (the intended
MessageError cannot be built) and for an object without a length; MessageError for a length other than three. -/
theorem C31_message_decode_errors (reg : Reg) (c : SeqCls) (s : Str) :
    (∀ e, decode reg (.str s) = .error e → msgDecode reg c (.str s) = .error e) ∧
    (∀ l, decode reg (.str s) = .ok l → l.length ≠ 1 → msgDecode reg c (.str s) = .error .typeError) ∧
    (∀ o, decode reg (.str s) = .ok [o] → o.len = .error .typeError → msgDecode reg c (.str s) = .error .typeError) ∧
    (∀ o n, decode reg (.str s) = .ok [o] → o.len = .ok n → n ≠ 3 →
      msgDecode reg c (.str s) = .error .messageError) := by
  refine ⟨fun e h => ?_, fun l h hl => ?_, fun o h ho => ?_, fun o n h hn h3 => ?_⟩
  · unfold msgDecode; rw [h]; rfl
  · unfold msgDecode; rw [h]
    match l, hl with
    | [], _ => rfl
    | _ :: _ :: _, _ => rfl
    | [_], hl => simp at hl
  · unfold msgDecode; rw [h]
    simp only [bind, Except.bind, ho]
  · unfold msgDecode; rw [h]
    simp only [bind, Except.bind, hn, if_pos h3, ne_eq]

/-- A three-arc ObjectID passes for a message. -/
example : msgDecode regFull .message (.str [6, 2, 43, 6]) = .ok ⟨.message, .int 1, .int 3, .int 6⟩ ∧
    msgDecode regFull .message (.str []) = .error .typeError ∧
    msgDecode regFull .message (.str [0x30, 0]) = .error .messageError ∧
    msgDecode regFull .message (.str [2, 1, 5]) = .error .typeError := by decide +kernel

end Libsnmp
