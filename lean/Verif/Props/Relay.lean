import Verif.Spec.Relay
import Verif.Props.EndToEnd
import Verif.Props.Imports
import Verif.Lemmas.Unique

/-!
# C76: sending on what was received
-/

namespace Libsnmp
open Spec

theorem emits_of_represents {x : Val} {a : Asn} (h : Represents x a) : Emits x a := encode_ber x a h

/-- Sequences of things that emit something. -/
inductive EmitsAll : List Val → List Asn → Prop
  | nil : EmitsAll [] []
  | cons {x a xs as} : Emits x a → EmitsAll xs as → EmitsAll (x :: xs) (a :: as)

theorem emitsAll_items {xs : List Val} {as : List Asn} (h : EmitsAll xs as) :
    ∃ s, encodeItems xs = .ok s ∧ (s.length < 256 ^ 127 → BerList as s) := by
  induction h with
  | nil => exact ⟨[], by rw [encodeItems], fun _ => .nil⟩
  | cons h1 _ ih =>
    obtain ⟨s, e1, b1⟩ := h1
    obtain ⟨t, e2, b2⟩ := ih
    refine ⟨s ++ t, by rw [encodeItems, e1]; simp only [e2], fun hl => ?_⟩
    simp only [List.length_append] at hl
    exact .cons (b1 (by omega)) (b2 (by omega))

theorem emits_seq {c : SeqCls} (hc : c ∈ sequenceClasses) {xs : List Val} {as : List Asn} (h : EmitsAll xs as) :
    Emits (.seq c xs) (.seq as) := by
  obtain ⟨t, h1, h2⟩ := emitsAll_items h
  obtain ⟨s, h3, h4, h5⟩ := tlv_ok t (sequence_identifier hc)
  exact ⟨s, by rw [Val.encode, h1]; exact h3, fun hl => .seq as t s (h2 (by omega)) (h5 hl)⟩

/-- An Integer in a failing band is emitted as another number. -/
theorem emits_band {c : IntCls} (hc : c ∈ signedClasses) {v : Int} {k : Nat} (hk : 1 ≤ k) (h1 : -(256 ^ k : Int) ≤ v)
    (h2 : 2 * v < -(256 ^ k : Int)) : Emits (.integer c v) (.integer (v + 256 ^ k)) := by
  obtain ⟨s, e1, _, e3⟩ := tlv_ok (intEncode v) (signed_identifier hc)
  refine ⟨s, by rw [Val.encode, e1], fun hl => ?_⟩
  have := Ber.integer _ s (intEncode_octets v).2 (intEncode_octets v).1 (e3 hl)
  rcases twos_intEncode v with ⟨_, h⟩ | ⟨k', hk', g1, g2, g3, _⟩
  · exact absurd ⟨h1, h2⟩ (h k hk)
  · have hkk : k' = k := by
      rcases Nat.lt_trichotomy k' k with hlt | rfl | hlt
      · exfalso
        have : (256 : Int) ^ (k' + 1) ≤ 256 ^ k := pow_le_pow_right₀ (by norm_num) hlt
        rw [pow_succ] at this
        have : (0 : Int) < 256 ^ k' := by positivity
        omega
      · rfl
      · exfalso
        have : (256 : Int) ^ (k + 1) ≤ 256 ^ k' := pow_le_pow_right₀ (by norm_num) hlt
        rw [pow_succ] at this
        have : (0 : Int) < 256 ^ k := by positivity
        omega
    subst hkk
    rwa [g3] at this

theorem null_emitted (c : NullCls) : (Cls.null c).identifier = .ok [NKind.null.tag] := by
  cases c <;> decide +kernel

mutual
theorem denotes_emits {reg : Reg} (hreg : Imported reg) : (a : Asn) → (a' : Asn) → (y : Val) → Denotes reg a y → Echo a a' → Emits y a'
  | .integer _, _, _, .integer v c _ hc, .integer h => emits_of_represents (.integer c v hc h)
  | .integer _, _, _, .integer v c _ hc, .band h1 h2 h3 => emits_band hc h1 h2 h3
  | .unsigned k _, _, _, .unsigned _ n c h, .unsigned hk => by
    refine emits_of_represents (.unsigned k c n ?_)
    obtain ⟨b, c', d, rfl⟩ := imported_decoder hreg
    revert h
    cases k <;> first | exact absurd rfl hk | skip
    all_goals cases b <;> cases c' <;> cases d <;> intro h <;> cases h <;> decide
  | .string k _, _, _, .string _ s c h, .string hk => by
    refine emits_of_represents (.string k c s ?_)
    obtain ⟨b, c', d, rfl⟩ := imported_decoder hreg
    revert h
    cases k <;> first | exact absurd rfl hk | skip
    all_goals cases b <;> cases c' <;> cases d <;> intro h <;> cases h <;> decide
  | .string _ _, _, _, .string _ s c h, .opaque => by
    have hi : (Cls.oct c).identifier = .ok [SKind.octetString.tag] := by
      obtain ⟨b, c', d, rfl⟩ := imported_decoder hreg
      revert h
      cases b <;> cases c' <;> cases d <;> intro h <;> cases h <;> decide +kernel
    obtain ⟨o, h1, _, h3⟩ := tlv_ok s hi
    exact ⟨o, by rw [Val.encode, h1], fun hl => .string _ s o (h3 hl)⟩
  | .null _, _, _, .null k c h, .null => by
    obtain ⟨o, h1, _, h3⟩ := tlv_ok [] (null_emitted c)
    exact ⟨o, by rw [Val.encode, h1], fun hl => .null _ o (h3 hl)⟩
  | .oid _, _, _, .oid a b rest _ _, .oid ha hb => emits_of_represents (.oid a b rest ha hb)
  | .seq _, _, _, .seq as ys _ hl, .seq he => emits_seq (by decide) (denotesList_emits hreg as _ ys hl he)
theorem denotesList_emits {reg : Reg} (hreg : Imported reg) : (as : List Asn) → (bs : List Asn) → (ys : List Val) →
    DenotesList reg as ys → EchoAll as bs → EmitsAll ys bs
  | [], _, _, .nil, .nil => .nil
  | a :: as, _, _, .cons d1 d2, .cons e1 e2 => .cons (denotes_emits hreg a _ _ d1 e1) (denotesList_emits hreg as _ _ d2 e2)
end

/-- **C76**: whatever was received, the object encodes to the value's echo: `encode(decode(s))` of any encoding `s` of `a`
is an encoding of `a'`. -/
theorem C76_relay {reg : Reg} (hreg : Imported reg) {a a' : Asn} {s : Str} (hs : Ber a s) {y : Val} (hy : Denotes reg a y)
    (he : Echo a a') : decode reg (.str s) = .ok [y] ∧ ∃ o, y.encode = .ok o ∧ (o.length < 256 ^ 127 → Ber a' o) := by
  refine ⟨?_, denotes_emits hreg a a' y hy he⟩
  have := ber_decode reg a y s hs hy []
  rw [List.append_nil, decodeAll_nil] at this
  exact this

mutual
/-- A value received from the wire has an echo exactly if there is no Counter64 in it. -/
theorem echo_exists : (a : Asn) → (s : Str) → Ber a s → (∃ a', Echo a a') ∨ HasCounter64 a
  | .integer v, _, _ => by
    left
    by_cases h : OutOfBand v
    · exact ⟨_, .integer h⟩
    · simp only [OutOfBand, not_forall, not_not] at h
      obtain ⟨k, hk, h1, h2⟩ := h
      exact ⟨_, .band hk h1 h2⟩
  | .unsigned k n, _, _ => by
    by_cases h : k = .counter64
    · subst h; exact .inr .here
    · exact .inl ⟨_, .unsigned h⟩
  | .string k s, _, _ => by
    by_cases h : k = .opaque
    · subst h; exact .inl ⟨_, .opaque⟩
    · exact .inl ⟨_, .string h⟩
  | .null k, _, _ => .inl ⟨_, .null⟩
  | .oid _, _, .oid _ c s hc h => by
    cases hc with
    | mk a b rest g t ha hb _ _ _ => exact .inl ⟨_, .oid ha hb⟩
  | .seq as, _, .seq _ c s hc h => by
    rcases echoAll_exists as c hc with ⟨bs, h⟩ | ⟨a, ha, h⟩
    · exact .inl ⟨_, .seq h⟩
    · exact .inr (.inside ha h)
theorem echoAll_exists : (as : List Asn) → (s : Str) → BerList as s → (∃ bs, EchoAll as bs) ∨ ∃ a ∈ as, HasCounter64 a
  | [], _, _ => .inl ⟨_, .nil⟩
  | a :: as, _, .cons (s := s) (t := t) h1 h2 => by
    rcases echo_exists a s h1 with ⟨b, hb⟩ | h
    · rcases echoAll_exists as t h2 with ⟨bs, hbs⟩ | ⟨x, hx, h⟩
      · exact .inl ⟨_, .cons hb hbs⟩
      · exact .inr ⟨x, List.mem_cons_of_mem _ hx, h⟩
    · exact .inr ⟨a, List.mem_cons_self, h⟩
end

mutual
theorem echo_no_counter64 : (a a' : Asn) → Echo a a' → ¬ HasCounter64 a
  | _, _, .unsigned hk, h => by cases h; exact hk rfl
  | _, _, .seq (as := as) he, h => by
    cases h with
    | inside ha h => exact echoAll_no_counter64 as _ he _ ha h
theorem echoAll_no_counter64 : (as bs : List Asn) → EchoAll as bs → ∀ a ∈ as, ¬ HasCounter64 a
  | _, _, .cons (a := a) (as := as) h1 h2, x, hx => by
    rcases List.mem_cons.mp hx with rfl | hx
    · exact echo_no_counter64 _ _ h1
    · exact echoAll_no_counter64 as _ h2 x hx
end

mutual
theorem echo_unique : (a b c : Asn) → Echo a b → Echo a c → b = c
  | _, _, _, .integer h, .integer _ => rfl
  | _, _, _, .integer h, .band hk h1 h2 => absurd ⟨h1, h2⟩ (h _ hk)
  | _, _, _, .band hk h1 h2, .integer h => absurd ⟨h1, h2⟩ (h _ hk)
  | _, _, _, .band (v := v) (k := k) hk h1 h2, .band (k := k') hk' h1' h2' => by
    have : k = k' := by
      rcases Nat.lt_trichotomy k' k with hlt | rfl | hlt
      · exfalso
        have : (256 : Int) ^ (k' + 1) ≤ 256 ^ k := pow_le_pow_right₀ (by norm_num) hlt
        rw [pow_succ] at this
        have : (0 : Int) < 256 ^ k' := by positivity
        omega
      · rfl
      · exfalso
        have : (256 : Int) ^ (k + 1) ≤ 256 ^ k' := pow_le_pow_right₀ (by norm_num) hlt
        rw [pow_succ] at this
        have : (0 : Int) < 256 ^ k := by positivity
        omega
    rw [this]
  | _, _, _, .unsigned _, .unsigned _ => rfl
  | _, _, _, .string _, .string _ => rfl
  | _, _, _, .string h, .opaque => absurd rfl h
  | _, _, _, .opaque, .string h => absurd rfl h
  | _, _, _, .opaque, .opaque => rfl
  | _, _, _, .null, .null => rfl
  | _, _, _, .oid _ _, .oid _ _ => rfl
  | _, _, _, .seq (as := as) h, .seq h' => by rw [echoAll_unique as _ _ h h']
theorem echoAll_unique : (as bs cs : List Asn) → EchoAll as bs → EchoAll as cs → bs = cs
  | _, _, _, .nil, .nil => rfl
  | _, _, _, .cons (a := a) (as := as) h1 h2, .cons h1' h2' => by
    rw [echo_unique a _ _ h1 h1', echoAll_unique as _ _ h2 h2']
end

/-- **C76**: the echo of a value that can be on the wire is determined by the value, and exists exactly if there is no
Counter64 in it. -/
theorem C76_determined {a : Asn} {s : Str} (hs : Ber a s) :
    ((∃ a', Echo a a') ↔ ¬ HasCounter64 a) ∧ ∀ b c, Echo a b → Echo a c → b = c := by
  refine ⟨⟨fun ⟨a', h⟩ => echo_no_counter64 a a' h, fun h => ?_⟩, echo_unique a⟩
  exact (echo_exists a s hs).resolve_right h

/-- Splitting a list of encodings at an element. -/
theorem berList_split {bs : List Asn} {t : Nat} {c o r : Str} (h : Tlv t c o) (hb : BerList bs (o ++ r)) :
    ∃ b bs', bs = b :: bs' ∧ Ber b o ∧ BerList bs' r := by
  generalize hz : o ++ r = z at hb
  cases hb with
  | nil =>
    obtain ⟨f, _, rfl⟩ := h
    simp at hz
  | @cons b bs' s1 s2 h1 h2 =>
    obtain ⟨c', ht⟩ := ber_tag h1
    rcases List.append_eq_append_iff.mp hz with ⟨q, e1, e2⟩ | ⟨q, e1, e2⟩
    · subst e1
      obtain ⟨-, -, rfl⟩ := tlv_unique h ht
      simp only [List.append_nil, List.nil_append] at h1 e2
      subst e2
      exact ⟨b, bs', rfl, h1, h2⟩
    · subst e1
      obtain ⟨-, -, rfl⟩ := tlv_unique ht h
      simp only [List.append_nil, List.nil_append] at h1 e2 ⊢
      subst e2
      exact ⟨b, bs', rfl, h1, h2⟩

/-- Received objects can be encoded, into one element. -/
def EmitsTlv (y : Val) (P : Str → Prop) : Prop :=
  ∃ o, y.encode = .ok o ∧ (o.length < 256 ^ 127 → (∃ t c, Tlv t c o) ∧ P o)

theorem emitsTlv_of_emits {y : Val} {a : Asn} (h : Emits y a) : EmitsTlv y fun _ => True := by
  obtain ⟨o, h1, h2⟩ := h
  refine ⟨o, h1, fun hl => ⟨?_, trivial⟩⟩
  obtain ⟨c, hc⟩ := ber_tag (h2 hl)
  exact ⟨_, c, hc⟩

theorem denotes_plain {reg : Reg} (hreg : Imported reg) {a : Asn} {s : Str} (hs : Ber a s) {y : Val} (hd : Denotes reg a y)
    (hn : ¬ HasCounter64 a) : EmitsTlv y fun o => HasCounter64 a → ∀ b, ¬ Ber b o := by
  obtain ⟨a', h⟩ := (echo_exists a s hs).resolve_right hn
  obtain ⟨o, h1, h2⟩ := emitsTlv_of_emits (denotes_emits hreg a a' y hd h)
  exact ⟨o, h1, fun hl => ⟨(h2 hl).1, fun hh => absurd hh hn⟩⟩

mutual
theorem denotes_counter64 {reg : Reg} (hreg : Imported reg) : (a : Asn) → (s : Str) → Ber a s → (y : Val) → Denotes reg a y →
    EmitsTlv y fun o => HasCounter64 a → ∀ b, ¬ Ber b o
  | .unsigned .counter64 _, _, _, _, .unsigned _ n c h => by
    have hc : c = .counter64 := by
      obtain ⟨b, c', d, rfl⟩ := imported_decoder hreg
      revert h
      cases b <;> cases c' <;> cases d <;> intro h <;> cases h <;> rfl
    subst hc
    obtain ⟨o, h1, _, h3⟩ := tlv_ok (c := .int .counter64) (t := 0x07) (intEncode n) (by decide +kernel)
    refine ⟨o, by rw [Val.encode, h1], fun hl => ⟨⟨_, _, h3 hl⟩, fun _ b hb => ?_⟩⟩
    obtain ⟨c', hc'⟩ := ber_tag hb
    have := (tlv_unique (r := []) (h3 hl) (by rw [List.append_nil]; exact hc')).1
    revert this
    cases b with
    | unsigned k => cases k <;> simp [asnTag, UKind.tag]
    | string k => cases k <;> simp [asnTag, SKind.tag]
    | null k => cases k <;> simp [asnTag, NKind.tag]
    | _ => simp [asnTag]
  | .seq as, _, .seq _ c s hc h, _, .seq _ ys _ hl => by
    obtain ⟨t, h1, h2⟩ := denotesList_counter64 hreg as c hc ys hl
    obtain ⟨o, h3, h4, h5⟩ := tlv_ok t (sequence_identifier (c := .sequence) (by decide))
    refine ⟨o, by rw [Val.encode, h1]; exact h3, fun hlen => ⟨⟨_, _, h5 hlen⟩, fun hh b hb => ?_⟩⟩
    cases hh with
    | inside ha hh =>
      obtain ⟨c', hc'⟩ := ber_tag hb
      have hu := (tlv_unique (r := []) (h5 hlen) (by rw [List.append_nil]; exact hc'))
      cases hb with
      | seq items c'' _ hl' h' =>
        have hu' := (tlv_unique (r := []) (h5 hlen) (by rw [List.append_nil]; exact h'))
        rw [← hu'.2.1] at hl'
        exact h2 (by omega) ⟨_, ha, hh⟩ items hl'
      | unsigned k => cases k <;> simp [asnTag, UKind.tag] at hu
      | string k => cases k <;> simp [asnTag, SKind.tag] at hu
      | null k => cases k <;> simp [asnTag, NKind.tag] at hu
      | _ => simp [asnTag] at hu
  | .unsigned .counter _, _, hs, _, hd => denotes_plain hreg hs hd (by intro h; cases h)
  | .unsigned .gauge _, _, hs, _, hd => denotes_plain hreg hs hd (by intro h; cases h)
  | .unsigned .timeTicks _, _, hs, _, hd => denotes_plain hreg hs hd (by intro h; cases h)
  | .integer _, _, hs, _, hd => denotes_plain hreg hs hd (by intro h; cases h)
  | .string _ _, _, hs, _, hd => denotes_plain hreg hs hd (by intro h; cases h)
  | .null _, _, hs, _, hd => denotes_plain hreg hs hd (by intro h; cases h)
  | .oid _, _, hs, _, hd => denotes_plain hreg hs hd (by intro h; cases h)
theorem denotesList_counter64 {reg : Reg} (hreg : Imported reg) : (as : List Asn) → (s : Str) → BerList as s →
    (ys : List Val) → DenotesList reg as ys →
    ∃ o, encodeItems ys = .ok o ∧ (o.length < 256 ^ 127 → (∃ a ∈ as, HasCounter64 a) → ∀ bs, ¬ BerList bs o)
  | [], _, _, _, .nil => ⟨[], by rw [encodeItems], fun _ ⟨a, ha, _⟩ => absurd ha List.not_mem_nil⟩
  | a :: as, _, .cons (s := s) (t := t) h1 h2, _, .cons d1 d2 => by
    obtain ⟨o1, e1, g1⟩ := denotes_counter64 hreg a s h1 _ d1
    obtain ⟨o2, e2, g2⟩ := denotesList_counter64 hreg as t h2 _ d2
    refine ⟨o1 ++ o2, by rw [encodeItems, e1]; simp only [e2], ?_⟩
    intro hl ⟨x, hx, hh⟩ bs hbs
    simp only [List.length_append] at hl
    obtain ⟨⟨t, c, ht⟩, g1⟩ := g1 (by omega)
    obtain ⟨b, bs', rfl, f1, f2⟩ := berList_split ht hbs
    rcases List.mem_cons.mp hx with rfl | hx
    · exact g1 hh b f1
    · exact g2 (by omega) ⟨x, hx, hh⟩ bs' f2
end

/-- **C76**: an object received with a Counter64 in it can be encoded, but the octets are no encoding of any value. -/
theorem C76_counter64 {reg : Reg} (hreg : Imported reg) {a : Asn} {s : Str} (hs : Ber a s) {y : Val} (hy : Denotes reg a y)
    (h : HasCounter64 a) : ∃ o, y.encode = .ok o ∧ (o.length < 256 ^ 127 → ∀ b, ¬ Ber b o) := by
  obtain ⟨o, h1, h2⟩ := denotes_counter64 hreg a s hs y hy
  exact ⟨o, h1, fun hl => (h2 hl).2 h⟩

/-! ## Bindings -/

theorem carries_emits {reg : Reg} (hreg : Imported reg) {bs bs' : List VB} {ys : List Val} (hc : Carries reg bs ys)
    (he : List.Forall₂ EchoVB bs bs') : EmitsAll ys (bs'.map VB.asn) := by
  induction hc generalizing bs' with
  | nil => cases he; exact .nil
  | cons h _ ih =>
    cases he with
    | cons e et =>
      obtain ⟨cb, name, value, hcb, rfl, d1, d2⟩ := h
      exact .cons (emits_seq (by rcases hcb with rfl | rfl <;> decide)
        (.cons (denotes_emits hreg _ _ _ d1 e.1) (.cons (denotes_emits hreg _ _ _ d2 e.2) .nil))) (ih et)

theorem carries_instances {reg : Reg} {bs : List VB} {ys : List Val} (hc : Carries reg bs ys) :
    ys.length = bs.length ∧ ∀ y ∈ ys, y.isInstance (.seq .varBind) = true := by
  refine ⟨hc.length_eq.symm, ?_⟩
  induction hc with
  | nil => simp
  | cons h _ ih =>
    obtain ⟨cb, name, value, hcb, rfl, -, -⟩ := h
    intro y hy
    rcases List.mem_cons.mp hy with rfl | hy
    · rcases hcb with rfl | rfl <;> rfl
    · exact ih y hy

/-- The calls that ask for the successors of given bindings. -/
inductive AsksNext (vbs : List Val) : (k : Kind) → k.Call → Int → Prop
  | v1 {remote cb community} : AsksNext vbs .v1 (V1Call.getNext vbs remote cb community) 0
  | sm {remote cb community version} : version = 1 ∨ version = 2 →
      AsksNext vbs .sm (SmCall.getNext vbs remote cb community version) (version - 1)

/-- **C76**: a GetNext for the bindings of a received message is accepted, and asks for the names that were received, with
the echoes of the values. -/
theorem C76_getNext {env : Env} (hreg : Imported env.reg) {k : Kind} {c : k.Call} {vbs : List Val} {version : Int}
    (hc : AsksNext vbs k c version) {bs bs' : List VB} (hv : Carries env.reg bs vbs) (he : List.Forall₂ EchoVB bs bs')
    (hl : bs.length ≤ 2147483647) :
    CallOk env c ∧ ∀ id m, 0 ≤ id → Sends env c id (some m) → ∃ o, m.encode = .ok o ∧ (o.length < 256 ^ 127 →
      MessageOctets version (communityOf c) { tag := 0xa1, requestID := id, bindings := bs' } o) := by
  obtain ⟨h1, h2⟩ := carries_instances hv
  have em : ∀ cl : SeqCls, cl ∈ sequenceClasses → Emits (.seq cl vbs) (.seq (bs'.map VB.asn)) :=
    fun cl hcl => emits_seq hcl (carries_emits hreg hv he)
  have v0 : OutOfBand 0 := outOfBand_nonneg (by decide)
  have v1 : OutOfBand 1 := outOfBand_nonneg (by decide)
  cases hc with
  | v1 =>
    refine ⟨h2, fun id m hid h => ?_⟩
    cases (h : some m = some (v1Msg .getNext _ id vbs))
    exact emit_message (.inl rfl) (by decide +kernel) (by decide) (by decide) 0 v0 _ id (outOfBand_nonneg hid) (em _ (by decide))
  | sm hver =>
    refine ⟨⟨hver.imp id fun h => ⟨h, by omega⟩, h2⟩, fun id m hid h => ?_⟩
    rcases h with ⟨rfl, hm⟩ | ⟨rfl, hm⟩ <;> cases hm
    · exact emit_message (.inl rfl) (by decide +kernel) (by decide) (by decide) 0 v0 _ id (outOfBand_nonneg hid) (em _ (by decide))
    · exact emit_message (.inr rfl) (by decide +kernel) (by decide) (by decide) 1 v1 _ id (outOfBand_nonneg hid) (em _ (by decide))

/-- **C76**: `snmpSet` of an integer in a failing band asks to set another number, without any error. -/
theorem C76_set_band {env : Env} (hreg : Imported env.reg) {oid : Arg} {ids : List Nat} (ho : OidNames oid ids) {n : Int}
    (hn : Int32 n) {j : Nat} (hj : 1 ≤ j) (h1 : -(256 ^ j : Int) ≤ n) (h2 : 2 * n < -(256 ^ j : Int)) (remote cb : Nat)
    (community : Str) (version : Int) (hv : version = 1 ∨ version = 2) :
    CallOk env (k := .sm) (SmCall.set oid 0x02 (.int n) remote cb community version) ∧
    ∀ id m, 0 ≤ id → Sends env (k := .sm) (SmCall.set oid 0x02 (.int n) remote cb community version) id (some m) →
      ∃ o, m.encode = .ok o ∧ (o.length < 256 ^ 127 → MessageOctets (version - 1) community
        { tag := 0xa3, requestID := id, bindings := [⟨ids, .integer (n + 256 ^ j)⟩] } o) := by
  have hk : ∃ c, c ∈ signedClasses ∧ constructTag env.reg 0x02 (.int n) = .ok (.integer c n) := by
    have hm : ∀ c : IntCls, c = .integer ∨ c = .integer32 → mkInteger c n = .ok (.integer c n) := by
      intro c hc
      unfold mkInteger
      rw [if_pos]
      rcases hc with rfl | rfl <;> exact ⟨hn.1, le_trans hn.2 (by decide)⟩
    obtain ⟨b, c', d, hr⟩ := imported_decoder hreg
    rw [hr]
    cases c'
    · exact ⟨.integer, by decide, hm _ (.inl rfl)⟩
    · exact ⟨.integer32, by decide, hm _ (.inr rfl)⟩
  obtain ⟨c, hc, hk⟩ := hk
  obtain ⟨v, e1, hr⟩ := names_represents ho
  refine ⟨⟨hv, ⟨v, e1⟩, _, hk⟩, fun id m hid h => ?_⟩
  obtain ⟨v', x, e2, e3, h⟩ := h
  rw [e1] at e2
  rw [hk] at e3
  cases e2
  cases e3
  have em : ∀ cl cb : SeqCls, cl ∈ sequenceClasses → cb ∈ sequenceClasses →
      Emits (.seq cl [.seq cb [.oid v, .integer c n]]) (.seq ([VB.mk ids (.integer (n + 256 ^ j))].map VB.asn)) :=
    fun cl cb hcl hcb => emits_seq hcl (.cons (emits_seq hcb (.cons (emits_of_represents hr)
      (.cons (emits_band hc hj h1 h2) .nil))) .nil)
  have v0 : OutOfBand 0 := outOfBand_nonneg (by decide)
  have v1 : OutOfBand 1 := outOfBand_nonneg (by decide)
  rcases h with ⟨rfl, hm⟩ | ⟨rfl, hm⟩ <;> cases hm
  · exact emit_message (.inl rfl) (by decide +kernel) (by decide) (by decide) 0 v0 _ id (outOfBand_nonneg hid)
      (em .varBindList .varBind (by decide) (by decide))
  · exact emit_message (.inr rfl) (by decide +kernel) (by decide) (by decide) 1 v1 _ id (outOfBand_nonneg hid)
      (em .varBindList .varBind2 (by decide) (by decide))

/-! ## Concrete cases -/

/-- -200 is received and sent on as 56, an Opaque as an OctetString, NoSuchInstance as NULL; the octets agree. -/
example : Echo (.seq [.integer (-200), .string .opaque [9], .null .noSuchInstance, .oid [1, 3, 6]])
      (.seq [.integer 56, .string .octetString [9], .null .null, .oid [1, 3, 6]]) ∧
    Ber (.seq [.integer (-200), .string .opaque [9], .null .noSuchInstance, .oid [1, 3, 6]])
      [0x30, 13, 2, 2, 0xff, 0x38, 0x44, 1, 9, 0x81, 0, 6, 2, 43, 6] ∧
    decode regFull (.str [0x30, 13, 2, 2, 0xff, 0x38, 0x44, 1, 9, 0x81, 0, 6, 2, 43, 6]) =
      .ok [.seq .sequence [.integer .integer32 (-200), .octets .opaque [9], .null .noSuchInstance, .oid (some [1, 3, 6])]] ∧
    (Val.seq .sequence [.integer .integer32 (-200), .octets .opaque [9], .null .noSuchInstance, .oid (some [1, 3, 6])]).encode =
      .ok [0x30, 13, 2, 2, 0, 56, 4, 1, 9, 5, 0, 6, 2, 43, 6] := by
  refine ⟨.seq (.cons (.band (k := 1) (by decide) (by decide) (by decide)) (.cons .opaque (.cons .null (.cons (.oid (by decide) (by decide)) .nil)))),
    ?_, by decide +kernel, by decide +kernel⟩
  refine .seq _ _ _ (.cons (s := [2, 2, 0xff, 0x38]) ?_ (.cons (s := [0x44, 1, 9]) ?_ (.cons (s := [0x81, 0]) ?_
    (.cons (s := [6, 2, 43, 6]) ?_ .nil)))) ⟨[13], .short 13 (by decide), rfl⟩
  · have := Ber.integer [0xff, 0x38] [2, 2, 0xff, 0x38] (by decide) (by unfold Octets; decide) ⟨[2], .short 2 (by decide), rfl⟩
    rwa [show twos [0xff, 0x38] = -200 from by decide +kernel] at this
  · exact .string .opaque [9] _ ⟨[1], .short 1 (by decide), rfl⟩
  · exact .null .noSuchInstance _ ⟨[0], .short 0 (by decide), rfl⟩
  · exact .oid [1, 3, 6] [43, 6] _ (.mk 1 3 [6] [43] [6] (by decide) (by decide) (.mk [] 43 (by simp) (by decide)) (by decide)
      (.cons (.mk [] 6 (by simp) (by decide)) .nil)) ⟨[2], .short 2 (by decide), rfl⟩

/-- A received Counter64 inside a sequence: what is sent on starts a sequence, but its element is of no known type. -/
example : HasCounter64 (.seq [.null .null, .unsigned .counter64 5]) ∧
    Denotes regFull (.seq [.null .null, .unsigned .counter64 5]) (.seq .sequence [.null .null, .integer .counter64 5]) ∧
    (Val.seq .sequence [.null .null, .integer .counter64 5]).encode = .ok [0x30, 5, 5, 0, 7, 1, 5] ∧
    decode regFull (.str [0x30, 5, 5, 0, 7, 1, 5]) = .error .valueError :=
  ⟨.inside (a := .unsigned .counter64 5) (by simp) .here, .seq _ _ rfl (.cons (.null _ _ rfl) (.cons (.unsigned .counter64 5 .counter64 rfl) .nil)),
    by decide +kernel, by decide +kernel⟩

/-- `snmpSet` of -200: the hypotheses of `C76_set_band` hold, and the octets say 56. -/
example : Int32 (-200) ∧ -(256 ^ 1 : Int) ≤ -200 ∧ 2 * (-200) < -(256 ^ 1 : Int) ∧ Imported regFull ∧
    (Val.integer .integer32 (-200)).encode = .ok [2, 2, 0, 56] :=
  ⟨⟨by decide, by decide⟩, by decide, by decide, imported_full, by decide +kernel⟩

end Libsnmp
