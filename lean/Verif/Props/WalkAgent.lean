import Verif.Props.Walk

/-!
# C77: agents exist

An encoding is the encoding of one message only; so there are agents as `Agent` describes them, and C77 is not about nothing.
-/

namespace Libsnmp
open Spec

/-! ## Messages are determined by their octets -/

theorem ber_prefix {a b : Asn} {s t r q : Str} (h : Ber a s) (h' : Ber b t) (e : s ++ r = t ++ q) : a = b ∧ r = q := by
  obtain ⟨c, k⟩ := ber_tag h
  obtain ⟨c', k'⟩ := ber_tag h'
  obtain ⟨e1, e2⟩ := tlv_prefix k k' e
  subst e1
  exact ⟨(ber_unique a b s [] h (by simpa using h')).2, e2⟩

theorem asn_injective : Function.Injective VB.asn := by
  intro a b h
  obtain ⟨n, v⟩ := a
  obtain ⟨n', v'⟩ := b
  simp only [VB.asn, Asn.seq.injEq, List.cons.injEq, Asn.oid.injEq, and_true] at h
  obtain ⟨rfl, rfl⟩ := h
  rfl

theorem pdu_unique {p q : Pdu} {s r t : Str} (h : PduOctets p s) (h' : PduOctets q t) (e : s ++ r = t) : p = q := by
  cases h with
  | mk a1 a2 a3 a4 a =>
    cases h' with
    | mk b1 b2 b3 b4 b =>
      rw [← e] at b
      obtain ⟨e0, u, -⟩ := tlv_unique a b
      obtain ⟨e1, u⟩ := ber_prefix a1 b1 u
      obtain ⟨e2, u⟩ := ber_prefix a2 b2 u
      obtain ⟨e3, u⟩ := ber_prefix a3 b3 u
      subst u
      have e4 := (ber_unique _ _ _ [] a4 (by simpa using b4)).2
      cases p
      cases q
      simp only [Asn.integer.injEq, Asn.seq.injEq] at e0 e1 e2 e3 e4
      simp only [Pdu.mk.injEq]
      exact ⟨e0, e1, e2, e3, List.map_injective_iff.mpr asn_injective e4⟩

/-- **C77**: octets are the encoding of at most one message: version, community, kind of PDU, request ID, errors and bindings
can be read off them.  (Without this a receiver would not know what to answer.) -/
theorem C77_message_unique {v w : Int} {c d : Str} {p q : Pdu} {s : Str} (h : MessageOctets v c p s) (h' : MessageOctets w d q s) :
    v = w ∧ c = d ∧ p = q := by
  cases h with
  | mk a1 a2 a3 a =>
    cases h' with
    | mk b1 b2 b3 b =>
      obtain ⟨-, u, -⟩ := tlv_unique (r := []) a (by simpa using b)
      obtain ⟨e1, u⟩ := ber_prefix a1 b1 u
      obtain ⟨e2, u⟩ := ber_prefix a2 b2 u
      simp only [Asn.integer.injEq, Asn.string.injEq, true_and] at e1 e2
      exact ⟨e1, e2, pdu_unique a3 b3 (r := []) (by simpa using u)⟩

/-! ## Answers exist -/

theorem tlv_exists (t : Nat) (c : Str) (h : c.length < 256 ^ 126) : ∃ s, Tlv t c s ∧ s.length ≤ c.length + 129 := by
  have hl : c.length < 256 ^ 127 := lt_of_lt_of_le h (Nat.pow_le_pow_right (by decide) (by decide))
  have hf := encodeLength_field hl
  have : (encodeLength c.length).length ≤ 128 := by
    generalize encodeLength c.length = f at hf
    generalize c.length = n at hf
    cases hf with
    | short => simp
    | long ds h1 h2 => simp only [List.length_cons]; omega
  refine ⟨_, ⟨_, hf, rfl⟩, ?_⟩
  simp only [List.length_cons, List.length_append]
  omega

theorem response_exists {community : Str} {o : Str} (ho : o.length ≤ udpMax) {p : Pdu} (hp : MessageOctets 1 community p o)
    (h0 : p.errorStatus = 0) (h1 : p.errorIndex = 0) {b : VB} {t : Str} (ht : Ber b.asn t) (hl : t.length ≤ 2 ^ 64) :
    ∃ a, MessageOctets 1 community { tag := 0xa2, requestID := p.requestID, bindings := [b] } a := by
  have hu : udpMax = 65507 := rfl
  have hbig : (2 : Nat) ^ 66 < 256 ^ 126 := by decide +kernel
  cases hp with
  | @mk s1 s2 s3 _ w1 w2 w3 w =>
    obtain ⟨f, -, w⟩ := w
    cases w3 with
    | @mk t1 t2 t3 t4 _ v1 v2 v3 v4 v =>
      obtain ⟨f', -, v⟩ := v
      have hlen := congrArg List.length w
      have hlen' := congrArg List.length v
      simp only [List.length_cons, List.length_append] at hlen hlen'
      obtain ⟨x, kx, lx⟩ := tlv_exists 0x30 (t ++ []) (by simp only [List.length_append, List.length_nil]; omega)
      simp only [List.length_append, List.length_nil] at lx
      obtain ⟨y, ky, ly⟩ := tlv_exists 0xa2 (t1 ++ (t2 ++ (t3 ++ x))) (by simp only [List.length_append]; omega)
      simp only [List.length_append] at ly
      obtain ⟨z, kz, lz⟩ := tlv_exists 0x30 (s1 ++ (s2 ++ y)) (by simp only [List.length_append]; omega)
      refine ⟨z, .mk w1 w2 (.mk v1 (by rw [h0] at v2; exact v2) (by rw [h1] at v3; exact v3) (.seq _ _ _ (.cons ht .nil) kx) ky) kz⟩

/-- Every well-behaved way of answering Gets and GetNexts is that of some agent; and some of its answers can be prescribed. -/
theorem agent_exists (community : Str) (get : List Nat → VB → Prop) (next : List Nat → VB) (table : Str → Option Str)
    (hget : ∀ name s, Ber (.oid name) s → s.length ≤ udpMax → ∃ b t, get name b ∧ Ber b.asn t ∧ t.length ≤ 2 ^ 64)
    (hnext : ∀ name s, Ber (.oid name) s → s.length ≤ udpMax → ∃ t, Ber (next name).asn t ∧ t.length ≤ 2 ^ 64)
    (htab : ∀ o a, table o = some a → ∃ id b,
      (MessageOctets 1 community { tag := 0xa0, requestID := id, bindings := [b] } o ∧ ∃ b', get b.name b' ∧
        MessageOctets 1 community { tag := 0xa2, requestID := id, bindings := [b'] } a) ∨
      (MessageOctets 1 community { tag := 0xa1, requestID := id, bindings := [b] } o ∧
        MessageOctets 1 community { tag := 0xa2, requestID := id, bindings := [next b.name] } a)) :
    ∃ agent, Agent community get next agent ∧ ∀ o a, table o = some a → agent o = some a := by
  classical
  let Good : Str → Str → Prop := fun o a => ∃ id b,
      (MessageOctets 1 community { tag := 0xa0, requestID := id, bindings := [b] } o ∧ ∃ b', get b.name b' ∧
        MessageOctets 1 community { tag := 0xa2, requestID := id, bindings := [b'] } a) ∨
      (MessageOctets 1 community { tag := 0xa1, requestID := id, bindings := [b] } o ∧
        MessageOctets 1 community { tag := 0xa2, requestID := id, bindings := [next b.name] } a)
  let agent : Str → Option Str := fun o => match table o with
    | some a => some a
    | none => if h : ∃ a, Good o a then some h.choose else none
  have hagent : ∀ o, (∃ a, agent o = some a ∧ Good o a) ∨ agent o = none ∧ ∀ a, ¬ Good o a := by
    intro o
    simp only [agent]
    cases ht : table o with
    | some a => exact .inl ⟨a, rfl, htab o a ht⟩
    | none =>
      by_cases h : ∃ a, Good o a
      · exact .inl ⟨h.choose, dif_pos h, h.choose_spec⟩
      · exact .inr ⟨dif_neg h, fun a ha => h ⟨a, ha⟩⟩
  have hname : ∀ {tag : Nat} {id : Int} {b : VB} {o : Str}, o.length ≤ udpMax →
      MessageOctets 1 community { tag := tag, requestID := id, bindings := [b] } o →
      ∃ s, Ber (.oid b.name) s ∧ s.length ≤ udpMax := by
    intro tag id b o ho h
    cases h with
    | mk _ _ h3 h =>
      obtain ⟨_, -, h⟩ := h
      have l1 := congrArg List.length h
      cases h3 with
      | mk _ _ _ h4 h =>
        obtain ⟨_, -, h⟩ := h
        have l2 := congrArg List.length h
        cases h4 with
        | seq _ _ _ hl h =>
          obtain ⟨_, -, h⟩ := h
          have l3 := congrArg List.length h
          cases hl with
          | cons hb _ =>
            cases hb with
            | seq _ _ _ hl h =>
              obtain ⟨_, -, h⟩ := h
              have l4 := congrArg List.length h
              cases hl with
              | cons hn ht =>
                refine ⟨_, hn, ?_⟩
                simp only [List.length_cons, List.length_append] at l1 l2 l3 l4
                omega
  refine ⟨agent, ⟨?_, ?_, ?_⟩, ?_⟩
  · intro o id b ho h
    obtain ⟨s, hs, hl⟩ := hname ho h
    obtain ⟨b', t, g1, g2, g3⟩ := hget _ s hs hl
    obtain ⟨a, ha⟩ := response_exists ho h rfl rfl g2 g3
    rcases hagent o with ⟨a', e1, e2⟩ | ⟨_, e2⟩
    · obtain ⟨id', c, ⟨u1, c', u2, u3⟩ | ⟨u1, u2⟩⟩ := e2
      · obtain ⟨-, -, e⟩ := C77_message_unique h u1
        simp only [Pdu.mk.injEq, List.cons.injEq, and_true, true_and] at e
        obtain ⟨rfl, rfl⟩ := e
        exact ⟨a', c', e1, u2, u3⟩
      · obtain ⟨-, -, e⟩ := C77_message_unique h u1
        simp at e
    · exact absurd ⟨id, b, .inl ⟨h, b', g1, ha⟩⟩ (e2 a)
  · intro o id b ho h
    obtain ⟨s, hs, hl⟩ := hname ho h
    obtain ⟨t, g2, g3⟩ := hnext _ s hs hl
    obtain ⟨a, ha⟩ := response_exists ho h rfl rfl g2 g3
    rcases hagent o with ⟨a', e1, e2⟩ | ⟨_, e2⟩
    · obtain ⟨id', c, ⟨u1, c', u2, u3⟩ | ⟨u1, u2⟩⟩ := e2
      · obtain ⟨-, -, e⟩ := C77_message_unique h u1
        simp at e
      · obtain ⟨-, -, e⟩ := C77_message_unique h u1
        simp only [Pdu.mk.injEq, List.cons.injEq, and_true, true_and] at e
        obtain ⟨rfl, rfl⟩ := e
        exact ⟨a', e1, u2⟩
    · exact absurd ⟨id, b, .inr ⟨h, ha⟩⟩ (e2 a)
  · intro o h
    rcases hagent o with ⟨a', e1, e2⟩ | ⟨e1, _⟩
    · obtain ⟨id', c, ⟨u1, _⟩ | ⟨u1, _⟩⟩ := e2
      · exact absurd u1 (h _ _ _)
      · exact absurd u1 (h _ _ _)
    · exact e1
  · intro o a h
    simp only [agent, h]

/-- The agent of a MIB. -/
theorem mib_agent_exists (community : Str) (mib : List VB) (hm : ∀ b ∈ mib, ∃ t, Ber b.asn t ∧ t.length ≤ udpMax)
    (table : Str → Option Str)
    (htab : ∀ o a, table o = some a → ∃ id b,
      (MessageOctets 1 community { tag := 0xa0, requestID := id, bindings := [b] } o ∧ ∃ b', GetAnswer mib b.name b' ∧
        MessageOctets 1 community { tag := 0xa2, requestID := id, bindings := [b'] } a) ∨
      (MessageOctets 1 community { tag := 0xa1, requestID := id, bindings := [b] } o ∧
        MessageOctets 1 community { tag := 0xa2, requestID := id, bindings := [nextAnswer mib b.name] } a)) :
    ∃ agent, Agent community (GetAnswer mib) (nextAnswer mib) agent ∧ ∀ o a, table o = some a → agent o = some a := by
  have hu : udpMax = 65507 := rfl
  have hbig : (2 : Nat) ^ 66 < 256 ^ 126 := by decide +kernel
  have hexc : ∀ (k : NKind) (name : List Nat) (s : Str), Ber (.oid name) s → s.length ≤ udpMax →
      ∃ t, Ber (VB.asn ⟨name, .null k⟩) t ∧ t.length ≤ 2 ^ 64 := by
    intro k name s hs hl
    obtain ⟨x, kx, lx⟩ := tlv_exists k.tag [] (by simp)
    obtain ⟨y, ky, ly⟩ := tlv_exists 0x30 (s ++ (x ++ [])) (by simp only [List.length_append, List.length_nil] at *; omega)
    exact ⟨y, .seq _ _ _ (.cons hs (.cons (.null k x kx) .nil)) ky, by simp only [List.length_append, List.length_nil] at *; omega⟩
  refine agent_exists community _ _ table ?_ ?_ htab
  · intro name s hs hl
    by_cases h : ∃ b ∈ mib, b.name = name
    · obtain ⟨b, h1, h2⟩ := h
      obtain ⟨t, ht, hl⟩ := hm b h1
      exact ⟨b, t, .found h1 h2, ht, by omega⟩
    · obtain ⟨t, h1, h2⟩ := hexc .noSuchInstance name s hs hl
      exact ⟨_, t, .noInstance (fun b hb e => h ⟨b, hb, e⟩), h1, h2⟩
  · intro name s hs hl
    unfold nextAnswer
    cases ha : after mib name with
    | nil => exact hexc .endOfMibView name s hs hl
    | cons b l =>
      have hb : b ∈ mib := by
        have : b ∈ after mib name := by rw [ha]; simp
        exact (List.mem_filter.mp this).1
      obtain ⟨t, ht, hl⟩ := hm b hb
      exact ⟨t, ht, by omega⟩

/-! ## An example

An agent with two entries, walked from `.1.3.6.1.2.1.1`, which is no instance. -/

namespace WalkExample

def mib : List VB := [⟨[1, 3, 6, 1, 2, 1, 1, 1, 0], .string .octetString (lit "box")⟩,
  ⟨[1, 3, 6, 1, 2, 1, 1, 3, 0], .unsigned .timeTicks 5⟩]

/-- A message with a small request ID and one short binding. -/
def tiny (tag id : Nat) (nv : Str) : Str :=
  let p := [2, 1, id, 2, 1, 0, 2, 1, 0, 48, nv.length + 2, 48, nv.length] ++ nv
  [48, nv.length + 26, 2, 1, 1, 4, 6] ++ lit "public" ++ [tag, nv.length + 13] ++ p

def root : Str := [6, 6, 43, 6, 1, 2, 1, 1]
def descr : Str := [6, 8, 43, 6, 1, 2, 1, 1, 1, 0]
def upTime : Str := [6, 8, 43, 6, 1, 2, 1, 1, 3, 0]

def requests : List Str := [tiny 0xa0 0 (root ++ [5, 0]), tiny 0xa1 1 (root ++ [5, 0]), tiny 0xa1 2 (descr ++ [4, 3, 98, 111, 120]),
  tiny 0xa1 3 (upTime ++ [0x43, 1, 5])]
def answers : List Str := [tiny 0xa2 0 (root ++ [0x81, 0]), tiny 0xa2 1 (descr ++ [4, 3, 98, 111, 120]),
  tiny 0xa2 2 (upTime ++ [0x43, 1, 5]), tiny 0xa2 3 (upTime ++ [0x82, 0])]

def args : List Str := [lit "box", lit "public", lit ".1.3.6.1.2.1.1"]
def addr : Str → Nat := fun _ => 7
def nets : List Net := {} :: answers.map fun a => { datagram := some (.str a) }

theorem tlv_short (t : Nat) (c : Str) (h : c.length < 128) : Tlv t c (t :: c.length :: c) := ⟨_, .short _ h, rfl⟩

theorem tiny_message {tag id : Nat} {b : VB} {nv : Str} (hb : BerList [.oid b.name, b.value] nv) (hid : id < 128) (hl : nv.length < 90) :
    MessageOctets 1 (lit "public") { tag := tag, requestID := id, bindings := [b] } (tiny tag id nv) := by
  have hint : ∀ n : Nat, n < 128 → Ber (.integer (n : Int)) [2, 1, n] := by
    intro n hn
    have : twos [n] = (n : Int) := by
      unfold twos
      simp [unsigned, ofDigits]
      omega
    rw [← this]
    exact .integer [n] _ (by simp) (by intro x hx; simp at hx; omega) (tlv_short 2 [n] (by simp))
  have e1 : Ber b.asn (48 :: nv.length :: nv) := .seq _ _ _ hb (tlv_short _ _ (by omega))
  have e2 : Ber (.seq [b.asn]) (48 :: (nv.length + 2) :: (48 :: nv.length :: nv)) := by
    have := tlv_short 0x30 (48 :: nv.length :: nv) (by simp only [List.length_cons]; omega)
    refine .seq _ _ _ (.cons e1 .nil) ?_
    simpa using this
  refine .mk (s1 := [2, 1, 1]) (s2 := 4 :: 6 :: lit "public")
    (s3 := tag :: (nv.length + 13) :: ([2, 1, id] ++ ([2, 1, 0] ++ ([2, 1, 0] ++ 48 :: (nv.length + 2) :: (48 :: nv.length :: nv)))))
    (hint 1 (by decide)) (.string .octetString _ _ (tlv_short 4 (lit "public") (by decide))) ?_ ?_
  · refine .mk (hint id hid) (hint 0 (by decide)) (hint 0 (by decide)) e2 ?_
    have := tlv_short tag ([2, 1, id] ++ ([2, 1, 0] ++ ([2, 1, 0] ++ 48 :: (nv.length + 2) :: (48 :: nv.length :: nv))))
      (by simp only [List.length_cons, List.length_append, List.length_nil]; omega)
    simpa using this
  · have := tlv_short 0x30 ([2, 1, 1] ++ ((4 :: 6 :: lit "public") ++
      (tag :: (nv.length + 13) :: ([2, 1, id] ++ ([2, 1, 0] ++ ([2, 1, 0] ++ 48 :: (nv.length + 2) :: (48 :: nv.length :: nv)))))))
      (by simp only [List.length_cons, List.length_append, List.length_nil, show (lit "public").length = 6 from by decide]; omega)
    simp only [List.length_cons, List.length_append, List.length_nil, show (lit "public").length = 6 from by decide] at this
    unfold tiny
    simp only [show nv.length + 26 = 3 + (6 + 1 + 1 + (3 + (3 + (3 + (nv.length + 1 + 1 + 1 + 1))) + 1 + 1)) from by omega]
    simpa using this

theorem ber_name (rest : List Nat) (h : ∀ x ∈ rest, x < 128) (hl : rest.length < 100) :
    Ber (.oid (1 :: 3 :: rest)) (6 :: (rest.length + 1) :: 43 :: rest) := by
  have hd : ∀ n, n < 128 → Base128 n [n] := by
    intro n hn
    have := Base128.mk [] n (by simp) hn
    simpa [ofDigits] using this
  have hr : ∀ l : List Nat, (∀ x ∈ l, x < 128) → Base128List l l := by
    intro l
    induction l with
    | nil => intro _; exact .nil
    | cons x l ih =>
      intro h
      exact .cons (hd x (h x (by simp))) (ih fun y hy => h y (by simp [hy]))
  exact .oid _ (43 :: rest) _ (.mk 1 3 rest [43] rest (by decide) (by decide) (hd 43 (by decide)) (by simp) (hr rest h))
    (tlv_short 6 (43 :: rest) (by simp only [List.length_cons]; omega))

theorem ber_root : Ber (.oid [1, 3, 6, 1, 2, 1, 1]) root := ber_name [6, 1, 2, 1, 1] (by decide) (by decide)
theorem ber_descr : Ber (.oid [1, 3, 6, 1, 2, 1, 1, 1, 0]) descr := ber_name [6, 1, 2, 1, 1, 1, 0] (by decide) (by decide)
theorem ber_upTime : Ber (.oid [1, 3, 6, 1, 2, 1, 1, 3, 0]) upTime := ber_name [6, 1, 2, 1, 1, 3, 0] (by decide) (by decide)
theorem ber_box : Ber (.string .octetString (lit "box")) [4, 3, 98, 111, 120] := .string _ _ _ (tlv_short 4 (lit "box") (by decide))
theorem ber_five : Ber (.unsigned .timeTicks 5) [0x43, 1, 5] :=
  .unsigned .timeTicks 5 [5] _ (by simp) (by intro x hx; simp at hx; omega) (by decide) (tlv_short 0x43 [5] (by decide))
theorem ber_null (k : NKind) : Ber (.null k) [k.tag, 0] := .null k _ (tlv_short k.tag [] (by decide))

theorem ber_pair {a b : Asn} {s t : Str} (h1 : Ber a s) (h2 : Ber b t) : BerList [a, b] (s ++ t) := by
  have := BerList.cons h1 (.cons h2 .nil)
  simpa using this

def table (o : Str) : Option Str := (requests.zip answers).lookup o

theorem good : GoodMib mib := by
  refine ⟨by unfold SortedMib; decide +kernel, ?_, ?_, by decide⟩
  · intro b hb
    simp only [mib, List.mem_cons, List.not_mem_nil, or_false] at hb
    rcases hb with rfl | rfl
    · exact ⟨⟨_, .oid _ _ _ rfl (by decide)⟩, _, .string .octetString _ .octetString rfl⟩
    · exact ⟨⟨_, .oid _ _ _ rfl (by decide)⟩, _, .unsigned .timeTicks _ .timeTicks rfl⟩
  · intro b hb
    simp only [mib, List.mem_cons, List.not_mem_nil, or_false] at hb
    rcases hb with rfl | rfl <;> rfl

theorem lookup_mem {l : List (Str × Str)} {o a : Str} (h : l.lookup o = some a) : (o, a) ∈ l := by
  induction l with
  | nil => cases h
  | cons x l ih =>
    obtain ⟨p, q⟩ := x
    rw [List.lookup_cons] at h
    split at h
    · next e => cases h; rw [beq_iff_eq.mp e]; simp
    · exact List.mem_cons_of_mem _ (ih h)

/-- The agent. -/
theorem agent_ex : ∃ agent, Agent (lit "public") (GetAnswer mib) (nextAnswer mib) agent ∧
    ∀ o a, table o = some a → agent o = some a := by
  refine mib_agent_exists _ _ ?_ table ?_
  · intro b hb
    simp only [mib, List.mem_cons, List.not_mem_nil, or_false] at hb
    rcases hb with rfl | rfl
    · exact ⟨_, .seq _ _ _ (ber_pair ber_descr ber_box) (tlv_short 0x30 _ (by decide)), by decide⟩
    · exact ⟨_, .seq _ _ _ (ber_pair ber_upTime ber_five) (tlv_short 0x30 _ (by decide)), by decide⟩
  · intro o a h
    have hmem := lookup_mem h
    simp only [requests, answers, List.zip_cons_cons, List.zip_nil_right, List.mem_cons, List.not_mem_nil, or_false, Prod.mk.injEq] at hmem
    rcases hmem with ⟨rfl, rfl⟩ | ⟨rfl, rfl⟩ | ⟨rfl, rfl⟩ | ⟨rfl, rfl⟩
    · refine ⟨0, ⟨[1, 3, 6, 1, 2, 1, 1], .null .null⟩, .inl ⟨tiny_message (ber_pair ber_root (ber_null .null)) (by decide) (by decide), _,
        .noInstance ?_, tiny_message (ber_pair ber_root (ber_null .noSuchInstance)) (by decide) (by decide)⟩⟩
      intro b hb
      simp only [mib, List.mem_cons, List.not_mem_nil, or_false] at hb
      rcases hb with rfl | rfl <;> decide
    · exact ⟨1, ⟨[1, 3, 6, 1, 2, 1, 1], .null .null⟩, .inr ⟨tiny_message (ber_pair ber_root (ber_null .null)) (by decide) (by decide),
        tiny_message (b := nextAnswer mib [1, 3, 6, 1, 2, 1, 1]) (ber_pair ber_descr ber_box) (by decide) (by decide)⟩⟩
    · exact ⟨2, ⟨[1, 3, 6, 1, 2, 1, 1, 1, 0], .string .octetString (lit "box")⟩,
        .inr ⟨tiny_message (ber_pair ber_descr ber_box) (by decide) (by decide),
        tiny_message (b := nextAnswer mib [1, 3, 6, 1, 2, 1, 1, 1, 0]) (ber_pair ber_upTime ber_five) (by decide) (by decide)⟩⟩
    · exact ⟨3, ⟨[1, 3, 6, 1, 2, 1, 1, 3, 0], .unsigned .timeTicks 5⟩,
        .inr ⟨tiny_message (ber_pair ber_upTime ber_five) (by decide) (by decide),
        tiny_message (b := nextAnswer mib [1, 3, 6, 1, 2, 1, 1, 3, 0]) (ber_pair ber_upTime (ber_null .endOfMibView)) (by decide) (by decide)⟩⟩

/-- Following a table of answers. -/
theorem follow {agent : Str → Option Str} {nets : List Net} {reqs : List Str} {K : Nat}
    (hsent : ∀ k ≤ K, sentOut (snmpwalk addr args (nets.take k)).mgr.log = (reqs.take k).map (·, 7))
    (hnet : ∀ k < K, nets[k]? = some { datagram := if k = 0 then none else (reqs[k - 1]?).bind fun o => (agent o).map .str }) :
    ∀ k ≤ K, closedNet agent (snmpwalk addr args) k = nets.take k := by
  intro k hk
  induction k with
  | zero => rfl
  | succ k ih =>
    rw [closedNet, ih (by omega)]
    have hlen : k < nets.length := by
      have := hnet k (by omega)
      exact (List.getElem?_eq_some_iff.mp this).1
    have hd : (nets.take k).dropLast = nets.take (k - 1) := by
      rw [List.dropLast_take hlen]
    simp only [hd]
    rw [hsent k (by omega), hsent (k - 1) (by omega), List.take_add_one, hnet k (by omega)]
    simp only [List.length_map, Option.toList_some, List.append_cancel_left_eq, List.cons.injEq, and_true, Net.mk.injEq, true_and]
    cases k with
    | zero => simp
    | succ k =>
      simp only [Nat.add_one_sub_one, Nat.add_one_ne_zero, if_false]
      rw [List.take_add_one, List.map_append]
      rw [List.drop_append_of_le_length (by simp), List.drop_of_length_le (by simp)]
      cases reqs[k]? with
      | none => rfl
      | some o => rfl

theorem names : OidNames (.str (lit ".1.3.6.1.2.1.1")) [1, 3, 6, 1, 2, 1, 1] :=
  ⟨by decide +kernel, 1, 3, _, rfl, by decide, by decide⟩

theorem stays (net l : List Net) (e : (snmpwalk addr args net).status = .exit 0) :
    snmpwalk addr args (net ++ l) = snmpwalk addr args net := by
  obtain ⟨o, s0, s1, _, h2, _⟩ := walk_start (server := lit "box") (community := lit "public") addr names
  have h2 : ∀ net, snmpwalk addr args net = _ := h2
  rw [h2, runScript_eq] at e
  rw [h2, h2, runScript_eq, runScript_eq, List.map_append, run_append]
  generalize run scriptEnv .sm (net.map _) s0 = q at e
  obtain ⟨r | r, s⟩ := q
  · rfl
  · cases e

/-- All requests are short if the program has ended by turn `K`. -/
theorem short {agent : Str → Option Str} {nets : List Net} {reqs : List Str} {K : Nat} (hK : nets.length = K)
    (hsent : ∀ k ≤ K, sentOut (snmpwalk addr args (nets.take k)).mgr.log = (reqs.take k).map (·, 7))
    (hnet : ∀ k < K, nets[k]? = some { datagram := if k = 0 then none else (reqs[k - 1]?).bind fun o => (agent o).map .str })
    (hends : (snmpwalk addr args nets).status = .exit 0) (hreqs : ∀ o ∈ reqs, o.length ≤ udpMax) :
    ShortDatagrams agent (snmpwalk addr args) := by
  have hall : ∀ k, ∀ d ∈ (reqs.take k).map (·, 7), d.1.length ≤ udpMax := by
    intro k d hd
    obtain ⟨o, ho, rfl⟩ := List.mem_map.mp hd
    exact hreqs o (List.mem_of_mem_take ho)
  intro N n _
  by_cases hn : n ≤ K
  · rw [follow hsent hnet n hn, hsent n hn]
    exact hall n
  · obtain ⟨l, hl⟩ := closedNet_prefix agent (snmpwalk addr args) (n := K) (m := n) (by omega)
    have e : nets.take K = nets := by rw [← hK, List.take_length]
    rw [hl, follow hsent hnet K (by omega), e, stays _ _ hends]
    have h5 := hsent K (by omega)
    rw [e] at h5
    rw [h5]
    exact hall K

theorem sent_after : ∀ k ≤ 5, sentOut (snmpwalk addr args (nets.take k)).mgr.log = (requests.take k).map (·, 7) := by
  decide +kernel

theorem nets_answers {agent : Str → Option Str} (h : ∀ o a, table o = some a → agent o = some a) : ∀ k < 5,
    nets[k]? = some { datagram := if k = 0 then none else (requests[k - 1]?).bind fun o => (agent o).map .str } := by
  intro k hk
  have h0 := h requests[0] answers[0] (by decide +kernel)
  have h1 := h requests[1] answers[1] (by decide +kernel)
  have h2 := h requests[2] answers[2] (by decide +kernel)
  have h3 := h requests[3] answers[3] (by decide +kernel)
  match k, hk with
  | 0, _ => rfl
  | 1, _ => show _ = some ({ datagram := (agent requests[0]).map .str } : Net); rw [h0]; rfl
  | 2, _ => show _ = some ({ datagram := (agent requests[1]).map .str } : Net); rw [h1]; rfl
  | 3, _ => show _ = some ({ datagram := (agent requests[2]).map .str } : Net); rw [h2]; rfl
  | 4, _ => show _ = some ({ datagram := (agent requests[3]).map .str } : Net); rw [h3]; rfl

theorem ends : (snmpwalk addr args nets).status = .exit 0 := by decide +kernel

/-- C77_walk and C77_lost are not empty: the example agent exists and meets their hypotheses. -/
example : ∃ agent, Agent (lit "public") (GetAnswer mib) (nextAnswer mib) agent ∧ GoodMib mib ∧
    (∀ x ∈ mib, ¬ HasCounter64 x.value) ∧ ShortDatagrams agent (snmpwalk addr args) := by
  obtain ⟨agent, h1, h2⟩ := agent_ex
  refine ⟨agent, h1, good, ?_, short (K := 5) rfl sent_after (nets_answers h2) ends (by decide +kernel)⟩
  intro b hb h
  simp only [mib, List.mem_cons, List.not_mem_nil, or_false] at hb
  rcases hb with rfl | rfl <;> cases h

/-- What the example program prints. -/
example : (snmpwalk addr args nets).out = [lit ".1.3.6.1.2.1.1 = NoSuchInstance: No Such Instance",
    lit ".1.3.6.1.2.1.1.1.0 = OctetString: box", lit "   hex: 626f78", lit ".1.3.6.1.2.1.1.3.0 = TimeTicks: 5",
    lit ".1.3.6.1.2.1.1.3.0 = EndOfMibView: EndOfMibView"] := by decide +kernel

/-! An agent with a Counter64 in the middle. -/

def mib64 : List VB := [⟨[1, 3, 6, 1, 2, 1, 1, 1, 0], .string .octetString (lit "box")⟩,
  ⟨[1, 3, 6, 1, 2, 1, 1, 3, 0], .unsigned .counter64 7⟩, ⟨[1, 3, 6, 1, 2, 1, 1, 5, 0], .unsigned .timeTicks 5⟩]

/-- The last request has the identifier octet 7 before its value. -/
def requests64 : List Str := [tiny 0xa0 0 (root ++ [5, 0]), tiny 0xa1 1 (root ++ [5, 0]), tiny 0xa1 2 (descr ++ [4, 3, 98, 111, 120]),
  tiny 0xa1 3 (upTime ++ [7, 1, 7])]
def answers64 : List Str := [tiny 0xa2 0 (root ++ [0x81, 0]), tiny 0xa2 1 (descr ++ [4, 3, 98, 111, 120]),
  tiny 0xa2 2 (upTime ++ [0x46, 1, 7])]
def nets64 : List Net := ({} : Net) :: answers64.map (fun a => ({ datagram := some (.str a) } : Net)) ++ [⟨.ok (), none⟩]
def table64 (o : Str) : Option Str := (requests64.zip answers64).lookup o

theorem ber_seven : Ber (.unsigned .counter64 7) [0x46, 1, 7] :=
  .unsigned .counter64 7 [7] _ (by simp) (by intro x hx; simp at hx; omega) (by decide) (tlv_short 0x46 [7] (by decide))

theorem good64 : GoodMib mib64 := by
  refine ⟨by unfold SortedMib; decide +kernel, ?_, ?_, by decide⟩
  · intro b hb
    simp only [mib64, List.mem_cons, List.not_mem_nil, or_false] at hb
    rcases hb with rfl | rfl | rfl
    · exact ⟨⟨_, .oid _ _ _ rfl (by decide)⟩, _, .string .octetString _ .octetString rfl⟩
    · exact ⟨⟨_, .oid _ _ _ rfl (by decide)⟩, _, .unsigned .counter64 _ .counter64 rfl⟩
    · exact ⟨⟨_, .oid _ _ _ rfl (by decide)⟩, _, .unsigned .timeTicks _ .timeTicks rfl⟩
  · intro b hb
    simp only [mib64, List.mem_cons, List.not_mem_nil, or_false] at hb
    rcases hb with rfl | rfl | rfl <;> rfl

theorem no_message : ∀ v c p, ¬ MessageOctets v c p (tiny 0xa1 3 (upTime ++ [7, 1, 7])) := by
  obtain ⟨o, h1, h2⟩ := counter64_message (b := ⟨[1, 3, 6, 1, 2, 1, 1, 3, 0], .unsigned .counter64 7⟩) (id := 3) (remote := 0)
    (cb := 0) (community := lit "public")
    (ys := [.seq .varBind2 [.oid (some (ints [1, 3, 6, 1, 2, 1, 1, 3, 0])), .integer .counter64 7]])
    (.cons ⟨_, _, _, .inr rfl, rfl, .oid _ _ _ rfl (by decide), .unsigned .counter64 7 .counter64 rfl⟩ .nil) ⟨_, ber_upTime⟩ ⟨_, ber_seven⟩
    .here (by decide) (.inr ⟨rfl, rfl⟩)
  have e : (v2Msg .getNext2 (lit "public") 3 [.seq .varBind2 [.oid (some (ints [1, 3, 6, 1, 2, 1, 1, 3, 0])), .integer .counter64 7]]).encode =
      .ok (tiny 0xa1 3 (upTime ++ [7, 1, 7])) := by decide +kernel
  rw [e] at h1
  cases h1
  exact h2 (by decide +kernel)

theorem agent64_ex : ∃ agent, Agent (lit "public") (GetAnswer mib64) (nextAnswer mib64) agent ∧
    ∀ o a, table64 o = some a → agent o = some a := by
  refine mib_agent_exists _ _ ?_ table64 ?_
  · intro b hb
    simp only [mib64, List.mem_cons, List.not_mem_nil, or_false] at hb
    rcases hb with rfl | rfl | rfl
    · exact ⟨_, .seq _ _ _ (ber_pair ber_descr ber_box) (tlv_short 0x30 _ (by decide)), by decide⟩
    · exact ⟨_, .seq _ _ _ (ber_pair ber_upTime ber_seven) (tlv_short 0x30 _ (by decide)), by decide⟩
    · exact ⟨_, .seq _ _ _ (ber_pair (ber_name [6, 1, 2, 1, 1, 5, 0] (by decide) (by decide)) ber_five) (tlv_short 0x30 _ (by decide)), by decide⟩
  · intro o a h
    have hmem := lookup_mem h
    simp only [requests64, answers64, List.zip_cons_cons, List.zip_nil_right, List.mem_cons, List.not_mem_nil, or_false, Prod.mk.injEq] at hmem
    rcases hmem with ⟨rfl, rfl⟩ | ⟨rfl, rfl⟩ | ⟨rfl, rfl⟩
    · refine ⟨0, ⟨[1, 3, 6, 1, 2, 1, 1], .null .null⟩, .inl ⟨tiny_message (ber_pair ber_root (ber_null .null)) (by decide) (by decide), _,
        .noInstance ?_, tiny_message (ber_pair ber_root (ber_null .noSuchInstance)) (by decide) (by decide)⟩⟩
      intro b hb
      simp only [mib64, List.mem_cons, List.not_mem_nil, or_false] at hb
      rcases hb with rfl | rfl | rfl <;> decide
    · exact ⟨1, ⟨[1, 3, 6, 1, 2, 1, 1], .null .null⟩, .inr ⟨tiny_message (ber_pair ber_root (ber_null .null)) (by decide) (by decide),
        tiny_message (b := nextAnswer mib64 [1, 3, 6, 1, 2, 1, 1]) (ber_pair ber_descr ber_box) (by decide) (by decide)⟩⟩
    · exact ⟨2, ⟨[1, 3, 6, 1, 2, 1, 1, 1, 0], .string .octetString (lit "box")⟩,
        .inr ⟨tiny_message (ber_pair ber_descr ber_box) (by decide) (by decide),
        tiny_message (b := nextAnswer mib64 [1, 3, 6, 1, 2, 1, 1, 1, 0]) (ber_pair ber_upTime ber_seven) (by decide) (by decide)⟩⟩

theorem sent_after64 : ∀ k ≤ 5, sentOut (snmpwalk addr args (nets64.take k)).mgr.log = (requests64.take k).map (·, 7) := by
  decide +kernel

theorem ends64 : (snmpwalk addr args nets64).status = .exit 0 := by decide +kernel

/-- C77_counter64 is not empty. -/
example : ∃ agent, Agent (lit "public") (GetAnswer mib64) (nextAnswer mib64) agent ∧ GoodMib mib64 ∧
    ShortDatagrams agent (snmpwalk addr args) ∧
    ∃ b, GetAnswer mib64 [1, 3, 6, 1, 2, 1, 1] b ∧ ∃ pre c post, shown mib64 b = pre ++ c :: post ∧
      (∀ x ∈ pre, ¬ HasCounter64 x.value) ∧ HasCounter64 c.value ∧ pre.length = 2 ∧ post.length = 2 := by
  obtain ⟨agent, h1, h⟩ := agent64_ex
  refine ⟨agent, h1, good64, short (K := 5) (nets := nets64) (reqs := requests64) rfl sent_after64 ?_ ends64 (by decide +kernel), ?_⟩
  · intro k hk
    have e0 := h requests64[0] answers64[0] (by decide +kernel)
    have e1 := h requests64[1] answers64[1] (by decide +kernel)
    have e2 := h requests64[2] answers64[2] (by decide +kernel)
    have e3 : agent requests64[3] = none := h1.silent _ no_message
    match k, hk with
    | 0, _ => rfl
    | 1, _ => show _ = some ({ datagram := (agent requests64[0]).map .str } : Net); rw [e0]; rfl
    | 2, _ => show _ = some ({ datagram := (agent requests64[1]).map .str } : Net); rw [e1]; rfl
    | 3, _ => show _ = some ({ datagram := (agent requests64[2]).map .str } : Net); rw [e2]; rfl
    | 4, _ => show _ = some ({ datagram := (agent requests64[3]).map .str } : Net); rw [e3]; rfl
  · refine ⟨_, .noInstance ?_, [_, _], _, [_, _], rfl, ?_, .here, rfl, rfl⟩
    · intro b hb
      simp only [mib64, List.mem_cons, List.not_mem_nil, or_false] at hb
      rcases hb with rfl | rfl | rfl <;> decide
    · intro x hx
      simp only [List.mem_cons, List.not_mem_nil, or_false] at hx
      rcases hx with rfl | rfl <;> intro h <;> cases h

/-! An agent that answers everything with the same object. -/

def same : VB := ⟨[1, 3, 6, 1, 2, 1, 1, 3, 0], .unsigned .timeTicks 5⟩

/-- C77_endless is not empty (here for the first four turns). -/
example : ∃ agent, Agent (lit "public") (fun _ b => b = same) (fun _ => same) agent ∧
    (isEnd same.value = false ∧ ¬ HasCounter64 same.value ∧ Holdable regFull same) ∧ ShortUpTo 4 agent (snmpwalk addr args) := by
  have hb : Ber same.asn (48 :: 13 :: (upTime ++ [0x43, 1, 5])) := .seq _ _ _ (ber_pair ber_upTime ber_five) (tlv_short 0x30 _ (by decide))
  let reqs : List Str := [tiny 0xa0 0 (root ++ [5, 0]), tiny 0xa1 1 (upTime ++ [0x43, 1, 5]), tiny 0xa1 2 (upTime ++ [0x43, 1, 5]),
    tiny 0xa1 3 (upTime ++ [0x43, 1, 5])]
  let ans : List Str := [tiny 0xa2 0 (upTime ++ [0x43, 1, 5]), tiny 0xa2 1 (upTime ++ [0x43, 1, 5]), tiny 0xa2 2 (upTime ++ [0x43, 1, 5])]
  obtain ⟨agent, h1, h⟩ := agent_exists (lit "public") (fun _ b => b = same) (fun _ => same) (fun o => (reqs.zip ans).lookup o)
    (fun name s _ _ => ⟨same, _, rfl, hb, by decide +kernel⟩) (fun name s _ _ => ⟨_, hb, by decide +kernel⟩) (by
      intro o a h
      have hmem := lookup_mem h
      simp only [reqs, ans, List.zip_cons_cons, List.zip_nil_right, List.mem_cons, List.not_mem_nil, or_false, Prod.mk.injEq] at hmem
      have ht : ∀ tag id : Nat, id < 128 → MessageOctets 1 (lit "public") { tag := tag, requestID := id, bindings := [same] }
        (tiny tag id (upTime ++ [0x43, 1, 5])) := fun tag id hid => tiny_message (b := same) (ber_pair ber_upTime ber_five) hid (by decide)
      rcases hmem with ⟨rfl, rfl⟩ | ⟨rfl, rfl⟩ | ⟨rfl, rfl⟩
      · exact ⟨0, ⟨[1, 3, 6, 1, 2, 1, 1], .null .null⟩, .inl ⟨tiny_message (ber_pair ber_root (ber_null .null)) (by decide) (by decide), _, rfl, ht 0xa2 0 (by decide)⟩⟩
      · exact ⟨1, same, .inr ⟨ht 0xa1 1 (by decide), ht 0xa2 1 (by decide)⟩⟩
      · exact ⟨2, same, .inr ⟨ht 0xa1 2 (by decide), ht 0xa2 2 (by decide)⟩⟩)
  refine ⟨agent, h1, ⟨rfl, (fun h => by cases h), ⟨_, .oid _ _ _ rfl (by decide)⟩, _, .unsigned .timeTicks _ .timeTicks rfl⟩, ?_⟩
  have hsent : ∀ k ≤ 4, sentOut (snmpwalk addr args (((({} : Net) :: ans.map (fun a => ({ datagram := some (.str a) } : Net)))).take k)).mgr.log =
    (reqs.take k).map (·, 7) := by decide +kernel
  intro n hn
  rw [follow (K := 4) hsent ?_ n hn, hsent n hn]
  · have : ∀ n ≤ 4, ∀ d ∈ (reqs.take n).map (·, 7), d.1.length ≤ udpMax := by decide +kernel
    exact this n hn
  · intro k hk
    have e0 := h reqs[0] ans[0] (by decide +kernel)
    have e1 := h reqs[1] ans[1] (by decide +kernel)
    have e2 := h reqs[2] ans[2] (by decide +kernel)
    match k, hk with
    | 0, _ => rfl
    | 1, _ => show _ = some ({ datagram := (agent reqs[0]).map .str } : Net); rw [e0]; rfl
    | 2, _ => show _ = some ({ datagram := (agent reqs[1]).map .str } : Net); rw [e1]; rfl
    | 3, _ => show _ = some ({ datagram := (agent reqs[2]).map .str } : Net); rw [e2]; rfl

end WalkExample

end Libsnmp
