import Verif.Props.Decoding

/-!
# PDUs, traps and messages: C27, C29, C30, C60
-/

namespace Libsnmp
open Spec

/-- Encoding and decoding the variable bindings, as plain sequences. -/
theorem bindings_split {reg : Reg} {cb : SeqCls} {xs ys : List Val} (hr : reg 0x30 = some (.seq .sequence))
    (h : Bindings reg cb xs ys) :
    ∃ as zs, RepresentsList xs as ∧ DenotesList reg as zs ∧ mkVarBinds cb zs = .ok ys := by
  induction h with
  | nil => exact ⟨[], [], .nil, .nil, rfl⟩
  | @cons ids name value value' a c xs ys hc hn hn' hv hv' h ih =>
    obtain ⟨as, zs, h1, h2, h3⟩ := ih
    refine ⟨.seq [.oid ids, a] :: as, .seq .sequence [name, value'] :: zs, .cons (.seq c _ _ ?_ ?_) h1,
      .cons (.seq _ _ hr (.cons hn' (.cons hv' .nil))) h2, ?_⟩
    · rcases hc with rfl | rfl <;> decide
    · exact .cons hn (.cons hv .nil)
    · have hvb : mkVarBind cb name value' = .ok (.seq cb [name, value']) := by
        unfold mkVarBind
        have e1 : name.isInstance .oid = true := by cases hn'; rfl
        have e2 : value'.isInstance .asn1Object = true := by
          cases hv' with
          | integer _ c => cases c <;> rfl
          | unsigned _ _ c => cases c <;> rfl
          | string _ _ c => cases c <;> rfl
          | null _ c => cases c <;> rfl
          | oid => rfl
          | seq => rfl
        simp [e1, e2]
      simp only [mkVarBinds, Val.getItem, List.getElem?_cons_zero, List.getElem?_cons_succ, bind, Except.bind, hvb, h3]

theorem intFields {reg : Reg} {c1 : IntCls} {v : Int} (hr : ∃ c, reg 0x02 = some (.int c) ∧ c ∈ signedClasses)
    (hc : c1 ∈ signedClasses) (hv : OutOfBand v) :
    ∃ c, Represents (.integer c1 v) (.integer v) ∧ Denotes reg (.integer v) (.integer c v) := by
  obtain ⟨c, h1, h2⟩ := hr
  exact ⟨c, .integer c1 v hc hv, .integer v c h1 h2⟩

/-- C27. Encoding any PDU (request ID, error status and error index - or non-repeaters and max-repetitions - outside
the failing bands of C08) and decoding it gives the PDU that the registry's class for its identifier builds from the
same three integers and the same bindings in the same order; what follows is decoded as if it stood alone. -/
theorem C27_pdu_roundtrip (reg : Reg) (hreg : Understands1155 reg) (c c' : SeqCls) (t : Nat)
    (hid : (Cls.seq c).identifier = .ok [t]) (hc' : reg t = some (.seq c')) (hp' : c' ∈ pduClasses)
    (ht : t % 32 ≠ 31)
    (r e i : Int) (hr : OutOfBand r) (he : OutOfBand e) (hi : OutOfBand i) (xs ys : List Val)
    (hb : Bindings reg (if c' = .bulkPDU ∨ c' = .getBulk then .varBind2 else .varBind) xs ys)
    (x y : Val) (hx : mkPDU c r e i xs = .ok x) (hy : mkPDU c' r e i ys = .ok y) :
    PduFields x c r e i xs ∧ PduFields y c' r e i ys ∧
    ∃ s, x.encode = .ok s ∧ (s.length < 256 ^ 127 → ∀ rest,
      decode reg (.str (s ++ rest)) = (decode reg (.str rest)).map (y :: ·)) := by
  obtain ⟨c1, c2, cl, ex, hcl, hc1, hc2, _⟩ := mkPDU_ok hx
  obtain ⟨d1, d2, dl, ey, hdl, _⟩ := mkPDU_ok hy
  refine ⟨⟨c1, c2, _, cl, hcl, ex⟩, ⟨d1, d2, _, dl, hdl, ey⟩, ?_⟩
  obtain ⟨as, zs, b1, b2, b3⟩ := bindings_split hreg.sequence hb
  have m1 : c1 ∈ signedClasses := by rcases hc1 with rfl | rfl <;> decide
  have m2 : c2 ∈ signedClasses := by rcases hc2 with rfl | rfl | rfl <;> decide
  obtain ⟨k, hk, hks⟩ := hreg.integer
  have rep : RepresentsList [.integer c1 r, .integer c2 e, .integer .integer i, .seq cl xs]
      [.integer r, .integer e, .integer i, .seq as] :=
    .cons (.integer c1 r m1 hr) (.cons (.integer c2 e m2 he) (.cons (.integer _ i (by decide) hi)
      (.cons (.seq cl xs as (by rcases hcl with rfl | rfl <;> decide) b1) .nil)))
  have den : DenotesList reg [.integer r, .integer e, .integer i, .seq as]
      [.integer k r, .integer k e, .integer k i, .seq .sequence zs] :=
    .cons (.integer r k hk hks) (.cons (.integer e k hk hks) (.cons (.integer i k hk hks)
      (.cons (.seq as zs hreg.sequence b2) .nil)))
  obtain ⟨content, e1, e2⟩ := encodeItems_ber _ _ rep
  obtain ⟨s, e3, e4, e5⟩ := tlv_ok content hid
  refine ⟨s, by rw [ex, Val.encode, e1]; exact e3, fun hl rest => ?_⟩
  simp only [decode]
  rw [decodeAll_tlv reg (e5 hl) ht, hc']
  simp only
  rw [decodeContents_seq]
  have dd := berList_decode reg _ _ content (e2 (by omega)) den []
  rw [List.append_nil, decodeAll_nil] at dd
  simp only [List.append_nil] at dd
  rw [dd]
  simp only
  have fin : finishSeq c' [.integer k r, .integer k e, .integer k i, .seq .sequence zs] = .ok y := by
    unfold finishSeq
    rw [if_pos (by simpa using (pdu_classes_iff c').mp hp')]
    unfold finishPDU
    have hcb : (if (Cls.seq c').isSubclass (.seq .bulkPDU) = true then SeqCls.varBind2 else SeqCls.varBind) =
        if c' = .bulkPDU ∨ c' = .getBulk then .varBind2 else .varBind := by
      revert hp'; cases c' <;> decide
    simp only [Val.iter, Val.toInt, bind, Except.bind]
    rw [hcb, b3]
    exact hy
  rw [fin]
  simp only
  cases decodeAll reg rest <;> rfl

/-- C27. What the two registries make of each PDU kind: every kind keeps its class, except that SNMPv2 Get, GetNext and
Set come back in the SNMPv1 class of the same identifier, an SNMPv1 Response comes back as a Get, and the SNMPv2-only
kinds are unknown to a program that imported only the SNMPv1 modules. -/
theorem C27_pdu_kinds :
    (∀ c ∈ [SeqCls.get, .getNext, .set, .response2, .getBulk, .inform, .trapV2, .report],
      ∃ t, (Cls.seq c).identifier = .ok [t] ∧ regFull t = some (.seq c) ∧ t % 32 ≠ 31) ∧
    (∀ p ∈ [(SeqCls.get2, SeqCls.get), (.getNext2, .getNext), (.set2, .set), (.response, .get)],
      ∃ t, (Cls.seq p.1).identifier = .ok [t] ∧ regFull t = some (.seq p.2) ∧ regV1 t = some (.seq p.2) ∧ t % 32 ≠ 31) ∧
    (∀ c ∈ [SeqCls.get, .getNext, .set], ∃ t, (Cls.seq c).identifier = .ok [t] ∧ regV1 t = some (.seq c)) ∧
    (∀ c ∈ [SeqCls.getBulk, .inform, .trapV2, .report],
      ∃ t, (Cls.seq c).identifier = .ok [t] ∧ regV1 t = none) := by
  refine ⟨?_, ?_, ?_, ?_⟩
  · intro c hc
    simp only [List.mem_cons, List.not_mem_nil, or_false] at hc
    rcases hc with rfl | rfl | rfl | rfl | rfl | rfl | rfl | rfl
    · exact ⟨0xa0, by decide +kernel, rfl, by decide⟩
    · exact ⟨0xa1, by decide +kernel, rfl, by decide⟩
    · exact ⟨0xa3, by decide +kernel, rfl, by decide⟩
    · exact ⟨0xa2, by decide +kernel, rfl, by decide⟩
    · exact ⟨0xa5, by decide +kernel, rfl, by decide⟩
    · exact ⟨0xa6, by decide +kernel, rfl, by decide⟩
    · exact ⟨0xa7, by decide +kernel, rfl, by decide⟩
    · exact ⟨0xa8, by decide +kernel, rfl, by decide⟩
  · intro p hp
    simp only [List.mem_cons, List.not_mem_nil, or_false] at hp
    rcases hp with rfl | rfl | rfl | rfl
    · exact ⟨0xa0, by decide +kernel, rfl, rfl, by decide⟩
    · exact ⟨0xa1, by decide +kernel, rfl, rfl, by decide⟩
    · exact ⟨0xa3, by decide +kernel, rfl, rfl, by decide⟩
    · exact ⟨0xa0, by decide +kernel, rfl, rfl, by decide⟩
  · intro c hc
    simp only [List.mem_cons, List.not_mem_nil, or_false] at hc
    rcases hc with rfl | rfl | rfl
    · exact ⟨0xa0, by decide +kernel, rfl⟩
    · exact ⟨0xa1, by decide +kernel, rfl⟩
    · exact ⟨0xa3, by decide +kernel, rfl⟩
  · intro c hc
    simp only [List.mem_cons, List.not_mem_nil, or_false] at hc
    rcases hc with rfl | rfl | rfl | rfl
    · exact ⟨0xa5, by decide +kernel, rfl⟩
    · exact ⟨0xa6, by decide +kernel, rfl⟩
    · exact ⟨0xa7, by decide +kernel, rfl⟩
    · exact ⟨0xa8, by decide +kernel, rfl⟩

/-- C27. The kind is not preserved for an SNMPv1 Response: it comes back as a Get. -/
theorem C27_response_becomes_get : ∃ x s y, mkPDU .response 7 0 0 [] = .ok x ∧ x.encode = .ok s ∧
    decode regV1 (.str s) = .ok [y] ∧ x.cls? = some (.seq .response) ∧ y.cls? = some (.seq .get) :=
  ⟨_, [0xa0, 11, 2, 1, 7, 2, 1, 0, 2, 1, 0, 0x30, 0],
    .seq .get [.integer .integer 7, .integer .errorStatus 0, .integer .integer 0, .seq .varBindList []],
    rfl, by decide +kernel, by decide +kernel, rfl, rfl⟩

/-- C29. Encoding an SNMPv1 trap and decoding it preserves enterprise, agent address, generic trap, specific trap, time
stamp and the variable bindings in order. -/
theorem C29_trap_roundtrip (reg : Reg) (hreg : Understands1155 reg) (htrap : reg 0xa4 = some (.seq .trapPDU))
    (ids : List Nat) (ent addr addr' : Val) (octs : Str) (gt sp : Int) (ts : Nat) (xs ys : List Val)
    (cg cs ct cl : _)
    (hent : Represents ent (.oid ids)) (hent' : Denotes reg (.oid ids) ent)
    (haddr : Represents addr (.string .ipAddress octs)) (haddr' : Denotes reg (.string .ipAddress octs) addr')
    (hcg : cg ∈ signedClasses) (hcs : cs ∈ signedClasses) (hct : ct ∈ unsignedClasses .timeTicks)
    (hcl : cl ∈ [SeqCls.varBindList, .varBindList2])
    (hg : OutOfBand gt) (hgr : -2147483648 ≤ gt ∧ gt ≤ 2147483647) (hs : OutOfBand sp)
    (hb : Bindings reg .varBind xs ys) :
    ∃ s cs' ct', (mkTrap ent addr (.integer cg gt) (.integer cs sp) (.integer ct ts) (.seq cl xs)).encode = .ok s ∧
      (s.length < 256 ^ 127 → ∀ rest, decode reg (.str (s ++ rest)) = (decode reg (.str rest)).map
        (mkTrap ent addr' (.integer .genericTrap gt) (.integer cs' sp) (.integer ct' ts) (.seq .varBindList ys) :: ·)) := by
  obtain ⟨as, zs, b1, b2, b3⟩ := bindings_split hreg.sequence hb
  obtain ⟨k, hk, hks⟩ := hreg.integer
  obtain ⟨kt, hkt, hkts⟩ := hreg.timeTicks
  have rep : RepresentsList [ent, addr, .integer cg gt, .integer cs sp, .integer ct ts, .seq cl xs]
      [.oid ids, .string .ipAddress octs, .integer gt, .integer sp, .unsigned .timeTicks ts, .seq as] :=
    .cons hent (.cons haddr (.cons (.integer cg gt hcg hg) (.cons (.integer cs sp hcs hs)
      (.cons (.unsigned _ ct ts hct)
        (.cons (.seq cl xs as (by revert hcl; cases cl <;> decide) b1) .nil)))))
  have den : DenotesList reg
      [.oid ids, .string .ipAddress octs, .integer gt, .integer sp, .unsigned .timeTicks ts, .seq as]
      [ent, addr', .integer k gt, .integer k sp, .integer kt ts, .seq .sequence zs] :=
    .cons hent' (.cons haddr' (.cons (.integer gt k hk hks) (.cons (.integer sp k hk hks)
      (.cons (.unsigned _ ts kt hkt) (.cons (.seq as zs hreg.sequence b2) .nil)))))
  obtain ⟨content, e1, e2⟩ := encodeItems_ber _ _ rep
  have hid : (Cls.seq .trapPDU).identifier = .ok [0xa4] := by decide +kernel
  obtain ⟨s, e3, e4, e5⟩ := tlv_ok content hid
  refine ⟨s, k, kt, by rw [mkTrap, Val.encode, e1]; exact e3, fun hl rest => ?_⟩
  simp only [decode]
  rw [decodeAll_tlv reg (e5 hl) (by decide), htrap]
  simp only
  rw [decodeContents_seq]
  have dd := berList_decode reg _ _ content (e2 (by omega)) den []
  rw [List.append_nil, decodeAll_nil] at dd
  simp only [List.append_nil] at dd
  rw [dd]
  simp only
  have fin : finishSeq .trapPDU [ent, addr', .integer k gt, .integer k sp, .integer kt ts, .seq .sequence zs] =
      .ok (mkTrap ent addr' (.integer .genericTrap gt) (.integer k sp) (.integer kt ts) (.seq .varBindList ys)) := by
    unfold finishSeq
    rw [if_neg (by decide), if_pos (by decide)]
    unfold finishTrap
    have hmk : mkInteger .genericTrap gt = .ok (.integer .genericTrap gt) := by
      unfold mkInteger
      rw [if_pos]
      exact hgr
    simp only [Val.iter, Val.toInt, bind, Except.bind, b3, hmk]
  rw [fin]
  simp only
  cases decodeAll reg rest <;> rfl

/-- C30. A message built from a version, a community and any data that survives encoding and decoding (such as the PDUs
of C27 and the traps of C29) comes back with the same version, community and data. -/
theorem C30_message_roundtrip (reg : Reg) (hreg : Understands1155 reg) (c c' : SeqCls)
    (hc : c = .message ∨ c = .message2) (v : Int) (hv : OutOfBand v) (community : Str) (x y : Val) (sx : Str)
    (hx : x.encode = .ok sx)
    (hy : ∀ rest, decode reg (.str (sx ++ rest)) = (decode reg (.str rest)).map (y :: ·))
    (m : Msg) (hm : mkMessage c v community x = .ok m) :
    ∃ s k co, m.encode = .ok s ∧ (s.length < 256 ^ 127 →
      msgDecode reg c' (.str s) = .ok ⟨c', .integer k v, .octets co community, y⟩) := by
  unfold mkMessage at hm
  split at hm
  · simp at hm
  · next vv hvv =>
    obtain ⟨rfl, _⟩ := mkInteger_ok hvv
    simp only [Except.ok.injEq] at hm
    subst hm
    obtain ⟨k, hk, hks⟩ := hreg.integer
    obtain ⟨co, hco, hcos⟩ := hreg.octetString
    have rep : RepresentsList [.integer .integer v, .octets .octetString community]
        [.integer v, .string .octetString community] :=
      .cons (.integer _ v (by decide) hv) (.cons (.string _ _ _ (by decide)) .nil)
    have den : DenotesList reg [.integer v, .string .octetString community]
        [.integer k v, .octets co community] :=
      .cons (.integer v k hk hks) (.cons (.string _ _ co hco) .nil)
    obtain ⟨content, e1, e2⟩ := encodeItems_ber _ _ rep
    have hid : (Cls.seq c).identifier = .ok [0x30] := by rcases hc with rfl | rfl <;> decide +kernel
    have henc : encodeItems ([.integer .integer v, .octets .octetString community] ++ [x]) = .ok (content ++ sx) := by
      apply C26_sequence_contents _ _ _ _ e1
      rw [encodeItems, hx]
      simp [encodeItems]
    obtain ⟨s, e3, e4, e5⟩ := tlv_ok (content ++ sx) hid
    refine ⟨s, k, co, ?_, fun hl => ?_⟩
    · unfold Msg.encode
      simp only [List.cons_append, List.nil_append] at henc
      rw [henc]
      exact e3
    · have hdec : decode reg (.str s) = .ok [.seq .sequence [.integer k v, .octets co community, y]] := by
        simp only [decode]
        have := decodeAll_tlv reg (e5 hl) (by decide) []
        rw [List.append_nil, hreg.sequence] at this
        rw [this]
        simp only
        have hh := hy []
        simp only [decode, List.append_nil, decodeAll_nil] at hh
        rw [decodeContents_seq, berList_decode reg _ _ content (e2 (by simp at e4; omega)) den sx, hh]
        simp only [Except.map, finishSeq_sequence, decodeAll_nil, List.cons_append, List.nil_append]
      unfold msgDecode
      rw [hdec]
      rfl

/-- C27 and C30 together, for a whole message carrying a PDU. -/
theorem C30_pdu_message_roundtrip (reg : Reg) (hreg : Understands1155 reg) (cm cm' c c' : SeqCls) (t : Nat)
    (hcm : cm = .message ∨ cm = .message2)
    (hid : (Cls.seq c).identifier = .ok [t]) (hc' : reg t = some (.seq c')) (hp' : c' ∈ pduClasses) (ht : t % 32 ≠ 31)
    (v r e i : Int) (hv : OutOfBand v) (hr : OutOfBand r) (he : OutOfBand e) (hi : OutOfBand i) (xs ys : List Val)
    (hb : Bindings reg (if c' = .bulkPDU ∨ c' = .getBulk then .varBind2 else .varBind) xs ys)
    (community : Str) (x y : Val) (m : Msg) (hx : mkPDU c r e i xs = .ok x) (hy : mkPDU c' r e i ys = .ok y)
    (hm : mkMessage cm v community x = .ok m) :
    PduFields m.data c r e i xs ∧ PduFields y c' r e i ys ∧
    ∃ s k co, m.encode = .ok s ∧ (s.length < 256 ^ 127 →
      msgDecode reg cm' (.str s) = .ok ⟨cm', .integer k v, .octets co community, y⟩) := by
  obtain ⟨h1, h2, sx, h3, h4⟩ := C27_pdu_roundtrip reg hreg c c' t hid hc' hp' ht r e i hr he hi xs ys hb x y hx hy
  have hmd : m.data = x := by
    unfold mkMessage at hm
    split at hm
    · simp at hm
    · simp only [Except.ok.injEq] at hm; subst hm; rfl
  refine ⟨hmd ▸ h1, h2, ?_⟩
  by_cases hl : sx.length < 256 ^ 127
  · exact C30_message_roundtrip reg hreg cm cm' hcm v hv community x y sx h3 (h4 hl) m hm
  · -- then the message is too long as well
    unfold mkMessage at hm
    split at hm
    · simp at hm
    · next vv hvv =>
      obtain ⟨rfl, _⟩ := mkInteger_ok hvv
      simp only [Except.ok.injEq] at hm
      subst hm
      have rep : RepresentsList [.integer .integer v, .octets .octetString community]
          [.integer v, .string .octetString community] :=
        .cons (.integer _ v (by decide) hv) (.cons (.string _ _ _ (by decide)) .nil)
      obtain ⟨content, e1, _⟩ := encodeItems_ber _ _ rep
      have hidm : (Cls.seq cm).identifier = .ok [0x30] := by rcases hcm with rfl | rfl <;> decide +kernel
      have henc : encodeItems ([.integer .integer v, .octets .octetString community] ++ [x]) = .ok (content ++ sx) := by
        apply C26_sequence_contents _ _ _ _ e1
        rw [encodeItems, h3]
        simp [encodeItems]
      obtain ⟨s, e3, e4, _⟩ := tlv_ok (content ++ sx) hidm
      refine ⟨s, .integer, .octetString, ?_, fun hs => ?_⟩
      · unfold Msg.encode
        simp only [List.cons_append, List.nil_append] at henc
        rw [henc]
        exact e3
      · exfalso
        simp only [List.length_append] at e4
        omega

/-- The bindings of a typical request satisfy the hypotheses. -/
def sampleVb : Val := .seq .varBind [.oid (some [1, 3, 6, 1, 2, 1, 1, 3, 0]), .integer .timeTicks 4294967295]

theorem sampleBindings : Bindings regFull .varBind [sampleVb] [sampleVb] :=
  .cons (ids := [1, 3, 6, 1, 2, 1, 1, 3, 0]) (.inl rfl) (.oid 1 3 [6, 1, 2, 1, 1, 3, 0] (by decide) (by decide))
    (.oid 1 3 [6, 1, 2, 1, 1, 3, 0] rfl (by decide)) (.unsigned .timeTicks .timeTicks 4294967295 (by decide))
    (.unsigned .timeTicks 4294967295 .timeTicks rfl) .nil

def samplePdu : Val :=
  .seq .response2 [.integer .integer32 12, .integer .errorStatus2 2, .integer .integer 1, .seq .varBindList2 [sampleVb]]

def sampleMsg : Msg := ⟨.message2, .integer .integer 1, .octets .octetString [112, 117], samplePdu⟩

example : mkPDU .response2 12 2 1 [sampleVb] = .ok samplePdu ∧ mkMessage .message2 1 [112, 117] samplePdu = .ok sampleMsg ∧
    ∃ s k co, sampleMsg.encode = .ok s ∧ (s.length < 256 ^ 127 →
      msgDecode regFull .message2 (.str s) = .ok ⟨.message2, .integer k 1, .octets co [112, 117], samplePdu⟩) :=
  ⟨rfl, rfl, (C30_pdu_message_roundtrip regFull regFull_understands .message2 .message2 .response2 .response2 0xa2
    (.inr rfl) (by decide +kernel) rfl (by decide) (by decide) 1 12 2 1 (outOfBand_nonneg (by decide))
    (outOfBand_nonneg (by decide)) (outOfBand_nonneg (by decide)) (outOfBand_nonneg (by decide)) _ _ sampleBindings
    [112, 117] samplePdu samplePdu sampleMsg rfl rfl rfl).2.2⟩

/-- The hypotheses of C29 are met by a cold-start trap. -/
example : ∃ s cs' ct', (mkTrap (.oid (some [1, 3, 6, 1, 4, 1, 9])) (.octets .networkAddress [10, 0, 0, 1])
      (.integer .genericTrap 0) (.integer .integer 5) (.integer .timeTicks 77) (.seq .varBindList [sampleVb])).encode = .ok s ∧
    (s.length < 256 ^ 127 → ∀ rest, decode regFull (.str (s ++ rest)) = (decode regFull (.str rest)).map
      (mkTrap (.oid (some [1, 3, 6, 1, 4, 1, 9])) (.octets .ipAddress [10, 0, 0, 1])
        (.integer .genericTrap 0) (.integer cs' 5) (.integer ct' 77) (.seq .varBindList [sampleVb]) :: ·)) :=
  C29_trap_roundtrip regFull regFull_understands rfl [1, 3, 6, 1, 4, 1, 9] _ _ _ [10, 0, 0, 1] 0 5 77 _ _ .genericTrap
    .integer .timeTicks .varBindList (.oid 1 3 [6, 1, 4, 1, 9] (by decide) (by decide))
    (.oid 1 3 [6, 1, 4, 1, 9] rfl (by decide)) (.string _ _ _ (by decide)) (.string _ _ _ rfl)
    (by decide) (by decide) (by decide) (by decide) (outOfBand_nonneg (by decide)) (by decide)
    (outOfBand_nonneg (by decide)) sampleBindings

/-! ### C60 -/

theorem identifier_octets (c : Cls) (s : Str) (h : c.identifier = .ok s) : Octets s := by
  have key : (match c.identifier with
      | .ok s => s.all (fun b => decide (b < 256))
      | .error _ => true) = true := by
    rcases c with _ | c | c | _ | c | c
    all_goals try (cases c)
    all_goals decide +kernel
  rw [h] at key
  simpa [Octets] using key

theorem encodeLength_octets (n : Nat) : Octets (encodeLength n) := by
  by_cases hn : n < 127
  · rw [encodeLength_short hn]
    simp [Octets]; omega
  · obtain ⟨ds, h1, _, h3, _⟩ := encodeLength_long (n := n) (by omega)
    rw [h1, octets_cons]
    exact ⟨by omega, h3⟩

theorem tlv_octets {c : Cls} {contents s : Str} (h : tlv c contents = .ok s) (hc : Octets contents) : Octets s := by
  unfold tlv at h
  split at h
  · simp at h
  · next idf hi =>
    simp only [Except.ok.injEq] at h
    subst h
    rw [octets_append, octets_append]
    exact ⟨⟨identifier_octets c idf hi, encodeLength_octets _⟩, hc⟩

theorem subidEncode_octets (v : Int) : Octets (subidEncode v) := by
  by_cases h : v < 128
  · unfold subidEncode
    rw [if_pos h]
    have : Int.land v 0x7f < 128 := by
      have : Int.land v 0x7f = v % 128 := land_7f v
      omega
    intro b hb
    simp only [List.mem_singleton] at hb
    omega
  · have e : v = ((v.toNat : Nat) : Int) := by omega
    rw [e]
    exact base128_octets (subidEncode_group _)

theorem oidEncode_octets {v : Option (List Int)} {s : Str} (h : oidEncode v = .ok s) : Octets s := by
  unfold oidEncode at h
  split at h
  · simp at h
  · split at h
    · simp only [Except.ok.injEq] at h
      subst h
      intro b hb
      obtain ⟨x, _, hx⟩ := List.mem_flatMap.mp hb
      exact subidEncode_octets x b hx
    · simp at h

mutual
theorem encode_octets : (x : Val) → StringsOctets x → ∀ s, x.encode = .ok s → Octets s
  | .none, _, s, h | .int _, _, s, h | .bytes _, _, s, h | .raw _ _, _, s, h => by simp [Val.encode] at h
  | .str v, hx, s, h => by
      simp only [Val.encode, Except.ok.injEq] at h
      subst h; simpa [StringsOctets] using hx
  | .integer c v, _, s, h => tlv_octets (by simpa [Val.encode] using h) (intEncode_octets v).1
  | .octets c v, hx, s, h => tlv_octets (by simpa [Val.encode] using h) (by simpa [StringsOctets] using hx)
  | .oid v, _, s, h => by
      rw [Val.encode] at h
      split at h
      · simp at h
      · next ho => exact tlv_octets h (oidEncode_octets ho)
  | .null c, _, s, h => tlv_octets (by simpa [Val.encode] using h) (by simp)
  | .seq c items, hx, s, h => by
      rw [Val.encode] at h
      split at h
      · simp at h
      · next hi => exact tlv_octets h (encodeItems_octets items (by simpa [StringsOctets] using hx) _ hi)
theorem encodeItems_octets : (xs : List Val) → StringsOctetsList xs → ∀ s, encodeItems xs = .ok s → Octets s
  | [], _, s, h => by
      simp only [encodeItems, Except.ok.injEq] at h
      subst h; simp
  | x :: xs, hx, s, h => by
      simp only [StringsOctetsList] at hx
      rw [encodeItems] at h
      split at h
      · simp at h
      · next s1 h1 =>
        split at h
        · simp at h
        · next s2 h2 =>
          simp only [Except.ok.injEq] at h
          subst h
          rw [octets_append]
          exact ⟨encode_octets x hx.1 _ h1, encodeItems_octets xs hx.2 _ h2⟩
end

theorem tlv_infix {c : Cls} {contents s : Str} (h : tlv c contents = .ok s) : contents <:+: s := by
  unfold tlv at h
  split at h
  · simp at h
  · simp only [Except.ok.injEq] at h
    subst h
    exact (List.suffix_append _ _).isInfix

theorem encodeItems_infix {xs : List Val} {s : Str} (h : encodeItems xs = .ok s) :
    ∀ x ∈ xs, ∃ t, x.encode = .ok t ∧ t <:+: s := by
  induction xs generalizing s with
  | nil => simp
  | cons y ys ih =>
    rw [encodeItems] at h
    split at h
    · simp at h
    · next s1 h1 =>
      split at h
      · simp at h
      · next s2 h2 =>
        simp only [Except.ok.injEq] at h
        subst h
        intro x hx
        rcases List.mem_cons.mp hx with rfl | hx
        · exact ⟨s1, h1, (List.prefix_append _ _).isInfix⟩
        · obtain ⟨t, e1, e2⟩ := ih h2 x hx
          exact ⟨t, e1, e2.trans (List.suffix_append _ _).isInfix⟩

/-- C60. If every string in an object consists of octets, so does its encoding. -/
theorem C60_encoding_octets (x : Val) (hx : StringsOctets x) (s : Str) (h : x.encode = .ok s) : Octets s :=
  encode_octets x hx s h

/-- C60. Conversely every string component of an object appears, unchanged, in the encoding, so characters that are
not octets appear in it too. -/
theorem C60_strings_appear (x : Val) (s : Str) (h : x.encode = .ok s) (y : Val) (hy : Component x y) :
    (∃ t, y.encode = .ok t ∧ t <:+: s) ∧ ∀ c v, y = .octets c v → v <:+: s := by
  have key : ∀ (x y : Val), Component x y → ∀ s, x.encode = .ok s → ∃ t, y.encode = .ok t ∧ t <:+: s := by
    intro x y hy
    induction hy with
    | refl x => intro s h; exact ⟨s, h, List.infix_rfl⟩
    | @step x y c items hx _ ih =>
      intro s h
      rw [Val.encode] at h
      split at h
      · simp at h
      · next contents hi =>
        obtain ⟨t, e1, e2⟩ := encodeItems_infix hi x hx
        obtain ⟨t', e3, e4⟩ := ih t e1
        exact ⟨t', e3, e4.trans (e2.trans (tlv_infix h))⟩
  obtain ⟨t, e1, e2⟩ := key x y hy s h
  refine ⟨⟨t, e1, e2⟩, ?_⟩
  rintro c v rfl
  rw [Val.encode] at e1
  exact (tlv_infix e1).trans e2

example : (Val.seq .sequence [.octets .octetString [0x20AC, 5]]).encode = .ok [0x30, 4, 4, 2, 0x20AC, 5] := by
  decide +kernel

end Libsnmp
