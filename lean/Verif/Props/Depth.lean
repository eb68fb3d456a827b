import Verif.Model.Depth
import Verif.Spec.Depth
import Verif.Props.Objects
import Verif.Props.Responses

/-!
# C71: nesting and the Python stack
-/

namespace Libsnmp
open Spec

theorem decodeLoop_eq (reg : Reg) (f : Cls → Str → Except Exc Val) (s : Str) : decodeLoop reg f s =
    if s = [] then .ok [] else
    match decodeTag s with
    | .error e => .error e
    | .ok (tag, s1) =>
      match decodeLength s1 with
      | .error e => .error e
      | .ok (length, s2) =>
        match reg tag with
        | none => .error .valueError
        | some cls =>
          match f cls (s2.take length) with
          | .error e => .error e
          | .ok obj =>
            match decodeLoop reg f (s2.drop length) with
            | .error e => .error e
            | .ok objects => .ok (obj :: objects) := by
  rw [decodeLoop]
  by_cases hs : s = []
  · simp [hs]
  · simp only [hs, if_false]
    split
    · next e h => rw [h]
    · next tag s1 h =>
      rw [h]
      simp only
      split
      · next e h => rw [h]
      · next l s2 h =>
        rw [h]
        rfl

theorem decodeContents_with (reg : Reg) (c : Cls) (d : Str) :
    decodeContents reg c d = contentsWith (decodeAll reg) c d := by
  cases c with
  | asn1Object => rw [decodeContents_asn1]; rfl
  | int c => rw [decodeContents_int]; rfl
  | oct c => rw [decodeContents_oct]; rfl
  | oid => rw [decodeContents_oid]; rfl
  | null c => rw [decodeContents_null]; rfl
  | seq c => rw [decodeContents_seq]; rfl

theorem decodeAll_loop (reg : Reg) (s : Str) : decodeAll reg s = decodeLoop reg (contentsWith (decodeAll reg)) s := by
  induction hn : s.length using Nat.strong_induction_on generalizing s with
  | _ n ih =>
    rw [decodeAll_eq, decodeLoop_eq]
    by_cases hs : s = []
    · rw [if_pos hs, if_pos hs]
    rw [if_neg hs, if_neg hs]
    cases ht : decodeTag s with
    | error e => rfl
    | ok p =>
      obtain ⟨tag, s1⟩ := p
      simp only
      cases hl : decodeLength s1 with
      | error e => rfl
      | ok p =>
        obtain ⟨l, s2⟩ := p
        have := decodeTag_length ht
        have := decodeLength_length hl
        simp only [decodeContents_with]
        rw [ih (s2.drop l).length (by simp only [List.length_drop]; omega) _ rfl]
        rfl

/-- Two ways of decoding contents that agree up to RecursionError give loops that do. -/
theorem decodeLoop_or (reg : Reg) (f g : Cls → Str → Except Exc Val)
    (h : ∀ c d, f c d = .error .recursionError ∨ f c d = g c d) (s : Str) :
    decodeLoop reg f s = .error .recursionError ∨ decodeLoop reg f s = decodeLoop reg g s := by
  induction hn : s.length using Nat.strong_induction_on generalizing s with
  | _ n ih =>
    rw [decodeLoop_eq, decodeLoop_eq reg g]
    by_cases hs : s = []
    · simp [hs]
    simp only [if_neg hs]
    cases ht : decodeTag s with
    | error e => right; rfl
    | ok p =>
      obtain ⟨tag, s1⟩ := p
      simp only
      cases hl : decodeLength s1 with
      | error e => right; rfl
      | ok p =>
        obtain ⟨l, s2⟩ := p
        have := decodeTag_length ht
        have := decodeLength_length hl
        simp only
        cases reg tag with
        | none => right; rfl
        | some cls =>
          simp only
          rcases h cls (s2.take l) with hc | hc
          · left; rw [hc]
          · rw [hc]
            cases g cls (s2.take l) with
            | error e => right; rfl
            | ok obj =>
              simp only
              rcases ih (s2.drop l).length (by simp only [List.length_drop]; omega) _ rfl with hr | hr
              · left; rw [hr]
              · right; rw [hr]

theorem contentsWith_or (f g : Str → Except Exc (List Val)) (c : Cls) (d : Str)
    (h : f d = .error .recursionError ∨ f d = g d) :
    contentsWith f c d = .error .recursionError ∨ contentsWith f c d = contentsWith g c d := by
  cases c with
  | seq c =>
    rcases h with h | h
    · left; simp only [contentsWith, h]
    · right; simp only [contentsWith, h]
  | _ => right; rfl

/-- C71: with any room on the stack, decoding a stream either runs out of it, or does exactly what unlimited decoding
does (which all the other properties describe), be it a result or an exception. -/
theorem C71_limit_or_same (reg : Reg) (d : Nat) (s : Str) :
    decodeLim reg d s = .error .recursionError ∨ decodeLim reg d s = decode reg (.str s) := by
  show _ ∨ _ = decodeAll reg s
  induction d generalizing s with
  | zero => left; rfl
  | succ d ih =>
    rw [decodeAll_loop]
    exact decodeLoop_or reg _ _ (fun c t => contentsWith_or _ _ c t (ih t)) s

theorem decodeLoop_congr (reg : Reg) (f g : Cls → Str → Except Exc Val) (s : Str)
    (h : ∀ c d, d.length + 2 ≤ s.length → f c d = g c d) :
    decodeLoop reg f s = decodeLoop reg g s := by
  induction hn : s.length using Nat.strong_induction_on generalizing s with
  | _ n ih =>
    rw [decodeLoop_eq, decodeLoop_eq reg g]
    by_cases hs : s = []
    · simp [hs]
    simp only [if_neg hs]
    cases ht : decodeTag s with
    | error e => rfl
    | ok p =>
      obtain ⟨tag, s1⟩ := p
      simp only
      cases hl : decodeLength s1 with
      | error e => rfl
      | ok p =>
        obtain ⟨l, s2⟩ := p
        have := decodeTag_length ht
        have := decodeLength_length hl
        simp only
        have e1 : ∀ cls, f cls (s2.take l) = g cls (s2.take l) := fun cls =>
          h cls _ (by simp only [List.length_take]; omega)
        have e2 := ih (s2.drop l).length (by simp only [List.length_drop]; omega) (s2.drop l)
          (fun c d hd => h c d (by simp only [List.length_drop] at hd; omega)) rfl
        simp only [e1, e2]

/-- C71: every level of nesting takes two octets at least, so a stream shorter than twice the room is decoded as if the
stack were unlimited. -/
theorem C71_short_streams (reg : Reg) (d : Nat) (s : Str) (h : s.length < 2 * d) :
    decodeLim reg d s = decode reg (.str s) := by
  show _ = decodeAll reg s
  induction d generalizing s with
  | zero => omega
  | succ d ih =>
    rw [decodeAll_loop]
    refine decodeLoop_congr reg _ _ s (fun c t ht => ?_)
    cases c with
    | seq c => simp only [contentsWith, ih t (by omega)]
    | _ => rfl

/-- C71: more room changes nothing but RecursionErrors. -/
theorem C71_more_room (reg : Reg) (d d' : Nat) (h : d ≤ d') (s : Str) (hs : decodeLim reg d s ≠ .error .recursionError) :
    decodeLim reg d' s = decodeLim reg d s := by
  induction d generalizing d' s with
  | zero => exact absurd rfl hs
  | succ d ih =>
    obtain ⟨d', rfl⟩ : ∃ e, d' = e + 1 := ⟨d' - 1, by omega⟩
    rcases decodeLoop_or reg (contentsWith (decodeLim reg d)) (contentsWith (decodeLim reg d')) (fun c t =>
      contentsWith_or _ _ c t (by
        by_cases hr : decodeLim reg d t = .error .recursionError
        · exact .inl hr
        · exact .inr (ih d' (by omega) t hr).symm)) s with hx | hx
    · exact absurd hx hs
    · exact hx.symm

/-! ### Exactly which values fit -/

theorem decodeLoop_tlv (reg : Reg) (f : Cls → Str → Except Exc Val) {tag : Nat} {c s : Str} (h : Tlv tag c s)
    (ht : tag % 32 ≠ 31) (rest : Str) :
    decodeLoop reg f (s ++ rest) =
      match reg tag with
      | none => .error .valueError
      | some cls =>
        match f cls c with
        | .error e => .error e
        | .ok obj =>
          match decodeLoop reg f rest with
          | .error e => .error e
          | .ok objects => .ok (obj :: objects) := by
  obtain ⟨g, h1, h2⟩ := tlv_append h
  rw [h2, decodeLoop_eq, if_neg (by simp), decodeTag_field (.low tag ht)]
  simp only
  rw [decodeLength_field h1]
  simp

theorem decodeLoop_nil (reg : Reg) (f : Cls → Str → Except Exc Val) : decodeLoop reg f [] = .ok [] := by
  rw [decodeLoop_eq]; simp

mutual
theorem ber_lim (reg : Reg) : (a : Asn) → ∀ (d : Nat) (y : Val) (s : Str), Ber a s → Denotes reg a y → ∀ rest,
    decodeLim reg (d + 1) (s ++ rest) = if d < a.depth then .error .recursionError else
      match decodeLim reg (d + 1) rest with
      | .error e => .error e
      | .ok objects => .ok (y :: objects)
  | .integer _, d, _, _, .integer c s hne ho h, .integer _ cl hr hc, rest => by
      rw [if_neg (by simp only [Asn.depth]; omega), decodeLim]
      rw [decodeLoop_tlv reg _ h (by decide), hr]
      simp only [contentsWith, signed_not_counter hc, intDecode_ok hne ho]
      rfl
  | .unsigned k n, d, _, _, .unsigned _ _ c s hne ho hv h, .unsigned _ _ cl hr, rest => by
      rw [if_neg (by simp only [Asn.depth]; omega), decodeLim]
      rw [decodeLoop_tlv reg _ h (ukind_tag k), hr]
      simp only [contentsWith, intDecode_ok hne ho, counterDecode_nonneg hne ho hv, hv, ite_self]
      rfl
  | .string k _, d, _, _, .string _ c s h, .string _ _ cl hr, rest => by
      rw [if_neg (by simp only [Asn.depth]; omega), decodeLim]
      rw [decodeLoop_tlv reg _ h (skind_tag k), hr]
      simp only [contentsWith]
      rfl
  | .null k, d, _, _, .null _ s h, .null _ cl hr, rest => by
      rw [if_neg (by simp only [Asn.depth]; omega), decodeLim]
      rw [decodeLoop_tlv reg _ h (nkind_tag k), hr]
      simp [contentsWith]
      rfl
  | .oid (_ :: _ :: _), d, _, _, .oid _ c s hc h, .oid _ _ _ hr hb, rest => by
      rw [if_neg (by simp only [Asn.depth]; omega), decodeLim]
      rw [decodeLoop_tlv reg _ h (by decide), hr]
      simp only [contentsWith, oidContents_decode hc hb]
      rfl
  | .seq as, 0, _, _, .seq _ c s hc h, .seq _ ys hr hl, rest => by
      have hdep : (Asn.seq as).depth = 1 + depthList as := by simp only [Asn.depth]
      rw [decodeLim, decodeLoop_tlv reg _ h (by decide), hr, if_pos (by omega)]
      simp only [contentsWith, decodeLim]
  | .seq as, d + 1, _, _, .seq _ c s hc h, .seq _ ys hr hl, rest => by
      have := berList_lim reg as d ys c hc hl []
      rw [List.append_nil] at this
      rw [decodeLim, decodeLoop_tlv reg _ h (by decide), hr]
      have hdep : (Asn.seq as).depth = 1 + depthList as := by simp only [Asn.depth]
      simp only [contentsWith, this]
      by_cases hd : d < depthList as
      · rw [if_pos hd, if_pos (by omega)]
      · rw [if_neg hd, if_neg (by omega)]
        simp only [decodeLim, decodeLoop_nil, List.append_nil, finishSeq_sequence]
theorem berList_lim (reg : Reg) : (as : List Asn) → ∀ (d : Nat) (ys : List Val) (s : Str), BerList as s →
    DenotesList reg as ys → ∀ rest,
    decodeLim reg (d + 1) (s ++ rest) = if d < depthList as then .error .recursionError else
      match decodeLim reg (d + 1) rest with
      | .error e => .error e
      | .ok objects => .ok (ys ++ objects)
  | [], d, _, _, .nil, .nil, rest => by
      simp only [List.nil_append, depthList, Nat.not_lt_zero, if_false]
      cases decodeLim reg (d + 1) rest <;> rfl
  | a :: as, d, _, _, .cons h1 h2, .cons d1 d2, rest => by
      rw [List.append_assoc, ber_lim reg a d _ _ h1 d1, berList_lim reg as d _ _ h2 d2]
      have hdep : depthList (a :: as) = max a.depth (depthList as) := by simp only [depthList]
      by_cases hd : d < a.depth
      · rw [if_pos hd, if_pos (by omega)]
      · rw [if_neg hd]
        by_cases hd' : d < depthList as
        · rw [if_pos hd', if_pos (by omega)]
        · rw [if_neg hd', if_neg (by omega)]
          cases decodeLim reg (d + 1) rest <;> rfl
end

/-- C71: any encoding of an SNMP value decodes exactly if the stack has room for one `decode` call more than sequences are
nested in the value; otherwise RecursionError is raised. -/
theorem C71_exact (reg : Reg) {a : Asn} {y : Val} {s : Str} (hs : Ber a s) (hy : Denotes reg a y) (d : Nat) :
    decodeLim reg d s = if a.depth < d then .ok [y] else .error .recursionError := by
  cases d with
  | zero => rfl
  | succ d =>
    have := ber_lim reg a d y s hs hy []
    rw [List.append_nil] at this
    rw [this]
    by_cases h : d < a.depth
    · rw [if_pos h, if_neg (by omega)]
    · rw [if_neg h, if_pos (by omega), decodeLim, decodeLoop_nil]

/-! ### A datagram that exhausts the stack -/

theorem bomb_length (n : Nat) : (bomb n).length = 4 * n := by
  induction n with
  | zero => rfl
  | succ n ih => simp only [bomb, List.length_cons, ih]; omega

theorem bomb_octets (n : Nat) : Octets (bomb n) := by
  induction n with
  | zero => intro x hx; cases hx
  | succ n ih =>
    intro x hx
    simp only [bomb, List.mem_cons] at hx
    rcases hx with rfl | rfl | rfl | rfl | hx
    · decide
    · decide
    · decide
    · decide
    · exact ih x hx

theorem bomb_header (n : Nat) : decodeTag (bomb (n + 1)) = .ok (0x30, 0x82 :: 0xff :: 0xff :: bomb n) ∧
    decodeLength (0x82 :: 0xff :: 0xff :: bomb n) = .ok (65535, bomb n) := by
  constructor
  · exact decodeTag_field (.low 0x30 (by decide)) (0x82 :: 0xff :: 0xff :: bomb n)
  · exact decodeLength_field (n := 65535) (f := [0x82, 0xff, 0xff]) (.long [0xff, 0xff] (by decide) (by decide) (by decide))
      (bomb n)

/-- C71: for every amount of room `d` up to the size of a datagram, `4 * d` octets exhaust it: `d` sequence headers, one
inside the other.  With unlimited room they would decode. -/
theorem C71_bomb (reg : Reg) (hr : reg 0x30 = some (.seq .sequence)) (d : Nat) (hd : 4 * d ≤ 65535) :
    (bomb d).length = 4 * d ∧ Octets (bomb d) ∧ decodeLim reg d (bomb d) = .error .recursionError ∧
    ∃ v, decode reg (.str (bomb d)) = .ok v := by
  refine ⟨bomb_length d, bomb_octets d, ?_, ?_⟩
  · induction d with
    | zero => rfl
    | succ d ih =>
      have hl := bomb_length d
      rw [decodeLim, decodeLoop_eq, if_neg (by simp [bomb]), (bomb_header d).1]
      simp only [(bomb_header d).2, hr]
      rw [List.take_of_length_le (by omega)]
      simp only [contentsWith, ih (by omega)]
  · show ∃ v, decodeAll reg (bomb d) = .ok v
    induction d with
    | zero => exact ⟨[], decodeAll_nil reg⟩
    | succ d ih =>
      obtain ⟨v, hv⟩ := ih (by omega)
      have hl := bomb_length d
      refine ⟨[.seq .sequence v], ?_⟩
      rw [decodeAll_eq, if_neg (by simp [bomb]), (bomb_header d).1]
      simp only [(bomb_header d).2, hr]
      rw [List.take_of_length_le (by omega), List.drop_eq_nil_of_le (by omega), decodeAll_nil, decodeContents_seq, hv]
      simp only [finishSeq_sequence]

theorem msgDecodeLim_rec (reg : Reg) (d : Nat) (c : SeqCls) (s : Str) (h : decodeLim reg d s = .error .recursionError) :
    msgDecodeLim reg d c (.str s) = .error .recursionError := by
  unfold msgDecodeLim
  simp only [h]
  rfl

/-- C71: what this does to a manager: one such datagram, in any state, makes `receiveData` of SNMPv1 managers and
`snmpManager` raise RecursionError, which the loop does not handle (C49); `v2.SNMP` ignores it.  Nothing is dispatched. -/
theorem C71_manager {env : Env} (hreg : Imported env.reg) (d : Nat) (hd : 4 * d ≤ 65535) (k : Kind) (user : User k)
    (s : Mgr k) :
    receiveDataLim env d k user (.str (bomb d)) s = (if k = .v2 then .ok () else .error .recursionError, s) := by
  have h := msgDecodeLim_rec env.reg d (if k = .v1 then .message else .message2) _
    (C71_bomb env.reg (imported_understands hreg).sequence d hd).2.2.1
  unfold receiveDataLim
  rw [h]
  cases k <;> rfl

theorem msgDecodeLim_or (reg : Reg) (d : Nat) (c : SeqCls) (data : Val) :
    msgDecodeLim reg d c data = .error .recursionError ∨ msgDecodeLim reg d c data = msgDecode reg c data := by
  cases data with
  | str s =>
    rcases C71_limit_or_same reg d s with h | h
    · exact .inl (msgDecodeLim_rec reg d c s h)
    · right; unfold msgDecodeLim msgDecode; simp only [h]; rfl
  | _ => exact .inr rfl

/-- C71: a manager that does not run out of stack behaves as one with unlimited stack. -/
theorem C71_manager_same (env : Env) (d : Nat) (k : Kind) (user : User k) (data : Val) (s : Mgr k)
    (h : msgDecodeLim env.reg d (msgCls k) data ≠ .error .recursionError) :
    receiveDataLim env d k user data s = receiveData env k user data s := by
  have hk : (if k = .v1 then SeqCls.message else .message2) = msgCls k := by cases k <;> rfl
  rcases msgDecodeLim_or env.reg d (msgCls k) data with h1 | h1
  · exact absurd h1 h
  · unfold receiveDataLim
    rw [hk, h1]
    cases hm : msgDecode env.reg (msgCls k) data with
    | ok m => rfl
    | error e =>
      cases k with
      | v1 =>
        have hm : msgDecode env.reg .message data = .error e := hm
        show _ = v1ReceiveData env user data s
        unfold v1ReceiveData
        rw [hm]; rfl
      | v2 =>
        have hm : msgDecode env.reg .message2 data = .error e := hm
        show _ = v2ReceiveData env user data s
        unfold v2ReceiveData v2ReceiveBody
        rw [hm]
        show (if Kind.v2 = Kind.v2 ∧ e.isException = true then ((.ok (), s) : Except Exc Unit × Mgr .v2) else (.error e, s)) =
          (if e.isException = true then (.ok (), s) else (.error e, s))
        by_cases he : e.isException = true
        · rw [if_pos ⟨rfl, he⟩, if_pos he]
        · rw [if_neg (fun h => he h.2), if_neg he]
      | sm =>
        have hm : msgDecode env.reg .message2 data = .error e := hm
        show _ = smReceiveData env user data s
        unfold smReceiveData
        rw [hm]; rfl

/-- C71: CPython's default limit of 1000 frames leaves room for fewer than 500 nested calls; 2000 octets are enough. -/
example : (bomb 500).length = 2000 ∧ decodeLim regFull 500 (bomb 500) = .error .recursionError :=
  ⟨bomb_length 500, (C71_bomb regFull rfl 500 (by decide)).2.2.1⟩

/-- C71: an SNMP message with variable bindings needs room for three calls (message, list, binding; the PDU level is
counted too when it is a PDU). -/
example : sampleAsn.depth = 2 ∧ decodeLim regFull 3 [48, 28, 6, 7, 43, 6, 1, 4, 1, 130, 55, 48, 10, 65, 5, 0, 238, 107, 40, 0, 2, 1,
    251, 5, 0, 4, 3, 0, 200, 5] ≠ .error .recursionError ∧ decodeLim regFull 2 [48, 28, 6, 7, 43, 6, 1, 4, 1, 130, 55, 48, 10, 65, 5, 0, 238, 107, 40, 0, 2, 1,
    251, 5, 0, 4, 3, 0, 200, 5] = .error .recursionError := by
  obtain ⟨s, h1, h2⟩ := C21_encode_is_ber sampleTree_represents
  have h3 : sampleTree.encode = .ok [48, 28, 6, 7, 43, 6, 1, 4, 1, 130, 55, 48, 10, 65, 5, 0, 238, 107, 40, 0, 2, 1,
    251, 5, 0, 4, 3, 0, 200, 5] := by decide +kernel
  rw [h3] at h1
  cases h1
  have hb := h2 (by decide)
  have ha : SmallArcs sampleAsn := by simp [sampleAsn, SmallArcs, SmallArcsList]
  obtain ⟨y, hy, _⟩ := denotes_exists regFull_understands _ _ sampleTree_represents ha
  have hd : sampleAsn.depth = 2 := by decide
  refine ⟨hd, ?_, ?_⟩
  · rw [C71_exact regFull hb hy 3, hd]; simp
  · rw [C71_exact regFull hb hy 2, hd]; simp

end Libsnmp
