import Verif.Model.LongInts
import Verif.Spec.LongInts
import Verif.Props.Depth
import Verif.Props.Size

/-!
# C86: integers too long to be printed cannot be decoded
-/

namespace Libsnmp
open Spec

/-! ## Only ValueErrors are new -/

theorem contentsDig_or (D : Nat) (f g : Str → Except Exc (List Val)) (c : Cls) (d : Str)
    (h : f d = .error .valueError ∨ f d = g d) :
    contentsDig D f c d = .error .valueError ∨ contentsDig D f c d = contentsWith g c d := by
  cases c with
  | int c =>
    simp only [contentsDig, contentsWith, counterDecode]
    cases intDecode d with
    | error e => right; simp
    | ok v =>
      simp only
      cases tooLong D v with
      | true => left; rfl
      | false =>
        right
        simp only [Bool.false_eq_true, if_false]
        split <;> rfl
  | seq c =>
    simp only [contentsDig, contentsWith]
    rcases h with h | h
    · left; rw [h]
    · right; rw [h]
  | asn1Object => exact .inr rfl
  | oct c => exact .inr rfl
  | oid => exact .inr rfl
  | null c => exact .inr rfl

/-- Two ways of decoding contents that agree up to one exception give loops that do. -/
theorem decodeLoop_or_exc (x : Exc) (reg : Reg) (f g : Cls → Str → Except Exc Val)
    (h : ∀ c d, f c d = .error x ∨ f c d = g c d) (s : Str) :
    decodeLoop reg f s = .error x ∨ decodeLoop reg f s = decodeLoop reg g s := by
  induction hn : s.length using Nat.strong_induction_on generalizing s with
  | _ n ih =>
    rw [decodeLoop_eq, decodeLoop_eq reg g]
    by_cases hs : s = []
    · simp [hs]
    simp only [if_neg hs]
    cases ht : decodeTag s with
    | error e => right; rfl
    | ok p =>
      obtain ⟨tag, s1⟩ := p
      simp only
      cases hl : decodeLength s1 with
      | error e => right; rfl
      | ok p =>
        obtain ⟨l, s2⟩ := p
        have := decodeTag_length ht
        have := decodeLength_length hl
        simp only
        cases reg tag with
        | none => right; rfl
        | some cls =>
          simp only
          rcases h cls (s2.take l) with hc | hc
          · left; rw [hc]
          · rw [hc]
            cases g cls (s2.take l) with
            | error e => right; rfl
            | ok obj =>
              simp only
              rcases ih (s2.drop l).length (by simp only [List.length_drop]; omega) _ rfl with hr | hr
              · left; rw [hr]
              · right; rw [hr]

theorem decodeDig_or (reg : Reg) (D d : Nat) (s : Str) :
    decodeDig reg D d s = .error .valueError ∨ decodeDig reg D d s = decodeLim reg d s := by
  induction d generalizing s with
  | zero => exact .inr rfl
  | succ d ih => exact decodeLoop_or_exc .valueError reg _ _ (fun c t => contentsDig_or D _ _ c t (ih t)) s

/-- C86: under any limit on numerals, decoding a stream either raises ValueError or does exactly what decoding without the
limit does, be it a result or an exception. -/
theorem C86_limit_or_same (reg : Reg) (D : Nat) (s : Str) :
    decode311 reg D s = .error .valueError ∨ decode311 reg D s = decode reg (.str s) := by
  unfold decode311
  rw [← C71_short_streams reg (s.length + 1) s (by omega)]
  exact decodeDig_or reg D _ s

/-! ## Short streams -/

theorem decodeTag_suffix {s s1 : Str} {t : Nat} (h : decodeTag s = .ok (t, s1)) : ∃ n, s1 = s.drop n := by
  unfold decodeTag at h
  split at h
  · cases h
  · split at h
    · split at h
      · cases h
      · simp only [Except.ok.injEq, Prod.mk.injEq] at h; exact ⟨_, h.2.symm⟩
    · simp only [Except.ok.injEq, Prod.mk.injEq] at h; exact ⟨_, h.2.symm⟩

theorem decodeLength_suffix {s s1 : Str} {t : Nat} (h : decodeLength s = .ok (t, s1)) : ∃ n, s1 = s.drop n := by
  unfold decodeLength at h
  split at h
  · cases h
  · split at h
    · split at h
      · cases h
      · simp only [Except.ok.injEq, Prod.mk.injEq] at h; exact ⟨_, h.2.symm⟩
    · simp only [Except.ok.injEq, Prod.mk.injEq] at h; exact ⟨_, h.2.symm⟩

theorem octets_drop {s : Str} (h : Octets s) (n : Nat) : Octets (s.drop n) := fun x hx => h x (List.mem_of_mem_drop hx)
theorem octets_take {s : Str} (h : Octets s) (n : Nat) : Octets (s.take n) := fun x hx => h x (List.mem_of_mem_take hx)

theorem decodeLoop_congr_octets (reg : Reg) (f g : Cls → Str → Except Exc Val) (s : Str) (ho : Octets s)
    (h : ∀ c d, Octets d → d.length + 2 ≤ s.length → f c d = g c d) :
    decodeLoop reg f s = decodeLoop reg g s := by
  induction hn : s.length using Nat.strong_induction_on generalizing s with
  | _ n ih =>
    rw [decodeLoop_eq, decodeLoop_eq reg g]
    by_cases hs : s = []
    · simp [hs]
    simp only [if_neg hs]
    cases ht : decodeTag s with
    | error e => rfl
    | ok p =>
      obtain ⟨tag, s1⟩ := p
      simp only
      cases hl : decodeLength s1 with
      | error e => rfl
      | ok p =>
        obtain ⟨l, s2⟩ := p
        have := decodeTag_length ht
        have := decodeLength_length hl
        simp only
        have ho2 : Octets s2 := by
          obtain ⟨i, rfl⟩ := decodeTag_suffix ht
          obtain ⟨j, rfl⟩ := decodeLength_suffix hl
          exact octets_drop (octets_drop ho _) _
        have e1 : ∀ cls, f cls (s2.take l) = g cls (s2.take l) := fun cls =>
          h cls _ (octets_take ho2 l) (by simp only [List.length_take]; omega)
        have e2 := ih (s2.drop l).length (by simp only [List.length_drop]; omega) (s2.drop l) (octets_drop ho2 l)
          (fun c d hd hd2 => h c d hd (by simp only [List.length_drop] at hd2; omega)) rfl
        simp only [e1, e2]

theorem decodeDig_short (reg : Reg) (D d : Nat) (s : Str) (ho : Octets s) (hD : 2 ^ (8 * s.length) ≤ 10 ^ D) :
    decodeDig reg D d s = decodeLim reg d s := by
  induction d generalizing s with
  | zero => rfl
  | succ d ih =>
    refine decodeLoop_congr_octets reg _ _ s ho (fun c t ht hl => ?_)
    have hmono : 2 ^ (8 * t.length) ≤ 10 ^ D := Nat.le_trans (Nat.pow_le_pow_right (by omega) (by omega)) hD
    cases c with
    | int c =>
      simp only [contentsDig, contentsWith, counterDecode]
      by_cases hne : t = []
      · subst hne; simp [intDecode]
      · have hb := twos_bits ht hne
        rw [intDecode_ok hne ht]
        have : tooLong D (twos t) = false := by
          unfold tooLong
          simp only [Bool.and_eq_false_iff, decide_eq_false_iff_not, Nat.not_le]
          right; omega
        simp only [this, Bool.false_eq_true, if_false]
        split <;> rfl
    | seq c => simp only [contentsDig, contentsWith, ih t ht hmono]
    | asn1Object => rfl
    | oct c => rfl
    | oid => rfl
    | null c => rfl

/-- C86: the limit of 4300 digits does not matter for any datagram of up to 1785 octets - so none of the other properties is
touched by it there, in particular not at the sizes SNMP managers must accept (484 octets, RFC 1157). -/
theorem C86_short (reg : Reg) (s : Str) (ho : Octets s) (hl : s.length ≤ 1785) : decode311 reg 4300 s = decode reg (.str s) := by
  unfold decode311
  rw [← C71_short_streams reg (s.length + 1) s (by omega)]
  refine decodeDig_short reg 4300 _ s ho ?_
  exact Nat.le_trans (Nat.pow_le_pow_right (by omega) (by omega : 8 * s.length ≤ 8 * 1785)) (by decide +kernel)

/-! ## Exactly which values can be decoded -/

theorem fits_integer {D : Nat} {v : Int} : tooLong D v = !((Asn.integer v).fits D) := by
  unfold tooLong Asn.fits
  by_cases h : D = 0
  · simp [h]
  · simp [h]
    by_cases h2 : v.natAbs < 10 ^ D
    · simp [h2]
    · simp [h2]; omega

theorem fits_unsigned {D n : Nat} {k : UKind} : tooLong D (n : Int) = !((Asn.unsigned k n).fits D) := by
  rw [fits_integer]; simp [Asn.fits]

mutual
theorem ber_dig (reg : Reg) (D : Nat) : (a : Asn) → ∀ (d : Nat) (y : Val) (s : Str), a.depth ≤ d → Ber a s → Denotes reg a y →
    ∀ rest, decodeDig reg D (d + 1) (s ++ rest) = if a.fits D then
      (match decodeDig reg D (d + 1) rest with
      | .error e => .error e
      | .ok objects => .ok (y :: objects)) else .error .valueError
  | .integer _, d, _, _, _, .integer c s hne ho h, .integer _ cl hr hc, rest => by
      rw [decodeDig, decodeLoop_tlv reg _ h (by decide), hr]
      simp only [contentsDig, signed_not_counter hc, intDecode_ok hne ho, fits_integer]
      cases (Asn.integer (twos c)).fits D <;> simp <;> rfl
  | .unsigned k n, d, _, _, _, .unsigned _ _ c s hne ho hv h, .unsigned _ _ cl hr, rest => by
      rw [decodeDig, decodeLoop_tlv reg _ h (ukind_tag k), hr]
      simp only [contentsDig, intDecode_ok hne ho, hv, fits_unsigned (k := k)]
      have h0 : ¬ ((n : Int) < 0) := by omega
      cases (Asn.unsigned k n).fits D <;> simp [h0] <;> rfl
  | .string k _, d, _, _, _, .string _ c s h, .string _ _ cl hr, rest => by
      rw [decodeDig, decodeLoop_tlv reg _ h (skind_tag k), hr]
      simp [contentsDig, contentsWith, Asn.fits]
      rfl
  | .null k, d, _, _, _, .null _ s h, .null _ cl hr, rest => by
      rw [decodeDig, decodeLoop_tlv reg _ h (nkind_tag k), hr]
      simp [contentsDig, contentsWith, Asn.fits]
      rfl
  | .oid (_ :: _ :: _), d, _, _, _, .oid _ c s hc h, .oid _ _ _ hr hb, rest => by
      rw [decodeDig, decodeLoop_tlv reg _ h (by decide), hr]
      simp [contentsDig, contentsWith, Asn.fits, oidContents_decode hc hb]
      rfl
  | .seq as, 0, _, _, hd, .seq _ c s hc h, .seq _ ys hr hl, rest => by
      have hdep : (Asn.seq as).depth = 1 + depthList as := by simp only [Asn.depth]
      omega
  | .seq as, d + 1, _, _, hd, .seq _ c s hc h, .seq _ ys hr hl, rest => by
      have hdep : (Asn.seq as).depth = 1 + depthList as := by simp only [Asn.depth]
      have := berList_dig reg D as d ys c (by omega) hc hl []
      rw [List.append_nil] at this
      rw [decodeDig, decodeLoop_tlv reg _ h (by decide), hr]
      simp only [contentsDig, contentsWith, this]
      rw [Asn.fits]
      cases hg : fitsList D as with
      | false => simp [hg]
      | true =>
        simp only [hg, if_true, decodeDig, decodeLoop_nil, List.append_nil, finishSeq_sequence]
        rfl
theorem berList_dig (reg : Reg) (D : Nat) : (as : List Asn) → ∀ (d : Nat) (ys : List Val) (s : Str), depthList as ≤ d →
    BerList as s → DenotesList reg as ys → ∀ rest,
    decodeDig reg D (d + 1) (s ++ rest) = if fitsList D as then
      (match decodeDig reg D (d + 1) rest with
      | .error e => .error e
      | .ok objects => .ok (ys ++ objects)) else .error .valueError
  | [], d, _, _, _, .nil, .nil, rest => by
      simp only [List.nil_append, fitsList, if_true]
      cases decodeDig reg D (d + 1) rest <;> rfl
  | a :: as, d, _, _, hd, .cons h1 h2, .cons d1 d2, rest => by
      have hdep : depthList (a :: as) = max a.depth (depthList as) := by simp only [depthList]
      rw [List.append_assoc, ber_dig reg D a d _ _ (by omega) h1 d1, berList_dig reg D as d _ _ (by omega) h2 d2]
      rw [fitsList]
      cases hf : Asn.fits D a with
      | false => simp [hf]
      | true =>
        cases hg : fitsList D as with
        | false => simp [hf, hg]
        | true =>
          simp only [if_true, hf, hg, Bool.and_self]
          cases decodeDig reg D (d + 1) rest <;> rfl
end

/-- C86: under a limit of `D` digits (0: none), any encoding of an SNMP value decodes if and only if every integer in the value,
wherever it stands, has at most `D` digits; otherwise ValueError is raised. -/
theorem C86_exact (reg : Reg) {a : Asn} {y : Val} {s : Str} (hs : Ber a s) (hy : Denotes reg a y) (D : Nat) :
    decode311 reg D s = if a.fits D then .ok [y] else .error .valueError := by
  have hdep : a.depth ≤ s.length := by
    have h1 := C71_exact reg hs hy (s.length + 1)
    rw [C71_short_streams reg (s.length + 1) s (by omega)] at h1
    by_contra hc
    rw [if_neg (by omega)] at h1
    have h2 := C71_exact reg hs hy (a.depth + s.length + 1)
    rw [C71_short_streams reg _ s (by omega), if_pos (by omega)] at h2
    rw [h1] at h2
    cases h2
  have := ber_dig reg D a s.length y s hdep hs hy []
  rw [List.append_nil] at this
  unfold decode311
  rw [this]
  cases a.fits D with
  | false => rfl
  | true => simp [decodeDig, decodeLoop_nil]

/-! ## What this does to a manager -/

theorem bigInteger_length (n : Nat) : (bigInteger n).length = n + 5 := by simp [bigInteger]

theorem big_octets (n : Nat) : Octets (0x7f :: List.replicate n 0xff) := by
  intro x hx
  simp only [List.mem_cons, List.mem_replicate] at hx
  rcases hx with rfl | ⟨_, rfl⟩ <;> decide

theorem bigInteger_octets {n : Nat} (hn : n < 65535) : Octets (bigInteger n) := by
  have := big_octets n
  intro x hx
  simp only [bigInteger, List.mem_cons] at hx
  rcases hx with rfl | rfl | rfl | rfl | hx
  · decide
  · decide
  · omega
  · omega
  · exact this x (by simpa using hx)

theorem bigInteger_ber {n : Nat} (hn : n < 65535) :
    Ber (.integer (twos (0x7f :: List.replicate n 0xff))) (bigInteger n) := by
  refine .integer _ _ (by simp) (big_octets n) ?_
  have hl := LengthField.long [(n + 1) / 256, (n + 1) % 256] (by simp) (by simp)
    (fun x hx => by simp at hx; rcases hx with rfl | rfl <;> omega)
  have e : unsigned [(n + 1) / 256, (n + 1) % 256] = (0x7f :: List.replicate n 0xff).length := by
    simp [unsigned, ofDigits_cons, ofDigits]; omega
  rw [e] at hl
  exact ⟨_, hl, rfl⟩

theorem big_value (n : Nat) (hn : 1785 ≤ n) : 10 ^ 4300 ≤ (twos (0x7f :: List.replicate n 0xff)).natAbs := by
  rw [twos_low (by decide), Int.natAbs_natCast, unsigned_cons, List.length_replicate]
  have h1 : 256 ^ 1785 ≤ 256 ^ n := Nat.pow_le_pow_right (by decide) hn
  have h2 : 10 ^ 4300 ≤ 0x7f * 256 ^ 1785 := by decide +kernel
  calc 10 ^ 4300 ≤ 0x7f * 256 ^ 1785 := h2
    _ ≤ 0x7f * 256 ^ n := Nat.mul_le_mul_left _ h1
    _ ≤ _ := Nat.le_add_right _ _

theorem msgDecode311_value (reg : Reg) (D : Nat) (c : SeqCls) (s : Str) (h : decode311 reg D s = .error .valueError) :
    msgDecode311 reg D c (.str s) = .error .valueError := by
  unfold msgDecode311
  simp only [h]
  rfl

/-- C86: an encoding of any SNMP value with an integer of more digits than allowed makes `receiveData` of SNMPv1 managers and
`snmpManager` raise ValueError in any state; `v2.SNMP` ignores it.  Nothing is dispatched. -/
theorem C86_manager {env : Env} {a : Asn} {y : Val} {data : Str} (hs : Ber a data) (hy : Denotes env.reg a y) (D : Nat)
    (hd : a.fits D = false) (k : Kind) (user : User k) (s : Mgr k) :
    receiveData311 env D k user (.str data) s = (if k = .v2 then .ok () else .error .valueError, s) := by
  have h := msgDecode311_value env.reg D (if k = .v1 then .message else .message2) data
    (by rw [C86_exact env.reg hs hy D, hd]; rfl)
  unfold receiveData311
  rw [h]
  cases k <;> rfl

/-- C86: such datagrams exist at every length from 1790 octets up to the size of a datagram: one Integer is enough. -/
theorem C86_datagram {env : Env} (hreg : Imported env.reg) (n : Nat) (h1 : 1785 ≤ n) (h2 : n < 65535) :
    (bigInteger n).length = n + 5 ∧ Octets (bigInteger n) ∧ (∃ v, decode env.reg (.str (bigInteger n)) = .ok v) ∧
    ∀ (k : Kind) (user : User k) (s : Mgr k),
      receiveData311 env 4300 k user (.str (bigInteger n)) s = (if k = .v2 then .ok () else .error .valueError, s) := by
  obtain ⟨c, hc1, hc2⟩ := (imported_understands hreg).integer
  have hy : Denotes env.reg (.integer (twos (0x7f :: List.replicate n 0xff))) _ := .integer _ c hc1 hc2
  have hb := bigInteger_ber h2
  refine ⟨bigInteger_length n, bigInteger_octets h2, ?_, fun k user s => C86_manager hb hy 4300 ?_ k user s⟩
  · have h0 := C86_exact env.reg hb hy 0
    rcases C86_limit_or_same env.reg 0 (bigInteger n) with h | h
    · rw [h] at h0; simp [Asn.fits] at h0
    · rw [h] at h0; simp [Asn.fits] at h0; exact ⟨_, h0⟩
  · have := big_value n h1
    simp [Asn.fits]; omega

theorem msgDecode311_or (reg : Reg) (D : Nat) (c : SeqCls) (data : Val) :
    msgDecode311 reg D c data = .error .valueError ∨ msgDecode311 reg D c data = msgDecode reg c data := by
  cases data with
  | str s =>
    rcases C86_limit_or_same reg D s with h | h
    · exact .inl (msgDecode311_value reg D c s h)
    · right; unfold msgDecode311 msgDecode; simp only [h]; rfl
  | _ => exact .inr rfl

/-- C86: on every other datagram a manager under the limit does exactly what the other properties say; in particular on every
datagram of up to 1785 octets. -/
theorem C86_manager_same (env : Env) (D : Nat) (k : Kind) (user : User k) (data : Str) (s : Mgr k)
    (h : decode311 env.reg D data = decode env.reg (.str data)) :
    receiveData311 env D k user (.str data) s = receiveData env k user (.str data) s := by
  have h1 : ∀ c, msgDecode311 env.reg D c (.str data) = msgDecode env.reg c (.str data) := by
    intro c; unfold msgDecode311 msgDecode; simp only [h]; rfl
  unfold receiveData311
  rw [h1]
  cases k with
  | v1 =>
    show (match msgDecode env.reg .message _ with | .ok _ => _ | .error e => _) = _
    cases hm : msgDecode env.reg .message (.str data) with
    | ok m => rfl
    | error e =>
      show _ = v1ReceiveData env user (.str data) s
      unfold v1ReceiveData
      rw [hm]; rfl
  | v2 =>
    show (match msgDecode env.reg .message2 _ with | .ok _ => _ | .error e => _) = _
    cases hm : msgDecode env.reg .message2 (.str data) with
    | ok m => rfl
    | error e =>
      show _ = v2ReceiveData env user (.str data) s
      unfold v2ReceiveData v2ReceiveBody
      rw [hm]
      show (if Kind.v2 = Kind.v2 ∧ e.isException = true then ((.ok (), s) : Except Exc Unit × Mgr .v2) else (.error e, s)) =
        (if e.isException = true then (.ok (), s) else (.error e, s))
      by_cases he : e.isException = true
      · rw [if_pos ⟨rfl, he⟩, if_pos he]
      · rw [if_neg (fun h => he h.2), if_neg he]
  | sm =>
    show (match msgDecode env.reg .message2 _ with | .ok _ => _ | .error e => _) = _
    cases hm : msgDecode env.reg .message2 (.str data) with
    | ok m => rfl
    | error e =>
      show _ = smReceiveData env user (.str data) s
      unfold smReceiveData
      rw [hm]; rfl

/-- Not vacuous: a sequence with a number of 4301 digits in it does not fit, one of 4300 digits does. -/
example : (Asn.seq [.integer (-10 ^ 4300)]).fits 4300 = false ∧ (Asn.seq [.integer (10 ^ 4300 - 1), .null .null]).fits 4300 = true := by
  decide +kernel
example : (Asn.unsigned .counter64 (2 ^ 64 - 1)).fits 4300 = true := by decide +kernel

end Libsnmp
