import Verif.Props.Listener
import Verif.Props.Forms

/-! # C83: a trap from the arguments of the sender to the screen of the receiver -/

namespace Libsnmp
open Spec

theorem bindingLines_exist (bs : List VB) : ∃ ls, List.Forall₂ BindingLine bs ls := by
  induction bs with
  | nil => exact ⟨[], .nil⟩
  | cons b bs ih =>
    obtain ⟨ls, h⟩ := ih
    obtain ⟨n1, n, hn⟩ := displayed_exists (.oid b.name)
    obtain ⟨name, t, ht⟩ := displayed_exists b.value
    have : n1 = "ObjectID" := by cases hn; rfl
    subst this
    exact ⟨_, .cons ⟨n, name, t, hn, ht, rfl⟩ h⟩

theorem trapLine_exists (p : Trap) (hg : 0 ≤ p.generic ∧ p.generic ≤ 6) : ∃ l, TrapLine p l := by
  obtain ⟨n1, ent, h1⟩ := displayed_exists (.oid p.enterprise)
  obtain ⟨n2, addr, h2⟩ := displayed_exists (.string .ipAddress p.agent)
  have e1 : n1 = "ObjectID" := by cases h1; rfl
  have e2 : n2 = "IPAddress" := by cases h2; rfl
  subst e1 e2
  have h3 : ∃ name, (p.generic, name) ∈ trapNames := by
    obtain ⟨h, h'⟩ := hg
    have : p.generic = 0 ∨ p.generic = 1 ∨ p.generic = 2 ∨ p.generic = 3 ∨ p.generic = 4 ∨ p.generic = 5 ∨ p.generic = 6 := by
      omega
    rcases this with h | h | h | h | h | h | h <;> rw [h] <;> simp [trapNames]
  obtain ⟨name, h3⟩ := h3
  exact ⟨_, ent, addr, _, name, _, _, h1, h2, (decimal_iff _ _).mp rfl, h3, (decimal_iff _ _).mp rfl,
    (decimal_iff _ _).mp rfl, rfl⟩

theorem dotted_ne {ns : List Nat} {t : Str} (h : DottedText ns t) : t ≠ [] := by
  cases h with
  | one h =>
    intro e
    have := h.2.1
    simp_all
  | cons _ _ => simp

/-- C83, the PDU object made from the arguments holds the trap they describe. -/
theorem C83_built (k : Kind) (hk : k ≠ .sm) (xs : List Val) (bs : List VB) (hb : List.Forall₂ HoldsVB xs bs) (enterprise : Str)
    (ids : List Nat) (he : OidNames (.str enterprise) ids) (agent : List Nat) (ha : agent.length = 4) (ho : Octets agent)
    (a : Str) (hat : DottedText agent a) (g sp : Int) (hg : 0 ≤ g ∧ g ≤ 6) (hs : Spec.Int32 sp) (hs' : OutOfBand sp)
    {d : Nat} {t : Str} (ht : UptimeText d t) (hd : d < 2 ^ 32) :
    ∃ pdu n, createTrapPDU k (.seq .varBindList xs) 1 (.str enterprise) (.str a) g sp (getSysUptime (some t)) = .ok pdu ∧
      (n = d ∨ n = d - 1) ∧ HoldsTrap pdu ⟨ids, agent, g, sp, n, bs⟩ := by
  obtain ⟨n, hn, hup⟩ : ∃ n : Nat, (n = d ∨ n = d - 1) ∧ getSysUptime (some t) = n := by
    rcases C80_uptime ht (by omega) with h | ⟨h0, h⟩
    · exact ⟨d, .inl rfl, h⟩
    · exact ⟨d - 1, .inr rfl, by omega⟩
  obtain ⟨v, hv, hr⟩ := names_represents he
  obtain ⟨hdt, hip⟩ := C41_ip_text_round_trip .networkAddress agent ha fun b hb => by have := ho b hb; omega
  have hip : mkIPAddress .networkAddress (.str a) = .ok (.octets .networkAddress agent) := by
    rw [dotted_unique hat hdt]; exact hip
  have hne : a ≠ [] := by rintro rfl; cases hip
  unfold Spec.Int32 at hs
  refine ⟨_, n, (C63_built_iff k _ 1 _ a hne g sp _ _).mpr ⟨fun h => absurd h hk, by omega, by omega, by omega, v, _, hv,
    hip, rfl⟩, hn, ?_⟩
  rw [hup]
  exact ⟨_, _, _, _, _, _, _, rfl, hr, .string _ _ _ (by decide), by decide, by decide, outOfBand_nonneg hg.1, hs', by decide,
    by decide, hb⟩

/-- C83. A trap made from these arguments and sent by a manager of either class in any state is queued for the given address
and encodes to a datagram which, if it fits, makes a traplistener.py that receives it print the trap: enterprise, agent, trap
numbers and bindings as given, the time stamp at most one hundredth of a second below the sender's uptime. -/
theorem C83_trap_printed (env : Env) (xs : List Val) (bs : List VB) (hb : List.Forall₂ HoldsVB xs bs)
    (hbb : ∀ b ∈ bs, Holdable regFull b) (enterprise : Str) (ids : List Nat) (he : OidNames (.str enterprise) ids)
    (he' : ∃ x, Denotes regFull (.oid ids) x) (agent : List Nat) (ha : agent.length = 4) (ho : Octets agent)
    (a : Str) (hat : DottedText agent a) (g sp : Int) (hg : 0 ≤ g ∧ g ≤ 6) (hs : Spec.Int32 sp) (hs' : OutOfBand sp)
    {d : Nat} {t : Str} (ht : UptimeText d t) (hd : d < 2 ^ 32) (community : Str) (remote : Nat) :
    ∃ n l ls, (n = d ∨ n = d - 1) ∧ TrapLine ⟨ids, agent, g, sp, n, bs⟩ l ∧ List.Forall₂ BindingLine bs ls ∧
      ∀ k, k ≠ Kind.sm → ∃ pdu,
        createTrapPDU k (.seq .varBindList xs) 1 (.str enterprise) (.str a) g sp (getSysUptime (some t)) = .ok pdu ∧
        ((∀ (s : Mgr .v1), ∃ m o, (doCall env (k := .v1) (.trap remote pdu community) s).1 = .ok .none ∧
          (doCall env (k := .v1) (.trap remote pdu community) s).2.outbound = s.outbound ++ [(some m, remote)] ∧
          datagramOf (some m, remote) = some (o, remote) ∧ (o.length ≤ 65507 → ∀ h other net,
            net.filterMap Net.datagram = [.str o] → (traplistener (errTexts h) other net).out = l :: ls)) ∧
        (∀ (s : Mgr .v2), ∃ m o, (doCall env (k := .v2) (.trap remote pdu community) s).1 = .ok .none ∧
          (doCall env (k := .v2) (.trap remote pdu community) s).2.outbound = s.outbound ++ [(some m, remote)] ∧
          datagramOf (some m, remote) = some (o, remote) ∧ (o.length ≤ 65507 → ∀ h other net,
            net.filterMap Net.datagram = [.str o] → (traplistener (errTexts h) other net).out = l :: ls))) := by
  obtain ⟨ls, hls⟩ := bindingLines_exist bs
  obtain ⟨n, hn, hup⟩ : ∃ n : Nat, (n = d ∨ n = d - 1) ∧ getSysUptime (some t) = n := by
    rcases C80_uptime ht (by omega) with h | ⟨h0, h⟩
    · exact ⟨d, .inl rfl, h⟩
    · exact ⟨d - 1, .inr rfl, by omega⟩
  obtain ⟨l, hl⟩ := trapLine_exists ⟨ids, agent, g, sp, n, bs⟩ hg
  refine ⟨n, l, ls, hn, hl, hls, fun k hk => ?_⟩
  obtain ⟨pdu, n', hp, hn', hh⟩ := C83_built k hk xs bs hb enterprise ids he agent ha ho a hat g sp hg hs hs' ht hd
  have hnn : n' = n := by
    obtain ⟨_, _, _, _, ent, addr, _, _, e⟩ := (C63_built_iff k _ 1 _ a (dotted_ne hat) g sp _ pdu).mp hp
    obtain ⟨_, _, _, _, _, _, _, e', _⟩ := hh
    rw [e, hup] at e'
    simp only [Val.seq.injEq, List.cons.injEq, Val.integer.injEq, true_and, and_true] at e'
    omega
  subst hnn
  have hold : HoldableTrap ⟨ids, agent, g, sp, n', bs⟩ := ⟨⟨by simp only; omega, by simp only; omega⟩, he', hbb⟩
  obtain ⟨h1, h2⟩ := C73_trap_sent env remote pdu community _ hh
  have fin : ∀ version o, version = 0 ∨ version = 1 → (o.length < 256 ^ 127 →
      TrapMessageOctets version community ⟨ids, agent, g, sp, n', bs⟩ o) → o.length ≤ 65507 → ∀ h other net,
        net.filterMap Net.datagram = [.str o] → (traplistener (errTexts h) other net).out = l :: ls := by
    intro version o hv ho hlen h other net hnet
    have := C78_listener_prints h other net [l :: ls] (by
      rw [hnet]
      exact .cons (.trap hv (ho (by have : 65507 < 256 ^ 127 := by norm_num
                                    omega)) hold hl hls) .nil)
    simpa using this
  refine ⟨pdu, hp, fun s => ?_, fun s => ?_⟩
  · obtain ⟨m, o, e1, e2, e3⟩ := h1 s
    refine ⟨m, o, by rw [e1], by rw [e1]; rfl, by simp [datagramOf, e2], fin 0 o (.inl rfl) e3⟩
  · obtain ⟨m, o, e1, e2, e3⟩ := h2 s
    refine ⟨m, o, by rw [e1], by rw [e1]; rfl, by simp [datagramOf, e2], fin 1 o (.inr rfl) e3⟩

/-- The hypotheses are met: enterprise .1.3.6.1.4, agent 10.0.0.1, an enterprise-specific trap 17 with the binding
.1.3.6 = 7, 0.29 s after the start of the machine. -/
example : List.Forall₂ HoldsVB [.seq .varBind [.oid (some [1, 3, 6]), .integer .integer 7]] [⟨[1, 3, 6], .integer 7⟩] ∧
    (∀ b ∈ [(⟨[1, 3, 6], .integer 7⟩ : VB)], Holdable regFull b) ∧ OidNames (.str (lit ".1.3.6.1.4")) [1, 3, 6, 1, 4] ∧
    (∃ x, Denotes regFull (.oid [1, 3, 6, 1, 4]) x) ∧ Octets [10, 0, 0, 1] ∧ DottedText [10, 0, 0, 1] (lit "10.0.0.1") ∧
    OutOfBand 17 ∧ UptimeText 29 (lit "0.29 0.10\n") := by
  refine ⟨.cons ⟨.varBind, _, _, .inl rfl, rfl, .oid 1 3 [6] (by decide) (by decide),
    .integer .integer 7 (by decide) (outOfBand_nonneg (by decide))⟩ .nil, ?_, ⟨by decide +kernel, 1, 3, [6, 1, 4], rfl,
    by decide, by decide⟩, ⟨_, .oid 1 3 [6, 1, 4] rfl (by decide)⟩, by decide, ?_, outOfBand_nonneg (by decide), ?_⟩
  · intro b hb
    simp only [List.mem_singleton] at hb
    subst hb
    exact ⟨⟨_, .oid 1 3 [6] rfl (by decide)⟩, ⟨_, .integer 7 .integer32 rfl (by decide)⟩⟩
  · have := (C41_ip_text_round_trip .networkAddress [10, 0, 0, 1] rfl (by decide)).1
    rwa [show ipStr [10, 0, 0, 1] = lit "10.0.0.1" by decide +kernel] at this
  · exact UptimeText.mk (s := 0) (c := 29) (ds := [0]) (rest := lit "0.10\n") ⟨by decide, by decide, by decide, by decide⟩
      (by decide)

end Libsnmp
