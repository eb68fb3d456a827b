import Verif.Props.Requests
import Verif.Props.OidContents
import Verif.Props.Text

/-!
# C66: `v2.SNMP.snmpGet` with the argument its documentation asks for

v2.py:80-88 says "oid is a dotted string"; the method hands it to `createGetRequestMessage`, which iterates over it
(v2.py:43).  Iterating over a `str` yields its characters.
-/

namespace Libsnmp
open Spec

/-- `for oid in text`: the characters, each a `str` of length one. -/
def chars (text : Str) : List Arg := text.map fun c => .str [c]

/-- A decimal digit. -/
def DigitChar (c : Nat) : Prop := 48 ≤ c ∧ c ≤ 57

instance (c : Nat) : Decidable (DigitChar c) := by unfold DigitChar; infer_instance

theorem mkOid_char (c : Nat) :
    mkOid (.str [c]) = if DigitChar c then .ok (some [(c : Int) - 48]) else .error .valueError := by
  by_cases hc : DigitChar c
  · rw [if_pos hc]
    obtain ⟨h1, h2⟩ := hc
    have : c = 48 ∨ c = 49 ∨ c = 50 ∨ c = 51 ∨ c = 52 ∨ c = 53 ∨ c = 54 ∨ c = 55 ∨ c = 56 ∨ c = 57 := by omega
    rcases this with rfl | rfl | rfl | rfl | rfl | rfl | rfl | rfl | rfl | rfl <;> decide +kernel
  · rw [if_neg hc]
    by_cases h46 : c = 46
    · subst h46; decide +kernel
    · have hb : (c == 46) = false := by simpa using h46
      have hs : pyStrip 46 [c] = [c] := by
        simp [pyStrip, stripBy, List.dropWhile, hb]
      have hp : pySplit 46 [c] = [[c]] := by
        rw [pySplit_iff]
        exact Pieces.one (by simpa using Ne.symm h46)
      have hi : ∀ n, pyInt [c] ≠ .ok n := by
        intro n hn
        rw [pyInt_iff] at hn
        have one : ∀ {u t w : Str} {ds : List Nat}, DigitRun ds t → u ++ t ++ w = [c] → False := by
          intro u t w ds hr he
          have : c ∈ t := by
            cases u with
            | nil =>
              cases t with
              | nil => exact absurd rfl (digitRun_ne_nil hr)
              | cons a t => simp at he; simp [he]
            | cons a u =>
              have hl := congrArg List.length he
              have := digitRun_ne_nil hr
              cases t <;> simp at hl this
          cases t with
          | nil => simp at this
          | cons a t =>
            have hl := congrArg List.length he
            simp at hl
            have ht : t = [] := List.length_eq_zero_iff.mp (by omega)
            subst ht
            cases hr with
            | last hd =>
              simp at this
              exact hc ⟨by omega, by omega⟩
            | next hd hr' => exact absurd rfl (digitRun_ne_nil hr')
        generalize hx : [c] = x at hn
        cases hn with
        | plain _ _ hr => exact one hr hx.symm
        | plus _ _ hr =>
          have hl := congrArg List.length hx
          have := List.length_pos_iff.mpr (digitRun_ne_nil hr)
          simp at hl
          omega
        | minus _ _ hr =>
          have hl := congrArg List.length hx
          have := List.length_pos_iff.mpr (digitRun_ne_nil hr)
          simp at hl
          omega
      simp only [mkOid, hs, hp, oidParse]
      cases h : pyInt [c] with
      | ok n => exact absurd h (hi n)
      | error e => rw [pyInt_error h]

theorem v2Varbinds_chars (text : Str) :
    v2Varbinds (chars text) = if ∀ c ∈ text, DigitChar c then
        .ok (text.map fun (c : Nat) => .seq .varBind [.oid (some [(c : Int) - 48]), .null .null])
      else .error .valueError := by
  induction text with
  | nil => simp [chars, v2Varbinds]
  | cons c text ih =>
    simp only [chars, List.map_cons, v2Varbinds, mkOid_char] at ih ⊢
    by_cases hc : DigitChar c
    · have hv : mkVarBind .varBind (.oid (some [(c : Int) - 48])) (.null .null) =
          .ok (.seq .varBind [.oid (some [(c : Int) - 48]), .null .null]) := by rfl
      rw [if_pos hc]
      simp only [bind, Except.bind, hv, ih]
      by_cases ht : ∀ c ∈ text, DigitChar c
      · rw [if_pos ht, if_pos (by simpa using ⟨hc, ht⟩)]
      · rw [if_neg ht, if_neg (by simpa [hc] using ht)]
    · rw [if_neg hc, if_neg (by simp [hc])]
      rfl

/-- C66: a text that contains any character other than a decimal digit - in particular every dotted object identifier - is
refused with ValueError, whatever the state; nothing is queued, no callback is registered, no request ID is used up. -/
theorem C66_dotted_text_refused (env : Env) (text : Str) (h : ∃ c ∈ text, ¬ DigitChar c) (remote cb : Nat) (community : Str)
    (s : Mgr .v2) :
    doCall env (k := .v2) (.get (chars text) remote cb community) s =
      (.error .valueError, s.note (.called (.get (chars text) remote cb community) (.error .valueError))) := by
  have hv : v2Varbinds (chars text) = .error .valueError := by
    rw [v2Varbinds_chars, if_neg]
    intro hall
    obtain ⟨c, hc, hn⟩ := h
    exact hn (hall c hc)
  simp [doCall, callBody, v2SnmpGet, v2CreateGetRequestMessage, hv, M.bind_def, M.lift_def]

theorem encodeItems_bad {c : Nat} {rest : List Val} :
    encodeItems (.seq .varBind [.oid (some [(c : Int) - 48]), .null .null] :: rest) = .error .indexError := by
  simp [encodeItems, Val.encode, oidEncode]

/-- C66: a non-empty text of digits is accepted (as many names with one number each), but the message it queues can never be
sent: it has no encoding. -/
theorem C66_digit_text_unsendable {env : Env} {s : Mgr .v2} (hs : Reachable env s) (text : Str) (hne : text ≠ [])
    (remote cb : Nat) (community : Str) (v : Val)
    (h : (doCall env (k := .v2) (.get (chars text) remote cb community) s).1 = .ok v) :
    (∀ c ∈ text, DigitChar c) ∧
    ∃ m, (doCall env (k := .v2) (.get (chars text) remote cb community) s).2.outbound = s.outbound ++ [(some m, remote)] ∧
      m.encode = .error .indexError := by
  obtain ⟨ci, id, m, -, hq, ⟨vbs, hvb, hm⟩, -⟩ :=
    C50_succeeded_registers hs (k := .v2) (.get (chars text) remote cb community) cb rfl v h
  have hall : ∀ c ∈ text, DigitChar c := by
    by_contra hcon
    simp only [not_forall] at hcon
    obtain ⟨c, hc, hn⟩ := hcon
    rw [C66_dotted_text_refused env text ⟨c, hc, hn⟩] at h
    cases h
  refine ⟨hall, m, hq, ?_⟩
  cases hm
  obtain ⟨c, rest, rfl⟩ := List.exists_cons_of_ne_nil hne
  cases hvb with
  | cons hq' hr =>
    obtain ⟨v, hv, rfl⟩ := hq'
    rw [mkOid_char, if_pos (hall c List.mem_cons_self)] at hv
    cases hv
    obtain ⟨s1, h1⟩ : ∃ s1, (Val.integer .integer 1).encode = .ok s1 := ⟨_, rfl⟩
    obtain ⟨s2, h2⟩ : ∃ s2, (Val.integer .integer32 id).encode = .ok s2 := ⟨_, rfl⟩
    obtain ⟨s3, h3⟩ : ∃ s2, (Val.integer .errorStatus2 0).encode = .ok s2 := ⟨_, rfl⟩
    obtain ⟨s4, h4⟩ : ∃ s2, (Val.integer .integer 0).encode = .ok s2 := ⟨_, rfl⟩
    obtain ⟨s5, h5⟩ : ∃ s2, (Val.octets .octetString community).encode = .ok s2 := ⟨_, rfl⟩
    rename_i vs
    have h6 : (Val.seq .varBindList2 (.seq .varBind [.oid (some [(c : Int) - 48]), .null .null] :: vs)).encode =
        .error .indexError := by rw [Val.encode, encodeItems_bad]
    have h7 : (v2Msg .get2 community id (.seq .varBind [.oid (some [(c : Int) - 48]), .null .null] :: vs)).data.encode =
        .error .indexError := by
      simp only [v2Msg]
      rw [Val.encode]
      simp only [encodeItems, h2, h3, h4, h6]
    simp only [v2Msg] at h7
    simp only [Msg.encode, v2Msg, encodeItems, h1, h5, h7]

/-- C66: so no non-empty text ever reaches the wire, and once such a message is at the head of the queue the turn of `run()`
that takes it raises. -/
theorem C66_text_never_sent {env : Env} {s : Mgr .v2} (hs : Reachable env s) (text : Str) (hne : text ≠ [])
    (remote cb : Nat) (community : Str) (v : Val)
    (h : (doCall env (k := .v2) (.get (chars text) remote cb community) s).1 = .ok v)
    (hq : s.outbound = []) (user : User .v2) (socket : Except Exc Unit) (hsock : socket ≠ .error .queueEmpty)
    (d : Option Val) :
    (iterate env .v2 user socket d (doCall env (k := .v2) (.get (chars text) remote cb community) s).2).1 ≠ .ok () := by
  obtain ⟨_, m, hm, he⟩ := C66_digit_text_unsendable hs text hne remote cb community v h
  rw [hq] at hm
  have := (C45_turn env .v2 user socket hsock d (by simp) _ _ _ hm).2.2.2
  intro hok
  have hd := (this.mp hok).1
  simp [datagramOf, he] at hd

/-- C66: the empty text asks for nothing: as long as request IDs are left the call is accepted, and the message is sent, without
any name. -/
theorem C66_empty_text {env : Env} {s : Mgr .v2} (hs : Reachable env s) (remote cb : Nat) (community : Str)
    (hid : s.nextRequestID ≤ 2147483648) :
    ∃ (v : Val) (id : Int) (o : Str), (doCall env (k := .v2) (.get (chars []) remote cb community) s).1 = .ok v ∧
      (v2Msg .get2 community id []).encode = .ok o ∧
      (doCall env (k := .v2) (.get (chars []) remote cb community) s).2.outbound =
        s.outbound ++ [(some (v2Msg .get2 community id []), remote)] := by
  have hex := (C44_exact env (k := .v2) (.get (chars []) remote cb community) (by simp [callbackOf]) s).1
  obtain ⟨v, hv⟩ := hex.mpr ⟨⟨by simp [chars], by simp [chars]⟩, hid⟩
  obtain ⟨ci, id, m, -, hq, ⟨vbs, hvb, hm⟩, -⟩ :=
    C50_succeeded_registers hs (k := .v2) (.get (chars []) remote cb community) cb rfl v hv
  cases hvb
  cases hm
  exact ⟨v, id, _, hv, rfl, hq⟩

/-- What the documentation asks for: refused, in a new manager. -/
example : (doCall ⟨regFull, none, none⟩ (k := .v2) (.get (chars (lit ".1.2.6.1.0.1.1.3.0")) 7 1 (lit "public")) {}).1 =
    .error .valueError := by decide +kernel

/-- Accepted, and impossible to send. -/
example : ∃ v, (doCall ⟨regFull, none, none⟩ (k := .v2) (.get (chars (lit "13")) 7 1 (lit "public")) {}).1 = .ok v :=
  ⟨.integer .integer32 0, by decide +kernel⟩

end Libsnmp
