import Verif.Spec.Scripts
import Verif.Props.EndToEnd
import Verif.Props.Run
import Verif.Props.Process
import Verif.Props.Helpers

/-!
# C75: the command line programs snmpget.py and snmpset.py
-/

namespace Libsnmp
open Spec

/-! ## What is displayed -/

theorem decimals_ints (ids : List Nat) (ts : List Str) :
    List.Forall₂ Decimal (ints ids) ts ↔ List.Forall₂ (fun (n : Nat) => Decimal n) ids ts := by
  unfold ints
  rw [List.forall₂_map_left_iff]

mutual
theorem denotes_displayed {inst : Prop} {a : Asn} {y : Val} (h : Denotes regFull a y) {name : String} {t : Str}
    (hd : Displayed a name t) : y.className = lit name ∧ Shows inst y t := by
  cases h with
  | integer v c h hc =>
    cases hd
    cases h
    exact ⟨rfl, .integer (by decide) (by decide) (by decide) (by assumption)⟩
  | unsigned k n c h =>
    cases hd <;> cases h <;> exact ⟨rfl, .integer (by decide) (by decide) (by decide) (by assumption)⟩
  | string k s c h =>
    cases hd <;> cases h
    · exact ⟨rfl, .octets (by decide) (by decide)⟩
    · exact ⟨rfl, .octets (by decide) (by decide)⟩
    · exact ⟨rfl, .address (.inl rfl) (by assumption) (by assumption)⟩
  | null k c h => cases hd <;> cases h <;> exact ⟨rfl, by constructor⟩
  | oid a b rest h hb =>
    cases hd with
    | oid h1 h2 => exact ⟨rfl, .oid ((decimals_ints _ _).mpr h1) h2⟩
  | seq as ys h hl =>
    cases hd with
    | seq h1 h2 => exact ⟨rfl, .seq (denotes_displayedAll hl h1) h2⟩
theorem denotes_displayedAll {inst : Prop} {as : List Asn} {ys : List Val} (h : DenotesList regFull as ys) {ts : List Str}
    (hd : DisplayedAll as ts) : ShowsAll inst ys ts := by
  cases h with
  | nil => cases hd; exact .nil
  | cons h1 h2 =>
    cases hd with
    | cons d1 d2 => exact .cons (denotes_displayed h1 d1).2 (denotes_displayedAll h2 d2)
end

theorem decimal_exists (n : Int) : ∃ t, Decimal n t := ⟨_, (decimal_iff n _).mp rfl⟩

theorem joined_exists (sep : Str) (ts : List Str) : ∃ t, Joined sep ts t := ⟨_, (joined_iff sep ts _).mp rfl⟩

theorem decimals_exist (l : List Nat) : ∃ ts, List.Forall₂ (fun (n : Nat) => Decimal n) l ts := by
  induction l with
  | nil => exact ⟨[], .nil⟩
  | cons n l ih =>
    obtain ⟨t, ht⟩ := decimal_exists n
    obtain ⟨ts, hts⟩ := ih
    exact ⟨t :: ts, .cons ht hts⟩

mutual
/-- Every value can be displayed. -/
theorem displayed_exists : (a : Asn) → ∃ name t, Displayed a name t
  | .integer v => by obtain ⟨t, ht⟩ := decimal_exists v; exact ⟨_, _, .integer ht⟩
  | .unsigned k n => by
    obtain ⟨t, ht⟩ := decimal_exists n
    cases k
    · exact ⟨_, _, .counter ht⟩
    · exact ⟨_, _, .gauge ht⟩
    · exact ⟨_, _, .timeTicks ht⟩
    · exact ⟨_, _, .counter64 ht⟩
  | .string k s => by
    cases k
    · exact ⟨_, _, .octets⟩
    · obtain ⟨ts, h1⟩ := decimals_exist s
      obtain ⟨t, h2⟩ := joined_exists (lit ".") ts
      exact ⟨_, _, .address h1 h2⟩
    · exact ⟨_, _, .opaque⟩
  | .null k => by
    cases k
    · exact ⟨_, _, .null⟩
    · exact ⟨_, _, .noSuchObject⟩
    · exact ⟨_, _, .noSuchInstance⟩
    · exact ⟨_, _, .endOfMibView⟩
  | .oid ids => by
    obtain ⟨ts, h1⟩ := decimals_exist ids
    obtain ⟨t, h2⟩ := joined_exists (lit ".") ts
    exact ⟨_, _, .oid h1 h2⟩
  | .seq as => by
    obtain ⟨ts, h1⟩ := displayedAll_exists as
    obtain ⟨t, h2⟩ := joined_exists (lit ", ") ts
    exact ⟨_, _, .seq h1 h2⟩
theorem displayedAll_exists : (as : List Asn) → ∃ ts, DisplayedAll as ts
  | [] => ⟨[], .nil⟩
  | a :: as => by
    obtain ⟨_, t, h1⟩ := displayed_exists a
    obtain ⟨ts, h2⟩ := displayedAll_exists as
    exact ⟨_, .cons h1 h2⟩
end

/-- The creation history of a script that has built an SNMPv2 PDU. -/
def installed : List Creation := [.status2 0]

theorem installed_texts : errTexts installed = scriptTexts := by decide +kernel

theorem installed_iff : (∃ c ∈ installed, Installs c) ↔ True := by
  refine ⟨fun _ => trivial, fun _ => ⟨_, List.mem_singleton.mpr rfl, ?_⟩⟩
  show InRange .errorStatus2 0
  decide

theorem script_text (v : Val) (t : Str) : valStr scriptTexts v = .ok t ↔ Shows True v t := by
  rw [← installed_texts, C62_text, installed_iff]

theorem denotes_hex {a : Asn} {y : Val} (h : Denotes regFull a y) : hexLine y = hexLines a := by
  cases h with
  | string k s c h => cases k <;> cases h <;> rfl
  | _ => rfl

/-! ## Answers -/

/-- The object that stands for an SNMPv2 Response. -/
def response2Object (requestID errorStatus errorIndex : Int) (ys : List Val) : Val :=
  .seq .response2 [.integer .integer32 requestID, .integer .errorStatus2 errorStatus, .integer .integer errorIndex,
    .seq .varBindList2 ys]

theorem mkPDU_response2 {a b d : Int} {ys : List Val} {y : Val} (h : mkPDU .response2 a b d ys = .ok y) :
    y = response2Object a b d ys := by
  have h : mkPDU2 .response2 a b d ys = .ok y := h
  unfold mkPDU2 at h
  split at h
  · cases h
  · obtain ⟨r, e1, h⟩ := bind_ok h
    obtain ⟨es, e2, h⟩ := bind_ok h
    obtain ⟨ei, e3, h⟩ := bind_ok h
    obtain ⟨l, e4, h⟩ := bind_ok h
    obtain ⟨rfl, _⟩ := mkInteger_ok e1
    obtain ⟨rfl, _⟩ := mkInteger_ok e2
    obtain ⟨rfl, _⟩ := mkInteger_ok e3
    cases mkVarBindList_ok e4
    cases h
    rfl

/-- The loop's `poll` with the datagram of an answer: the callback is invoked with what the datagram says. -/
theorem sm_answer (user : Nat → Option Msg → Act .sm) {s : Mgr .sm} (hs : s.callbacks.Numeric)
    {version : Int} (hv : version = 0 ∨ version = 1) {community : Str} {p : Pdu} (hp : p.tag = 0xa2) {o : Str}
    (ho : MessageOctets version community p o) (hr : Int32 p.requestID) (he : Int32 p.errorStatus)
    (hi : Int32 p.errorIndex) (hb : ∀ b ∈ p.bindings, Holdable regFull b) (hl : p.bindings.length ≤ 2147483647)
    {cb : Nat} (hcb : s.callbacks.at p.requestID = some cb) :
    ∃ m ys, m.data = response2Object p.requestID p.errorStatus p.errorIndex ys ∧ Carries regFull p.bindings ys ∧
      receiveData scriptEnv .sm (fun cb m => (user cb m).exec scriptEnv) (.str o) s =
        deliver (fun cb m => (user cb m).exec scriptEnv) cb m p.requestID s := by
  have hreg : Understands1155 regFull := imported_understands imported_full
  have hc : regFull p.tag = some (.seq .response2) := by rw [hp]; rfl
  obtain ⟨ci, co, y, ys, hm, hmk, hf, hcar⟩ := message_decoded hreg .message2 .response2 ho (by rw [hp]; decide) hc
    (by decide) hr he hi hb hl
  refine ⟨⟨.message2, .integer ci version, .octets co community, y⟩, ys, mkPDU_response2 hmk, hcar, ?_⟩
  · have e := receive_eq scriptEnv .sm (fun cb m => (user cb m).exec scriptEnv) (keepsNumeric_exec scriptEnv user) (.str o) s hs
    show receiveRaw scriptEnv .sm _ (.str o) s = _
    have hm' : msgDecode scriptEnv.reg (msgCls .sm) (.str o) = _ := hm
    rw [e, hm']
    have ha : accepts .sm ⟨.message2, .integer ci version, .octets co community, y⟩ := by
      rcases hv with rfl | rfl <;> simp [accepts, versionNo]
    have hn : answers .sm ⟨.message2, .integer ci version, .octets co community, y⟩ = some p.requestID := by
      obtain ⟨c1, c2, c3, cl, hcl, rfl⟩ := hf
      simp only [answers, answerCls]
      rw [if_pos]
      split <;> decide
    simp only [ha, if_true, dispatched, hn, hcb]

theorem carries_first {b : VB} {bs : List VB} {ys : List Val} (h : Carries regFull (b :: bs) ys) :
    ∃ x y rest, firstBinding ys = .ok (x, y) ∧ ys = rest ∧ Denotes regFull (.oid b.name) x ∧ Denotes regFull b.value y := by
  cases h with
  | cons h _ =>
    obtain ⟨cb, x, y, hcb, rfl, h1, h2⟩ := h
    exact ⟨x, y, _, rfl, rfl, h1, h2⟩

theorem getUnwrap_lines (hex : Bool) {b : VB} {bs : List VB} {ys : List Val} (h : Carries regFull (b :: bs) ys)
    {lines : List Str} (hl : GetLines hex b lines) : getUnwrap hex scriptTexts ys = (lines, .ok ()) := by
  obtain ⟨x, y, _, h1, _, h2, h3⟩ := carries_first h
  obtain ⟨n, name, t, d1, d2, rfl⟩ := hl
  have e1 := denotes_displayed (inst := True) h2 d1
  have e2 := denotes_displayed (inst := True) h3 d2
  unfold getUnwrap
  rw [h1]
  simp only [(script_text _ _).mpr e1.2, (script_text _ _).mpr e2.2, e2.1, denotes_hex h3]

theorem walkUnwrap_lines {b : VB} {bs : List VB} {ys : List Val} (h : Carries regFull (b :: bs) ys)
    {lines : List Str} (hl : WalkLines b lines) : walkUnwrap scriptTexts ys =
      (lines, if isEnd b.value then .error .systemExit else .ok ()) := by
  obtain ⟨x, y, _, h1, _, h2, h3⟩ := carries_first h
  obtain ⟨n, name, t, d1, d2, rfl⟩ := hl
  have e1 := denotes_displayed (inst := True) h2 d1
  have e2 := denotes_displayed (inst := True) h3 d2
  unfold walkUnwrap
  rw [h1]
  simp only [(script_text _ _).mpr e1.2, (script_text _ _).mpr e2.2, e2.1, denotes_hex h3]
  have key : (lit name = lit "NoSuchObject" ∨ lit name = lit "EndOfMibView") ↔
isEnd b.value = true := by
    generalize b.value = a at d2
    cases d2 <;> simp (decide := true) [isEnd]
  rw [if_congr key rfl rfl]

/-! ## Programs that only print -/

/-- Callbacks that make no calls. -/
def Passive {k : Kind} (user : Nat → Option Msg → Act k) : Prop := ∀ cb m, user cb m = .ret ∨ ∃ e, user cb m = .raise e

theorem passive_exec {k : Kind} {user : Nat → Option Msg → Act k} (h : Passive user) (env : Env) (cb : Nat) (m : Option Msg)
    (s : Mgr k) : ((user cb m).exec env s).2 = s := by
  rcases h cb m with h | ⟨e, h⟩ <;> rw [h] <;> rfl

theorem getUser_passive (hex : Bool) : Passive (getUser hex) := by
  intro cb m
  cases m with
  | none => exact .inr ⟨_, rfl⟩
  | some m =>
    simp only [getUser]
    cases (getCheck hex scriptTexts m).2 with
    | ok u => exact .inl rfl
    | error e => exact .inr ⟨_, rfl⟩

theorem passive_invoke {k : Kind} {user : Nat → Option Msg → Act k} (h : Passive user) (env : Env) (cb : Nat)
    (m : Option Msg) (s : Mgr k) : ∃ r, invoke (fun cb m => (user cb m).exec env) cb m s =
      (r, (s.note (.entered cb m)).note (.left cb m r)) := by
  refine ⟨((user cb m).exec env (s.note (.entered cb m))).1, ?_⟩
  have := passive_exec h env cb m (s.note (.entered cb m))
  show (_, Mgr.note _ _) = _
  rw [this]

/-- What a passive user leaves alone. -/
theorem passive_poll {k : Kind} {user : Nat → Option Msg → Act k} (h : Passive user) (env : Env) (d : Option Val) (s : Mgr k)
    (hs : s.callbacks.Numeric) : (poll env k (fun cb m => (user cb m).exec env) d s).2.outbound = s.outbound ∧
      sentOut (poll env k (fun cb m => (user cb m).exec env) d s).2.log = sentOut s.log ∧
      (poll env k (fun cb m => (user cb m).exec env) d s).2.callbacks.Numeric := by
  refine ⟨?_, ?_, poll_numeric (keepsNumeric_exec env user) d s hs⟩
  all_goals
    cases d with
    | none => rfl
    | some data =>
      have e : (poll env k (fun cb m => (user cb m).exec env) (some data) s).2 =
          (receiveData env k (fun cb m => (user cb m).exec env) data s).2 := by
        simp only [poll]
        rcases receiveData env k (fun cb m => (user cb m).exec env) data s with ⟨r | r, s'⟩
        · simp only [handleError]; split <;> rfl
        · rfl
      rw [e]
      have he := receive_effect env k (fun cb m => (user cb m).exec env) (keepsNumeric_exec env user) data s hs
      generalize (receiveData env k (fun cb m => (user cb m).exec env) data s).2 = z at he
      cases he with
      | nothing => rfl
      | trap cb m ht hm hd =>
        obtain ⟨r, hr⟩ := passive_invoke h env cb (some m) s
        rw [hr]; simp [Mgr.note, sentOut]
      | raised cb m n e hm hn hat hr =>
        obtain ⟨r, hr⟩ := passive_invoke h env cb (some m) s
        rw [hr]; simp [Mgr.note, sentOut]
      | returned cb m n hm hn hat hr =>
        obtain ⟨r, hr⟩ := passive_invoke h env cb (some m) s
        rw [hr]; simp [Mgr.note, sentOut]

/-! ## A request and the turns after it -/

/-- The first call of a program: it raises and leaves nothing behind, or queues its message under ID 0. -/
theorem first_call (env : Env) (c : SmCall) (cb : Nat) (hcb : callbackOf (k := .sm) c = some cb) :
    (∃ e s, doCall env (k := .sm) c {} = (.error e, s) ∧ s.outbound = [] ∧ s.log = [.called c (.error e)]) ∨
    ∃ ci m s, doCall env (k := .sm) c {} = (.ok (.integer ci 0), s) ∧ Sends env (k := .sm) c 0 (some m) ∧
      s.outbound = [(some m, remoteOf (k := .sm) c)] ∧ s.callbacks.Numeric ∧ s.callbacks.at 0 = some cb ∧
      (∀ j, j ≠ 0 → s.callbacks.at j = none) ∧ s.nextRequestID = 1 ∧ s.log = [.called c (.ok (.integer ci 0))] := by
  have he := call_effect env .sm c {}
  unfold doCall
  generalize callBody env .sm c {} = q at he
  cases he with
  | failed e j hj => exact .inl ⟨e, _, rfl, rfl, rfl⟩
  | request ci cb' m key d' hcb' hm hk hd =>
    have : cb' = cb := by rw [hcb] at hcb'; exact (Option.some.inj hcb').symm
    subst this
    obtain ⟨d2, h1, h2, h3⟩ := Dict.put_num (d := []) (by intro p hp; simp at hp) hk cb'
    rw [h1] at hd
    cases hd
    refine .inr ⟨ci, m, _, rfl, hm, rfl, h2, ?_, ?_, rfl, rfl⟩
    · simp [Mgr.note, h3]
    · intro j hj
      simp only [Mgr.note, h3, if_neg (show ¬ j = ((({} : Mgr .sm).nextRequestID : Nat) : Int) from hj)]
      rfl
  | trap m hcb' hm => rw [hcb] at hcb'; cases hcb'

/-- `askAndRun` when the call succeeds. -/
theorem askAndRun_ok {env : Env} {c : SmCall} {v : Val} {s : Mgr .sm} (h : doCall env (k := .sm) c {} = (.ok v, s))
    (user : Nat → Option Msg → Act .sm) (f : Msg → List Str) (net : List Net) :
    askAndRun env (k := .sm) c user f net = runScript env user f net s := by
  unfold askAndRun
  rw [h]

theorem runScript_eq (env : Env) {k : Kind} (user : Nat → Option Msg → Act k) (f : Msg → List Str) (net : List Net) (s : Mgr k) :
    runScript env user f net s =
      ⟨endOf (run env k (net.map fun t => ⟨t.socket, t.datagram, user⟩) s).1,
        printed f (run env k (net.map fun t => ⟨t.socket, t.datagram, user⟩) s).2.log,
        (run env k (net.map fun t => ⟨t.socket, t.datagram, user⟩) s).2⟩ := rfl

/-- A script whose callbacks only print and whose idle callback exits. -/
structure Prints (user : Nat → Option Msg → Act .sm) : Prop where
  passive : Passive user
  idle : user idleCb none = .raise .systemExit

theorem getUser_prints (hex : Bool) : Prints (getUser hex) := ⟨getUser_passive hex, rfl⟩

/-- One turn of such a script: the number of messages sent and waiting does not grow, and a turn that does not end the
program has sent something. -/
theorem prints_turn {env : Env} (hq : env.queueEmpty = some idleCb) {user : Nat → Option Msg → Act .sm} (hu : Prints user)
    (socket : Except Exc Unit) (d : Option Val) (s : Mgr .sm) (hs : s.callbacks.Numeric) (hl : s.outbound.length ≤ 1) :
    let q := iterate env .sm (fun cb m => (user cb m).exec env) socket d s
    (sentOut q.2.log).length + q.2.outbound.length ≤ (sentOut s.log).length + s.outbound.length ∧
    q.2.callbacks.Numeric ∧ (q.1 = .ok () → q.2.outbound.length < s.outbound.length) := by
  intro q
  obtain ⟨p1, p2, p3⟩ := passive_poll hu.passive env d s hs
  have hq' : q = iterate env .sm (fun cb m => (user cb m).exec env) socket d s := rfl
  simp only [iterate, smIterate, M.bind_def] at hq'
  cases hp : poll env .sm (fun cb m => (user cb m).exec env) d s with
  | mk r s1 =>
    rw [hp] at p1 p2 p3 hq'
    have idle : ∀ z : Mgr .sm, callQueueEmpty env (fun cb m => (user cb m).exec env) z =
        (.error .systemExit, (z.note (.entered idleCb none)).note (.left idleCb none (.error .systemExit))) := by
      intro z
      simp only [callQueueEmpty, hq, invoke, hu.idle]
      rfl
    cases r with
    | error e =>
      simp only at hq' p1 p2 p3
      by_cases he : e = .queueEmpty
      · subst he
        simp only [idle] at hq'
        rw [hq']
        refine ⟨?_, p3, by simp⟩
        simp only [Mgr.note, sentOut_append, List.length_append]
        rw [p1, p2]
        simp [sentOut]
      · have : q = (.error e, s1) := by
          rw [hq']
          split
          · next h => simp only [Prod.mk.injEq, Except.error.injEq] at h; exact absurd h.1 he
          · rfl
        rw [this]
        refine ⟨by simp only [p1, p2, Nat.le_refl], p3, by simp⟩
    | ok u =>
      simp only at hq' p1 p2 p3
      cases ho : s.outbound with
      | nil =>
        rw [ho] at p1
        simp only [takeAndSend, p1, idle] at hq'
        rw [hq']
        refine ⟨?_, p3, by simp⟩
        simp only [Mgr.note, sentOut_append, List.length_append, p1, p2]
        simp [sentOut]
      | cons item rest =>
        rw [ho] at p1 hl
        have hrest : rest = [] := by cases rest <;> simp at hl ⊢
        subst hrest
        rw [takeAndSend_leaves socket s1 item [] p1] at hq'
        have hle : (sentOut (leaves .sm item)).length ≤ 1 := by
          unfold leaves
          split <;> simp [sentOut]
        cases hr : sendOutcome socket item with
        | ok u =>
          rw [hr] at hq'
          simp only at hq'
          rw [hq']
          simp only [sentOut_append, List.length_append, p2, List.length_nil, List.length_cons]
          exact ⟨by omega, p3, fun _ => by omega⟩
        | error e =>
          rw [hr] at hq'
          by_cases he : e = .queueEmpty
          · subst he
            simp only [idle] at hq'
            rw [hq']
            simp only [Mgr.note, sentOut_append, List.length_append, p2, List.length_nil, List.length_cons]
            refine ⟨?_, p3, by simp⟩
            have e1 : sentOut [Obs.entered (k := .sm) idleCb none] = [] := rfl
            have e2 : sentOut [Obs.left (k := .sm) idleCb none (.error .systemExit)] = [] := rfl
            simp only [e1, e2, List.length_nil]
            omega
          · have : q = (.error e, { s1 with outbound := [], log := s1.log ++ leaves .sm item }) := by
              rw [hq']
              split
              · next h => simp only [Prod.mk.injEq, Except.error.injEq] at h; exact absurd h.1 he
              · rfl
            rw [this]
            simp only [sentOut_append, List.length_append, p2, List.length_nil, List.length_cons]
            exact ⟨by omega, p3, by simp⟩

theorem prints_run {env : Env} (hq : env.queueEmpty = some idleCb) {user : Nat → Option Msg → Act .sm} (hu : Prints user)
    (net : List Net) : ∀ (s : Mgr .sm), s.callbacks.Numeric → s.outbound.length ≤ 1 →
      let q := run env .sm (net.map fun t => ⟨t.socket, t.datagram, user⟩) s
      (sentOut q.2.log).length + q.2.outbound.length ≤ (sentOut s.log).length + s.outbound.length ∧
      (s.outbound.length < net.length → q.1 ≠ .ok ()) := by
  induction net with
  | nil => intro s hs hl; exact ⟨Nat.le_refl _, by simp⟩
  | cons t ts ih =>
    intro s hs hl
    obtain ⟨h1, h2, h3⟩ := prints_turn hq hu t.socket t.datagram s hs hl
    simp only [List.map_cons]
    rw [run_cons]
    simp only
    cases hi : iterate env .sm (fun cb m => (user cb m).exec env) t.socket t.datagram s with
    | mk r s1 =>
      rw [hi] at h1 h2 h3
      cases r with
      | error e => exact ⟨h1, by simp⟩
      | ok u =>
        simp only at h1 h2 h3 ⊢
        have h4 := h3 trivial
        obtain ⟨i1, i2⟩ := ih s1 h2 (by omega)
        exact ⟨by omega, fun hlt => i2 (by simp only [List.length_cons] at hlt; omega)⟩

/-- A script that asks once is over after two turns of the loop, whatever the network does, and sends at most one
datagram. -/
theorem askOnce {env : Env} (hq : env.queueEmpty = some idleCb) {user : Nat → Option Msg → Act .sm} (hu : Prints user)
    (f : Msg → List Str) (c : SmCall) (cb : Nat) (hcb : callbackOf (k := .sm) c = some cb) (net : List Net) :
    (2 ≤ net.length → (askAndRun env (k := .sm) c user f net).status ≠ .running) ∧
    (sentOut (askAndRun env (k := .sm) c user f net).mgr.log).length ≤ 1 := by
  rcases first_call env c cb hcb with ⟨e, s, h1, h2, h3⟩ | ⟨ci, m, s, h1, h2, h3, h4, h5, h6, h7, h8⟩
  · unfold askAndRun
    rw [h1]
    exact ⟨by simp, by rw [h3]; simp [sentOut]⟩
  · rw [askAndRun_ok h1, runScript_eq]
    obtain ⟨i1, i2⟩ := prints_run hq hu net s h4 (by rw [h3]; simp)
    have e : sentOut s.log = [] := by rw [h8]; rfl
    rw [h3, e] at i1
    simp only [List.length_nil, List.length_cons] at i1
    refine ⟨fun h => ?_, by simp only; omega⟩
    have := i2 (by rw [h3]; exact h)
    simp only
    generalize (run env .sm (net.map fun t => ⟨t.socket, t.datagram, user⟩) s).1 = r at this
    cases r with
    | ok u => exact absurd rfl this
    | error e => cases e <;> simp [endOf]

/-! ## C75 -/

/-- The programs that ask once. -/
def asksOnce (addr : Str → Nat) (prog : List Net → ScriptRun .sm) : Prop :=
  (∃ args, prog = snmpget addr args) ∨ (∃ args, prog = snmpset addr args)

/-- **C75**: whatever the arguments and whatever the network does (datagrams, garbage, failing sends), snmpget.py and
snmpset.py are over after at most two turns of the loop, and send at most one datagram. -/
theorem C75_ends (addr : Str → Nat) (prog : List Net → ScriptRun .sm) (hp : asksOnce addr prog) (net : List Net) :
    (2 ≤ net.length → (prog net).status ≠ .running) ∧ (sentOut (prog net).mgr.log).length ≤ 1 := by
  rcases hp with ⟨args, rfl⟩ | ⟨args, rfl⟩
  · unfold snmpget
    split
    · exact askOnce rfl (getUser_prints true) _ _ _ rfl net
    · exact ⟨by simp, by simp [sentOut]⟩
  · unfold snmpset
    split
    · split
      · exact ⟨by simp, by simp [sentOut]⟩
      · split
        · split
          · exact ⟨by simp, by simp [sentOut]⟩
          · exact askOnce rfl (getUser_prints false) _ _ _ rfl net
        · exact askOnce rfl (getUser_prints false) _ _ _ rfl net
    · exact ⟨by simp, by simp [sentOut]⟩

/-- The script is a request followed by `run()`; the request asks for what the command line says. -/
theorem askScript_call {addr : Str → Nat} {prog : List Net → ScriptRun .sm} {hex : Bool} {remote : Nat} {community : Str}
    {tag : Nat} {b : VB} (h : AskScript addr prog hex remote community tag b) :
    ∃ c : SmCall, prog = askAndRun scriptEnv (k := .sm) c (getUser hex) (fun m => (getCheck hex scriptTexts m).1) ∧
      callbackOf (k := .sm) c = some responseCb ∧ remoteOf (k := .sm) c = remote ∧ communityOf (k := .sm) c = community ∧
      AsksFor scriptEnv (k := .sm) c 1 tag [b] ∧ CallOk scriptEnv (k := .sm) c ∧ 0 ≤ lastID (k := .sm) c := by
  have set : ∀ {server community oid ids t value a x}, OidNames (.str oid) ids →
      constructTag scriptEnv.reg t value = .ok x → Represents x a →
      AsksFor scriptEnv (k := .sm) (SmCall.set (.str oid) t value (addr server) responseCb community 2) 1 0xa3 [⟨ids, a⟩] ∧
        CallOk scriptEnv (k := .sm) (SmCall.set (.str oid) t value (addr server) responseCb community 2) := by
    intro server community oid ids t value a x h1 h2 h3
    exact ⟨⟨by omega, rfl, ids, a, x, h1, h2, h3, rfl⟩, .inr rfl, ⟨_, h1.1⟩, x, h2⟩
  cases h with
  | @get server community oid ids h =>
    exact ⟨.get (.str oid) (addr server) responseCb community 2, rfl, rfl, rfl, rfl,
      ⟨by omega, rfl, ids, h, rfl⟩, ⟨.inr rfl, _, h.1⟩, Nat.zero_le _⟩
  | @setInt server community oid ids value n h h1 h2 h3 =>
    refine ⟨.set (.str oid) 0x02 (.int n) (addr server) responseCb community 2, ?_, rfl, rfl, rfl, ?_⟩
    · funext net
      show (match argInt value with | .error e => _ | .ok n => _) = _
      unfold argInt
      rw [h1]
    · have hk : constructTag scriptEnv.reg 0x02 (.int n) = .ok (.integer .integer32 n) := by
        show mkInteger .integer32 n = _
        unfold mkInteger
        rw [if_pos]
        exact ⟨h2.1, le_trans h2.2 (by decide)⟩
      obtain ⟨a1, a2⟩ := set (server := server) (community := community) h hk (.integer .integer32 n (by decide) h3)
      exact ⟨a1, a2, Nat.zero_le _⟩
  | @setText server community oid ids value h =>
    obtain ⟨a1, a2⟩ := set (server := server) (community := community) h (show constructTag scriptEnv.reg 0x04 (.str value) = .ok (.octets .octetString value) from rfl)
      (.string .octetString .octetString value (by decide))
    exact ⟨.set (.str oid) 0x04 (.str value) (addr server) responseCb community 2, rfl, rfl, rfl, rfl, a1, a2, Nat.zero_le _⟩
  | @setName server community oid ids value name h h1 =>
    obtain ⟨v, e, hr⟩ := names_represents h1
    have hk : constructTag scriptEnv.reg 0x06 (.str value) = .ok (.oid v) := by
      show construct .oid (.str value) = _
      unfold construct
      rw [e]
    obtain ⟨a1, a2⟩ := set (server := server) (community := community) h hk hr
    exact ⟨.set (.str oid) 0x06 (.str value) (addr server) responseCb community 2, rfl, rfl, rfl, rfl, a1, a2, Nat.zero_le _⟩
  | @setAddress server community oid ids value octets h h1 =>
    obtain ⟨a1, a2⟩ := set (server := server) (community := community) h (show constructTag scriptEnv.reg 0x40 (.str value) = _ from h1)
      (.string .ipAddress .ipAddress octets (by decide))
    exact ⟨.set (.str oid) 0x40 (.str value) (addr server) responseCb community 2, rfl, rfl, rfl, rfl, a1, a2, Nat.zero_le _⟩

/-- The state in which such a script enters its second turn, if the first was quiet. -/
structure AfterSend (s : Mgr .sm) (remote : Nat) (o : Str) : Prop where
  outbound : s.outbound = []
  numeric : s.callbacks.Numeric
  pending : s.callbacks.at 0 = some responseCb
  others : ∀ j, j ≠ 0 → s.callbacks.at j = none
  sent : sentOut s.log = [(o, remote)]
  silent : ∀ f, printed f s.log = []

theorem askScript_first {addr : Str → Nat} {prog : List Net → ScriptRun .sm} {hex : Bool} {remote : Nat} {community : Str}
    {tag : Nat} {b : VB} (h : AskScript addr prog hex remote community tag b) :
    ∃ o s0 s1, (o.length < 256 ^ 127 → MessageOctets 1 community { tag := tag, requestID := 0, bindings := [b] } o) ∧
      (∀ net, prog net = runScript scriptEnv (getUser hex) (fun m => (getCheck hex scriptTexts m).1) net s0) ∧
      AfterSend s1 remote o ∧
      ∀ socket, socket ≠ .error .queueEmpty →
        iterate scriptEnv .sm (fun cb m => (getUser hex cb m).exec scriptEnv) socket none s0 = (socket, s1) := by
  obtain ⟨c, rfl, hcb, hr, hc, ha, hok, hid⟩ := askScript_call h
  rcases first_call scriptEnv c responseCb hcb with ⟨e, s, h1, _⟩ | ⟨ci, m, s, h1, h2, h3, h4, h5, h6, h7, h8⟩
  · have := (C44_exact scriptEnv (k := .sm) c (by rw [hcb]; simp) {}).1.mpr ⟨hok, hid⟩
    rw [h1] at this
    obtain ⟨v, hv⟩ := this
    cases hv
  · obtain ⟨o, e1, e2⟩ := C72_request_octets scriptEnv (k := .sm) c 0 (by decide) m h2 1 tag [b] ha
    have hd : datagramOf (some m, remoteOf (k := .sm) c) = some (o, remote) := by simp [datagramOf, e1, hr]
    refine ⟨o, s, { s with outbound := [], log := s.log ++ leaves .sm (some m, remoteOf (k := .sm) c) }, ?_, ?_, ?_, ?_⟩
    · rw [← hc]; exact e2
    · intro net; exact askAndRun_ok h1 _ _ _
    · refine ⟨rfl, h4, h5, h6, ?_, ?_⟩
      · simp only [leaves, hd, h8]; rfl
      · intro f; simp only [leaves, hd, h8]; rfl
    · intro socket hsock
      rw [C74_sm_sending_turn scriptEnv _ socket hsock s _ _ h3]
      simp only [sendOutcome, e1]

/-- The end of a script's second turn. -/
theorem second_turn {hex : Bool} {s s2 : Mgr .sm} (d : Option Val) (r : Except Exc Unit)
    (hp : poll scriptEnv .sm (fun cb m => (getUser hex cb m).exec scriptEnv) d s = (r, s2)) (ho : s2.outbound = [])
    (hr : r ≠ .error .queueEmpty) (socket : Except Exc Unit) (f : Msg → List Str) (rest : List Net) :
    (runScript scriptEnv (getUser hex) f (⟨socket, d⟩ :: rest) s).status = (if r = .ok () then .exit 0 else endOf r) ∧
    (runScript scriptEnv (getUser hex) f (⟨socket, d⟩ :: rest) s).out = printed f s2.log ∧
    sentOut (runScript scriptEnv (getUser hex) f (⟨socket, d⟩ :: rest) s).mgr.log = sentOut s2.log := by
  rw [runScript_eq, List.map_cons, run_cons]
  simp only
  cases r with
  | ok u =>
    have := (C74_sm_idle_turn scriptEnv _ socket d s s2 hp ho).2 idleCb rfl
    simp only [getUser, Act.exec] at this
    simp only [getUser]
    rw [this]
    simp [endOf, Mgr.note, printed, sentOut]
  | error e =>
    have : iterate scriptEnv .sm (fun cb m => (getUser hex cb m).exec scriptEnv) socket d s = (.error e, s2) := by
      simp only [iterate, smIterate, M.bind_def, hp]
      split
      · next h =>
        simp only [Prod.mk.injEq, Except.error.injEq] at h
        exact absurd (by rw [h.1]) hr
      · rfl
    rw [this]
    simp

/-- The whole run, if the first turn was quiet. -/
theorem two_turns {addr : Str → Nat} {prog : List Net → ScriptRun .sm} {hex : Bool} {remote : Nat} {community : Str}
    {tag : Nat} {b : VB} (h : AskScript addr prog hex remote community tag b) :
    ∃ o s1, (o.length < 256 ^ 127 → MessageOctets 1 community { tag := tag, requestID := 0, bindings := [b] } o) ∧
      AfterSend s1 remote o ∧ ∀ t rest, prog ({} :: t :: rest) =
        runScript scriptEnv (getUser hex) (fun m => (getCheck hex scriptTexts m).1) (t :: rest) s1 := by
  obtain ⟨o, s0, s1, h1, h2, h3, h4⟩ := askScript_first h
  refine ⟨o, s1, h1, h3, fun t rest => ?_⟩
  rw [h2, runScript_eq, runScript_eq, List.map_cons, run_cons]
  simp only
  rw [h4 (.ok ()) (by simp)]

/-- The messages a script gets are delivered to its callback as the datagram says, and printed. -/
theorem delivered {hex : Bool} {s : Mgr .sm} {remote : Nat} {o : Str} (hs : AfterSend s remote o) {version : Int}
    (hv : version = 0 ∨ version = 1) {community : Str} {p : Pdu} (hp : p.tag = 0xa2) (hid : p.requestID = 0) {a : Str}
    (ha : MessageOctets version community p a) (he : Int32 p.errorStatus) (hi : Int32 p.errorIndex)
    (hb : ∀ b ∈ p.bindings, Holdable regFull b) (hl : p.bindings.length ≤ 2147483647) :
    ∃ m ys s2, m.data = response2Object 0 p.errorStatus p.errorIndex ys ∧ Carries regFull p.bindings ys ∧
      s2.outbound = [] ∧ sentOut s2.log = [(o, remote)] ∧
      printed (fun m => (getCheck hex scriptTexts m).1) s2.log = (getCheck hex scriptTexts m).1 ∧
      receiveData scriptEnv .sm (fun cb m => (getUser hex cb m).exec scriptEnv) (.str a) s =
        ((getCheck hex scriptTexts m).2, s2) := by
  obtain ⟨m, ys, h1, h2, h3⟩ := sm_answer (getUser hex) hs.numeric hv hp ha (by rw [hid]; exact ⟨by decide, by decide⟩) he hi hb hl
    (cb := responseCb) (by rw [hid]; exact hs.pending)
  rw [hid] at h1 h3
  have hpr := hs.silent (fun m => (getCheck hex scriptTexts m).1)
  cases hc : (getCheck hex scriptTexts m).2 with
  | ok u =>
    have hi : invoke (fun cb m => (getUser hex cb m).exec scriptEnv) responseCb (some m) s =
        (.ok (), (s.note (.entered responseCb (some m))).note (.left responseCb (some m) (.ok ()))) := by
      simp only [invoke, getUser, hc]
      rfl
    refine ⟨m, ys, { ((s.note (.entered responseCb (some m))).note (.left responseCb (some m) (.ok ()))) with
      callbacks := s.callbacks.erase 0 }, h1, h2, hs.outbound, ?_, ?_, ?_⟩
    · simp only [Mgr.note, sentOut_append, hs.sent]; rfl
    · simp only [Mgr.note, printed, List.flatMap_append] at hpr ⊢
      rw [hpr]
      simp
    · rw [h3, deliver, hi]
      simp only [Mgr.note, hs.pending, hc]
  | error e =>
    have hi : invoke (fun cb m => (getUser hex cb m).exec scriptEnv) responseCb (some m) s =
        (.error e, (s.note (.entered responseCb (some m))).note (.left responseCb (some m) (.error e))) := by
      simp only [invoke, getUser, hc]
      rfl
    refine ⟨m, ys, (s.note (.entered responseCb (some m))).note (.left responseCb (some m) (.error e)), h1, h2,
      hs.outbound, ?_, ?_, ?_⟩
    · simp only [Mgr.note, sentOut_append, hs.sent]; rfl
    · simp only [Mgr.note, printed, List.flatMap_append] at hpr ⊢
      rw [hpr]
      simp
    · rw [h3, deliver, hi, hc]

/-- **C75**: an answer without error that arrives during the second poll is printed - the first binding only - and the
program ends with status 0, having sent the request it was asked for. -/
theorem C75_answer {addr : Str → Nat} {prog : List Net → ScriptRun .sm} {hex : Bool} {remote : Nat} {community : Str}
    {tag : Nat} {b : VB} (h : AskScript addr prog hex remote community tag b) {version : Int}
    (hv : version = 0 ∨ version = 1) {com : Str} {p : Pdu} (hp : p.tag = 0xa2) (hid : p.requestID = 0)
    (hes : p.errorStatus = 0) (hi : Int32 p.errorIndex) {b' : VB} {bs : List VB} (hbs : p.bindings = b' :: bs)
    (hb : ∀ b ∈ p.bindings, Holdable regFull b) (hl : p.bindings.length ≤ 2147483647) {a : Str}
    (ha : MessageOctets version com p a) {lines : List Str} (hlines : GetLines hex b' lines) (socket : Except Exc Unit)
    (rest : List Net) :
    let r := prog ({} :: ⟨socket, some (.str a)⟩ :: rest)
    r.status = .exit 0 ∧ r.out = lines ∧ ∃ o, sentOut r.mgr.log = [(o, remote)] ∧
      (o.length < 256 ^ 127 → MessageOctets 1 community { tag := tag, requestID := 0, bindings := [b] } o) := by
  obtain ⟨o, s1, h1, h2, h3⟩ := two_turns h
  obtain ⟨m, ys, s2, g1, g2, g3, g4, g5, g6⟩ := delivered (hex := hex) h2 hv hp hid ha (by rw [hes]; exact ⟨by decide, by decide⟩) hi hb hl
  intro r
  have hck : getCheck hex scriptTexts m = (lines, .ok ()) := by
    rw [hbs] at g2
    unfold getCheck
    rw [g1]
    simp only [response2Object, pduErrorStatus, hes, Val.toInt, pduVarBindList]
    exact getUnwrap_lines hex g2 hlines
  rw [hck] at g5 g6
  have hpoll : poll scriptEnv .sm (fun cb m => (getUser hex cb m).exec scriptEnv) (some (.str a)) s1 = (.ok (), s2) := by
    simp only [poll, g6]
  obtain ⟨k1, k2, k3⟩ := second_turn (hex := hex) (some (.str a)) _ hpoll g3 (by simp) socket
    (fun m => (getCheck hex scriptTexts m).1) rest
  have hr : r = _ := h3 ⟨socket, some (.str a)⟩ rest
  rw [hr]
  refine ⟨by rw [k1]; simp, by rw [k2, g5], o, by rw [k3, g4], h1⟩

/-- **C75**: without an answer during the second poll the program ends with status 0 and prints nothing. -/
theorem C75_no_answer {addr : Str → Nat} {prog : List Net → ScriptRun .sm} {hex : Bool} {remote : Nat} {community : Str}
    {tag : Nat} {b : VB} (h : AskScript addr prog hex remote community tag b) (socket : Except Exc Unit) (rest : List Net) :
    let r := prog ({} :: ⟨socket, none⟩ :: rest)
    r.status = .exit 0 ∧ r.out = [] ∧ ∃ o, sentOut r.mgr.log = [(o, remote)] ∧
      (o.length < 256 ^ 127 → MessageOctets 1 community { tag := tag, requestID := 0, bindings := [b] } o) := by
  obtain ⟨o, s1, h1, h2, h3⟩ := two_turns h
  intro r
  obtain ⟨k1, k2, k3⟩ := second_turn (hex := hex) none (.ok ()) (rfl : poll _ _ _ none s1 = (.ok (), s1)) h2.outbound (by simp) socket
    (fun m => (getCheck hex scriptTexts m).1) rest
  have hr : r = _ := h3 ⟨socket, none⟩ rest
  rw [hr]
  exact ⟨by rw [k1]; simp, by rw [k2, h2.silent], o, by rw [k3, h2.sent], h1⟩

/-- **C75**: an answer with an error status prints the status and its text, also with exit status 0; a status without a
text (not in 0 to 18) ends the program with a KeyError, and an answer without bindings with an IndexError. -/
theorem C75_error {addr : Str → Nat} {prog : List Net → ScriptRun .sm} {hex : Bool} {remote : Nat} {community : Str}
    {tag : Nat} {b : VB} (h : AskScript addr prog hex remote community tag b) {version : Int}
    (hv : version = 0 ∨ version = 1) {com : Str} {p : Pdu} (hp : p.tag = 0xa2) (hid : p.requestID = 0)
    (he : Int32 p.errorStatus) (hi : Int32 p.errorIndex)
    (hb : ∀ b ∈ p.bindings, Holdable regFull b) (hl : p.bindings.length ≤ 2147483647) {a : Str}
    (ha : MessageOctets version com p a) (socket : Except Exc Unit) (rest : List Net) :
    let r := prog ({} :: ⟨socket, some (.str a)⟩ :: rest)
    (∀ t text, p.errorStatus ≠ 0 → Decimal p.errorStatus t → StatusText True p.errorStatus text →
      r.status = .exit 0 ∧ r.out = [lit "Error: " ++ (t ++ lit ": " ++ lit text)]) ∧
    (¬ (0 ≤ p.errorStatus ∧ p.errorStatus ≤ 18) → r.status = .traceback .keyError ∧ r.out = []) ∧
    (p.errorStatus = 0 → p.bindings = [] → r.status = .traceback .indexError ∧ r.out = []) := by
  obtain ⟨o, s1, h1, h2, h3⟩ := two_turns h
  obtain ⟨m, ys, s2, g1, g2, g3, g4, g5, g6⟩ := delivered (hex := hex) h2 hv hp hid ha he hi hb hl
  intro r
  have hr : r = _ := h3 ⟨socket, some (.str a)⟩ rest
  have fin : ∀ (out : List Str) (res : Except Exc Unit), getCheck hex scriptTexts m = (out, res) →
      (∀ e, res = .error e → e = .keyError ∨ e = .indexError) →
      r.status = (if res = .ok () then .exit 0 else endOf res) ∧ r.out = out := by
    intro out res hck hres
    rw [hck] at g5 g6
    have hpoll : poll scriptEnv .sm (fun cb m => (getUser hex cb m).exec scriptEnv) (some (.str a)) s1 = (res, s2) := by
      simp only [poll, g6]
      cases res with
      | ok u => rfl
      | error e =>
        simp only [handleError]
        rcases hres e rfl with rfl | rfl <;> rfl
    obtain ⟨k1, k2, _⟩ := second_turn (hex := hex) (some (.str a)) _ hpoll g3
      (by intro hx; rcases hres _ hx with h | h <;> cases h) socket (fun m => (getCheck hex scriptTexts m).1) rest
    rw [hr]
    exact ⟨k1, by rw [k2, g5]⟩
  have hes : p.errorStatus ≠ 0 → getCheck hex scriptTexts m = printError scriptTexts (.integer .errorStatus2 p.errorStatus) := by
    intro hne
    unfold getCheck
    rw [g1]
    simp only [response2Object, pduErrorStatus, Val.toInt, if_pos hne]
  refine ⟨?_, ?_, ?_⟩
  · intro t text hne ht htext
    have hs := (script_text (.integer .errorStatus2 p.errorStatus) _).mpr (.status (.inr rfl) ht htext)
    have hck := hes hne
    unfold printError at hck
    rw [hs] at hck
    simpa using fin _ _ hck (by simp)
  · intro hne
    have h0 : p.errorStatus ≠ 0 := by omega
    have hs : valStr scriptTexts (.integer .errorStatus2 p.errorStatus) = .error .keyError := by
      rw [← installed_texts]
      have := (C57_which installed p.errorStatus).2 (by rw [installed_iff]; simp only [and_true]; omega)
      simpa [valStr] using this
    have hck := hes h0
    unfold printError at hck
    rw [hs] at hck
    simpa [endOf] using fin _ _ hck (by simp)
  · intro h0 hnil
    rw [hnil] at g2
    cases g2
    have hck : getCheck hex scriptTexts m = ([], .error .indexError) := by
      unfold getCheck
      rw [g1]
      simp only [response2Object, pduErrorStatus, Val.toInt, h0, pduVarBindList]
      rfl
    simpa [endOf] using fin _ _ hck (by simp)

/-- A datagram in the second turn that is not delivered to the callback ends the program. -/
theorem undelivered {addr : Str → Nat} {prog : List Net → ScriptRun .sm} {hex : Bool} {remote : Nat} {community : Str}
    {tag : Nat} {b : VB} (h : AskScript addr prog hex remote community tag b) (d : Val) {e : Exc}
    (hne : e ≠ .queueEmpty) (hn : e ≠ .systemExit)
    (hd : ∀ s : Mgr .sm, s.callbacks.Numeric → (∀ j, j ≠ 0 → s.callbacks.at j = none) →
      receiveData scriptEnv .sm (fun cb m => (getUser hex cb m).exec scriptEnv) d s = (.error e, s))
    (socket : Except Exc Unit) (rest : List Net) :
    let r := prog ({} :: ⟨socket, some d⟩ :: rest)
    r.status = .traceback (reraiseAs e) ∧ r.out = [] := by
  obtain ⟨o, s1, h1, h2, h3⟩ := two_turns h
  intro r
  have hr : r = _ := h3 ⟨socket, some d⟩ rest
  have hpoll : poll scriptEnv .sm (fun cb m => (getUser hex cb m).exec scriptEnv) (some d) s1 =
      (.error (reraiseAs e), s1) := by
    simp only [poll, hd s1 h2.numeric h2.others, handleError]
    cases e <;> first | rfl | exact absurd rfl hne
  obtain ⟨k1, k2, _⟩ := second_turn (hex := hex) (some d) _ hpoll h2.outbound
    (by intro hx; exact reraise_noEmpty hne (Except.error.inj hx)) socket (fun m => (getCheck hex scriptTexts m).1) rest
  rw [hr, k1, k2, h2.silent]
  refine ⟨?_, rfl⟩
  cases e <;> first | rfl | exact absurd rfl hn

/-- **C75**: a datagram the decoder refuses (garbage from anywhere) ends the program with a traceback, and nothing is
printed; so does a `bytes` object, which is what every datagram is on Python 3. -/
theorem C75_refused {addr : Str → Nat} {prog : List Net → ScriptRun .sm} {hex : Bool} {remote : Nat} {community : Str}
    {tag : Nat} {b : VB} (h : AskScript addr prog hex remote community tag b) (d : Val) {e : Exc}
    (hd : msgDecode regFull .message2 d = .error e) (socket : Except Exc Unit) (rest : List Net) :
    let r := prog ({} :: ⟨socket, some d⟩ :: rest)
    r.status = .traceback (reraiseAs e) ∧ r.out = [] := by
  have hn := msgDecode_exc imported_full hd
  refine undelivered h d (by rintro rfl; exact msgDecode_noEmpty imported_full hd)
    (by rintro rfl; simp [Exc.isException] at hn) ?_ socket rest
  intro s hs _
  have he := receive_eq scriptEnv .sm (fun cb m => (getUser hex cb m).exec scriptEnv) (keepsNumeric_exec scriptEnv _) d s hs
  have hd' : msgDecode scriptEnv.reg (msgCls .sm) d = .error e := hd
  rw [hd'] at he
  exact he

/-- **C75**: a well-formed answer to another request (any request ID but 0), from whomever it comes, ends the program with
a KeyError. -/
theorem C75_other_answer {addr : Str → Nat} {prog : List Net → ScriptRun .sm} {hex : Bool} {remote : Nat} {community : Str}
    {tag : Nat} {b : VB} (h : AskScript addr prog hex remote community tag b) {version : Int}
    (hv : version = 0 ∨ version = 1) {com : Str} {p : Pdu} (hp : p.tag = 0xa2) (hid : p.requestID ≠ 0)
    (hr : Int32 p.requestID) (he : Int32 p.errorStatus) (hi : Int32 p.errorIndex)
    (hb : ∀ b ∈ p.bindings, Holdable regFull b) (hl : p.bindings.length ≤ 2147483647) {a : Str}
    (ha : MessageOctets version com p a) (socket : Except Exc Unit) (rest : List Net) :
    let r := prog ({} :: ⟨socket, some (.str a)⟩ :: rest)
    r.status = .traceback .keyError ∧ r.out = [] := by
  refine undelivered h (.str a) (e := .keyError) (by simp) (by simp) ?_ socket rest
  intro s hs ho
  have hreg : Understands1155 regFull := imported_understands imported_full
  have hc : regFull p.tag = some (.seq .response2) := by rw [hp]; rfl
  obtain ⟨ci, co, y, ys, hm, hmk, hf, hcar⟩ := message_decoded hreg .message2 .response2 ha (by rw [hp]; decide) hc
    (by decide) hr he hi hb hl
  have e := receive_eq scriptEnv .sm (fun cb m => (getUser hex cb m).exec scriptEnv) (keepsNumeric_exec scriptEnv _) (.str a) s hs
  show receiveRaw scriptEnv .sm _ (.str a) s = _
  have hm' : msgDecode scriptEnv.reg (msgCls .sm) (.str a) = _ := hm
  rw [e, hm']
  have ha : accepts .sm ⟨.message2, .integer ci version, .octets co com, y⟩ := by
    rcases hv with rfl | rfl <;> simp [accepts, versionNo]
  have hn : answers .sm ⟨.message2, .integer ci version, .octets co com, y⟩ = some p.requestID := by
    obtain ⟨c1, c2, c3, cl, hcl, rfl⟩ := hf
    simp only [answers, answerCls]
    rw [if_pos]
    split <;> decide
  simp only [ha, if_true, dispatched, hn, ho _ hid]

/-- **C75**: a failing `sendto` (an unknown host; on Python 3 every one, with a TypeError) ends the program with that
exception. -/
theorem C75_send_fails {addr : Str → Nat} {prog : List Net → ScriptRun .sm} {hex : Bool} {remote : Nat} {community : Str}
    {tag : Nat} {b : VB} (h : AskScript addr prog hex remote community tag b) {e : Exc} (hne : e ≠ .queueEmpty)
    (hn : e ≠ .systemExit) (rest : List Net) :
    let r := prog (⟨.error e, none⟩ :: rest)
    r.status = .traceback e ∧ r.out = [] := by
  obtain ⟨o, s0, s1, h1, h2, h3, h4⟩ := askScript_first h
  intro r
  have hr : r = _ := h2 (⟨.error e, none⟩ :: rest)
  rw [hr, runScript_eq, List.map_cons, run_cons]
  simp only
  rw [h4 (.error e) (by simpa using hne)]
  refine ⟨?_, h3.silent _⟩
  cases e <;> first | rfl | exact absurd rfl hn

/-- A program that fails at the command line: nothing is sent, whatever the network does. -/
def FailsAtOnce (prog : List Net → ScriptRun .sm) (status : Status) (out : List Str) : Prop :=
  ∀ net, (prog net).status = status ∧ (prog net).out = out ∧ sentOut (prog net).mgr.log = [] ∧ (prog net).mgr.outbound = []

/-- **C75**: a wrong number of arguments gives the usage line and exit status 1. -/
theorem C75_usage (addr : Str → Nat) (args : List Str) :
    (args.length ≠ 3 → FailsAtOnce (snmpget addr args) (.exit 1) [lit "Usage: snmpget.py <server> <community> <oid>"]) ∧
    (args.length ≠ 5 → FailsAtOnce (snmpset addr args) (.exit 1)
      [lit "Usage: snmpset.py <server> <community> <oid> <type> <value>"]) := by
  constructor
  · intro h net
    unfold snmpget
    split
    · exact absurd rfl h
    · exact ⟨rfl, rfl, rfl, rfl⟩
  · intro h net
    unfold snmpset
    split
    · exact absurd rfl h
    · exact ⟨rfl, rfl, rfl, rfl⟩

/-- A call that raises before it has done anything. -/
theorem fails_at_once {c : SmCall} {e : Exc} (h : callBody scriptEnv .sm c {} = (.error e, {}))
    (user : Nat → Option Msg → Act .sm) (f : Msg → List Str) :
    FailsAtOnce (askAndRun scriptEnv (k := .sm) c user f) (.traceback e) [] := by
  intro net
  unfold askAndRun doCall
  rw [h]
  exact ⟨rfl, rfl, rfl, rfl⟩

/-- **C75**: a text that is no object identifier (C16) is a ValueError; so is, for snmpset.py, `i` with a text that is no
integer. -/
theorem C75_bad_name (addr : Str → Nat) (server community oid : Str) (h : ∀ v, mkOid (.str oid) ≠ .ok v) :
    FailsAtOnce (snmpget addr [server, community, oid]) (.traceback .valueError) [] ∧
    (∀ value, FailsAtOnce (snmpset addr [server, community, oid, lit "s", value]) (.traceback .valueError) []) := by
  have hm : mkOid (.str oid) = .error .valueError := by
    rcases C16_oid_text_validated oid with h1 | ⟨ids, h1, _⟩
    · exact h1
    · exact absurd h1 (h _)
  refine ⟨fails_at_once ?_ _ _, fun value => fails_at_once (c := .set (.str oid) 0x04 (.str value) (addr server) responseCb community 2) ?_ _ _⟩
  · simp [callBody, smSnmpGet, smCreateGetRequestMessage, hm, M.bind_def, M.lift_def]
  · simp [callBody, smSnmpSet, smCreateSetRequestMessage, hm, M.bind_def, M.lift_def]

/-- **C75**: snmpset.py cannot set TimeTicks, Counter32 or Counter64 at all (letters `t`, `c`, `C`): whatever the value,
the program ends with a TypeError and sends nothing; any letter but the seven known ones is a KeyError. -/
theorem C75_unsettable (addr : Str → Nat) (server community oid type value : Str) :
    (type ∈ [lit "t", lit "c", lit "C"] → (∃ v, mkOid (.str oid) = .ok v) →
      FailsAtOnce (snmpset addr [server, community, oid, type, value]) (.traceback .typeError) []) ∧
    (type ∉ letters.map Prod.fst →
      FailsAtOnce (snmpset addr [server, community, oid, type, value]) (.traceback .keyError) []) ∧
    (type = lit "i" → ∀ e, pyInt value = .error e →
      FailsAtOnce (snmpset addr [server, community, oid, type, value]) (.traceback e) []) := by
  refine ⟨?_, ?_, ?_⟩
  · rintro ht ⟨v, hv⟩
    have fail : ∀ t : Int, constructTag regFull t (.str value) = .error .typeError →
        FailsAtOnce (askAndRun scriptEnv (k := .sm) (SmCall.set (.str oid) t (.str value) (addr server) responseCb community 2)
          (getUser false) (fun m => (getCheck false scriptTexts m).1)) (.traceback .typeError) [] := by
      intro t ht
      refine fails_at_once ?_ _ _
      simp [callBody, smSnmpSet, smCreateSetRequestMessage, hv, M.bind_def, M.lift_def, scriptEnv, ht]
    simp only [List.mem_cons, List.not_mem_nil, or_false] at ht
    rcases ht with rfl | rfl | rfl
    · exact fail 0x43 rfl
    · exact fail 0x41 rfl
    · exact fail 0x46 rfl
  · intro ht net
    have := (C64_typeSetter type).2 ht
    simp [snmpset, this, sentOut]
  · rintro rfl e he net
    have : typeSetter (lit "i") = .ok 2 := rfl
    simp [snmpset, this, argInt, he, sentOut]

/-! ## Concrete runs -/

/-- A command line meets the hypotheses of `C75_answer`, and the answer `1.3.6.1.2.1 = NULL` those on the datagram; the
program run on it prints exactly the line the specification asks for. -/
example : AskScript (fun _ => 7) (snmpget (fun _ => 7) [lit "host", lit "public", lit ".1.3.6.1.2.1"]) true 7 (lit "public")
      0xa0 ⟨[1, 3, 6, 1, 2, 1], .null .null⟩ ∧
    MessageOctets 0 (lit "public") (askedPdu 0xa2) answer0Octets ∧
    GetLines true ⟨[1, 3, 6, 1, 2, 1], .null .null⟩ [lit ".1.3.6.1.2.1 = Null: (<Null>) <Null>"] ∧
    (snmpget (fun _ => 7) [lit "host", lit "public", lit ".1.3.6.1.2.1"] [{}, { datagram := some (.str answer0Octets) }]).status =
      .exit 0 ∧
    (snmpget (fun _ => 7) [lit "host", lit "public", lit ".1.3.6.1.2.1"] [{}, { datagram := some (.str answer0Octets) }]).out =
      [lit ".1.3.6.1.2.1 = Null: (<Null>) <Null>"] := by
  refine ⟨.get ⟨by decide +kernel, 1, 3, [6, 1, 2, 1], rfl, by decide, by decide⟩, message_octets 0xa2, ?_, by decide +kernel,
    by decide +kernel⟩
  refine ⟨lit ".1.3.6.1.2.1", "Null", lit "<Null>", ?_, .null, by decide +kernel⟩
  refine .oid (ts := [lit "1", lit "3", lit "6", lit "1", lit "2", lit "1"]) (t := lit "1.3.6.1.2.1") ?_ ?_
  · simp only [List.forall₂_cons, List.forall₂_nil_left_iff, and_true]
    refine ⟨?_, ?_, ?_, ?_, ?_, ?_⟩ <;> exact (decimal_iff _ _).mp (by decide +kernel)
  · exact (joined_iff _ _ _).mp (by decide +kernel)

/-- The other command lines, an answer with an error status, a refused datagram. -/
example : AskScript (fun _ => 7) (snmpset (fun _ => 7) [lit "host", lit "private", lit "1.3.6.1", lit "i", lit "-5"]) false 7
      (lit "private") 0xa3 ⟨[1, 3, 6, 1], .integer (-5)⟩ ∧
    AskScript (fun _ => 7) (snmpset (fun _ => 7) [lit "host", lit "private", lit "1.3.6.1", lit "a", lit "10.0.0.1"]) false 7
      (lit "private") 0xa3 ⟨[1, 3, 6, 1], .string .ipAddress [10, 0, 0, 1]⟩ ∧
    StatusText True 17 "Not Writable" ∧ Decimal 17 (lit "17") ∧
    msgDecode regFull .message2 (.str [1, 2, 3]) = .error .valueError ∧
    (snmpset (fun _ => 7) [lit "host", lit "private", lit "1.3.6.1", lit "i", lit "-5"]
      [{}, { datagram := some (.str [1, 2, 3]) }]).status = .traceback .valueError := by
  have o : OidNames (.str (lit "1.3.6.1")) [1, 3, 6, 1] := ⟨by decide +kernel, 1, 3, [6, 1], rfl, by decide, by decide⟩
  exact ⟨.setInt o (by decide +kernel) ⟨by decide, by decide⟩ minusFive_outOfBand, .setAddress o (by decide +kernel), by
    right; exact ⟨trivial, by decide⟩, (decimal_iff _ _).mp (by decide +kernel), by decide +kernel, by decide +kernel⟩

end Libsnmp
