import Verif.Spec.Listener
import Verif.Props.Scripts

/-!
# C78: traplistener.py, trapsender.py, snmpget-v1.py and snmpget-v2.py as programs
-/

namespace Libsnmp
open Spec

theorem listen_reg : listenEnv.reg = regFull := C56_full _ (by simp)

theorem listen_imported : Imported listenEnv.reg := by rw [listen_reg]; exact imported_full

/-- What the program prints for a datagram. -/
def linesOf (texts : Table) (other : Val → Option Str) (d : Val) : List Str :=
  match msgDecode regFull .message2 d with
  | .error _ => []
  | .ok m => if accepts .v2 m ∧ isTrap .v2 m then (trapCheck texts other m).1 else []

theorem tableGet_exc {d : Table} {n : Int} {e : Exc} (h : d.get n = .error e) : e.isException = true := by
  unfold Table.get at h
  split at h <;> cases h
  rfl

mutual
theorem valStr_exc (d : Table) : (v : Val) → {e : Exc} → valStr d v = .error e → e.isException = true
  | .none, e, h | .int _, e, h | .str _, e, h | .bytes _, e, h | .oid _, e, h
  | .null .null, e, h | .null .noSuchObject, e, h | .null .noSuchInstance, e, h | .null .endOfMibView, e, h => by
    simp [valStr] at h
  | .integer c v, e, h => by
    simp only [valStr] at h
    split at h
    · unfold errorStatusStr at h
      split at h
      · next h' => cases h; exact tableGet_exc h'
      · cases h
    · split at h
      · unfold genericTrapStr at h
        split at h
        · next h' => cases h; exact tableGet_exc h'
        · cases h
      · cases h
  | .octets c v, e, h => by
    simp only [valStr] at h
    split at h <;> cases h
  | .raw _ _, e, h => by simp only [valStr] at h; cases h; rfl
  | .seq _ items, e, h => by
    simp only [valStr] at h
    split at h
    · next h' => cases h; exact itemsStr_exc d items h'
    · cases h
theorem itemsStr_exc (d : Table) : (l : List Val) → {e : Exc} → itemsStr d l = .error e → e.isException = true
  | [], e, h => by simp [itemsStr] at h
  | x :: xs, e, h => by
    simp only [itemsStr] at h
    split at h
    · next h' => cases h; exact valStr_exc d x h'
    · split at h
      · next h' => cases h; exact itemsStr_exc d xs h'
      · cases h
end

theorem trapBindings_exc (d : Table) (l : List Val) {e : Exc} (h : (trapBindings d l).2 = .error e) : e.isException = true := by
  induction l with
  | nil => simp [trapBindings] at h
  | cons x xs ih =>
    unfold trapBindings at h
    split at h
    · cases h
    · next heq =>
      cases heq
      split at h
      · next h' => cases h; exact valStr_exc d _ h'
      · split at h
        · next h' => cases h; exact valStr_exc d _ h'
        · exact ih h
    · cases h; rfl

theorem trapHeader_exc (d : Table) (other : Val → Option Str) (a b c f g : Val) {e : Exc}
    (h : trapHeader d other a b c f g = .error e) : e.isException = true := by
  unfold trapHeader at h
  rcases bind_error h with h1 | ⟨_, _, h1⟩
  · exact valStr_exc d _ h1
  · rcases bind_error h1 with h2 | ⟨_, _, h2⟩
    · exact valStr_exc d _ h2
    · split at h2
      · rcases bind_error h2 with h3 | ⟨_, _, h3⟩
        · exact tableGet_exc h3
        · rcases bind_error h3 with h4 | ⟨_, _, h4⟩
          · exact valStr_exc d _ h4
          · rcases bind_error h4 with h5 | ⟨_, _, h5⟩
            · unfold valueStr at h5
              split at h5
              · cases h5
              · cases h5
              · split at h5 <;> cases h5
                rfl
            · cases h5
      · cases h2; rfl

theorem trapUser_passive (d : Table) (other : Val → Option Str) : Passive (trapUser d other) := by
  intro cb m
  cases m with
  | none => exact .inl rfl
  | some m =>
    simp only [trapUser]
    cases (trapCheck d other m).2 with
    | ok u => exact .inl rfl
    | error e => exact .inr ⟨_, rfl⟩

theorem trapUser_exc (d : Table) (other : Val → Option Str) (cb : Nat) (m : Option Msg) (s : Mgr .v2) (e : Exc)
    (h : ((trapUser d other cb m).exec listenEnv s).1 = .error e) : e.isException = true := by
  cases m with
  | none => simp [trapUser, Act.exec] at h
  | some m =>
    simp only [trapUser] at h
    cases hc : (trapCheck d other m).2 with
    | ok u => rw [hc] at h; simp [Act.exec] at h
    | error e' =>
      rw [hc] at h
      simp only [Act.exec, Except.error.injEq] at h
      subst h
      unfold trapCheck at hc
      split at hc
      · split at hc
        · next h' => cases hc; exact trapHeader_exc _ _ _ _ _ _ _ h'
        · exact trapBindings_exc d _ hc
      · cases hc; rfl

theorem listen_receive (texts : Table) (other : Val → Option Str) (d : Val) (s : Mgr .v2) (hc : s.callbacks = []) :
    ∃ s', receiveData listenEnv .v2 (fun cb m => (trapUser texts other cb m).exec listenEnv) d s = (.ok (), s') ∧
      s'.callbacks = [] ∧ s'.outbound = s.outbound ∧ sentOut s'.log = sentOut s.log ∧
      printed (fun m => (trapCheck texts other m).1) s'.log =
        printed (fun m => (trapCheck texts other m).1) s.log ++ linesOf texts other d := by
  have hn : s.callbacks.Numeric := by rw [hc]; intro p hp; cases hp
  have e := receive_eq listenEnv .v2 (fun cb m => (trapUser texts other cb m).exec listenEnv)
    (keepsNumeric_exec listenEnv _) d s hn
  rw [receive_raw, e]
  have hm : msgDecode listenEnv.reg (msgCls .v2) d = msgDecode regFull .message2 d := by rw [listen_reg]; rfl
  rw [hm]
  unfold linesOf
  cases hd : msgDecode regFull .message2 d with
  | error x =>
    have := msgDecode_exc imported_full hd
    simp only [this, if_true]
    exact ⟨s, rfl, hc, rfl, rfl, by simp⟩
  | ok m =>
    simp only
    by_cases ha : accepts .v2 m
    · rw [if_pos ha]
      unfold dispatched
      cases hans : answers .v2 m with
      | some n =>
        have hat : s.callbacks.at n = none := by rw [hc]; rfl
        have ht : ¬ isTrap .v2 m := by
          intro ht
          have := answers_trap .v2 m ht.1
          rw [this] at hans; cases hans
        simp only [hat, Exc.isException, if_true]
        exact ⟨s, rfl, hc, rfl, rfl, by simp [ht]⟩
      | none =>
        simp only
        by_cases ht : isTrap .v2 m
        · simp only [if_pos ht]
          obtain ⟨r, hr⟩ := passive_invoke (trapUser_passive texts other) listenEnv responseCb (some m) s
          have : listenEnv.trapCallback = some responseCb := rfl
          simp only [this]
          rw [hr]
          refine ⟨(s.note (.entered responseCb (some m))).note (.left responseCb (some m) r), ?_, hc, rfl, ?_, ?_⟩
          · cases r with
            | ok u => rfl
            | error x =>
              have hx : x.isException = true := by
                refine trapUser_exc texts other responseCb (some m) (s.note (.entered responseCb (some m))) x ?_
                exact congrArg Prod.fst hr
              simp [hx]
          · simp [Mgr.note, sentOut]
          · rw [if_pos ⟨ha, ht⟩]; simp [Mgr.note, printed]
        · simp only [if_neg ht, ht, and_false, if_false, false_and]
          exact ⟨s, by simp, hc, rfl, rfl, by simp⟩
    · have : (unknownVersion m.version).isException = true := by unfold unknownVersion; split <;> rfl
      simp only [ha, if_false, this, if_true, false_and]
      exact ⟨s, rfl, hc, rfl, rfl, by simp⟩

theorem listen_turn (texts : Table) (other : Val → Option Str) (t : Net) (s : Mgr .v2) (hc : s.callbacks = []) (ho : s.outbound = []) :
    ∃ s', iterate listenEnv .v2 (fun cb m => (trapUser texts other cb m).exec listenEnv) t.socket t.datagram s = (.ok (), s') ∧
      s'.callbacks = [] ∧ s'.outbound = [] ∧ sentOut s'.log = sentOut s.log ∧
      printed (fun m => (trapCheck texts other m).1) s'.log =
        printed (fun m => (trapCheck texts other m).1) s.log ++ (t.datagram.map (linesOf texts other)).getD [] := by
  have h0 : iterate listenEnv .v2 (fun cb m => (trapUser texts other cb m).exec listenEnv) t.socket t.datagram s =
      poll listenEnv .v2 (fun cb m => (trapUser texts other cb m).exec listenEnv) t.datagram s := by
    simp only [iterate, v1Iterate, takeAndSend, ho]
    rfl
  rw [h0]
  cases t.datagram with
  | none => exact ⟨s, rfl, hc, ho, rfl, by simp⟩
  | some d =>
    obtain ⟨s', h1, h2, h3, h4, h5⟩ := listen_receive texts other d s hc
    refine ⟨s', ?_, h2, by rw [h3, ho], h4, by simpa using h5⟩
    simp only [poll, h1]

theorem listen_run (texts : Table) (other : Val → Option Str) (net : List Net) (s : Mgr .v2) (hc : s.callbacks = []) (ho : s.outbound = []) :
    let r := runScript listenEnv (trapUser texts other) (fun m => (trapCheck texts other m).1) net s
    r.status = .running ∧ r.mgr.outbound = [] ∧ sentOut r.mgr.log = sentOut s.log ∧
      r.out = printed (fun m => (trapCheck texts other m).1) s.log ++ (net.filterMap Net.datagram).flatMap (linesOf texts other) := by
  induction net generalizing s with
  | nil => exact ⟨rfl, ho, rfl, by simp [runScript, run, pure]⟩
  | cons t net ih =>
    obtain ⟨s', h1, h2, h3, h4, h5⟩ := listen_turn texts other t s hc ho
    obtain ⟨i1, i2, i3, i4⟩ := ih s' h2 h3
    have hr : runScript listenEnv (trapUser texts other) (fun m => (trapCheck texts other m).1) (t :: net) s =
        runScript listenEnv (trapUser texts other) (fun m => (trapCheck texts other m).1) net s' := by
      rw [runScript_eq, runScript_eq, List.map_cons, run_cons]
      simp only [h1]
    intro r
    have hr : r = _ := hr
    rw [hr]
    refine ⟨i1, i2, i3.trans h4, ?_⟩
    rw [i4, h5]
    cases ht : t.datagram <;> simp [ht]

/-! ## What is printed -/

theorem any_text (h : List Creation) {a : Asn} {y : Val} (hy : Denotes regFull a y) {name : String} {t : Str}
    (hd : Displayed a name t) : valStr (errTexts h) y = .ok t :=
  (C62_text h y t).mpr (denotes_displayed hy hd).2

theorem bindings_listened (h : List Creation) {bs : List VB} {ys : List Val} (hc : Carries regFull bs ys) {ls : List Str}
    (hl : List.Forall₂ BindingLine bs ls) : trapBindings (errTexts h) ys = (ls, .ok ()) := by
  induction hl generalizing ys with
  | nil => cases hc; rfl
  | @cons b l bs ls h1 _ ih =>
    cases hc with
    | cons hb hc =>
      obtain ⟨cb, x, y, _, rfl, d1, d2⟩ := hb
      obtain ⟨n, name, t, e1, e2, rfl⟩ := h1
      unfold trapBindings
      simp only [any_text h d1 e1, any_text h d2 e2, ih hc, List.append_assoc]

theorem trapped (other : Val → Option Str) {version : Int} {com : Str} {p : Trap} {o : Str}
    (ho : TrapMessageOctets version com p o) (hp : HoldableTrap p) :
    ∃ m, msgDecode regFull .message2 (.str o) = .ok m ∧ versionNo m = some version ∧ CarriesTrap regFull p m.data := by
  obtain ⟨ci, co, y, h1, h2⟩ := C73_trap_decoded (imported_understands imported_full) (by rfl) .message2 ho hp.1 hp.2.1 hp.2.2
  exact ⟨_, h1, rfl, h2⟩

theorem listened_lines (h : List Creation) (other : Val → Option Str) {d : Val} {lines : List Str} (hd : Listened d lines) :
    linesOf (errTexts h) other d = lines := by
  have isTr : ∀ {m : Msg} {p : Trap}, CarriesTrap regFull p m.data → isTrap .v2 m := by
    rintro m p ⟨_, _, _, _, _, hy, _⟩
    refine ⟨by rw [hy]; rfl, by simp⟩
  cases hd with
  | @trap version com p o l ls hv ho hp hl hls =>
    obtain ⟨m, h1, h2, h3⟩ := trapped other ho hp
    have ha : accepts .v2 m := by rcases hv with rfl | rfl <;> simp [accepts, h2]
    unfold linesOf
    rw [h1]
    simp only [if_pos (And.intro ha (isTr h3))]
    obtain ⟨ent, addr, cs, ct, ys, hy, d1, d2, d3, d4, d5⟩ := h3
    obtain ⟨t1, t2, g, name, sp, ts, e1, e2, e3, e4, e5, e6, rfl⟩ := hl
    unfold trapCheck
    rw [hy]
    have hg : genericTrapEnum p.generic none = .ok (lit name) := (trapName_iff _ _).mpr ⟨name, rfl, e4⟩
    have hh : trapHeader (errTexts h) other ent addr (.integer .genericTrap p.generic) (.integer cs p.specific)
        (.integer ct p.timestamp) = .ok (t1 ++ lit "," ++ t2 ++ lit "," ++ g ++ lit "," ++ lit name ++ lit "," ++ sp ++ lit "," ++ ts) := by
      unfold trapHeader
      simp only [bind, Except.bind, any_text h d1 e1, any_text h d2 e2, hg, any_text h d3 (.integer e5), valueStr,
        (decimal_iff _ _).mpr e3, (decimal_iff _ _).mpr e6, pyJoin]
      simp
    simp only [hh, bindings_listened h d5 hls]
  | @noName version com p o hv ho hp hg =>
    obtain ⟨m, h1, h2, h3⟩ := trapped other ho hp
    unfold linesOf
    rw [h1]
    simp only
    split
    · obtain ⟨ent, addr, cs, ct, ys, hy, d1, d2, d3, d4, d5⟩ := h3
      unfold trapCheck
      rw [hy]
      have hg : ∃ e, genericTrapEnum p.generic none = .error e := by
        cases hx : genericTrapEnum p.generic none with
        | error e => exact ⟨e, rfl⟩
        | ok t =>
          obtain ⟨s, _, hmem⟩ := (trapName_iff _ _).mp hx
          exfalso
          apply hg
          simp only [Option.getD_none, trapNames, List.mem_cons, Prod.mk.injEq, List.not_mem_nil, or_false] at hmem
          rcases hmem with ⟨h, _⟩ | ⟨h, _⟩ | ⟨h, _⟩ | ⟨h, _⟩ | ⟨h, _⟩ | ⟨h, _⟩ | ⟨h, _⟩ <;> omega
      obtain ⟨e, hg⟩ := hg
      obtain ⟨_, t1, e1⟩ := displayed_exists (.oid p.enterprise)
      obtain ⟨_, t2, e2⟩ := displayed_exists (.string .ipAddress p.agent)
      have hh : trapHeader (errTexts h) other ent addr (.integer .genericTrap p.generic) (.integer cs p.specific)
          (.integer ct p.timestamp) = .error e := by
        unfold trapHeader
        simp only [bind, Except.bind, any_text h d1 e1, any_text h d2 e2, hg]
      simp only [hh]
    · rfl
  | @trapVersion version com p o h0 h1 ho hp =>
    obtain ⟨m, g1, g2, g3⟩ := trapped other ho hp
    unfold linesOf
    rw [g1]
    simp only
    rw [if_neg]
    rintro ⟨ha, _⟩
    simp only [accepts, g2, Option.some.injEq] at ha
    rcases ha with ha | ⟨_, ha⟩
    · exact h0 ha
    · exact h1 ha
  | @pdu version com p o ht ho hr he hi hb hl =>
    have hc : ∃ c, regFull p.tag = some (.seq c) ∧ c ∈ pduClasses ∧ p.tag % 32 ≠ 31 := by
      simp only [List.mem_cons, List.not_mem_nil, or_false] at ht
      rcases ht with h | h | h | h | h | h | h | h <;> rw [h] <;> exact ⟨_, rfl, by decide, by decide⟩
    obtain ⟨c, hc, hcp, hm⟩ := hc
    obtain ⟨ci, co, y, ys, g1, _, ⟨c1, c2, c3, cl, _, rfl⟩, _⟩ :=
      message_decoded (imported_understands imported_full) .message2 c ho hm hc hcp hr he hi hb hl
    unfold linesOf
    rw [g1]
    simp only
    rw [if_neg]
    rintro ⟨_, ht, _⟩
    simp only [Val.isInstance, Val.cls?] at ht
    rw [(trap_class_iff c).mpr ht] at hcp
    revert hcp
    decide
  | refused hr =>
    unfold linesOf
    cases hm : msgDecode regFull .message2 d with
    | error e => rfl
    | ok m => exact absurd hm (hr m)

/-! ## C78 -/

/-- **C78**: whatever arrives, traplistener.py goes on running, and it never sends anything. -/
theorem C78_listener_survives (h : List Creation) (other : Val → Option Str) (net : List Net) :
    let r := traplistener (errTexts h) other net
    r.status = .running ∧ sentOut r.mgr.log = [] ∧ r.mgr.outbound = [] := by
  obtain ⟨h1, h2, h3, _⟩ := listen_run (errTexts h) other net {} rfl rfl
  exact ⟨h1, h3, h2⟩

/-- **C78**: traplistener.py prints, for one datagram after the other, the lines of that datagram and nothing else. -/
theorem C78_listener_prints (h : List Creation) (other : Val → Option Str) (net : List Net) (lines : List (List Str))
    (hl : List.Forall₂ Listened (net.filterMap Net.datagram) lines) :
    (traplistener (errTexts h) other net).out = lines.flatten := by
  obtain ⟨_, _, _, h4⟩ := listen_run (errTexts h) other net {} rfl rfl
  have : (net.filterMap Net.datagram).flatMap (linesOf (errTexts h) other) = lines.flatten := by
    generalize net.filterMap Net.datagram = ds at hl
    induction hl with
    | nil => rfl
    | cons h1 _ ih => rw [List.flatMap_cons, List.flatten_cons, listened_lines h other h1, ih]
  rw [← this]
  exact h4

/-- **C78**: on Python 3, where sockets deliver bytes, it never prints anything. -/
theorem C78_listener_bytes (h : List Creation) (other : Val → Option Str) (net : List Net)
    (hb : ∀ t ∈ net, ∀ d, t.datagram = some d → ∃ b, d = .bytes b) : (traplistener (errTexts h) other net).out = [] := by
  have := C78_listener_prints h other net ((net.filterMap Net.datagram).map fun _ => []) ?_
  · rw [this]; simp
  · have hd : ∀ d ∈ net.filterMap Net.datagram, ∃ b, d = Val.bytes b := by
      intro d hd
      obtain ⟨t, ht, htd⟩ := List.mem_filterMap.mp hd
      exact hb t ht d htd
    generalize net.filterMap Net.datagram = ds at hd
    induction ds with
    | nil => exact .nil
    | cons d ds ih =>
      refine .cons ?_ (ih fun x hx => hd x (List.mem_cons_of_mem _ hx))
      obtain ⟨b, rfl⟩ := hd d (List.mem_cons_self ..)
      refine .refused fun m hm => ?_
      cases hm

/-- **C78**: trapsender.py never sends a trap: when its loop finds nothing to do the first time, it ends with AttributeError
(C63: no class can find out its own address), whatever the time, the uptime and the network. -/
theorem C78_sender (dest : Nat) (time : Str) (uptime : Int) (t : Net) (net : List Net) :
    let r := trapsender dest time uptime (t :: net)
    r.status = .traceback .attributeError ∧ sentOut r.mgr.log = [] ∧ r.mgr.outbound = [] := by
  have hu : sendUser dest time uptime idleCb none = .raise .attributeError := by
    have h1 : mkOid (.str (lit ".1.3.6.1.4.5.6.7")) = .ok (some [1, 3, 6, 1, 4, 5, 6, 7]) := by decide +kernel
    have h2 : ∃ v, mkOid (.str (lit ".1.3.6.1.4")) = .ok v := ⟨some [1, 3, 6, 1, 4], by decide +kernel⟩
    have h3 : ∀ vbl, createTrapPDU .v2 vbl 2 (.str (lit ".1.3.6.1.4")) .none 6 0 uptime = .error .attributeError :=
      fun vbl => (C63_default_agent .v2 vbl 2 _ 6 0 uptime).2 h2
    simp only [sendUser, h1, bind, Except.bind, h3]
    rfl
  have hi : iterate sendEnv .v2 (fun cb m => (sendUser dest time uptime cb m).exec sendEnv) t.socket t.datagram {} =
      (.error .attributeError, ((({} : Mgr .v2).note (.entered idleCb none)).note (.left idleCb none (.error .attributeError)))) := by
    simp only [iterate, v1Iterate, takeAndSend, M.bind_def, callQueueEmpty, sendEnv, invoke, hu, Act.exec]
  intro r
  have hr : r = _ := runScript_eq sendEnv (sendUser dest time uptime) (fun _ => []) (t :: net) {}
  rw [List.map_cons, run_cons] at hr
  simp only [hi] at hr
  rw [hr]
  exact ⟨rfl, rfl, rfl⟩

/-- **C78**: snmpget-v1.py and snmpget-v2.py end with TypeError before they look at their command line. -/
theorem C78_old_get {k : Kind} (rest : List Str → List Net → ScriptRun k) (args : List Str) (net : List Net) :
    let r := snmpgetOld rest args net
    r.status = .traceback .typeError ∧ r.out = [] ∧ sentOut r.mgr.log = [] := ⟨rfl, rfl, rfl⟩

/-- A link-down trap of 10.0.0.1 for 1.3.6 with the binding 1.3.6 = 7. -/
def linkDown : Trap := ⟨[1, 3, 6], [10, 0, 0, 1], 2, 0, 5, [⟨[1, 3, 6], .integer 7⟩]⟩

/-- Its octets. -/
def linkDownOctets : Str :=
  [48, 43, 2, 1, 0, 4, 6, 112, 117, 98, 108, 105, 99, 164, 30, 6, 2, 43, 6, 64, 4, 10, 0, 0, 1, 2, 1, 2, 2, 1, 0, 67, 1, 5,
    48, 9, 48, 7, 6, 2, 43, 6, 2, 1, 7]

/-- The hypothesis of `C78_listener_prints` is met by this trap (and by garbage before and after it), and the program run on
them prints just that. -/
example : Listened (.str linkDownOctets) [lit ".1.3.6,10.0.0.1,2,linkDown,0,5", lit "  .1.3.6,7"] ∧ Listened (.str [4, 1, 0]) [] ∧
    (traplistener (errTexts []) (fun _ => none) [⟨.ok (), some (.str [4, 1, 0])⟩, ⟨.ok (), some (.str linkDownOctets)⟩,
      ⟨.ok (), none⟩, ⟨.ok (), some (.str [4, 1, 0])⟩]).out = [lit ".1.3.6,10.0.0.1,2,linkDown,0,5", lit "  .1.3.6,7"] := by
  have b3 : Ber (.oid [1, 3, 6]) [6, 2, 43, 6] := by
    refine .oid _ [43, 6] _ ?_ ⟨[2], .short 2 (by decide), rfl⟩
    have g : ∀ n < 128, Base128 n [n] := fun n h => by simpa [ofDigits] using Base128.mk [] n (by simp) h
    exact OidContents.mk 1 3 [6] [43] [6] (by decide) (by decide) (g 43 (by decide)) (by decide) (.cons (g 6 (by decide)) .nil)
  have bi : ∀ n : Nat, n ∈ [0, 2, 7] → Ber (.integer n) [2, 1, n] := by
    intro n h
    have e : twos [n] = n := by revert n; decide
    have := Ber.integer [n] [2, 1, n] (by simp) (by revert n; decide) ⟨[1], .short 1 (by decide), rfl⟩
    rwa [e] at this
  have d3 : Displayed (.oid [1, 3, 6]) "ObjectID" (lit ".1.3.6") := by
    refine .oid (ts := [lit "1", lit "3", lit "6"]) (t := lit "1.3.6") ?_ ((joined_iff _ _ _).mp (by decide +kernel))
    exact .cons ((decimal_iff _ _).mp (by decide +kernel)) (.cons ((decimal_iff _ _).mp (by decide +kernel))
      (.cons ((decimal_iff _ _).mp (by decide +kernel)) .nil))
  refine ⟨?_, ?_, by decide +kernel⟩
  · refine .trap (version := 0) (com := lit "public") (p := linkDown) (.inl rfl) ?_ ?_ ?_ ?_
    · refine .mk (s1 := [2, 1, 0]) (s2 := [4, 6, 112, 117, 98, 108, 105, 99]) (s3 := linkDownOctets.drop 13) (bi 0 (by decide))
        (.string .octetString (lit "public") _ ⟨[6], .short 6 (by decide), rfl⟩) ?_ ⟨[43], .short 43 (by decide), rfl⟩
      refine .mk (s1 := [6, 2, 43, 6]) (s2 := [64, 4, 10, 0, 0, 1]) (s3 := [2, 1, 2]) (s4 := [2, 1, 0]) (s5 := [67, 1, 5])
        (s6 := [48, 9, 48, 7, 6, 2, 43, 6, 2, 1, 7]) b3 (.string .ipAddress _ _ ⟨[4], .short 4 (by decide), rfl⟩)
        (bi 2 (by decide)) (bi 0 (by decide)) ?_ ?_ ⟨[30], .short 30 (by decide), rfl⟩
      · exact .unsigned .timeTicks 5 [5] _ (by simp) (by decide) (by decide) ⟨[1], .short 1 (by decide), rfl⟩
      · refine .seq _ [48, 7, 6, 2, 43, 6, 2, 1, 7] _ ?_ ⟨[9], .short 9 (by decide), rfl⟩
        refine .cons (s := [48, 7, 6, 2, 43, 6, 2, 1, 7]) (t := []) ?_ .nil
        refine .seq _ [6, 2, 43, 6, 2, 1, 7] _ ?_ ⟨[7], .short 7 (by decide), rfl⟩
        exact .cons (s := [6, 2, 43, 6]) (t := [2, 1, 7]) b3 (.cons (s := [2, 1, 7]) (t := []) (bi 7 (by decide)) .nil)
    · refine ⟨⟨by decide, by decide⟩, ⟨_, .oid 1 3 [6] rfl (by decide)⟩, ?_⟩
      intro b hb
      simp only [linkDown, List.mem_singleton] at hb
      subst hb
      exact ⟨⟨_, .oid 1 3 [6] rfl (by decide)⟩, ⟨_, .integer 7 .integer32 rfl (by decide)⟩⟩
    · refine ⟨lit ".1.3.6", lit "10.0.0.1", lit "2", "linkDown", lit "0", lit "5", d3, ?_, (decimal_iff _ _).mp (by decide +kernel),
        by decide, (decimal_iff _ _).mp (by decide +kernel), (decimal_iff _ _).mp (by decide +kernel), by decide +kernel⟩
      refine .address (ts := [lit "10", lit "0", lit "0", lit "1"]) ?_ ((joined_iff _ _ _).mp (by decide +kernel))
      exact .cons ((decimal_iff _ _).mp (by decide +kernel)) (.cons ((decimal_iff _ _).mp (by decide +kernel))
        (.cons ((decimal_iff _ _).mp (by decide +kernel)) (.cons ((decimal_iff _ _).mp (by decide +kernel)) .nil)))
    · exact .cons ⟨lit ".1.3.6", "Integer32", lit "7", d3, .integer ((decimal_iff _ _).mp (by decide +kernel)), by decide +kernel⟩ .nil
  · refine .refused fun m hm => ?_
    have h : msgDecode regFull .message2 (.str [4, 1, 0]) = .error .typeError := by decide +kernel
    rw [h] at hm
    cases hm

end Libsnmp
