import Verif.Lemmas.Logging
import Verif.Props.Responses
import Mathlib.Tactic.Common

/-! # C85: what is logged -/

namespace Libsnmp
open Spec LogLemmas

/-! ## Lines written, whatever a program imports and in whatever order -/

/-- A library logger: its ancestors are not loggers, so only its own level and handlers and those of the root count. -/
theorem library_lines {l : List LogAct} (hl : ∀ a ∈ l, leavesAlone a = true) {n : LogName} (hn : n ∈ libraryLoggers)
    (hm : made n l = true) : ∃ g : Lgr, g.handlers = (newLogger (debugFirst n l)).handlers ∧
      (g.level = (newLogger (debugFirst n l)).level ∨ g.level = 20 ∧ setters n ≠ []) ∧
      (∀ m ∈ setters n, .imp m ∈ l → g.level = 20) ∧
      effectiveLevel (logsAfter l).logs n = (if g.level = 0 then rootLevelOf l else g.level) ∧
      handlersMet (logsAfter l).logs n = g.handlers + rootHandlersOf l := by
  obtain ⟨g, h1, h2, h3, h4⟩ := logger_after hl hn hm
  have inv := inv_after l hl
  refine ⟨g, h2, h3, h4, ?_⟩
  have hchain : (ancestry n).filterMap (logsAfter l).logs.loggers = [g] := by
    have hc : ancestry n = [n] ∨ ∃ a, ancestry n = [n, a] ∧ (a = ["v1"] ∨ a = ["v2"]) := by
      clear h1 h2 h3 h4 hm inv
      revert n
      simp only [libraryLoggers, List.mem_cons, List.not_mem_nil, or_false]
      rintro n (rfl | rfl | rfl | rfl | rfl | rfl | rfl)
      · exact .inl (by decide)
      · exact .inl (by decide)
      · exact .inl (by decide)
      · exact .inl (by decide)
      · exact .inr ⟨["v1"], by decide, .inl rfl⟩
      · exact .inr ⟨["v2"], by decide, .inr rfl⟩
      · exact .inl (by decide)
    rcases hc with hc | ⟨a, hc, ha⟩
    · rw [hc]; simp [h1]
    · rw [hc]
      have : (logsAfter l).logs.loggers a = none := by
        rcases ha with rfl | rfl
        · exact inv.above.1
        · exact inv.above.2
      simp [h1, this]
  constructor
  · unfold effectiveLevel
    rw [hchain, inv.rootL]
    by_cases h0 : g.level = 0 <;> simp [h0]
  · unfold handlersMet
    rw [hchain, inv.rootH]
    simp

/-- C85: an ERROR record of any of the library's loggers is never lost: whatever modules a program imports, in whatever order,
with or without `debug`, and whatever it does with loggers of its own, the record is written - exactly once as long as the
program does not configure the root logger; otherwise once by each handler of the root, and once more if `debug` was imported
before the module that made the logger. -/
theorem C85_errors (l : List LogAct) (hl : ∀ a ∈ l, leavesAlone a = true) (n : LogName) (hn : n ∈ libraryLoggers)
    (hm : made n l = true) (hr : rootLevelOf l ≤ 40) :
    linesWritten (logsAfter l).logs n 40 = max 1 ((if debugFirst n l then 1 else 0) + rootHandlersOf l) := by
  obtain ⟨g, h1, h2, _, h4, h5⟩ := library_lines hl hn hm
  unfold linesWritten
  have hlt : ¬ 40 < effectiveLevel (logsAfter l).logs n := by
    rw [h4]
    split
    · omega
    · rcases h2 with h2 | h2
      · rw [h2]
        unfold newLogger
        split <;> simp
      · omega
  rw [if_neg hlt, h5, h1]
  unfold newLogger
  cases debugFirst n l with
  | true => simp only [if_true]; split <;> omega
  | false => simp only [Bool.false_eq_true, if_false]; split <;> simp_all; omega

/-- C85: the debugging records - all of the decoder's and encoder's, and those of the managers - are never written, not even
by a program that imports `debug` or turns the root logger up to DEBUG. -/
theorem C85_debug_silent (l : List LogAct) (hl : ∀ a ∈ l, leavesAlone a = true) (n : LogName)
    (hn : n = logAsn1 ∧ made n l = true ∨ n = logV1 ∧ (∃ m ∈ brings .v1, .imp m ∈ l) ∨ n = logV2 ∧ ∃ m ∈ brings .v2, .imp m ∈ l) :
    linesWritten (logsAfter l).logs n 10 = 0 := by
  have key : n ∈ libraryLoggers ∧ made n l = true ∧ ∃ m ∈ setters n, .imp m ∈ l := by
    rcases hn with ⟨rfl, h⟩ | ⟨rfl, m, hm, h⟩ | ⟨rfl, m, hm, h⟩
    · refine ⟨by decide, h, ?_⟩
      simp only [made, List.any_eq_true] at h
      obtain ⟨y, hy, hy2⟩ := h
      cases y with
      | imp x =>
        refine ⟨x, ?_, hy⟩
        have : x ∈ makers logAsn1 := by simpa using hy2
        exact this
      | _ => simp at hy2
    · refine ⟨by decide, ?_, m, hm, h⟩
      simp only [made, List.any_eq_true]
      refine ⟨_, h, ?_⟩
      revert hm
      cases m <;> decide
    · refine ⟨by decide, ?_, m, hm, h⟩
      simp only [made, List.any_eq_true]
      refine ⟨_, h, ?_⟩
      revert hm
      cases m <;> decide
  obtain ⟨h1, h2, m, h3, h4⟩ := key
  obtain ⟨g, _, _, h5, h6, _⟩ := library_lines hl h1 h2
  have := h5 m h3 h4
  unfold linesWritten
  rw [if_pos]
  rw [h6, this]
  simp

/-- C85: the INFO record of `snmpManager` about a message that is neither an answer nor a trap is written only when `debug` was
imported before `snmpmanager`, or the program turned the root logger to INFO and gave it a handler. -/
theorem C85_info (l : List LogAct) (hl : ∀ a ∈ l, leavesAlone a = true) (hm : .imp .snmpmanager ∈ l) :
    linesWritten (logsAfter l).logs logManager 20 =
      if debugFirst logManager l then 1 + rootHandlersOf l else if rootLevelOf l ≤ 20 then rootHandlersOf l else 0 := by
  have hmade : made logManager l = true := by
    simp only [made, List.any_eq_true]
    exact ⟨_, hm, by decide⟩
  obtain ⟨g, h1, h2, _, h4, h5⟩ := library_lines hl (n := logManager) (by decide) hmade
  have h2 : g.level = (newLogger (debugFirst logManager l)).level := by
    rcases h2 with h2 | h2
    · exact h2
    · exact absurd h2.2 (by decide)
  unfold linesWritten
  rw [h4, h5, h1, h2]
  unfold newLogger
  cases debugFirst logManager l with
  | true =>
    simp only [if_true]
    rw [if_neg (by simp), if_neg (by omega)]
  | false =>
    simp only [Bool.false_eq_true, if_false, if_true, Nat.zero_add]
    by_cases h : rootLevelOf l ≤ 20
    · rw [if_neg (by omega), if_pos h]
      split
      · next h0 => rw [h0]; simp
      · rfl
    · rw [if_pos (by omega), if_neg h]

/-- C85: the loggers of the program itself.  Importing `debug` changes what they do: every logger the program makes afterwards
writes all its records, from DEBUG up, without any configuration - and once more than configured if there is one; without
`debug`, Python's defaults apply. -/
theorem C85_own_logger (l : List LogAct) (hl : ∀ a ∈ l, leavesAlone a = true) (n : LogName) (hne : n ≠ [])
    (hfresh : ∀ x ∈ ancestry n, x ∉ libraryLoggers ∧ .getLogger x ∉ l ∧ ∀ v, .setLevel x v ∉ l) (level : Nat) :
    linesWritten (getLogger n (logsAfter l).logs) n level =
      if .imp .debug ∈ l then (if 10 ≤ level then 1 + rootHandlersOf l else 0)
      else if rootLevelOf l ≤ level then (if rootHandlersOf l = 0 then (if 30 ≤ level then 1 else 0) else rootHandlersOf l)
      else 0 := by
  have inv := inv_after l hl
  have hnone : ∀ x ∈ ancestry n, (logsAfter l).logs.loggers x = none := by
    intro x hx
    obtain ⟨h1, h2, h3⟩ := hfresh x hx
    clear hfresh inv hx
    induction l using List.reverseRecOn with
    | nil => rfl
    | append_singleton l a ih =>
      have ih := ih (fun b hb => hl b (List.mem_append_left _ hb)) (fun hh => h2 (List.mem_append_left _ hh))
        (fun v hh => h3 v (List.mem_append_left _ hh))
      have e : logsAfter (l ++ [a]) = a.run (logsAfter l) := by simp [logsAfter]
      rw [e]
      cases a with
      | imp m =>
        simp only [LogAct.run]
        by_cases hm : m = .debug
        · subst hm
          show (logDebug (logsAfter l)).logs.loggers x = none
          unfold logDebug loadLog
          split
          · exact ih
          · exact ih
        · obtain ⟨S, hS, _⟩ := good_imp m hm
          rw [hS.quiet _ x (fun y _ => makers_none h1 y)]
          exact ih
      | getLogger y =>
        have : x ≠ y := by rintro rfl; exact h2 (by simp)
        simp only [LogAct.run]
        rw [getLogger_other this]; exact ih
      | setLevel y v =>
        have : x ≠ y := by rintro rfl; exact h3 v (by simp)
        simp only [LogAct.run]
        rw [setLevel_other this]; exact ih
      | rootHandler => exact ih
      | rootLevel v => exact ih
  have hn : n ∈ ancestry n := by
    unfold ancestry
    rw [List.mem_map]
    refine ⟨0, ?_, by simp⟩
    rw [List.mem_range]
    exact List.length_pos_of_ne_nil hne
  have hg : (getLogger n (logsAfter l).logs) =
      { (logsAfter l).logs with loggers := fun x => if x = n then some (newLogger (logsAfter l).logs.snmpClass) else
        (logsAfter l).logs.loggers x } := by
    unfold getLogger
    rw [hnone n hn]
  have hchain : (ancestry n).filterMap (getLogger n (logsAfter l).logs).loggers = [newLogger (hasDebug l)] := by
    have hpos : 0 < n.length := List.length_pos_of_ne_nil hne
    obtain ⟨k, hk⟩ : ∃ k, n.length = k + 1 := ⟨n.length - 1, by omega⟩
    have e : ancestry n = n :: ((List.range k).map fun i => n.take (n.length - (i + 1))) := by
      unfold ancestry
      rw [hk, List.range_succ_eq_map]
      simp [hk, List.take_of_length_le (Nat.le_of_eq hk)]
    have hrest : ((List.range k).map fun i => n.take (n.length - (i + 1))).filterMap
        (getLogger n (logsAfter l).logs).loggers = [] := by
      rw [List.filterMap_eq_nil_iff]
      intro x hx
      have hxa : x ∈ ancestry n := by rw [e]; exact List.mem_cons_of_mem _ hx
      rw [List.mem_map] at hx
      obtain ⟨i, _, rfl⟩ := hx
      have hne2 : n.take (n.length - (i + 1)) ≠ n := by
        intro h
        have := congrArg List.length h
        rw [List.length_take] at this
        omega
      rw [hg]
      simp only [hne2, if_false]
      exact hnone _ hxa
    rw [e, List.filterMap_cons_some (b := newLogger (hasDebug l)) (by rw [hg]; simp [inv.cls]), hrest]
  have h1 : effectiveLevel (getLogger n (logsAfter l).logs) n = if hasDebug l then 10 else rootLevelOf l := by
    unfold effectiveLevel
    rw [hchain, hg, ← inv.rootL]
    unfold newLogger
    cases hasDebug l <;> simp
  have h2 : handlersMet (getLogger n (logsAfter l).logs) n = (if hasDebug l then 1 else 0) + rootHandlersOf l := by
    unfold handlersMet
    rw [hchain, hg, ← inv.rootH]
    unfold newLogger
    cases hasDebug l <;> simp
  have hd : (hasDebug l = true) ↔ .imp .debug ∈ l := by
    unfold hasDebug
    rw [List.any_eq_true]
    constructor
    · rintro ⟨a, ha, h⟩
      split at h
      · exact ha
      · simp at h
    · intro h; exact ⟨_, h, rfl⟩
  unfold linesWritten
  rw [h1, h2]
  by_cases h : .imp .debug ∈ l
  · rw [if_pos h, hd.mpr h]
    simp only [if_true]
    by_cases hle : 10 ≤ level
    · rw [if_neg (by omega), if_neg (by omega), if_pos hle]
    · rw [if_pos (by omega), if_neg hle]
  · have hf : hasDebug l = false := by
      cases hh : hasDebug l
      · rfl
      · exact absurd (hd.mp hh) h
    rw [if_neg h, hf]
    simp only [Bool.false_eq_true, if_false, Nat.zero_add]
    by_cases hle : rootLevelOf l ≤ level
    · rw [if_neg (by omega), if_pos hle]
    · rw [if_pos (by omega), if_neg hle]

/-- snmpwalk.py:8-14, 42, 46: the script's own logger.  "No such object!" is written once, "End of MIB View" is not. -/
theorem C85_snmpwalk : ∀ name ∉ libraryLoggers, name.length = 1 →
    let L := (logsAfter [.imp .snmpmanager, .imp .util, .getLogger name]).logs
    linesWritten L name 40 = 1 ∧ linesWritten L name 20 = 0 := by
  intro name hn hlen
  obtain ⟨a, rfl⟩ : ∃ a, name = [a] := List.length_eq_one_iff.mp hlen
  have key : ∀ lv, linesWritten (getLogger [a] (logsAfter [.imp .snmpmanager, .imp .util]).logs) [a] lv = _ :=
    fun lv => C85_own_logger [.imp .snmpmanager, .imp .util] (by decide) [a] (by simp) (by
      intro x hx
      have : x = [a] := by simpa [ancestry] using hx
      subst this
      exact ⟨hn, by simp, by simp⟩) lv
  exact ⟨(key 40).trans (by decide), (key 20).trans (by decide)⟩

/-! ## What the operator is told about a datagram -/

theorem seen_append (L : Logs) (a b : List Report) : seen L (a ++ b) = seen L a ++ seen L b := by
  induction a with
  | nil => rfl
  | cons x a ih =>
    cases x with
    | record n lv t => simp [seen, ih]
    | traceback e => simp [seen, ih]

/-- What is seen besides the report of a failure. -/
theorem seen_reports (env : Env) (k : Kind) (user : User k) (data : Val) (s : Mgr k) (L : Logs)
    (h10 : k ≠ .sm → linesWritten L (loggerOf k) 10 = 0) (h40 : linesWritten L (loggerOf k) 40 = 1) :
    seen L (receiveReports env k user data s) =
      (match msgDecode env.reg (msgCls k) data with
        | .error _ => []
        | .ok m =>
          if accepts k m then
            (if k = .sm ∧ versionNo m = some 0 ∧ m.data.isInstance (.seq .pdu) = false ∧ m.data.isInstance (.seq .trapPDU) = false
              then List.replicate (linesWritten L logManager 20) (.record logManager 20 .unknownTypeV1) else [])
          else versionTold k m.version) ++
      (match (receiveRaw env k user data s).1 with
        | .ok () => []
        | .error e => if e.isException then told k e else []) := by
  have hv : ∀ v, seen L (versionReports (loggerOf k) v) = versionTold k v := by
    intro v
    cases v <;> simp [versionReports, versionTold, seen, h40]
  have hdisp : k ≠ .sm → ∀ m, seen L (dispatchReports (loggerOf k) m) = [] := by
    intro hk m
    unfold dispatchReports
    split
    · rfl
    · split <;> simp [seen, h10 hk]
  cases k with
  | v1 =>
    simp only [receiveReports, v1Reports, msgCls, receiveRaw]
    rw [seen_append]
    congr 1
    · cases hm : msgDecode env.reg .message data with
      | error e => rfl
      | ok m =>
        simp only [versionIs_eq]
        by_cases h0 : versionNo m = some 0
        · have : accepts .v1 m := .inl h0
          simp only [h0, decide_true, if_pos this]
          have h2 := hdisp (by simp) m
          simp only [loggerOf] at h2 h10
          simp [seen, h10, h2]
        · have : ¬ accepts .v1 m := by simp [accepts, h0]
          simp only [h0, decide_false, if_neg this]
          exact hv _
    · unfold v1Caught
      cases (v1ReceiveData env user data s).1 with
      | ok u => rfl
      | error e =>
        simp only
        simp only [loggerOf] at h40
        split
        · simp [seen, h40, told]
        · rfl
  | v2 =>
    simp only [receiveReports, v2Reports, msgCls, receiveRaw]
    rw [seen_append]
    congr 1
    · cases hm : msgDecode env.reg .message2 data with
      | error e => rfl
      | ok m =>
        simp only [versionIs_eq]
        have h2 := hdisp (by simp) m
        simp only [loggerOf] at h2 h10
        by_cases h0 : versionNo m = some 0
        · have : accepts .v2 m := .inl h0
          simp only [h0, decide_true, if_pos this]
          simp [seen, h10, h2]
        · by_cases h1 : versionNo m = some 1
          · have : accepts .v2 m := .inr ⟨by simp, h1⟩
            simp only [h1, decide_true, if_pos this]
            simp [seen, h10, h2]
          · have : ¬ accepts .v2 m := by simp [accepts, h0, h1]
            simp only [h0, h1, decide_false, if_neg this]
            exact hv _
    · unfold v2Caught
      cases (v2ReceiveBody env user data s).1 with
      | ok u => rfl
      | error e =>
        simp only
        simp only [loggerOf] at h40
        split
        · simp [seen, h40, told]
        · rfl
  | sm =>
    simp only [receiveReports, smReports, msgCls, receiveRaw]
    have hend : (match (smReceiveData env user data s).1 with
        | .ok () => []
        | .error e => if e.isException then told .sm e else []) = ([] : List Report) := by
      cases (smReceiveData env user data s).1 with
      | ok u => rfl
      | error e => simp [told]
    rw [hend, List.append_nil]
    cases hm : msgDecode env.reg .message2 data with
    | error e => rfl
    | ok m =>
      simp only [versionIs_eq]
      by_cases h0 : versionNo m = some 0
      · have : accepts .sm m := .inl h0
        simp only [h0, decide_true, if_pos this, true_and]
        cases hp : m.data.isInstance (.seq .pdu) with
        | true => simp [seen]
        | false =>
          cases ht : m.data.isInstance (.seq .trapPDU) with
          | true => simp [seen]
          | false => simp [seen]
      · by_cases h1 : versionNo m = some 1
        · have : accepts .sm m := .inr ⟨by simp, h1⟩
          simp only [h1, decide_true, if_pos this]
          simp [seen]
        · have : ¬ accepts .sm m := by simp [accepts, h0, h1]
          simp only [h0, h1, decide_false, if_neg this]
          exact hv _

/-- The program has the manager class, leaves the library's loggers alone and has not configured the root logger. -/
structure Unconfigured (k : Kind) (l : List LogAct) : Prop where
  alone : ∀ a ∈ l, leavesAlone a = true
  has : ∃ m ∈ brings k, .imp m ∈ l
  root : rootHandlersOf l = 0
  level : rootLevelOf l ≤ 40

theorem Unconfigured.lines {k : Kind} {l : List LogAct} (h : Unconfigured k l) :
    (k ≠ .sm → linesWritten (logsAfter l).logs (loggerOf k) 10 = 0) ∧ linesWritten (logsAfter l).logs (loggerOf k) 40 = 1 ∧
    (k = .sm → linesWritten (logsAfter l).logs logManager 20 = if debugFirst logManager l then 1 else 0) := by
  obtain ⟨m, hm, hi⟩ := h.has
  have hmade : made (loggerOf k) l = true := by
    simp only [made, List.any_eq_true]
    refine ⟨_, hi, ?_⟩
    revert hm
    cases k <;> cases m <;> decide
  refine ⟨?_, ?_, ?_⟩
  · intro hk
    apply C85_debug_silent l h.alone
    cases k with
    | v1 => exact .inr (.inl ⟨rfl, m, hm, hi⟩)
    | v2 => exact .inr (.inr ⟨rfl, m, hm, hi⟩)
    | sm => exact absurd rfl hk
  · rw [C85_errors l h.alone _ (by cases k <;> decide) hmade h.level, h.root]
    split <;> simp
  · rintro rfl
    have : m = .snmpmanager := by simpa [brings] using hm
    subst this
    rw [C85_info l h.alone hi, h.root]
    split <;> simp

/-- C85: no datagram is dropped without a trace by `v1.SNMP` or `v2.SNMP`.  In every reachable state, whatever the program has
imported: data that does not decode, a version the class does not handle, an answer nobody waits for, a trap nobody wants -
each is told to the operator, once; only a message with neither an answer nor a trap in it goes unmentioned. -/
theorem C85_refused {env : Env} (hreg : Imported env.reg) {k : Kind} {s : Mgr k} (h : Reachable env s)
    (user : Nat → Option Msg → Act k) (data : Val) {l : List LogAct} (hl : Unconfigured k l) :
    let out := seen (logsAfter l).logs (receiveReports env k (fun cb m => (user cb m).exec env) data s)
    (∀ e, msgDecode env.reg (msgCls k) data = .error e → out = told k e) ∧
    (∀ m, msgDecode env.reg (msgCls k) data = .ok m → ¬ accepts k m →
      out = versionTold k m.version ++ told k (unknownVersion m.version)) ∧
    (∀ m n, msgDecode env.reg (msgCls k) data = .ok m → accepts k m → answers k m = some n →
      (∀ cb, ¬ Pending s.log n cb) → out = told k .keyError) ∧
    (∀ m, msgDecode env.reg (msgCls k) data = .ok m → accepts k m → isTrap k m → env.trapCallback = none →
      out = told k .typeError) ∧
    (∀ m, msgDecode env.reg (msgCls k) data = .ok m → accepts k m → answers k m = none → ¬ isTrap k m →
      out = if k = .sm ∧ versionNo m = some 0 ∧ debugFirst logManager l = true
        then [.record logManager 20 .unknownTypeV1] else []) := by
  obtain ⟨l10, l40, l20⟩ := hl.lines
  have hs := seen_reports env k (fun cb m => (user cb m).exec env) data s (logsAfter l).logs l10 l40
  have he := receive_eq env k (fun cb m => (user cb m).exec env) (keepsNumeric_exec env user) data s (reachable_numeric h)
  intro out
  have hout : out = _ := hs
  clear_value out
  -- an accepted answer or trap
  have hpdu : ∀ m n, msgDecode env.reg (msgCls k) data = .ok m → answers k m = some n →
      ¬ (k = .sm ∧ versionNo m = some 0 ∧ m.data.isInstance (.seq .pdu) = false ∧ m.data.isInstance (.seq .trapPDU) = false) := by
    rintro m n hm ha ⟨rfl, h0, hp, _⟩
    rw [answers_none (by simpa [answerCls, h0] using hp)] at ha
    cases ha
  refine ⟨?_, ?_, ?_, ?_, ?_⟩
  · intro e hm
    rw [hm] at he hout
    rw [hout, he]
    simp [msgDecode_exc hreg hm]
  · intro m hm hv
    rw [hm] at he hout
    rw [hout, he]
    simp only [if_neg hv]
    have : (unknownVersion m.version).isException = true := by
      unfold unknownVersion
      split <;> rfl
    simp [this]
  · intro m n hm hv ha hp
    have hp2 := hpdu m n hm ha
    rw [hm] at he hout
    rw [hout, he]
    simp only [if_pos hv, dispatched, ha, not_pending h hp, if_neg hp2]
    simp [Exc.isException]
  · intro m hm hv ht hc
    rw [hm] at he hout
    rw [hout, he]
    have hp2 : ¬ (k = .sm ∧ versionNo m = some 0 ∧ m.data.isInstance (.seq .pdu) = false ∧
        m.data.isInstance (.seq .trapPDU) = false) := by
      rintro ⟨_, _, _, h4⟩
      rw [ht.1] at h4; cases h4
    simp only [if_pos hv, dispatched, answers_trap k m ht.1, if_pos ht, hc, if_neg hp2]
    simp [Exc.isException]
  · intro m hm hv ha ht
    have hp : k = .sm → versionNo m = some 0 →
        m.data.isInstance (.seq .pdu) = false ∧ m.data.isInstance (.seq .trapPDU) = false := by
      rintro rfl h0
      constructor
      · cases hp : m.data.isInstance (.seq .pdu) with
        | false => rfl
        | true =>
          obtain ⟨pc, ci, n, rest, he2, hsub⟩ := decoded_pdu hm hp
          rw [answers_of_pdu he2 (by simp only [answerCls, h0]; exact hp)] at ha
          cases ha
      · cases htr : m.data.isInstance (.seq .trapPDU) with
        | false => rfl
        | true => exact absurd ⟨htr, by simp [h0]⟩ ht
    rw [hm] at he hout
    rw [hout, he]
    simp only [if_pos hv, dispatched, ha, if_neg ht]
    by_cases hk : k = .sm
    · subst hk
      by_cases h0 : versionNo m = some 0
      · obtain ⟨p1, p2⟩ := hp rfl h0
        have h01 : ¬ (some (0 : Int) = some 1) := by simp
        simp only [h0, p1, p2, true_and, and_self, if_true, h01, and_false, if_false, l20 rfl]
        cases debugFirst logManager l <;> simp
      · have h1 : versionNo m = some 1 := by
          rcases hv with hv | hv
          · exact absurd hv h0
          · exact hv.2
        simp [h1, told]
    · simp [hk]

/-- C85: an answer to a pending request, or a trap: nothing is written when the callback returns, and a failure of the callback
is told once. -/
theorem C85_callback {env : Env} {k : Kind} {s : Mgr k} (h : Reachable env s)
    (user : Nat → Option Msg → Act k) (hu : ∀ cb m, (user cb m).CallsOnly) (data : Val) {l : List LogAct} (hl : Unconfigured k l)
    (m : Msg) (cb : Nat) (hm : msgDecode env.reg (msgCls k) data = .ok m) (hv : accepts k m)
    (hc : (∃ n, answers k m = some n ∧ Pending s.log n cb) ∨ isTrap k m ∧ env.trapCallback = some cb) :
    let out := seen (logsAfter l).logs (receiveReports env k (fun cb m => (user cb m).exec env) data s)
    (((user cb (some m)).exec env (s.note (.entered cb (some m)))).1 = .ok () → out = []) ∧
    (∀ e, ((user cb (some m)).exec env (s.note (.entered cb (some m)))).1 = .error e →
      out = if e.isException then told k e else []) := by
  obtain ⟨l10, l40, l20⟩ := hl.lines
  have hs := seen_reports env k (fun cb m => (user cb m).exec env) data s (logsAfter l).logs l10 l40
  have he := receive_eq env k (fun cb m => (user cb m).exec env) (keepsNumeric_exec env user) data s (reachable_numeric h)
  intro out
  have hout : out = _ := hs
  clear_value out
  rw [hm] at he hout
  have hp2 : ¬ (k = .sm ∧ versionNo m = some 0 ∧ m.data.isInstance (.seq .pdu) = false ∧
      m.data.isInstance (.seq .trapPDU) = false) := by
    rintro ⟨rfl, h0, hp, h4⟩
    rcases hc with ⟨n, ha, _⟩ | ⟨ht, _⟩
    · rw [answers_none (by simpa [answerCls, h0] using hp)] at ha
      cases ha
    · rw [ht.1] at h4; cases h4
  simp only [if_pos hv, if_neg hp2, List.nil_append] at he hout
  have key : (receiveRaw env k (fun cb m => (user cb m).exec env) data s).1 =
      ((user cb (some m)).exec env (s.note (.entered cb (some m)))).1 := by
    rw [he]
    rcases hc with ⟨n, ha, hp⟩ | ⟨ht, hcb⟩
    · have hat := (C46_table h n cb).mpr hp
      simp only [dispatched, ha, hat, deliver, invoke]
      have hpers := callsOnly_persists env (hu cb (some m)) (s.note (.entered cb (some m))) n
        (show s.callbacks.Numeric from reachable_numeric h)
        (by simp only [Mgr.note]; rw [hat]; simp)
      generalize (user cb (some m)).exec env (s.note (.entered cb (some m))) = q at hpers ⊢
      obtain ⟨r, q⟩ := q
      cases r with
      | error e => rfl
      | ok u =>
        simp only [Mgr.note] at hpers ⊢
        obtain ⟨c, hc⟩ := Option.ne_none_iff_exists'.mp hpers
        rw [hc]
    · simp only [dispatched, answers_trap k m ht.1, if_pos ht, hcb, invoke]
  rw [key] at hout
  constructor
  · intro hq
    rw [hout, hq]
  · intro e hq
    rw [hout, hq]

/-! ## Cases -/

/-- A program that imports `v2`; one that imports `debug` first; one that imports it too late, and turns everything on. -/
def plain : List LogAct := [.imp .v2, .getLogger ["app"]]
def withDebug : List LogAct := [.imp .debug, .imp .snmpmanager, .getLogger ["app"]]
def tooLate : List LogAct := [.imp .v2, .imp .debug, .rootHandler, .rootLevel 10, .getLogger ["app", "net"]]

example : (∀ a ∈ tooLate, leavesAlone a = true) ∧ made logV2 tooLate = true ∧ rootLevelOf tooLate ≤ 40 ∧
    debugFirst logV2 tooLate = false ∧ debugFirst logV2 withDebug = true := by decide
example : linesWritten (logsAfter tooLate).logs logV2 40 = 1 ∧ linesWritten (logsAfter tooLate).logs logV2 10 = 0 ∧
    linesWritten (logsAfter (.rootHandler :: withDebug)).logs logV2 40 = 2 ∧
    linesWritten (logsAfter withDebug).logs logManager 20 = 1 ∧
    linesWritten (logsAfter tooLate).logs ["app", "net"] 10 = 2 ∧
    linesWritten (logsAfter plain).logs ["app"] 10 = 0 ∧ linesWritten (logsAfter withDebug).logs ["app"] 10 = 1 := by
  decide +kernel

example : Unconfigured .v2 plain ∧ Unconfigured .v2 withDebug ∧ Unconfigured .sm withDebug ∧ Unconfigured .v1 plain :=
  ⟨⟨by decide, ⟨.v2, by decide, by decide⟩, rfl, by decide⟩, ⟨by decide, ⟨.snmpmanager, by decide, by decide⟩, rfl, by decide⟩,
   ⟨by decide, ⟨.snmpmanager, by decide, by decide⟩, rfl, by decide⟩, ⟨by decide, ⟨.v2, by decide, by decide⟩, rfl, by decide⟩⟩

/-- A datagram that does not decode, an answer nobody waits for, an answer that is expected, a trap. -/
example : seen (logsAfter plain).logs (receiveReports envV1 .v1 (fun _ _ => pure ()) (.str [1, 2, 3]) {}) =
    [.record logV1 40 (.failed .valueError)] := by decide +kernel
example : seen (logsAfter plain).logs (receiveReports envV1 .v1 (fun _ _ => pure ()) answer0 {}) =
    [.record logV1 40 (.failed .keyError)] := by decide +kernel
example : seen (logsAfter plain).logs (receiveReports envV1 .v1 (fun _ _ => pure ()) answer0 asked) = [] ∧
    receiveReports envV1 .v1 (fun _ _ => pure ()) answer0 asked = [.record logV1 10 .detectedV1] ∧
    receiveReports envV1 .v1 (fun _ _ => pure ()) trap0 asked = [.record logV1 10 .detectedV1, .record logV1 10 .inboundTrap] := by
  decide +kernel
example : seen (logsAfter plain).logs (receiveReports ⟨regFull, none, none⟩ .v2 (fun _ _ => pure ()) trap0 {}) =
    [.record logV2 40 (.failed .typeError), .traceback .typeError] := by decide +kernel

end Libsnmp
