import Verif.Props.Graph
import Verif.Spec.Manager

/-!
# C70: what happens to a request between the call and the datagram

A request method queues the Message object and returns the request ID object inside it; the main loop encodes it when it
sends it.  Between the two, the program may change whatever it can reach.
-/

namespace Libsnmp
open Spec

/-- What a program can reach from its variables, at any time. -/
theorem reach (ops : List POp) : ∃ P Q, (({} : Prog).run ops).Knows P Q := by
  have h0 : ({} : Prog).Knows (fun _ => False) (fun _ => False) :=
    ⟨⟨fun a h => h.elim, fun l h => h.elim⟩, fun r hr => by simp at hr⟩
  obtain ⟨P, Q, _, h⟩ := run_moves h0 ops
  exact ⟨P, Q, h⟩

theorem region_lt {m : Mem} {P Q : Nat → Prop} (h : Region m P Q) :
    (∀ a, P a → a < m.objs.length) ∧ ∀ l, Q l → l < m.lists.length := by
  refine ⟨fun a ha => ?_, fun l hl => ?_⟩
  · obtain ⟨o, ho, _⟩ := h.objs a ha
    exact (List.getElem?_eq_some_iff.mp ho).1
  · obtain ⟨o, ho, _⟩ := h.lists l hl
    exact (List.getElem?_eq_some_iff.mp ho).1

theorem snmpGet_ok {p p' : Prog} {k : Api} {oids : List Arg} {community : Str} {r : Ref}
    (h : p.snmpGet k oids community = (p', .ok r)) :
    ∃ m vbs m1 vbl m2 pdu m3 msg, p.mem.getBinds k.varBind oids = (m, .ok vbs) ∧
      (m.newList vbs).1.mkVarBindList k.varBindList (.list m.lists.length) = (m1, .ok vbl) ∧
      m1.mkPDU k.get p.nextID 0 0 vbl = (m2, .ok pdu) ∧
      m2.mkMessage k.message k.version community pdu = (m3, .ok msg) ∧ m3.requestIDOf pdu = some r ∧
      p' = { p with mem := m3, nextID := p.nextID + 1, queue := p.queue ++ [msg], vars := p.vars ++ [r] } := by
  unfold Prog.snmpGet at h
  cases h1 : p.mem.getBinds k.varBind oids with
  | mk m x1 =>
    rw [h1] at h
    cases x1 with
    | error e => simp at h
    | ok vbs =>
      simp only at h
      cases h2 : (m.newList vbs).1.mkVarBindList k.varBindList (.list m.lists.length) with
      | mk m1 x2 =>
        have e : (m.newList vbs).2 = m.lists.length := rfl
        rw [e, h2] at h
        cases x2 with
        | error e => simp at h
        | ok vbl =>
          simp only at h
          cases h3 : m1.mkPDU k.get p.nextID 0 0 vbl with
          | mk m2 x3 =>
            rw [h3] at h
            cases x3 with
            | error e => simp at h
            | ok pdu =>
              simp only at h
              cases h4 : m2.mkMessage k.message k.version community pdu with
              | mk m3 x4 =>
                rw [h4] at h
                cases x4 with
                | error e => simp at h
                | ok msg =>
                  simp only at h
                  cases h5 : m3.requestIDOf pdu with
                  | none => rw [h5] at h; simp at h
                  | some r' =>
                    rw [h5] at h
                    simp only [Prod.mk.injEq, Except.ok.injEq] at h
                    obtain ⟨rfl, rfl⟩ := h
                    exact ⟨m, vbs, m1, vbl, m2, pdu, m3, msg, rfl, h2, h3, h4, h5, rfl⟩

theorem snmpGetNext_ok {p p' : Prog} {k : Api} {vbs : Ref} {community : Str} {r : Ref}
    (h : p.snmpGetNext k vbs community = (p', .ok r)) :
    ∃ m2 pdu m3 msg, p.mem.mkPDU k.getNext p.nextID 0 0 vbs = (m2, .ok pdu) ∧
      m2.mkMessage k.message k.version community pdu = (m3, .ok msg) ∧ m3.requestIDOf pdu = some r ∧
      p' = { p with mem := m3, nextID := p.nextID + 1, queue := p.queue ++ [msg], vars := p.vars ++ [r] } := by
  unfold Prog.snmpGetNext at h
  split at h
  · simp at h
  · cases h3 : p.mem.mkPDU k.getNext p.nextID 0 0 vbs with
    | mk m2 x3 =>
      rw [h3] at h
      cases x3 with
      | error e => simp at h
      | ok pdu =>
        simp only at h
        cases h4 : m2.mkMessage k.message k.version community pdu with
        | mk m3 x4 =>
          rw [h4] at h
          cases x4 with
          | error e => simp at h
          | ok msg =>
            simp only at h
            cases h5 : m3.requestIDOf pdu with
            | none => rw [h5] at h; simp at h
            | some r' =>
              rw [h5] at h
              simp only [Prod.mk.injEq, Except.ok.injEq] at h
              obtain ⟨rfl, rfl⟩ := h
              exact ⟨m2, pdu, m3, msg, rfl, h4, h5, rfl⟩

/-- After a request: the request ID object is the only new thing the program can reach. -/
theorem request_knows {p : Prog} {P Q : Nat → Prop} (h : p.Knows P Q) {c : SeqCls} {m1 m2 m3 : Mem} {n : Int}
    {v pdu r : Ref} (g1 : Grown p.mem m1) (hp : m1.mkPDU c n 0 0 v = (m2, .ok pdu))
    (hc : (Cls.seq c).isSubclass (.seq .pdu) = true) (g2 : Grown m2 m3) (hr : m3.requestIDOf pdu = some r)
    {p' : Prog} (hm : p'.mem = m3) (hv : p'.vars = p.vars ++ [r]) :
    r = .obj m1.objs.length ∧ p'.Knows (fun x => P x ∨ x = m1.objs.length) Q ∧
      m3.objs[m1.objs.length]? = some ⟨.int (pduParts c).1, .num n, fun _ => Option.none⟩ := by
  obtain ⟨q1, q2⟩ := mkPDU_requestID hp hc
  have gm : Grown m1 m2 := Grown.of_eq hp (Grown.mkPDU ..)
  have q3 : m3.requestIDOf pdu = some (.obj m1.objs.length) := by
    cases pdu with
    | obj a =>
      simp only [Mem.requestIDOf, Mem.attr] at q1 ⊢
      cases ha : m2.objs[a]? with
      | none => rw [ha] at q1; cases q1
      | some o => rw [ha] at q1; rw [g2.obj ha]; exact q1
    | _ => cases q1
  rw [q3] at hr
  cases hr
  have f := reveal_requestID h.1 ((g1.trans gm).trans g2) g1.len.1 (g2.obj q2)
  refine ⟨rfl, ⟨by rw [hm]; exact f.region, fun x hx => ?_⟩, g2.obj q2⟩
  rw [hv] at hx
  simp only [List.mem_append, List.mem_cons, List.not_mem_nil, or_false] at hx
  rcases hx with hx | rfl
  · exact (h.2 x hx).mono f.subP f.subQ
  · exact Or.inr rfl

/-- A reachable Integer object stays an Integer object of its class. -/
theorem later_integer {p : Prog} {P Q : Nat → Prop} (h : p.Knows P Q) {a : Nat} {c : IntCls} {o : Node}
    (ho : p.mem.objs[a]? = some o) (hc : o.cls = .int c) (ha : P a) (ops : List POp) :
    ∃ n, (p.run ops).mem.num a = some n ∧
      ∀ d, (p.run ops).mem.onWire (d + 1) (.obj a) = some (.integer c n) := by
  obtain ⟨P', Q', f, k⟩ := run_moves h ops
  obtain ⟨o', ho', hc'⟩ := f.cls a o ho
  obtain ⟨o'', ho'', hin⟩ := k.1.objs a (f.subP a ha)
  rw [ho'] at ho''
  cases ho''
  have hs := hin.slot
  rw [hc', hc] at hs
  obtain ⟨n, hn⟩ := hs
  rcases o' with ⟨c', w, g⟩
  simp only at hc' hn
  subst hn
  rw [hc] at hc'
  subst hc'
  refine ⟨n, by rw [Mem.num, ho'], fun d => by rw [Mem.onWire, ho']⟩

/-- C70: after `snmpGet` has queued a message and returned a request ID object, whatever the program does meanwhile with
everything it can reach, the message stands for the same names, community and version; its request ID is the current
value of the object that was returned, and the octets are the encoding of exactly that message.  (`d + 5`: the recursion
limit leaves room for at least the five levels of the message.) -/
theorem C70_get_waiting (ops : List POp) (k : Api) (oids : List Arg) (community : Str) (p' : Prog) (r : Ref)
    (h : (({} : Prog).run ops).step (.snmpGet k oids community) = (p', .ok r)) :
    ∃ msg names a, p'.queue = (({} : Prog).run ops).queue ++ [msg] ∧ Names oids names ∧ r = .obj a ∧
      p'.mem.num a = some ((({} : Prog).run ops).nextID : Int) ∧
      ∀ ops2, ∃ n, (p'.run ops2).mem.num a = some n ∧
        ∀ d, (p'.run ops2).mem.onWire (d + 5) msg = some (getMessage k community n names) ∧
          (gEncode (d + 5) (p'.run ops2).mem msg).2 = (getMessage k community n names).encode := by
  have hfull : p'.Full := by
    have := run_full (ops ++ [.snmpGet k oids community])
    rw [Prog.run, List.foldl_append] at this
    simp only [List.foldl_cons, List.foldl_nil] at this
    have e : (({} : Prog).run ops).step (.snmpGet k oids community) = (p', .ok r) := h
    rw [Prog.run] at e
    rw [e] at this
    exact this
  obtain ⟨P, Q, hk⟩ := reach ops
  generalize ({} : Prog).run ops = p at *
  rw [Prog.step] at h
  obtain ⟨m, vbs, m1, vbl, m2, pdu, m3, msg, h1, h2, h3, h4, h5, he⟩ := snmpGet_ok h
  have hm : p'.mem = m3 := by rw [he]
  have hq : p'.queue = p.queue ++ [msg] := by rw [he]
  have hv : p'.vars = p.vars ++ [r] := by rw [he]
  clear he
  have G1 : Grown p.mem m := Grown.of_eq h1 (Grown.getBinds ..)
  have G2 : Grown m m1 := (Grown.newList m vbs).trans (Grown.of_eq h2 (Grown.mkVarBindList ..))
  have G3 : Grown m1 m2 := Grown.of_eq h3 (Grown.mkPDU ..)
  have G4 : Grown m2 m3 := Grown.of_eq h4 (Grown.mkMessage ..)
  obtain ⟨hr, hk', hid⟩ := request_knows hk (G1.trans G2) h3 (api_get_pdu k) G4 h5
    (p' := p') hm hv
  have hvb : (Cls.seq k.varBind).isSubclass (.seq .message) = false := by cases k <;> decide
  obtain ⟨names, hn, hshow⟩ := getBinds_at hvb h1
  have hseq := mkVarBindList_at h2 (newList_new m vbs)
  obtain ⟨q1, q2, q3⟩ := newSeq_at (m.newList vbs).1 k.varBindList vbs
  rw [hseq] at q1 q2 q3
  simp only at q1 q2 q3
  have hitems : m1.items vbl = some vbs := by
    rw [q1]; simp only [Mem.items, q2, q3]
  obtain ⟨ltP, ltQ⟩ := region_lt hk.1
  have L1 := G1.len; have L2 := G2.len; have L3 := G3.len; have L4 := G4.len
  have notP : ∀ a, p.mem.objs.length ≤ a → a ≠ m1.objs.length → ¬ (P a ∨ a = m1.objs.length) := by
    rintro a ha hne (h | h)
    · have := ltP a h; omega
    · exact hne h
  have notQ : ∀ l, p.mem.lists.length ≤ l → ¬ Q l := fun l hl h => by have := ltQ l h; omega
  refine ⟨msg, names, m1.objs.length, hq, hn, hr, by simp only [Mem.num, hm, hid], fun ops2 => ?_⟩
  obtain ⟨n, hn1, hn2⟩ := later_integer hk' (a := m1.objs.length) (by rw [hm]; exact hid) rfl (Or.inr rfl) ops2
  refine ⟨n, hn1, fun d => ?_⟩
  obtain ⟨P2, Q2, f2, _⟩ := run_moves hk' ops2
  rw [hm] at f2
  have hs := message_shows (M := m3) (P := fun x => P x ∨ x = m1.objs.length) (Q := Q) (d := d + 1) h3 h4
    (by cases k <;> decide) (api_message k) (by cases k <;> decide) (Grown.refl m3)
    (fun a ha _ hne => notP a (by omega) hne) (fun l hl _ => notQ l (by omega)) hitems
    (hshow m3 _ _ ((G2.trans G3).trans G4) (fun a ha ha' => notP a ha (by omega))
      (fun l hl hvbs => notQ l hl) d)
  have hw := hs _ f2.retains
  have hn3 : (p'.run ops2).mem.onWire (d + 1 + 2) (.obj m1.objs.length) = some (.integer (pduParts k.get).1 n) :=
    hn2 (d + 2)
  simp only [hn3] at hw
  have hread : readAll (p'.run ops2).mem (names.map fun i _ => some (nullBind k.varBind i)) =
      some (names.map (nullBind k.varBind)) := by
    have := readAll_const (p'.run ops2).mem (names.map (nullBind k.varBind))
    rwa [List.map_map] at this
  simp only [hread] at hw
  have hw' : (p'.run ops2).mem.onWire (d + 5) msg = some (getMessage k community n names) := by
    rw [hw]
    cases k <;> rfl
  refine ⟨hw', ?_⟩
  rw [gEncode_pure _ (run_full_from hfull ops2).1.bounded, gPure_onWire hw']

/-- C70: `snmpGetNext` (and `v1.SNMP.snmpSet`) copies the list of bindings, but the bindings themselves stay the
caller's: the queued message stands for the objects that were in the list at the call, with what they hold when it is
sent. -/
theorem C70_getNext_waiting (ops : List POp) (k : Api) (v : Nat) (vbs : Ref) (xs : List Ref) (community : Str) (p' : Prog)
    (r : Ref) (hv : (({} : Prog).run ops).vars[v]? = some vbs) (hx : (({} : Prog).run ops).mem.items vbs = some xs)
    (h : (({} : Prog).run ops).step (.snmpGetNext k v community) = (p', .ok r)) :
    ∃ msg a, p'.queue = (({} : Prog).run ops).queue ++ [msg] ∧ r = .obj a ∧
      p'.mem.num a = some ((({} : Prog).run ops).nextID : Int) ∧
      ∀ ops2, ∃ n, (p'.run ops2).mem.num a = some n ∧
        ∀ d, (p'.run ops2).mem.onWire (d + 4) msg =
            (viewRefs ((p'.run ops2).mem.onWire (d + 1)) xs).map (getNextMessage k community n) ∧
          ∀ vs, viewRefs ((p'.run ops2).mem.onWire (d + 1)) xs = some vs →
            (gEncode (d + 4) (p'.run ops2).mem msg).2 = (getNextMessage k community n vs).encode := by
  have hfull : p'.Full := by
    have := run_full (ops ++ [.snmpGetNext k v community])
    rw [Prog.run, List.foldl_append] at this
    simp only [List.foldl_cons, List.foldl_nil] at this
    have e : (({} : Prog).run ops).step (.snmpGetNext k v community) = (p', .ok r) := h
    rw [Prog.run] at e
    rw [e] at this
    exact this
  obtain ⟨P, Q, hk⟩ := reach ops
  generalize ({} : Prog).run ops = p at *
  rw [Prog.step, hv] at h
  simp only at h
  have hv2 : k ≠ .v2 := by
    intro e
    subst e
    rw [Prog.snmpGetNext, if_pos rfl] at h
    simp at h
  obtain ⟨m2, pdu, m3, msg, h3, h4, h5, he⟩ := snmpGetNext_ok h
  have hm : p'.mem = m3 := by rw [he]
  have hq : p'.queue = p.queue ++ [msg] := by rw [he]
  have hv' : p'.vars = p.vars ++ [r] := by rw [he]
  clear he
  have G3 : Grown p.mem m2 := Grown.of_eq h3 (Grown.mkPDU ..)
  have G4 : Grown m2 m3 := Grown.of_eq h4 (Grown.mkMessage ..)
  obtain ⟨hr, hk', hid⟩ := request_knows hk (Grown.refl _) h3 (api_getNext_pdu k) G4 h5
    (p' := p') hm hv'
  obtain ⟨ltP, ltQ⟩ := region_lt hk.1
  have L3 := G3.len; have L4 := G4.len
  have notP : ∀ a, p.mem.objs.length ≤ a → a ≠ p.mem.objs.length → ¬ (P a ∨ a = p.mem.objs.length) := by
    rintro a ha hne (h | h)
    · have := ltP a h; omega
    · exact hne h
  have notQ : ∀ l, p.mem.lists.length ≤ l → ¬ Q l := fun l hl h => by have := ltQ l h; omega
  refine ⟨msg, p.mem.objs.length, hq, hr, by simp only [Mem.num, hm, hid], fun ops2 => ?_⟩
  obtain ⟨n, hn1, hn2⟩ := later_integer hk' (a := p.mem.objs.length) (by rw [hm]; exact hid) rfl (Or.inr rfl) ops2
  refine ⟨n, hn1, fun d => ?_⟩
  obtain ⟨P2, Q2, f2, _⟩ := run_moves hk' ops2
  rw [hm] at f2
  have hs := message_shows (M := m3) (P := fun x => P x ∨ x = p.mem.objs.length) (Q := Q) (d := d) h3 h4
    (by cases k <;> decide) (api_message k) (by cases k <;> decide) (Grown.refl m3)
    (fun a ha _ hne => notP a (by omega) hne) (fun l hl _ => notQ l (by omega)) hx
    (DisplaysAll.self m3 _ _ (d + 1) xs)
  have hw := hs _ f2.retains
  have hn3 : (p'.run ops2).mem.onWire (d + 2) (.obj p.mem.objs.length) = some (.integer (pduParts k.getNext).1 n) :=
    hn2 (d + 1)
  simp only [hn3, readAll_self] at hw
  have hw' : (p'.run ops2).mem.onWire (d + 4) msg =
      (viewRefs ((p'.run ops2).mem.onWire (d + 1)) xs).map (getNextMessage k community n) := by
    rw [hw]
    generalize viewRefs (Mem.onWire _ (d + 1)) xs = t
    cases t with
    | none => rfl
    | some vs => cases k <;> first | exact absurd rfl hv2 | rfl
  refine ⟨hw', fun vs hvs => ?_⟩
  rw [hvs] at hw'
  rw [gEncode_pure _ (run_full_from hfull ops2).1.bounded, gPure_onWire hw']

/-- C70: `snmpTrap` queues the caller's own PDU: the message stands for what that object holds when it is sent. -/
theorem C70_trap_waiting (ops : List POp) (k : Api) (v : Nat) (pdu : Ref) (community : Str) (p' : Prog) (r : Ref)
    (hv : (({} : Prog).run ops).vars[v]? = some pdu)
    (h : (({} : Prog).run ops).step (.snmpTrap k v community) = (p', .ok r)) :
    ∃ msg, p'.queue = (({} : Prog).run ops).queue ++ [msg] ∧
      ∀ ops2 d, (p'.run ops2).mem.onWire (d + 2) msg =
          ((p'.run ops2).mem.onWire (d + 1) pdu).map (trapMessage k community) ∧
        ∀ w, (p'.run ops2).mem.onWire (d + 1) pdu = some w →
          (gEncode (d + 2) (p'.run ops2).mem msg).2 = (trapMessage k community w).encode := by
  have hfull : p'.Full := by
    have := run_full (ops ++ [.snmpTrap k v community])
    rw [Prog.run, List.foldl_append] at this
    simp only [List.foldl_cons, List.foldl_nil] at this
    have e : (({} : Prog).run ops).step (.snmpTrap k v community) = (p', .ok r) := h
    rw [Prog.run] at e
    rw [e] at this
    exact this
  obtain ⟨P, Q, hk⟩ := reach ops
  generalize ({} : Prog).run ops = p at *
  rw [Prog.step, hv] at h
  simp only [Prog.snmpTrap] at h
  split at h
  · simp at h
  · cases h4 : p.mem.mkMessage k.message k.version community pdu with
    | mk m3 x =>
      rw [h4] at h
      cases x with
      | error e => simp at h
      | ok msg =>
        simp only [Prod.mk.injEq, Except.ok.injEq] at h
        obtain ⟨he, rfl⟩ := h
        have hm : p'.mem = m3 := by rw [← he]
        have hq : p'.queue = p.queue ++ [msg] := by rw [← he]
        have hv' : p'.vars = p.vars ++ [.none] := by rw [← he]
        clear he
        have G4 : Grown p.mem m3 := Grown.of_eq h4 (Grown.mkMessage ..)
        obtain ⟨ltP, ltQ⟩ := region_lt hk.1
        have hk' : p'.Knows P Q := by
          refine ⟨by rw [hm]; exact (G4.flow hk.1).region, fun x hx => ?_⟩
          rw [hv'] at hx
          simp only [List.mem_append, List.mem_cons, List.not_mem_nil, or_false] at hx
          rcases hx with hx | rfl
          · exact hk.2 x hx
          · trivial
        obtain ⟨e6, q6, q7, lm, q8⟩ := mkMessage_at h4
        have notP : ∀ a, p.mem.objs.length ≤ a → ¬ P a := fun a ha h => by have := ltP a h; omega
        refine ⟨msg, hq, fun ops2 d => ?_⟩
        obtain ⟨P2, Q2, f2, _⟩ := run_moves hk' ops2
        rw [hm] at f2
        have s6 : Displays m3 P Q (d + 1) (.obj p.mem.objs.length) fun _ => some (.integer .integer k.version) :=
          Displays.leaf (notP _ (by omega)) q6 rfl d (by rw [Mem.onWire, q6])
        have s7 : Displays m3 P Q (d + 1) (.obj (p.mem.objs.length + 1)) fun _ => some (.octets .octetString community) :=
          Displays.leaf (notP _ (by omega)) q7 rfl d (by rw [Mem.onWire, q7])
        have at1 : ∀ x y z, attrsOf k.message [x, y, z] .version = some x ∧
            attrsOf k.message [x, y, z] .community = some y ∧ attrsOf k.message [x, y, z] .data = some z := by
          intro x y z
          cases k <;> exact ⟨rfl, rfl, rfl⟩
        have s8 := Displays.message (d := d + 1) (notP (p.mem.objs.length + 2) (by omega)) q8 (api_message k) (at1 ..).1
          (at1 ..).2.1 (at1 ..).2.2 s6 s7 (Displays.self m3 P Q (d + 1) pdu)
        have hw := s8 _ f2.retains
        rw [← e6] at hw
        have hw' : (p'.run ops2).mem.onWire
            (d + 2) msg = ((p'.run ops2).mem.onWire (d + 1) pdu).map (trapMessage k community) := by
          rw [hw]
          simp only [readAll]
          generalize Mem.onWire _ (d + 1) pdu = t
          cases t with
          | none => rfl
          | some w => cases k <;> rfl
        refine ⟨hw', fun w hwv => ?_⟩
        rw [hwv] at hw'
        rw [gEncode_pure _ (run_full_from hfull ops2).1.bounded, gPure_onWire hw']

/-! ## The same message as in the model without identities (`Model/Manager.lean`) -/

/-- A message as one object. -/
def Msg.whole (m : Msg) : Val := .seq m.cls [m.version, m.community, m.data]

/-- C70: with an unchanged request ID the waiting Get is the message that C51 says the call sends. -/
theorem C70_v1_get_is_sent (env : Env) (oid : Arg) (remote cb : Nat) (com : Str) (id : Int) (m : Msg)
    (names : List (Option (List Int))) (h : Sends env (k := .v1) (.get oid remote cb com) id (some m))
    (hn : Names [oid] names) : getMessage .v1 com id names = m.whole := by
  obtain ⟨vb, ⟨v, hv, rfl⟩, hm⟩ := h
  cases hn with
  | cons h1 h2 =>
    cases h2
    rw [hv] at h1
    cases h1
    cases hm
    rfl

theorem C70_v2_get_is_sent (env : Env) (oids : List Arg) (remote cb : Nat) (com : Str) (id : Int) (m : Msg)
    (names : List (Option (List Int))) (h : Sends env (k := .v2) (.get oids remote cb com) id (some m))
    (hn : Names oids names) : getMessage .v2 com id names = m.whole := by
  obtain ⟨vbs, hq, hm⟩ := h
  cases hm
  have : vbs = names.map (nullBind .varBind) := by
    induction hn generalizing vbs with
    | nil => cases hq; rfl
    | cons h1 _ ih =>
      cases hq with
      | cons q1 q2 =>
        obtain ⟨v, hv, rfl⟩ := q1
        rw [hv] at h1
        cases h1
        rw [List.map_cons, ← ih _ q2]
        rfl
  rw [this]
  rfl

theorem C70_sm_get_is_sent (env : Env) (oid : Arg) (remote cb : Nat) (com : Str) (version id : Int) (m : Msg)
    (names : List (Option (List Int))) (h : Sends env (k := .sm) (.get oid remote cb com version) id (some m))
    (hn : Names [oid] names) :
    (version = 1 → getMessage .sm1 com id names = m.whole) ∧ (version = 2 → getMessage .sm2 com id names = m.whole) := by
  cases hn with
  | cons h1 h2 =>
    cases h2
    rcases h with ⟨e, vb, ⟨v, hv, rfl⟩, hm⟩ | ⟨e, vb, ⟨v, hv, rfl⟩, hm⟩
    · rw [hv] at h1
      cases h1
      cases hm
      exact ⟨fun _ => rfl, fun e2 => by omega⟩
    · rw [hv] at h1
      cases h1
      cases hm
      exact ⟨fun e2 => by omega, fun _ => rfl⟩

/-- C70: the same for the waiting GetNext, if the bindings still hold what they held at the call. -/
theorem C70_getNext_is_sent (env : Env) (vbs : List Val) (remote cb : Nat) (com : Str) (version id : Int) (m : Msg) :
    (Sends env (k := .v1) (.getNext vbs remote cb com) id (some m) → getNextMessage .v1 com id vbs = m.whole) ∧
    (Sends env (k := .v1) (.set vbs remote cb com) id (some m) → getNextMessage .v1 com id vbs = m.whole) ∧
    (Sends env (k := .sm) (.getNext vbs remote cb com version) id (some m) →
      (version = 1 → getNextMessage .sm1 com id vbs = m.whole) ∧
      (version = 2 → getNextMessage .sm2 com id vbs = m.whole)) := by
  refine ⟨fun h => ?_, fun h => ?_, fun h => ?_⟩
  · cases h; rfl
  · cases h; rfl
  · rcases h with ⟨e, hm⟩ | ⟨e, hm⟩
    · cases hm
      exact ⟨fun _ => rfl, fun e2 => by omega⟩
    · cases hm
      exact ⟨fun e2 => by omega, fun _ => rfl⟩

/-! ## The answer to a request whose ID was changed -/

theorem intHash_small {w : Int} (h1 : -(2 ^ 61 - 1) < w) (h2 : w < 2 ^ 61 - 1) :
    intHash w = if w = -1 then -2 else w := by
  unfold intHash
  have hm : w.natAbs % (2 ^ 61 - 1) = w.natAbs := Nat.mod_eq_of_lt (by omega)
  simp only [hm]
  by_cases hn : w < 0
  · simp only [hn, if_true]
    have e : -((w.natAbs : Nat) : Int) = w := by omega
    rw [e]
  · simp only [hn, if_false]
    have e : ((w.natAbs : Nat) : Int) = w := by omega
    rw [e]

/-- C70: `snmpManager` files the callback under the returned request ID object itself.  If the program has changed the
value of that object, then whatever request ID a datagram carries - the old one or the new one - that callback is not
found: the table answers as if the entry were not there. -/
theorem C70_changed_id_is_lost (d1 d2 : List Entry) (e : Entry) (m : Mem) (v w : Int) (hh : e.hash = intHash v)
    (hw : m.num e.key = some w) (hv : 0 ≤ v ∧ v < 2 ^ 61 - 1) (hb : -(2 ^ 61 - 1) < w ∧ w < 2 ^ 61 - 1) (hne : w ≠ v)
    (n : Int) : lookupEntry (d1 ++ e :: d2) m n = lookupEntry (d1 ++ d2) m n := by
  have hf : (decide (e.hash = intHash n) && decide (m.num e.key = some n)) = false := by
    rw [hw, hh]
    by_cases hnw : w = n
    · subst hnw
      rw [intHash_small (by omega) hv.2, intHash_small hb.1 hb.2]
      have : ¬ (if v = -1 then -2 else v) = if w = -1 then -2 else w := by
        split <;> split <;> omega
      simp [this]
    · simp [hnw]
  unfold lookupEntry
  rw [List.find?_append, List.find?_append, List.find?_cons, hf]

/-- C70: an entry whose object still has its value is found by it (unless an earlier entry matches too). -/
theorem C70_unchanged_id_is_found (d1 d2 : List Entry) (e : Entry) (m : Mem) (v : Int) (hh : e.hash = intHash v)
    (hw : m.num e.key = some v) (h1 : lookupEntry d1 m v = Option.none) :
    lookupEntry (d1 ++ e :: d2) m v = some e.cb := by
  unfold lookupEntry at *
  simp only [Option.map_eq_none_iff] at h1
  rw [List.find?_append, h1, List.find?_cons]
  simp [hh, hw]

/-! ## Cases -/

-- `id = m.snmpGet('1.3.6'); id.value = 9`: the datagram asks with 9
example : let p := ({} : Prog).run [.snmpGet .v1 [.str [49, 46, 51, 46, 54]] [112], .setNum 0 9]
    (p.step (.send 9)).2 = .ok (.str [48, 27, 2, 1, 0, 4, 1, 112, 160, 19, 2, 1, 9, 2, 1, 0, 2, 1, 0, 48, 8, 48, 6, 6, 2,
      43, 6, 5, 0]) := by decide +kernel

-- ... and without the second statement with 0
example : let p := ({} : Prog).run [.snmpGet .v1 [.str [49, 46, 51, 46, 54]] [112]]
    (p.step (.send 9)).2 = .ok (.str [48, 27, 2, 1, 0, 4, 1, 112, 160, 19, 2, 1, 0, 2, 1, 0, 2, 1, 0, 48, 8, 48, 6, 6, 2,
      43, 6, 5, 0]) := by decide +kernel

/-- `vb = VarBind(ObjectID('1.3'), Integer(1)); l = [vb]; m.snmpGetNext(l)`. -/
def walkProgram : List POp :=
  [.oid (.str [49, 46, 51]), .integer .integer 1, .varBind .varBind 0 1, .list [2], .snmpGetNext .v1 3 [112]]

-- emptying the list afterwards does not matter, changing the binding's value does
example : let p := ({} : Prog).run (walkProgram ++ [.setList 3 []])
    let q := ({} : Prog).run (walkProgram ++ [.setNum 1 2])
    (p.step (.send 9)).2 = (((({} : Prog).run walkProgram).step (.send 9)).2) ∧
    (q.step (.send 9)).2 ≠ (p.step (.send 9)).2 := by decide +kernel

example : ∃ p' r, (({} : Prog).run [.oid (.str [49, 46, 51]), .integer .integer 1, .varBind .varBind 0 1, .list [2]]).step
    (.snmpGetNext .v1 3 [112]) = (p', .ok r) := ⟨_, _, rfl⟩

example : ∃ p' r, (({} : Prog).run messageProgram).step (.snmpTrap .v1 1 [112]) = (p', .ok r) := ⟨_, _, rfl⟩

-- entry filed under ID 4; the object now says 9
example : let m : Mem := { objs := [⟨.int .integer, .num 9, fun _ => Option.none⟩] }
    lookupEntry [⟨intHash 4, 0, 77⟩] m 4 = Option.none ∧ lookupEntry [⟨intHash 4, 0, 77⟩] m 9 = Option.none := by
  decide +kernel

/-! ## The queue -/

theorem finish_queue (p : Prog) (x : Mem × Except Exc Ref) : (p.finish x).1.queue = p.queue := by
  obtain ⟨m, r | r⟩ := x <;> rfl

/-- Every statement other than a turn of the main loop leaves the queue as it is or adds one message at the end. -/
theorem step_queue (p : Prog) (op : POp) (h : ∀ d, op ≠ .send d) :
    (p.step op).1.queue = p.queue ∨ ∃ msg, (p.step op).1.queue = p.queue ++ [msg] := by
  cases op with
  | send d => exact absurd rfl (h d)
  | snmpGet k oids com =>
    simp only [Prog.step, Prog.snmpGet]
    repeat' split
    all_goals first
      | exact .inl rfl
      | exact .inr ⟨_, rfl⟩
  | snmpGetNext k v com =>
    simp only [Prog.step, Prog.snmpGetNext]
    repeat' split
    all_goals first
      | exact .inl rfl
      | exact .inr ⟨_, rfl⟩
  | snmpTrap k v com =>
    simp only [Prog.step, Prog.snmpTrap]
    repeat' split
    all_goals first
      | exact .inl rfl
      | exact .inr ⟨_, rfl⟩
  | _ =>
    left
    simp only [Prog.step]
    repeat' split
    all_goals first
      | rfl
      | exact finish_queue ..

/-- C70: a turn of the main loop takes the oldest message off the queue, whether or not it can be encoded, and what it
sends is that message's encoding. -/
theorem C70_send (p : Prog) (depth : Nat) (msg : Ref) (rest : List Ref) (h : p.queue = msg :: rest) :
    (p.step (.send depth)).1.queue = rest ∧ (p.step (.send depth)).1.mem = (gEncode depth p.mem msg).1 ∧
      (p.step (.send depth)).2 = (gEncode depth p.mem msg).2.map Ref.str := by
  simp only [Prog.step, h]
  rcases gEncode depth p.mem msg with ⟨m, r | r⟩ <;> exact ⟨rfl, rfl, rfl⟩

/-- The messages that a history puts into the queue, in order. -/
def queuedBy (p : Prog) : List POp → List Ref
  | [] => []
  | .send d :: ops => queuedBy (p.step (.send d)).1 ops
  | op :: ops => (p.step op).1.queue.drop p.queue.length ++ queuedBy (p.step op).1 ops

/-- The messages that the turns of the main loop in a history are about, in order. -/
def sentBy (p : Prog) : List POp → List Ref
  | [] => []
  | .send d :: ops => p.queue.take 1 ++ sentBy (p.step (.send d)).1 ops
  | op :: ops => sentBy (p.step op).1 ops

/-- C70: over every history, each message is taken from the queue at most once, in the order in which they were queued; the
ones that are left are the newest. -/
theorem C70_queue (ops : List POp) (p : Prog) : p.queue ++ queuedBy p ops = sentBy p ops ++ (p.run ops).queue := by
  induction ops generalizing p with
  | nil => simp [queuedBy, sentBy, Prog.run]
  | cons op ops ih =>
    have hrun : p.run (op :: ops) = (p.step op).1.run ops := rfl
    rw [hrun]
    by_cases h : ∃ d, op = .send d
    · obtain ⟨d, rfl⟩ := h
      rw [queuedBy, sentBy, List.append_assoc, ← ih]
      cases hq : p.queue with
      | nil => simp [Prog.step, hq]
      | cons msg rest => rw [(C70_send p d msg rest hq).1]; rfl
    · have h : ∀ d, op ≠ .send d := fun d e => h ⟨d, e⟩
      have e1 : queuedBy p (op :: ops) = (p.step op).1.queue.drop p.queue.length ++ queuedBy (p.step op).1 ops := by
        cases op <;> first | rfl | exact absurd rfl (h _)
      have e2 : sentBy p (op :: ops) = sentBy (p.step op).1 ops := by
        cases op <;> first | rfl | exact absurd rfl (h _)
      rw [e1, e2, ← ih]
      rcases step_queue p op h with e | ⟨msg, e⟩
      · rw [e]; simp
      · rw [e]; simp

-- two requests, the second of which is not yet sent
example : let ops : List POp := [.snmpGet .v1 [.str [49, 46, 51, 46, 54]] [112], .snmpGet .v1 [.str [49, 46, 51, 46, 55]] [112], .send 9]
    queuedBy {} ops = sentBy {} ops ++ (({} : Prog).run ops).queue ∧ (sentBy {} ops).length = 1 ∧ (queuedBy {} ops).length = 2 := by
  decide +kernel

end Libsnmp
