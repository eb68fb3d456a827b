import Verif.Lemmas.SrcMgr4

/-!
# The request methods of snmpManager
-/

namespace Libsnmp.Src
open Libsnmp

variable {cfg : Cfg} {nm : Names} {env : Libsnmp.Env}

/-- snmpmanager.py:70-79. -/
theorem run_sm_70 (hc : Limits cfg) {h : Heap} {a q d : Nat} {s : Mgr .sm} {attrs : List (String × V)} (hb : Base h)
    (r : MgrAt nm env h a s attrs q d) {vs : List Val} {x : V} (hv : RepVbs h vs x) (v : Int) :
    Runs nm env a q d (Rep 9) h (call program cfg (.func .snmpmanager 70) [.ref a, x, .int v] h) (smCreatePDU .get .get2 vs v s) := by
  have hid := run_assign (cfg := cfg) r (m := .snmpmanager) (l := 63) (.inr rfl)
  have ho := Own.asn' (h' := h) hb r
  have hm := r.meth (name := "assignRequestID") (m := .snmpmanager) (l := 63) rfl
  have r1 := r.setId
  by_cases h1 : v = 1
  · subst h1
    obtain ⟨h', attrs', o1, r2, hk, out⟩ := run_requestAt (cfg := cfg) hc ho.base r1 (c := .get) rfl (hv.same (ho.asn r)) s.nextRequestID
    have hpl := place_pdu (c := .get) (.inl rfl) (.int s.nextRequestID) x
    refine ⟨h', attrs', ho.trans o1, r2, ?_⟩
    change Outcome (Rep 9) h' _ (mkPDU .get s.nextRequestID 0 0 vs)
    rw [call_snmpmanager_70]
    rw [show cid (.seq .get) = (.rfc1157, 173) from rfl] at hpl out
    cases hmk : mkPDU .get s.nextRequestID 0 0 vs with
    | ok v =>
      rw [hmk] at out
      obtain ⟨y, out, ry⟩ := out
      refine ⟨y, ?_, ry⟩
      runs [snmpmanager_70, ↓hm, ↓hid, ↓hpl, ↓out]
    | error e =>
      rw [hmk] at out
      obtain ⟨y, out, ry⟩ := out
      refine ⟨y, ?_, ry⟩
      runs [snmpmanager_70, ↓hm, ↓hid, ↓hpl, ↓out]
  by_cases h2 : v = 2
  · subst h2
    obtain ⟨h', attrs', o1, r2, hk, out⟩ := run_requestAt (cfg := cfg) hc ho.base r1 (c := .get2) rfl (hv.same (ho.asn r)) s.nextRequestID
    have hpl := place_pdu (c := .get2) (.inr rfl) (.int s.nextRequestID) x
    refine ⟨h', attrs', ho.trans o1, r2, ?_⟩
    change Outcome (Rep 9) h' _ (mkPDU .get2 s.nextRequestID 0 0 vs)
    rw [call_snmpmanager_70]
    rw [show cid (.seq .get2) = (.rfc1905, 179) from rfl] at hpl out
    cases hmk : mkPDU .get2 s.nextRequestID 0 0 vs with
    | ok v =>
      rw [hmk] at out
      obtain ⟨y, out, ry⟩ := out
      refine ⟨y, ?_, ry⟩
      runs [snmpmanager_70, ↓hm, ↓hid, ↓hpl, ↓out]
    | error e =>
      rw [hmk] at out
      obtain ⟨y, out, ry⟩ := out
      refine ⟨y, ?_, ry⟩
      runs [snmpmanager_70, ↓hm, ↓hid, ↓hpl, ↓out]
  have hmod : smCreatePDU .get .get2 vs v s = (.error .unboundLocalError, { s with nextRequestID := s.nextRequestID + 1 }) := by
    simp [smCreatePDU, Bind.bind, assignRequestID, M.throw, h1, h2]
  rw [hmod]
  refine ⟨_, _, ho, r1, .exc "UnboundLocalError" [], ?_, ⟨_, rfl⟩⟩
  rw [call_snmpmanager_70]
  runs [snmpmanager_70, ↓hm, ↓hid, h1, h2]

/-- snmpmanager.py:81-90. -/
theorem run_sm_81 (hc : Limits cfg) {h : Heap} {a q d : Nat} {s : Mgr .sm} {attrs : List (String × V)} (hb : Base h)
    (r : MgrAt nm env h a s attrs q d) {vs : List Val} {x : V} (hv : RepVbs h vs x) (v : Int) :
    Runs nm env a q d (Rep 9) h (call program cfg (.func .snmpmanager 81) [.ref a, x, .int v] h) (smCreatePDU .getNext .getNext2 vs v s) := by
  have hid := run_assign (cfg := cfg) r (m := .snmpmanager) (l := 63) (.inr rfl)
  have ho := Own.asn' (h' := h) hb r
  have hm := r.meth (name := "assignRequestID") (m := .snmpmanager) (l := 63) rfl
  have r1 := r.setId
  by_cases h1 : v = 1
  · subst h1
    obtain ⟨h', attrs', o1, r2, hk, out⟩ := run_requestAt (cfg := cfg) hc ho.base r1 (c := .getNext) rfl (hv.same (ho.asn r)) s.nextRequestID
    have hpl := place_pdu (c := .getNext) (.inl rfl) (.int s.nextRequestID) x
    refine ⟨h', attrs', ho.trans o1, r2, ?_⟩
    change Outcome (Rep 9) h' _ (mkPDU .getNext s.nextRequestID 0 0 vs)
    rw [call_snmpmanager_81]
    rw [show cid (.seq .getNext) = (.rfc1157, 179) from rfl] at hpl out
    cases hmk : mkPDU .getNext s.nextRequestID 0 0 vs with
    | ok v =>
      rw [hmk] at out
      obtain ⟨y, out, ry⟩ := out
      refine ⟨y, ?_, ry⟩
      runs [snmpmanager_81, ↓hm, ↓hid, ↓hpl, ↓out]
    | error e =>
      rw [hmk] at out
      obtain ⟨y, out, ry⟩ := out
      refine ⟨y, ?_, ry⟩
      runs [snmpmanager_81, ↓hm, ↓hid, ↓hpl, ↓out]
  by_cases h2 : v = 2
  · subst h2
    obtain ⟨h', attrs', o1, r2, hk, out⟩ := run_requestAt (cfg := cfg) hc ho.base r1 (c := .getNext2) rfl (hv.same (ho.asn r)) s.nextRequestID
    have hpl := place_pdu (c := .getNext2) (.inr rfl) (.int s.nextRequestID) x
    refine ⟨h', attrs', ho.trans o1, r2, ?_⟩
    change Outcome (Rep 9) h' _ (mkPDU .getNext2 s.nextRequestID 0 0 vs)
    rw [call_snmpmanager_81]
    rw [show cid (.seq .getNext2) = (.rfc1905, 185) from rfl] at hpl out
    cases hmk : mkPDU .getNext2 s.nextRequestID 0 0 vs with
    | ok v =>
      rw [hmk] at out
      obtain ⟨y, out, ry⟩ := out
      refine ⟨y, ?_, ry⟩
      runs [snmpmanager_81, ↓hm, ↓hid, ↓hpl, ↓out]
    | error e =>
      rw [hmk] at out
      obtain ⟨y, out, ry⟩ := out
      refine ⟨y, ?_, ry⟩
      runs [snmpmanager_81, ↓hm, ↓hid, ↓hpl, ↓out]
  have hmod : smCreatePDU .getNext .getNext2 vs v s = (.error .unboundLocalError, { s with nextRequestID := s.nextRequestID + 1 }) := by
    simp [smCreatePDU, Bind.bind, assignRequestID, M.throw, h1, h2]
  rw [hmod]
  refine ⟨_, _, ho, r1, .exc "UnboundLocalError" [], ?_, ⟨_, rfl⟩⟩
  rw [call_snmpmanager_81]
  runs [snmpmanager_81, ↓hm, ↓hid, h1, h2]

/-- snmpmanager.py:92-101. -/
theorem run_sm_92 (hc : Limits cfg) {h : Heap} {a q d : Nat} {s : Mgr .sm} {attrs : List (String × V)} (hb : Base h)
    (r : MgrAt nm env h a s attrs q d) {vs : List Val} {x : V} (hv : RepVbs h vs x) (v : Int) :
    Runs nm env a q d (Rep 9) h (call program cfg (.func .snmpmanager 92) [.ref a, x, .int v] h) (smCreatePDU .set .set2 vs v s) := by
  have hid := run_assign (cfg := cfg) r (m := .snmpmanager) (l := 63) (.inr rfl)
  have ho := Own.asn' (h' := h) hb r
  have hm := r.meth (name := "assignRequestID") (m := .snmpmanager) (l := 63) rfl
  have r1 := r.setId
  by_cases h1 : v = 1
  · subst h1
    obtain ⟨h', attrs', o1, r2, hk, out⟩ := run_requestAt (cfg := cfg) hc ho.base r1 (c := .set) rfl (hv.same (ho.asn r)) s.nextRequestID
    have hpl := place_pdu (c := .set) (.inl rfl) (.int s.nextRequestID) x
    refine ⟨h', attrs', ho.trans o1, r2, ?_⟩
    change Outcome (Rep 9) h' _ (mkPDU .set s.nextRequestID 0 0 vs)
    rw [call_snmpmanager_92]
    rw [show cid (.seq .set) = (.rfc1157, 191) from rfl] at hpl out
    cases hmk : mkPDU .set s.nextRequestID 0 0 vs with
    | ok v =>
      rw [hmk] at out
      obtain ⟨y, out, ry⟩ := out
      refine ⟨y, ?_, ry⟩
      runs [snmpmanager_92, ↓hm, ↓hid, ↓hpl, ↓out]
    | error e =>
      rw [hmk] at out
      obtain ⟨y, out, ry⟩ := out
      refine ⟨y, ?_, ry⟩
      runs [snmpmanager_92, ↓hm, ↓hid, ↓hpl, ↓out]
  by_cases h2 : v = 2
  · subst h2
    obtain ⟨h', attrs', o1, r2, hk, out⟩ := run_requestAt (cfg := cfg) hc ho.base r1 (c := .set2) rfl (hv.same (ho.asn r)) s.nextRequestID
    have hpl := place_pdu (c := .set2) (.inr rfl) (.int s.nextRequestID) x
    refine ⟨h', attrs', ho.trans o1, r2, ?_⟩
    change Outcome (Rep 9) h' _ (mkPDU .set2 s.nextRequestID 0 0 vs)
    rw [call_snmpmanager_92]
    rw [show cid (.seq .set2) = (.rfc1905, 197) from rfl] at hpl out
    cases hmk : mkPDU .set2 s.nextRequestID 0 0 vs with
    | ok v =>
      rw [hmk] at out
      obtain ⟨y, out, ry⟩ := out
      refine ⟨y, ?_, ry⟩
      runs [snmpmanager_92, ↓hm, ↓hid, ↓hpl, ↓out]
    | error e =>
      rw [hmk] at out
      obtain ⟨y, out, ry⟩ := out
      refine ⟨y, ?_, ry⟩
      runs [snmpmanager_92, ↓hm, ↓hid, ↓hpl, ↓out]
  have hmod : smCreatePDU .set .set2 vs v s = (.error .unboundLocalError, { s with nextRequestID := s.nextRequestID + 1 }) := by
    simp [smCreatePDU, Bind.bind, assignRequestID, M.throw, h1, h2]
  rw [hmod]
  refine ⟨_, _, ho, r1, .exc "UnboundLocalError" [], ?_, ⟨_, rfl⟩⟩
  rw [call_snmpmanager_92]
  runs [snmpmanager_92, ↓hm, ↓hid, h1, h2]

theorem fmt_version : pieces ((lit "Unknown version %d").length + 1) (lit "Unknown version %d") =
    some [.text (lit "Unknown version "), .conv 0 none 100] := by decide +kernel

/-- `'Unknown version %d' % version`. -/
theorem run_unknown (v : Int) (h : Heap) : (∃ t, binop program cfg .mod (.str (lit "Unknown version %d")) (.int v) h = okR (.str t) h) ∨
    binop program cfg .mod (.str (lit "Unknown version %d")) (.int v) h = excR (.exc "ValueError" []) h := by
  cases ht : tooLong cfg.digits v with
  | false =>
    refine .inl ⟨lit "Unknown version " ++ (padLeft 0 32 (pyStrInt v) ++ []), ?_⟩
    rw [binop]
    · runs [fmt_version, format, convInt, ht]
    · simp
  | true =>
    right
    rw [binop]
    · runs [fmt_version, format, convInt, ht]
    · simp

/-- snmpmanager.py:103-124. -/
theorem run_sm_103 (hc : Limits cfg) {h : Heap} {a q d : Nat} {s : Mgr .sm} {attrs : List (String × V)} (hb : Base h)
    (r : MgrAt nm env h a s attrs q d) {arg : Arg} {x : V} (hx : RepArg 9 h arg x) (hsh : ShortArg cfg arg) (t : Str) (v : Int) :
    Runs nm env a q d IsMsg h (call program cfg (.func .snmpmanager 103) [.ref a, x, .str t, .int v] h)
      (smCreateGetRequestMessage arg t v s) := by
  have hnull := fun h => run_newNull (cfg := cfg) .null h
  by_cases hv1 : v = 1
  · subst hv1
    rcases run_oidVBL (cfg := cfg) hc hb hx hsh (c := .varBind) (cl := .varBindList) (.inl rfl) (.inl rfl) with
      ⟨e, y, h', hm, e1, k1, hr⟩ | ⟨ids, x1, h1, y, h', hm, e1, e2, e3, k1, ry, m1, m2⟩
    · have hmod : smCreateGetRequestMessage arg t 1 s = (.error e, s) := by
        rw [smCreateGetRequestMessage, if_pos rfl, M.at_error (x := M.lift (mkOid arg)) (show _ = (Except.error e, s) by rw [hm]; rfl)]
      rw [hmod]
      refine ⟨h', attrs, (Own.refl hb _ _ _).kept k1 (Nat.le_refl _), r.kept k1 (Nat.le_refl _), y, ?_, hr⟩
      rw [cid_oid] at e1
      rw [call_snmpmanager_103]
      runs [snmpmanager_103, ↓e1]
    · have hmod : smCreateGetRequestMessage arg t 1 s = (do
            let pdu ← smCreatePDU .get .get2 [.seq .varBind [.oid ids, .null .null]] 1
            M.lift (mkMessage .message 0 t pdu) : M .sm Msg) s := by
        rw [smCreateGetRequestMessage, if_pos rfl, M.at_ok (x := M.lift (mkOid arg)) (show _ = (Except.ok ids, s) by rw [hm]; rfl),
          M.at_ok (x := M.lift (mkVarBind _ _ _)) (show _ = (Except.ok _, s) by rw [m1]; rfl),
          M.at_ok (x := M.lift (mkVarBindList _ _)) (show _ = (Except.ok _, s) by rw [m2]; rfl)]
        rfl
      rw [hmod]
      have r1 := r.kept k1 (Nat.le_refl _)
      have o1 := (Own.refl hb a q d).kept k1 (Nat.le_refl _)
      have h54 := run_sm_70 (cfg := cfg) hc k1.base r1 (.inr ⟨_, ry⟩) 1
      have hmeth := r1.meth (name := "createGetRequestPDU") (m := .snmpmanager) (l := 70) rfl
      have hpl := fun z => place_msg (c := .message) (.inl rfl) (.str t) z
      simp only [cids, show cid (.null .null) = (.rfc1155, 762) from rfl] at e1 e2 e3 hnull
      rw [show cid (.seq .message) = (.rfc1157, 87) from rfl] at hpl
      refine Runs.own o1 (h54.message hc (.inl rfl) 0 t ?_ ?_ ?_)
      · intro z h2 z' h3 e4 e5
        rw [show cid (.seq .message) = (.rfc1157, 87) from rfl] at e5
        rw [call_snmpmanager_103]
        runs [snmpmanager_103, ↓e1, ↓e2, ↓e3, ↓hmeth, ↓e4, ↓hpl, ↓e5, ↓hnull]
      · intro z h2 z' h3 e4 e5
        rw [show cid (.seq .message) = (.rfc1157, 87) from rfl] at e5
        rw [call_snmpmanager_103]
        runs [snmpmanager_103, ↓e1, ↓e2, ↓e3, ↓hmeth, ↓e4, ↓hpl, ↓e5, ↓hnull]
      · intro z h2 e4
        rw [call_snmpmanager_103]
        runs [snmpmanager_103, ↓e1, ↓e2, ↓e3, ↓hmeth, ↓e4, ↓hpl, ↓hnull]
  by_cases hv2 : v = 2
  · subst hv2
    rcases run_oidVBL (cfg := cfg) hc hb hx hsh (c := .varBind2) (cl := .varBindList2) (.inr rfl) (.inr rfl) with
      ⟨e, y, h', hm, e1, k1, hr⟩ | ⟨ids, x1, h1, y, h', hm, e1, e2, e3, k1, ry, m1, m2⟩
    · have hmod : smCreateGetRequestMessage arg t 2 s = (.error e, s) := by
        rw [smCreateGetRequestMessage, if_neg (by decide), if_pos rfl,
          M.at_error (x := M.lift (mkOid arg)) (show _ = (Except.error e, s) by rw [hm]; rfl)]
      rw [hmod]
      refine ⟨h', attrs, (Own.refl hb _ _ _).kept k1 (Nat.le_refl _), r.kept k1 (Nat.le_refl _), y, ?_, hr⟩
      rw [cid_oid] at e1
      rw [call_snmpmanager_103]
      runs [snmpmanager_103, ↓e1]
    · have hmod : smCreateGetRequestMessage arg t 2 s = (do
            let pdu ← smCreatePDU .get .get2 [.seq .varBind2 [.oid ids, .null .null]] 2
            M.lift (mkMessage .message2 1 t pdu) : M .sm Msg) s := by
        rw [smCreateGetRequestMessage, if_neg (by decide), if_pos rfl,
          M.at_ok (x := M.lift (mkOid arg)) (show _ = (Except.ok ids, s) by rw [hm]; rfl),
          M.at_ok (x := M.lift (mkVarBind _ _ _)) (show _ = (Except.ok _, s) by rw [m1]; rfl),
          M.at_ok (x := M.lift (mkVarBindList _ _)) (show _ = (Except.ok _, s) by rw [m2]; rfl)]
        rfl
      rw [hmod]
      have r1 := r.kept k1 (Nat.le_refl _)
      have o1 := (Own.refl hb a q d).kept k1 (Nat.le_refl _)
      have h54 := run_sm_70 (cfg := cfg) hc k1.base r1 (.inr ⟨_, ry⟩) 2
      have hmeth := r1.meth (name := "createGetRequestPDU") (m := .snmpmanager) (l := 70) rfl
      have hpl := fun z => place_msg (c := .message2) (.inr rfl) (.str t) z
      simp only [cids, show cid (.null .null) = (.rfc1155, 762) from rfl] at e1 e2 e3 hnull
      rw [show cid (.seq .message2) = (.rfc1905, 58) from rfl] at hpl
      refine Runs.own o1 (h54.message hc (.inr rfl) 1 t ?_ ?_ ?_)
      · intro z h2 z' h3 e4 e5
        rw [show cid (.seq .message2) = (.rfc1905, 58) from rfl] at e5
        rw [call_snmpmanager_103]
        runs [snmpmanager_103, ↓e1, ↓e2, ↓e3, ↓hmeth, ↓e4, ↓hpl, ↓e5, ↓hnull]
      · intro z h2 z' h3 e4 e5
        rw [show cid (.seq .message2) = (.rfc1905, 58) from rfl] at e5
        rw [call_snmpmanager_103]
        runs [snmpmanager_103, ↓e1, ↓e2, ↓e3, ↓hmeth, ↓e4, ↓hpl, ↓e5, ↓hnull]
      · intro z h2 e4
        rw [call_snmpmanager_103]
        runs [snmpmanager_103, ↓e1, ↓e2, ↓e3, ↓hmeth, ↓e4, ↓hpl, ↓hnull]
  have hmod : smCreateGetRequestMessage arg t v s = (.error .valueError, s) := by
    rw [smCreateGetRequestMessage, if_neg hv1, if_neg hv2]; rfl
  rw [hmod]
  rcases run_unknown (cfg := cfg) v h with ⟨u, hu⟩ | hu
  · refine ⟨h, attrs, Own.refl hb _ _ _, r, .exc "ValueError" [.str u], ?_, ⟨_, rfl⟩⟩
    rw [call_snmpmanager_103]
    runs [snmpmanager_103, hv1, hv2, ↓hu]
  · refine ⟨h, attrs, Own.refl hb _ _ _, r, .exc "ValueError" [], ?_, ⟨_, rfl⟩⟩
    rw [call_snmpmanager_103]
    runs [snmpmanager_103, hv1, hv2, ↓hu]

/-- The end of the request methods: snmpmanager.py:207-213. -/
def smTail : List Stmt := snmpmanager_199.body.drop 1

theorem smEnqueue_eq {s : Mgr .sm} {m : Msg} {c : SeqCls} {c1 : IntCls} {n : Int} {rest : List Val}
    (hm : m.data = .seq c (.integer c1 n :: rest)) (remote cb : Nat) {d' : Dict} (hd : s.callbacks.put (.integer c1 n) cb = .ok d') :
    smEnqueue (some m) remote cb s =
      (.ok (.integer c1 n), { s with outbound := s.outbound ++ [(some m, remote)], callbacks := d' }) := by
  simp only [smEnqueue, Bind.bind, putOutbound, M.lift, hm, pduRequestID, setCallback, hd, Pure.pure]

/-- What the end of a method does, wherever the local variables stand. -/
def SmTailRuns (cfg : Cfg) (nm : Names) (a b remote cb : Nat) (h h' : Heap) (y : V) : Prop :=
  ∀ e : Env, e.get "self" = some (.ref a) → e.get "msg" = some (.ref b) → e.get "remote" = some (nm.addr remote) →
    e.get "callback" = some (nm.fn cb) → block program cfg .snmpmanager e smTail h = some (h', e, .ret y)

theorem run_smTail {h : Heap} {a q d : Nat} {s : Mgr .sm} {attrs : List (String × V)} (hb : Base h)
    (r : MgrAt nm env h a s attrs q d) {m : Msg} {b : Nat} (rm : RepMsg 9 h m b) {c : SeqCls} (hc : HasID c) {c1 : IntCls} {n : Int}
    {rest : List Val} (hm : m.data = .seq c (.integer c1 n :: rest)) (remote cb : Nat) :
    ∃ h' y, SmTailRuns cfg nm a b remote cb h h' y ∧ Own a q d h h' ∧
      MgrAt nm env h' a (smEnqueue (some m) remote cb s).2 attrs q d ∧ (smEnqueue (some m) remote cb s).1 = .ok (.integer c1 n) ∧
      Rep 9 h' (.integer c1 n) y := by
  obtain ⟨l, hq, hl⟩ := r.queue
  have hi : Objs s.callbacks := r.keys
  have hput := put_place hi.numeric r.once (k := .integer c1 n) rfl cb
  have hnew := put_once hi.numeric r.once (k := .integer c1 n) rfl hput
  rw [smEnqueue_eq hm remote cb hput]
  have o1 : Own a q d h (h.set q (.queue (l ++ [.tuple [.ref b, nm.addr remote]]))) :=
    (Own.refl hb a q d).set (.inl rfl) r.qlow _
  have r1 := r.setQueue (out := s.outbound ++ [(some m, remote)]) (l := l ++ [.tuple [.ref b, nm.addr remote]])
    (List.rel_append hl (.cons ⟨b, rfl, rm⟩ .nil))
  have rm1 := rm.same (o1.asn r)
  obtain ⟨z, hz, rz⟩ := run_msgData rm1
  rw [hm] at rz
  obtain ⟨y, hy, ry⟩ := run_requestID hc rz
  obtain ⟨es, hd, he⟩ := r1.dict
  obtain ⟨i, hyi⟩ : ∃ i, y = .ref i := by
    rw [Rep] at ry
    obtain ⟨i, _, e, _⟩ := ry
    exact ⟨i, e⟩
  have hfind := run_findKey (cfg := cfg) he hi ry
  have gq := r.getOutbound
  have gp : getattr program h (.ref q) "put" = some (.bmeth (.ref q) "put") := by
    simp only [getattr, hq]; rfl
  have gd := r1.getCallbacks
  generalize hes : (match place? s.callbacks (.integer c1 n) with
    | some i => es.modify i fun e => (e.1, nm.fn cb)
    | none => es ++ [(y, nm.fn cb)]) = es'
  refine ⟨(h.set q (.queue (l ++ [.tuple [.ref b, nm.addr remote]]))).set d (.dict es'), y, ?_, ?_, ?_, rfl, ?_⟩
  rotate_left
  · exact o1.set (.inr rfl) r.dlow (.dict es')
  · refine r1.setDict (es := es') ?_ ?_ hnew.1
    · rw [← hes]
      cases place? s.callbacks (.integer c1 n) with
      | some i => exact Entries.modify he i cb
      | none => exact Entries.app he ry cb
    · intro p hp
      rcases hnew.2 p hp with hp | ⟨p', hp', hp⟩
      · rw [hp]; exact ⟨_, _, rfl⟩
      · rw [hp]; exact r.keys p' hp'
  · exact ry.same (Same.set hd (fun h => h) _)
  · intro e e1 e2 e3 e4
    have sm := Same.set hd (fun h => h) (.dict es')
    have hz' := hz _ sm
    have hy' := hy _ sm
    have hz := hz _ fun _ _ _ _ h => h
    have hy := hy _ fun _ _ _ _ h => h
    have hqm : call program cfg (.bmeth (.ref q) "put") [.tuple [.ref b, nm.addr remote]] h =
        okR .none (h.set q (.queue (l ++ [.tuple [.ref b, nm.addr remote]]))) := by
      runs [hq, queueMethod]
    have hst : store program cfg (.ref d) y (nm.fn cb) (h.set q (.queue (l ++ [.tuple [.ref b, nm.addr remote]]))) =
        okR () ((h.set q (.queue (l ++ [.tuple [.ref b, nm.addr remote]]))).set d (.dict es')) := by
      subst hyi
      rw [store]
      simp only [kind, hd, hfind, bindR_ok]
      rw [← hes]
      cases place? s.callbacks (.integer c1 n) <;> rfl
    rw [smTail, snmpmanager_199, List.drop_succ_cons, List.drop_zero]
    runs [↓e1, ↓e2, ↓e3, ↓e4, ↓gq, ↓gp, ↓gd, ↓hz, ↓hy, outR, ↓hqm, ↓hst, ↓hz', ↓hy']

theorem Runs.smEnqueue {h : Heap} {a q d : Nat} {s : Mgr .sm} {o : R V} {x : M .sm Msg}
    (h1 : Runs nm env a q d IsMsg h o (x s)) (hd : ∀ m s', x s = (.ok m, s') → Asks m) (remote cb : Nat) {o' : R V}
    (hok : ∀ b h' y h'', o = okR (.ref b) h' → SmTailRuns cfg nm a b remote cb h' h'' y → o' = okR y h'')
    (her : ∀ y h', o = excR y h' → o' = excR y h') :
    Runs nm env a q d (Rep 9) h o' ((do let msg ← x; Libsnmp.smEnqueue (some msg) remote cb : M .sm Val) s) := by
  obtain ⟨h', attrs', o1, r1, out⟩ := h1
  rcases hx : x s with ⟨res, s'⟩
  rw [hx] at out r1
  cases res with
  | error e =>
    obtain ⟨y, e1, e2⟩ := out
    rw [M.at_error hx]
    exact ⟨h', attrs', o1, r1, y, her _ _ e1, e2⟩
  | ok m =>
    obtain ⟨y, e1, b, rfl, rm⟩ := out
    obtain ⟨c, c1, n, rest, hc, hm⟩ := hd m s' hx
    obtain ⟨h'', y, e2, o2, r2, e3, ry⟩ := run_smTail (cfg := cfg) o1.base r1 rm hc hm remote cb
    rw [M.at_ok hx]
    refine ⟨h'', attrs', o1.trans o2, r2, ?_⟩
    rw [e3]
    exact ⟨y, hok _ _ _ _ e1 e2, ry⟩

theorem peel {k : Libsnmp.Kind} {α β : Type} {x : Except Exc α} {f : α → M k β} {s s' : Mgr k} {m : β}
    (h : (M.lift x >>= f) s = (.ok m, s')) : ∃ v, x = .ok v ∧ f v s = (.ok m, s') := by
  cases x with
  | error e => cases h
  | ok v => exact ⟨v, rfl, h⟩

theorem asks_smPDU {c1 c2 : SeqCls} (hc1 : HasID c1) (hc2 : HasID c2) {vs : List Val} {v : Int} {s s' : Mgr .sm} {x : Val}
    (h : smCreatePDU c1 c2 vs v s = (.ok x, s')) : ∃ c c1 n rest, HasID c ∧ x = .seq c (.integer c1 n :: rest) := by
  simp only [smCreatePDU, Bind.bind, assignRequestID] at h
  split at h
  · exact hasID (lifted (s := { s with nextRequestID := s.nextRequestID + 1 }) h) hc1
  split at h
  · exact hasID (lifted (s := { s with nextRequestID := s.nextRequestID + 1 }) h) hc2
  · cases h

theorem asks_smGet {arg : Arg} {t : Str} {v : Int} {s s' : Mgr .sm} {m : Msg} (h : smCreateGetRequestMessage arg t v s = (.ok m, s')) :
    Asks m := by
  rw [smCreateGetRequestMessage] at h
  by_cases h1 : v = 1
  · rw [if_pos h1] at h
    obtain ⟨_, -, h⟩ := peel h
    obtain ⟨_, -, h⟩ := peel h
    obtain ⟨_, -, h⟩ := peel h
    obtain ⟨_, -, h⟩ := peel h
    obtain ⟨s1, h1⟩ := message_data h
    exact asks_smPDU ⟨_, rfl⟩ ⟨_, rfl⟩ h1
  rw [if_neg h1] at h
  by_cases h2 : v = 2
  · rw [if_pos h2] at h
    obtain ⟨_, -, h⟩ := peel h
    obtain ⟨_, -, h⟩ := peel h
    obtain ⟨_, -, h⟩ := peel h
    obtain ⟨_, -, h⟩ := peel h
    obtain ⟨s1, h1⟩ := message_data h
    exact asks_smPDU ⟨_, rfl⟩ ⟨_, rfl⟩ h1
  rw [if_neg h2] at h
  cases h

/-- snmpmanager.py:199-213. -/
theorem run_sm_199 (hc : Limits cfg) {h : Heap} {a q d : Nat} {s : Mgr .sm} {attrs : List (String × V)} (hb : Base h)
    (r : MgrAt nm env h a s attrs q d) {arg : Arg} {x : V} (hx : RepArg 9 h arg x) (hsh : ShortArg cfg arg) (t : Str) (v : Int)
    (remote cb : Nat) :
    Runs nm env a q d (Rep 9) h (call program cfg (.func .snmpmanager 199) [.ref a, x, nm.addr remote, nm.fn cb, .str t, .int v] h)
      (smSnmpGet arg remote cb t v s) := by
  have hm := r.meth (name := "createGetRequestMessage") (m := .snmpmanager) (l := 103) rfl
  have hbody : snmpmanager_199.body = .assign (.loc "msg") (.call (.attr (.loc "self") "createGetRequestMessage")
    [.loc "oid", .loc "community", .loc "version"]) :: smTail := rfl
  refine (run_sm_103 (cfg := cfg) hc hb r hx hsh t v).smEnqueue (cfg := cfg) (fun m s' h => asks_smGet h) remote cb ?_ ?_
  · intro b h' y h'' e1 e2
    rw [call_snmpmanager_199, hbody]
    runs [↓hm, ↓e1]
    rw [e2 _ rfl rfl rfl rfl]
    runs
  · intro y h' e1
    rw [call_snmpmanager_199, hbody]
    runs [↓hm, ↓e1]

/-- snmpmanager.py:126-136, for a known version. -/
def smNext (vs : List Val) (t : Str) (v : Int) (c : SeqCls) (n : Int) : M .sm Msg := do
  let pdu ← smCreatePDU .getNext .getNext2 vs v
  M.lift (mkMessage c n t pdu)

theorem smNext_eq (vs : List Val) (t : Str) {v : Int} {c : SeqCls} {n : Int} (hv : v = 1 ∧ c = .message ∧ n = 0 ∨ v = 2 ∧ c = .message2 ∧ n = 1)
    (remote cb : Nat) (s : Mgr .sm) :
    smSnmpGetNext vs remote cb t v s = (do let msg ← smNext vs t v c n; Libsnmp.smEnqueue (some msg) remote cb : M .sm Val) s := by
  rcases hv with ⟨rfl, rfl, rfl⟩ | ⟨rfl, rfl, rfl⟩
  · simp only [smSnmpGetNext, smNext, smCreateGetNextRequestMessage, Bind.bind]
    rcases smCreatePDU .getNext .getNext2 vs 1 s with ⟨_ | pdu, s'⟩
    · rfl
    · unfold M.lift
      cases mkMessage .message 0 t pdu <;> rfl
  · simp only [smSnmpGetNext, smNext, smCreateGetNextRequestMessage, Bind.bind]
    rcases smCreatePDU .getNext .getNext2 vs 2 s with ⟨_ | pdu, s'⟩
    · rfl
    · unfold M.lift
      cases mkMessage .message2 1 t pdu <;> rfl

theorem run_sm_126 (hc : Limits cfg) {h : Heap} {a q d : Nat} {s : Mgr .sm} {attrs : List (String × V)} (hb : Base h)
    (r : MgrAt nm env h a s attrs q d) {vs : List Val} {x : V} (hv : RepVbs h vs x) (t : Str) {v : Int} {c : SeqCls} {n : Int}
    (hn : v = 1 ∧ c = .message ∧ n = 0 ∨ v = 2 ∧ c = .message2 ∧ n = 1) :
    Runs nm env a q d IsMsg h (call program cfg (.func .snmpmanager 126) [.ref a, x, .str t, .int v] h) (smNext vs t v c n s) := by
  have hm := r.meth (name := "createGetNextRequestPDU") (m := .snmpmanager) (l := 81) rfl
  rcases hn with ⟨rfl, rfl, rfl⟩ | ⟨rfl, rfl, rfl⟩
  · have hpl := fun z => place_msg (c := .message) (.inl rfl) (.str t) z
    refine (run_sm_81 (cfg := cfg) hc hb r hv 1).message hc (.inl rfl) 0 t ?_ ?_ ?_ <;> intros
    · rename_i e1 e2
      rw [show cid (.seq .message) = (.rfc1157, 87) from rfl] at hpl e2
      rw [call_snmpmanager_126]
      runs [snmpmanager_126, ↓hm, ↓e1, ↓hpl, ↓e2]
    · rename_i e1 e2
      rw [show cid (.seq .message) = (.rfc1157, 87) from rfl] at hpl e2
      rw [call_snmpmanager_126]
      runs [snmpmanager_126, ↓hm, ↓e1, ↓hpl, ↓e2]
    · rename_i e1
      rw [call_snmpmanager_126]
      runs [snmpmanager_126, ↓hm, ↓e1]
  · have hpl := fun z => place_msg (c := .message2) (.inr rfl) (.str t) z
    refine (run_sm_81 (cfg := cfg) hc hb r hv 2).message hc (.inr rfl) 1 t ?_ ?_ ?_ <;> intros
    · rename_i e1 e2
      rw [show cid (.seq .message2) = (.rfc1905, 58) from rfl] at hpl e2
      rw [call_snmpmanager_126]
      runs [snmpmanager_126, ↓hm, ↓e1, ↓hpl, ↓e2]
    · rename_i e1 e2
      rw [show cid (.seq .message2) = (.rfc1905, 58) from rfl] at hpl e2
      rw [call_snmpmanager_126]
      runs [snmpmanager_126, ↓hm, ↓e1, ↓hpl, ↓e2]
    · rename_i e1
      rw [call_snmpmanager_126]
      runs [snmpmanager_126, ↓hm, ↓e1]

theorem sm_other {c1 c2 : SeqCls} (vs : List Val) {v : Int} (h1 : v ≠ 1) (h2 : v ≠ 2) (s : Mgr .sm) :
    smCreatePDU c1 c2 vs v s = (.error .unboundLocalError, { s with nextRequestID := s.nextRequestID + 1 }) := by
  simp [smCreatePDU, Bind.bind, assignRequestID, M.throw, h1, h2]

/-- snmpmanager.py:215-228. -/
theorem run_sm_215 (hc : Limits cfg) {h : Heap} {a q d : Nat} {s : Mgr .sm} {attrs : List (String × V)} (hb : Base h)
    (r : MgrAt nm env h a s attrs q d) {vs : List Val} {x : V} (hx : RepVbs h vs x) (t : Str) (v : Int) (remote cb : Nat) :
    Runs nm env a q d (Rep 9) h (call program cfg (.func .snmpmanager 215) [.ref a, x, nm.addr remote, nm.fn cb, .str t, .int v] h)
      (smSnmpGetNext vs remote cb t v s) := by
  have hm := r.meth (name := "createGetNextRequestMessage") (m := .snmpmanager) (l := 126) rfl
  have hbody : snmpmanager_215.body = .assign (.loc "msg") (.call (.attr (.loc "self") "createGetNextRequestMessage")
    [.loc "varbindlist", .loc "community", .loc "version"]) :: smTail := rfl
  have known : ∀ (c : SeqCls) (n : Int), v = 1 ∧ c = .message ∧ n = 0 ∨ v = 2 ∧ c = .message2 ∧ n = 1 →
      Runs nm env a q d (Rep 9) h (call program cfg (.func .snmpmanager 215) [.ref a, x, nm.addr remote, nm.fn cb, .str t, .int v] h)
      (smSnmpGetNext vs remote cb t v s) := by
    intro c n hn
    rw [smNext_eq vs t hn]
    refine (run_sm_126 (cfg := cfg) hc hb r hx t hn).smEnqueue (cfg := cfg) ?_ remote cb ?_ ?_
    · intro m s' h
      obtain ⟨s1, h1⟩ := message_data h
      exact asks_smPDU ⟨_, rfl⟩ ⟨_, rfl⟩ h1
    · intro b h' y h'' e1 e2
      rw [call_snmpmanager_215, hbody]
      runs [↓hm, ↓e1]
      rw [e2 _ rfl rfl rfl rfl]
      runs
    · intro y h' e1
      rw [call_snmpmanager_215, hbody]
      runs [↓hm, ↓e1]
  by_cases h1 : v = 1
  · exact known .message 0 (.inl ⟨h1, rfl, rfl⟩)
  by_cases h2 : v = 2
  · exact known .message2 1 (.inr ⟨h2, rfl, rfl⟩)
  have h81 := run_sm_81 (cfg := cfg) hc hb r hx v
  rw [sm_other vs h1 h2] at h81
  obtain ⟨h', attrs', o1, r1, y, e1, ry⟩ := h81
  rw [show smSnmpGetNext vs remote cb t v s = (.error .unboundLocalError, { s with nextRequestID := s.nextRequestID + 1 }) by
    simp only [smSnmpGetNext, smCreateGetNextRequestMessage, Bind.bind, sm_other vs h1 h2]]
  have hm1 := r.meth (name := "createGetNextRequestPDU") (m := .snmpmanager) (l := 81) rfl
  refine ⟨h', attrs', o1, r1, y, ?_, ry⟩
  rw [call_snmpmanager_215, hbody]
  runs [↓hm, call_snmpmanager_126, snmpmanager_126, ↓hm1, ↓e1]

/-- snmpmanager.py:247-252. -/
theorem run_sm_247 {h : Heap} {a q d : Nat} {s : Mgr .sm} {attrs : List (String × V)} (hb : Base h)
    (r : MgrAt nm env h a s attrs q d) (pdu : Val) (x : V) (t : Str) (v : Int) (remote : Nat) :
    Runs nm env a q d (Rep 9) h (call program cfg (.func .snmpmanager 247) [.ref a, nm.addr remote, x, .str t, .int v] h)
      (smSnmpTrap remote pdu t v s) := by
  have hm := r.meth (name := "createTrapMessage") (m := .snmpmanager) (l := 161) rfl
  have hg1 : program.globals .v1 "createTrapMessage" = none := rfl
  have hg2 : program.globals .v2 "createTrapMessage" = none := rfl
  by_cases h1 : v = 1
  · subst h1
    refine ⟨h, attrs, Own.refl hb _ _ _, r, .exc "AttributeError" [], ?_, ⟨_, rfl⟩⟩
    rw [call_snmpmanager_247]
    runs [snmpmanager_247, ↓hm, call_snmpmanager_161, snmpmanager_161, ↓hg1]
  by_cases h2 : v = 2
  · subst h2
    refine ⟨h, attrs, Own.refl hb _ _ _, r, .exc "AttributeError" [], ?_, ⟨_, rfl⟩⟩
    rw [call_snmpmanager_247]
    runs [snmpmanager_247, ↓hm, call_snmpmanager_161, snmpmanager_161, ↓hg2]
  obtain ⟨l, hq, hl⟩ := r.queue
  have hmod : smSnmpTrap remote pdu t v s = (.ok .none, { s with outbound := s.outbound ++ [(none, remote)] }) := by
    simp [smSnmpTrap, smCreateTrapMessage, h1, h2, Bind.bind, Pure.pure, putOutbound]
  rw [hmod]
  have hp := run_put (cfg := cfg) hq (.tuple [.none, nm.addr remote])
  have ha := attr_put hq
  have gq := r.getOutbound
  refine ⟨_, attrs, (Own.refl hb a q d).set (.inl rfl) r.qlow _,
    r.setQueue (out := s.outbound ++ [(none, remote)]) (l := l ++ [.tuple [.none, nm.addr remote]])
      (List.rel_append hl (.cons (show QItem nm h (none, remote) (.tuple [.none, nm.addr remote]) from rfl) .nil)), .none, ?_, by rw [Rep]⟩
  rw [call_snmpmanager_247]
  runs [snmpmanager_247, ↓hm, call_snmpmanager_161, snmpmanager_161, h1, h2, ↓gq, ↓ha, ↓hp]

end Libsnmp.Src
