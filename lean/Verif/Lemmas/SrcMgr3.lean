import Verif.Lemmas.SrcMgr2
import Verif.Lemmas.SrcDict

/-!
# Running the request methods of v1.py and v2.py
-/

namespace Libsnmp.Src
open Libsnmp

variable {cfg : Cfg} {nm : Names} {env : Libsnmp.Env} {k : Libsnmp.Kind}

/-- The end of `snmpGet`, `snmpGetNext` and `snmpSet`: v1.py:111-116. -/
def v1Tail : List Stmt := v1_103.body.drop 1

/-- A class whose first field is the request ID. -/
def HasID (c : SeqCls) : Prop := ∃ rest, fieldNames c = "requestID" :: rest

theorem run_requestID {h : Heap} {c : SeqCls} (hc : HasID c) {v : Val} {vs : List Val} {x : V} (r : Rep 9 h (.seq c (v :: vs)) x) :
    ∃ y, (∀ h', Same h h' → getattr program h' x "requestID" = some y) ∧ Rep 9 h v y := by
  rw [Rep] at r
  obtain ⟨a, attrs, b, l, rfl, h1, h2, h3, h4, h5, h6, h7, h8⟩ := r
  rw [RepAll] at h8
  obtain ⟨y, ys, rfl, r1, r2⟩ := h8
  obtain ⟨rest, hr⟩ := hc
  rw [Fields, hr] at h7
  simp only [List.map_cons, List.length_cons, List.take_succ_cons, List.cons.injEq] at h7
  refine ⟨y, fun h' hs => ?_, r1⟩
  have h2' := hs a (.inst (cid (.seq c)) attrs) h1 ⟨_, rfl⟩ h2
  simp only [getattr, h2', h7.1]

theorem run_msgData {h : Heap} {m : Msg} {b : Nat} (r : RepMsg 9 h m b) :
    ∃ z, (∀ h', Same h h' → getattr program h' (.ref b) "data" = some z) ∧ Rep 9 h m.data z := by
  obtain ⟨attrs, b, l, x, y, z, h1, h2, h3, h4, h5, h6, h7, h8, h9, h10, r1, r2, r3⟩ := r
  refine ⟨z, fun h' hs => ?_, r3⟩
  have h2' := hs _ (.inst (cid (.seq m.cls)) attrs) h1 ⟨_, rfl⟩ h2
  simp only [getattr, h2', h10]

theorem v1Enqueue_eq {s : Mgr k} {m : Msg} {c : SeqCls} {c1 : IntCls} {n : Int} {rest : List Val}
    (hm : m.data = .seq c (.integer c1 n :: rest)) (remote cb : Nat) {d' : Dict} (hd : s.callbacks.put (.int n) cb = .ok d') :
    v1Enqueue m remote cb s =
      (.ok (.integer c1 n), { s with outbound := s.outbound ++ [(some m, remote)], callbacks := d' }) := by
  simp only [v1Enqueue, Bind.bind, putOutbound, M.lift, hm, pduRequestID, Val.toInt, setCallback, hd, Pure.pure]

/-- What the end of a method does, wherever the local variables stand. -/
def TailRuns (cfg : Cfg) (nm : Names) (m0 : Module) (a b remote cb : Nat) (h h' : Heap) (y : V) : Prop :=
  ∀ e : Env, e.get "self" = some (.ref a) → e.get "msg" = some (.ref b) → e.get "remote" = some (nm.addr remote) →
    e.get "callback" = some (nm.fn cb) → block program cfg m0 e v1Tail h = some (h', e, .ret y)

theorem run_v1Tail {h : Heap} {a q d : Nat} {s : Mgr k} {attrs : List (String × V)} (hb : Base h) (hk : k ≠ .sm)
    (r : MgrAt nm env h a s attrs q d) {m : Msg} {b : Nat} (rm : RepMsg 9 h m b) {c : SeqCls} (hc : HasID c) {c1 : IntCls} {n : Int}
    {rest : List Val} (hm : m.data = .seq c (.integer c1 n :: rest)) (remote cb : Nat) {m0 : Module} (h0 : m0 = .v1 ∨ m0 = .v2) :
    ∃ h' y, TailRuns cfg nm m0 a b remote cb h h' y ∧ Own a q d h h' ∧
      MgrAt nm env h' a (v1Enqueue m remote cb s).2 attrs q d ∧ (v1Enqueue m remote cb s).1 = .ok (.integer c1 n) ∧
      Rep 9 h' (.integer c1 n) y := by
  obtain ⟨l, hq, hl⟩ := r.queue
  have hi : Ints s.callbacks := by
    intro p hp
    have := r.keys p hp
    cases k with
    | v1 => exact this
    | v2 => exact this
    | sm => exact absurd rfl hk
  have hput := put_place hi.numeric r.once (k := .int n) rfl cb
  have hnew := put_once hi.numeric r.once (k := .int n) rfl hput
  rw [v1Enqueue_eq hm remote cb hput]
  have o1 : Own a q d h (h.set q (.queue (l ++ [.tuple [.ref b, nm.addr remote]]))) :=
    (Own.refl hb a q d).set (.inl rfl) r.qlow _
  have r1 := r.setQueue (out := s.outbound ++ [(some m, remote)]) (l := l ++ [.tuple [.ref b, nm.addr remote]])
    (List.rel_append hl (.cons ⟨b, rfl, rm⟩ .nil))
  have rm1 := rm.same (o1.asn r)
  obtain ⟨z, hz, rz⟩ := run_msgData rm1
  rw [hm] at rz
  obtain ⟨y, hy, ry⟩ := run_requestID hc rz
  obtain ⟨es, hd, he⟩ := r1.dict
  have hset := Entries.setKey (n := n) (w := nm.fn cb) he hi
  have gq := r.getOutbound
  have gp : getattr program h (.ref q) "put" = some (.bmeth (.ref q) "put") := by
    simp only [getattr, hq]; rfl
  have gd := r1.getCallbacks
  have hint := run_toInt (cfg := cfg) ry (by simp)
  refine ⟨(h.set q (.queue (l ++ [.tuple [.ref b, nm.addr remote]]))).set d (.dict (Src.setKey es (.int n) (nm.fn cb))), y,
    ?_, ?_, ?_, rfl, ?_⟩
  rotate_left
  · exact o1.set (.inr rfl) r.dlow (.dict (Src.setKey es (.int n) (nm.fn cb)))
  · refine r1.setDict (es := Src.setKey es (.int n) (nm.fn cb)) ?_ ?_ hnew.1
    · rw [hset]
      cases place? s.callbacks (.int n) with
      | some i => exact Entries.modify he i cb
      | none => exact Entries.app he (by rw [Rep]) cb
    · intro p hp
      rcases hnew.2 p hp with hp | ⟨p', hp', hp⟩
      · rw [hp]
        cases k with
        | v1 => exact ⟨n, rfl⟩
        | v2 => exact ⟨n, rfl⟩
        | sm => exact absurd rfl hk
      · rw [hp]; exact r.keys p' hp'
  · exact ry.same (Same.set hd (fun h => h) _)
  · intro e e1 e2 e3 e4
    have sm := Same.set hd (fun h => h) (.dict (Src.setKey es (.int n) (nm.fn cb)))
    have hz' := hz _ sm
    have hy' := hy _ sm
    have hz := hz _ fun _ _ _ _ h => h
    have hy := hy _ fun _ _ _ _ h => h
    have hqm : call program cfg (.bmeth (.ref q) "put") [.tuple [.ref b, nm.addr remote]] h =
        okR .none (h.set q (.queue (l ++ [.tuple [.ref b, nm.addr remote]]))) := by
      runs [hq, queueMethod]
    have hst : store program cfg (.ref d) (.int n) (nm.fn cb) (h.set q (.queue (l ++ [.tuple [.ref b, nm.addr remote]]))) =
        okR () ((h.set q (.queue (l ++ [.tuple [.ref b, nm.addr remote]]))).set d (.dict (Src.setKey es (.int n) (nm.fn cb)))) := by
      rw [store]
      · simp only [setitem, hd]
      · intro a; nofun
    rw [v1Tail, v1_103, List.drop_succ_cons, List.drop_zero]
    rcases h0 with rfl | rfl
    · runs [↓e1, ↓e2, ↓e3, ↓e4, ↓gq, ↓gp, ↓gd, ↓hz, ↓hy, ↓hint, Val.toInt, outR, ↓hqm, ↓hst, ↓hz', ↓hy']
    · runs [↓e1, ↓e2, ↓e3, ↓e4, ↓gq, ↓gp, ↓gd, ↓hz, ↓hy, ↓hint, Val.toInt, outR, ↓hqm, ↓hst, ↓hz', ↓hy']

/-- The message asks something: it has a request ID. -/
def Asks (m : Msg) : Prop := ∃ c c1 n rest, HasID c ∧ m.data = .seq c (.integer c1 n :: rest)

theorem hasID {c : SeqCls} {a b d : Int} {vs : List Val} {v : Val} (h : mkPDU c a b d vs = .ok v) (hc : HasID c) :
    ∃ c c1 n rest, HasID c ∧ v = .seq c (.integer c1 n :: rest) := by
  obtain ⟨c1, c2, cl, hx, _⟩ := mkPDU_ok h
  exact ⟨c, c1, a, _, hc, hx⟩

theorem Runs.enqueue {h : Heap} {a q d : Nat} {s : Mgr k} (hk : k ≠ .sm) {o : R V} {x : M k Msg}
    (h1 : Runs nm env a q d IsMsg h o (x s)) (hd : ∀ m s', x s = (.ok m, s') → Asks m) (remote cb : Nat) {m0 : Module}
    (h0 : m0 = .v1 ∨ m0 = .v2) {o' : R V}
    (hok : ∀ b h' y h'', o = okR (.ref b) h' → TailRuns cfg nm m0 a b remote cb h' h'' y → o' = okR y h'')
    (her : ∀ y h', o = excR y h' → o' = excR y h') :
    Runs nm env a q d (Rep 9) h o' ((do let msg ← x; v1Enqueue msg remote cb : M k Val) s) := by
  obtain ⟨h', attrs', o1, r1, out⟩ := h1
  rcases hx : x s with ⟨res, s'⟩
  rw [hx] at out r1
  cases res with
  | error e =>
    obtain ⟨y, e1, e2⟩ := out
    rw [M.at_error hx]
    exact ⟨h', attrs', o1, r1, y, her _ _ e1, e2⟩
  | ok m =>
    obtain ⟨y, e1, b, rfl, rm⟩ := out
    obtain ⟨c, c1, n, rest, hc, hm⟩ := hd m s' hx
    obtain ⟨h'', y, e2, o2, r2, e3, ry⟩ := run_v1Tail (cfg := cfg) o1.base hk r1 rm hc hm remote cb h0
    rw [M.at_ok hx]
    refine ⟨h'', attrs', o1.trans o2, r2, ?_⟩
    rw [e3]
    exact ⟨y, hok _ _ _ _ e1 e2, ry⟩

theorem message_data {x : M k Val} {s s' : Mgr k} {c : SeqCls} {n : Int} {t : Str} {m : Msg}
    (h : (do let pdu ← x; M.lift (mkMessage c n t pdu) : M k Msg) s = (.ok m, s')) : ∃ s1, x s = (.ok m.data, s1) := by
  rcases hx : x s with ⟨res, s1⟩
  cases res with
  | error e => rw [M.at_error hx] at h; cases h
  | ok v =>
    rw [M.at_ok hx] at h
    change (mkMessage c n t v, s1) = _ at h
    rw [mkMessage] at h
    split at h
    · cases h
    · cases h; exact ⟨_, rfl⟩

theorem lifted {α : Type} {x : Except Exc α} {s s' : Mgr k} {v : α} (h : (M.lift x : M k α) s = (.ok v, s')) : x = .ok v :=
  congrArg Prod.fst h

theorem asks_v1Next {vs : List Val} {t : Str} {s s' : Mgr .v1} {m : Msg} (h : v1CreateGetNextRequestMessage vs t s = (.ok m, s')) :
    Asks m := by
  obtain ⟨s1, h1⟩ := message_data h
  exact hasID (lifted (s := { s with nextRequestID := s.nextRequestID + 1 }) h1) ⟨_, rfl⟩

theorem asks_v1Get {arg : Arg} {t : Str} {s s' : Mgr .v1} {m : Msg} (h : v1CreateGetRequestMessage arg t s = (.ok m, s')) :
    Asks m := by
  rw [v1CreateGetRequestMessage] at h
  cases h1 : mkOid arg with
  | error e => rw [M.at_error (e := e) (s' := s) (by rw [h1]; rfl)] at h; cases h
  | ok ids =>
    rw [M.at_ok (v := ids) (s' := s) (by rw [h1]; rfl)] at h
    cases h2 : mkVarBind .varBind (.oid ids) (.null .null) with
    | error e => rw [M.at_error (e := e) (s' := s) (by rw [h2]; rfl)] at h; cases h
    | ok vb =>
      rw [M.at_ok (v := vb) (s' := s) (by rw [h2]; rfl)] at h
      cases h3 : mkVarBindList .varBindList [vb] with
      | error e => rw [M.at_error (e := e) (s' := s) (by rw [h3]; rfl)] at h; cases h
      | ok vbl =>
        rw [M.at_ok (v := vbl) (s' := s) (by rw [h3]; rfl)] at h
        cases h4 : vbl.iter with
        | error e => rw [M.at_error (e := e) (s' := s) (by rw [h4]; rfl)] at h; cases h
        | ok vbs =>
          rw [M.at_ok (v := vbs) (s' := s) (by rw [h4]; rfl)] at h
          obtain ⟨s1, h1⟩ := message_data h
          exact hasID (lifted (s := { s with nextRequestID := s.nextRequestID + 1 }) h1) ⟨_, rfl⟩

theorem body_v1_103 : v1_103.body =
    .assign (.loc "msg") (.call (.attr (.loc "self") "createGetRequestMessage") [.loc "oid", .loc "community"]) :: v1Tail := rfl

theorem body_v1_118 : v1_118.body =
    .assign (.loc "msg") (.call (.attr (.loc "self") "createGetNextRequestMessage") [.loc "varbindlist", .loc "community"]) ::
      v1Tail := rfl

theorem body_v1_133 : v1_133.body =
    .assign (.loc "reqID") (.call (.attr (.loc "self") "assignRequestID") []) ::
    .assign (.loc "pdu") (.callK (.glob "GetNext") [.loc "reqID"] ["varBindList"] [.loc "varbindlist"]) ::
    .assign (.loc "msg") (.callK (.glob "Message") [] ["community", "data"] [.loc "community", .loc "pdu"]) :: v1Tail := rfl

/-- v1.py:103-116. -/
theorem run_v1_103 (hc : Limits cfg) {h : Heap} {a q d : Nat} {s : Mgr .v1} {attrs : List (String × V)} (hb : Base h)
    (r : MgrAt nm env h a s attrs q d) {arg : Arg} {x : V} (hx : RepArg 9 h arg x) (hsh : ShortArg cfg arg) (t : Str) (remote cb : Nat) :
    Runs nm env a q d (Rep 9) h (call program cfg (.func .v1 103) [.ref a, x, nm.addr remote, nm.fn cb, .str t] h)
      (v1SnmpGet arg remote cb t s) := by
  have hm := r.meth (name := "createGetRequestMessage") (m := .v1) (l := 64) rfl
  refine (run_v1_64 (cfg := cfg) hc hb r hx hsh t).enqueue (cfg := cfg) (by decide) (fun m s' h => asks_v1Get h) remote cb (m0 := .v1)
    (.inl rfl) ?_ ?_
  · intro b h' y h'' e1 e2
    rw [call_v1_103, body_v1_103]
    runs [↓hm, ↓e1]
    rw [e2 _ rfl rfl rfl rfl]
    rfl
  · intro y h' e1
    rw [call_v1_103]
    runs [v1_103, ↓hm, ↓e1]

/-- v1.py:118-131. -/
theorem run_v1_118 (hc : Limits cfg) {h : Heap} {a q d : Nat} {s : Mgr .v1} {attrs : List (String × V)} (hb : Base h)
    (r : MgrAt nm env h a s attrs q d) {vs : List Val} {x : V} (hv : RepVbs h vs x) (t : Str) (remote cb : Nat) :
    Runs nm env a q d (Rep 9) h (call program cfg (.func .v1 118) [.ref a, x, nm.addr remote, nm.fn cb, .str t] h)
      (v1SnmpGetNext vs remote cb t s) := by
  have hm := r.meth (name := "createGetNextRequestMessage") (m := .v1) (l := 74) rfl
  refine (run_v1_74 (cfg := cfg) hc hb r hv t).enqueue (cfg := cfg) (by decide) (fun m s' h => asks_v1Next h) remote cb (m0 := .v1)
    (.inl rfl) ?_ ?_
  · intro b h' y h'' e1 e2
    rw [call_v1_118, body_v1_118]
    runs [↓hm, ↓e1]
    rw [e2 _ rfl rfl rfl rfl]
    rfl
  · intro y h' e1
    rw [call_v1_118]
    runs [v1_118, ↓hm, ↓e1]

theorem bindR_inv {α β : Type} {x : R α} {f : α → Heap → R β} {y : β} {h : Heap} (e : bindR x f = okR y h) :
    ∃ z h1, x = okR z h1 ∧ f z h1 = okR y h := by
  rcases x with _ | ⟨h1, z | z | _⟩
  · cases e
  · exact ⟨z, h1, rfl, e⟩
  · cases e
  · cases e

theorem bindR_inv' {α β : Type} {x : R α} {f : α → Heap → R β} {y : V} {h : Heap} (e : bindR x f = excR y h) :
    x = excR y h ∨ ∃ z h1, x = okR z h1 ∧ f z h1 = excR y h := by
  rcases x with _ | ⟨h1, z | z | _⟩
  · cases e
  · exact .inr ⟨z, h1, rfl, e⟩
  · left; cases e; rfl
  · cases e

/-- v1.py:133-149. -/
theorem run_v1_133 (hc : Limits cfg) {h : Heap} {a q d : Nat} {s : Mgr .v1} {attrs : List (String × V)} (hb : Base h)
    (r : MgrAt nm env h a s attrs q d) {vs : List Val} {x : V} (hv : RepVbs h vs x) (t : Str) (remote cb : Nat) :
    Runs nm env a q d (Rep 9) h (call program cfg (.func .v1 133) [.ref a, x, nm.addr remote, nm.fn cb, .str t] h)
      (v1SnmpSet vs remote cb t s) := by
  have hid := run_assign (cfg := cfg) r (m := .v1) (l := 47) (.inl rfl)
  have hm := r.meth (name := "assignRequestID") (m := .v1) (l := 47) rfl
  have hpl := place_pdu (c := .getNext) (.inl rfl) (.int s.nextRequestID) x
  have hpm := fun z => place_msg (c := .message) (.inl rfl) (.str t) z
  have ho := Own.asn' (h' := h) hb r
  obtain ⟨h', attrs', o1, r2, hk, out⟩ := run_requestAt (cfg := cfg) hc ho.base r.setId (c := .getNext) rfl (hv.same (ho.asn r)) s.nextRequestID
  have hp : Runs nm env a q d (Rep 9) h (call program cfg (.cls (cid (.seq .getNext))) [.int s.nextRequestID, .int 0, .int 0, x]
      (h.set a (.inst (mgrCid .v1) (setAssoc attrs "nextRequestID" (.int (s.nextRequestID + 1 : Nat))))))
      ((v1CreateGetNextRequestPDU vs : M .v1 Val) s) := ⟨h', attrs', ho.trans o1, r2, out⟩
  have hmsg := hp.message (cfg := cfg) hc (c := .message) (.inl rfl) 0 t
    (o' := bindR (call program cfg (.cls (cid (.seq .getNext))) [.int s.nextRequestID, .int 0, .int 0, x]
      (h.set a (.inst (mgrCid .v1) (setAssoc attrs "nextRequestID" (.int (s.nextRequestID + 1 : Nat)))))) fun y h =>
        call program cfg (.cls (cid (.seq .message))) [.int 0, .str t, y] h)
    (fun y h1 y' h2 e1 e2 => by rw [e1, bindR_ok, e2]) (fun y h1 y' h2 e1 e2 => by rw [e1, bindR_ok, e2])
    (fun y h1 e1 => by rw [e1, bindR_exc])
  have same : v1SnmpSet vs remote cb t s = v1SnmpGetNext vs remote cb t s := by
    simp only [v1SnmpSet, v1SnmpGetNext, v1CreateGetNextRequestMessage, v1CreateGetNextRequestPDU, Bind.bind, assignRequestID, M.lift]
    cases mkPDU .getNext s.nextRequestID 0 0 vs with
    | error e => rfl
    | ok v => rfl
  rw [same]
  rw [show cid (.seq .getNext) = (.rfc1157, 179) from rfl] at hpl hmsg
  rw [show cid (.seq .message) = (.rfc1157, 87) from rfl] at hpm hmsg
  refine hmsg.enqueue (cfg := cfg) (by decide) (fun m s' h => asks_v1Next h) remote cb (m0 := .v1) (.inl rfl) ?_ ?_
  · intro b h1 y h2 e1 e2
    obtain ⟨z, h3, e3, e4⟩ := bindR_inv e1
    rw [call_v1_133, body_v1_133]
    runs [↓hm, ↓hid, ↓hpl, ↓hpm, ↓e3, ↓e4]
    rw [e2 _ rfl rfl rfl rfl]
    rfl
  · intro y h1 e1
    rw [call_v1_133, body_v1_133]
    rcases bindR_inv' e1 with e3 | ⟨z, h3, e3, e4⟩
    · runs [↓hm, ↓hid, ↓hpl, ↓hpm, ↓e3]
    · runs [↓hm, ↓hid, ↓hpl, ↓hpm, ↓e3, ↓e4]

/-- A queue takes an item. -/
theorem run_put {h : Heap} {q : Nat} {l : List V} (hq : h[q]? = some (.queue l)) (x : V) :
    call program cfg (.bmeth (.ref q) "put") [x] h = okR .none (h.set q (.queue (l ++ [x]))) := by
  runs [hq, queueMethod]

theorem attr_put {h : Heap} {q : Nat} {l : List V} (hq : h[q]? = some (.queue l)) :
    getattr program h (.ref q) "put" = some (.bmeth (.ref q) "put") := by
  simp only [getattr, hq]; rfl

/-- A message is queued, and nothing is expected in return. -/
theorem Runs.send {h : Heap} {a q d : Nat} {s : Mgr k} {o : R V} {x : M k Msg}
    (h1 : Runs nm env a q d IsMsg h o (x s)) (remote : Nat) {o' : R V}
    (hok : ∀ b h' l, o = okR (.ref b) h' → getattr program h' (.ref a) "outbound" = some (.ref q) → h'[q]? = some (.queue l) →
      o' = okR .none (h'.set q (.queue (l ++ [.tuple [.ref b, nm.addr remote]]))))
    (her : ∀ y h', o = excR y h' → o' = excR y h') :
    Runs nm env a q d (Rep 9) h o' ((do let msg ← x; putOutbound (some msg) remote; pure Val.none : M k Val) s) := by
  obtain ⟨h', attrs', o1, r1, out⟩ := h1
  rcases hx : x s with ⟨res, s'⟩
  rw [hx] at out r1
  cases res with
  | error e =>
    obtain ⟨y, e1, e2⟩ := out
    rw [M.at_error hx]
    exact ⟨h', attrs', o1, r1, y, her _ _ e1, e2⟩
  | ok m =>
    obtain ⟨y, e1, b, rfl, rm⟩ := out
    rw [M.at_ok hx]
    obtain ⟨l, hq, hl⟩ := r1.queue
    exact ⟨_, attrs', o1.set (.inl rfl) r1.qlow _, r1.setQueue (List.rel_append hl (.cons ⟨b, rfl, rm⟩ .nil)), _,
      hok _ _ l e1 r1.getOutbound hq, by rw [Rep]⟩

/-- v1.py:151-156. -/
theorem run_v1_151 (hc : Limits cfg) {h : Heap} {a q d : Nat} {s : Mgr .v1} {attrs : List (String × V)} (hb : Base h)
    (r : MgrAt nm env h a s attrs q d) {v : Val} {x : V} (hx : Rep 9 h v x) (t : Str) (remote : Nat) :
    Runs nm env a q d (Rep 9) h (call program cfg (.func .v1 151) [.ref a, nm.addr remote, x, .str t] h)
      (v1SnmpTrap remote v t s) := by
  have hm := r.meth (name := "createTrapMessage") (m := .v1) (l := 81) rfl
  refine (run_v1_81 (cfg := cfg) hc hb r t hx).send remote ?_ ?_
  · intro b h' l e1 e2 hq
    have hp := run_put (cfg := cfg) hq (.tuple [.ref b, nm.addr remote])
    have ha := attr_put hq
    rw [call_v1_151]
    runs [v1_151, ↓hm, ↓e1, ↓e2, ↓ha, ↓hp]
  · intro y h' e1
    rw [call_v1_151]
    runs [v1_151, ↓hm, ↓e1]

end Libsnmp.Src
