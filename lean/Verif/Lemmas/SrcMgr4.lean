import Verif.Lemmas.SrcMgr3

/-!
# Running the request methods of v2.py
-/

namespace Libsnmp.Src
open Libsnmp

variable {cfg : Cfg} {nm : Names} {env : Libsnmp.Env} {k : Libsnmp.Kind}

/-- A `for` loop over `x` takes these items, whatever new objects are made meanwhile. -/
def Walk (h : Heap) (x : V) (l : List V) : Prop :=
  ∃ f : Nat → It, ∀ h', Kept h.length h h' → iterOf program h' x = some (f 0) ∧
    ∀ cfg i, next program cfg (f i) h' = okR (l[i]?.map fun y => (y, f (i + 1))) h'

theorem walk_vals {h : Heap} {x : V} {l : List V} (hx : ∀ h', iterOf program h' x = some (.vals l)) : Walk h x l :=
  ⟨fun i => .vals (l.drop i), fun h' _ => ⟨hx h', fun cfg i => by
    cases hi : l[i]? with
    | none =>
      have : l.drop i = [] := List.drop_eq_nil_iff.mpr (List.getElem?_eq_none_iff.mp hi)
      simp only [this]
      rw [next]; rfl
    | some y =>
      have : l.drop i = y :: l.drop (i + 1) := by
        obtain ⟨h1, h2⟩ := List.getElem?_eq_some_iff.mp hi
        rw [List.drop_eq_getElem_cons h1, h2]
      simp only [this]
      rw [next]; rfl⟩⟩

theorem RepOids.walk {h : Heap} {args : List Arg} {x : V} (r : RepOids h args x) :
    ∃ l, Walk h x l ∧ List.Forall₂ (ArgAt h) args l := by
  rcases r with ⟨b, l, rfl, h1, h2, h3⟩ | ⟨l, rfl, h3⟩ | ⟨t, rfl, rfl⟩
  · exact ⟨l, (items_list h1 h2).iter, h3⟩
  · exact ⟨l, walk_vals fun _ => rfl, h3⟩
  · refine ⟨t.map fun c => .str [c], walk_vals fun _ => rfl, ?_⟩
    induction t with
    | nil => exact .nil
    | cons c t ih => exact .cons ⟨rfl, nofun⟩ ih

/-- v2.py:43-47. -/
theorem run_v2Loop {h : Heap} {l : List V} {f : Nat → It} (h9 : 9 ≤ h.length)
    (hf : ∀ h', Kept h.length h h' → ∀ cfg i, next program cfg (f i) h' = okR (l[i]?.map fun y => (y, f (i + 1))) h')
    {args : List Arg} {rest : List V} (ha : List.Forall₂ (ArgAt h) args rest) (hs : ∀ arg ∈ args, ShortArg cfg arg)
    (pre : List V) (hl : l = pre ++ rest) {acc : List Val} {ys : List V} {hc : Heap} (hk : Kept h.length h hc)
    (hy : hc[h.length]? = some (.list ys)) (ra : RepAll (h.length + 1) hc acc ys) (se li co o1 o2 o3 : Option V) :
    ∃ h' p1 p2 p3, Kept h.length h h' ∧
      match v2Varbinds args with
      | .ok vbs => forL program cfg .v2 [("self", se), ("oidlist", li), ("community", co), ("varbinds", some (.ref h.length)),
          ("oid", o1), ("objID", o2), ("val", o3), ("varbindlist", none), ("pdu", none)] "oid" (f pre.length) v2_43 hc =
          some (h', [("self", se), ("oidlist", li), ("community", co), ("varbinds", some (.ref h.length)),
          ("oid", p1), ("objID", p2), ("val", p3), ("varbindlist", none), ("pdu", none)], .next) ∧
          ∃ zs, h'[h.length]? = some (.list zs) ∧ RepAll (h.length + 1) h' (acc ++ vbs) zs
      | .error e => ∃ x, forL program cfg .v2 [("self", se), ("oidlist", li), ("community", co), ("varbinds", some (.ref h.length)),
          ("oid", o1), ("objID", o2), ("val", o3), ("varbindlist", none), ("pdu", none)] "oid" (f pre.length) v2_43 hc =
          some (h', [("self", se), ("oidlist", li), ("community", co), ("varbinds", some (.ref h.length)),
          ("oid", p1), ("objID", p2), ("val", p3), ("varbindlist", none), ("pdu", none)], .exc x) ∧ Raised h' e x := by
  induction ha generalizing pre acc ys hc o1 o2 o3 with
  | nil =>
    rw [List.append_nil] at hl
    subst hl
    refine ⟨hc, o1, o2, o3, hk, ?_, ys, hy, by rwa [List.append_nil]⟩
    rw [forL, hf _ hk]
    runs [List.getElem?_eq_none (Nat.le_refl l.length), Option.map_none]
  | @cons arg y args rest h1 h2 ih =>
    have hy1 : l[pre.length]? = some y := by simp [hl]
    have hlen := hk.len
    have hlt := lt_of_get hy
    have hn := run_mkOid (cfg := cfg) hk.base (h1.1.same (hk.asn (Nat.le_refl _)) h1.2) (hs arg List.mem_cons_self)
    have hnull := fun h => run_newNull (cfg := cfg) .null h
    cases hm : mkOid arg with
    | error e =>
      rw [hm] at hn
      obtain ⟨h', as, e1, k1⟩ := hn
      have hv : v2Varbinds (arg :: args) = .error e := by rw [v2Varbinds, hm]; rfl
      rw [hv]
      refine ⟨h', some y, o2, o3, hk.trans (k1.mono hlen), .exc (excName e) as, ?_, ?_⟩
      · rw [cid_oid] at e1
        rw [forL, hf _ hk, hy1]
        runs [Option.map_some, v2_43, ↓e1]
      · rcases mkOid_errs hm with rfl | rfl <;> exact ⟨as, rfl⟩
    | ok ids =>
      rw [hm] at hn
      obtain ⟨h1', x1, e1, k1, r1⟩ := hn
      have k1len := k1.len
      obtain ⟨e2, r2, m2⟩ := run_bindNull (cfg := cfg) (lo := h.length + 1) (h := h1') (by omega)
        (r1.congr (by omega) (fun _ _ _ h => h)) (c := .varBind) (.inl rfl)
      have hv : v2Varbinds (arg :: args) = (match v2Varbinds args with
          | .ok vbs => .ok (.seq .varBind [.oid ids, .null .null] :: vbs)
          | .error e => .error e) := by
        rw [v2Varbinds, hm]
        simp only [Bind.bind, Except.bind, m2]
        cases v2Varbinds args <;> rfl
      obtain ⟨B, hB⟩ : ∃ B : Heap, B = [.inst (cid (.null .null)) [],
          .inst (cid (.seq .varBind)) [("objectID", x1), ("objectValue", .ref h1'.length), ("value", .ref (h1'.length + 2))],
          .list [x1, .ref h1'.length]] := ⟨_, rfl⟩
      rw [← hB] at e2 r2
      have g1 : (h1' ++ B)[h.length]? = some (.list ys) :=
        get_app_old ((k1.same _ h9 hlt).trans hy) _
      have k2 : Kept h.length h ((h1' ++ B).set h.length (.list (ys ++ [.ref (h1'.length + 1)]))) :=
        ((hk.trans (k1.mono hlen)).app' _ (by omega)).set' h9 (Nat.le_refl _) _
      have rr : RepAll (h.length + 1) ((h1' ++ B).set h.length (.list (ys ++ [.ref (h1'.length + 1)])))
          (acc ++ [.seq .varBind [.oid ids, .null .null]]) (ys ++ [.ref (h1'.length + 1)]) := by
        have hset : ∀ (H : Heap) (b : Nat) (c : Cell), h.length + 1 ≤ b → H[b]? = some c →
            (H.set h.length (.list (ys ++ [.ref (h1'.length + 1)])))[b]? = some c := by
          intro H b c hb hc
          rw [List.getElem?_set_ne (by omega), hc]
        refine RepAll.append ?_ ?_
        · refine RepAll.congr (Nat.le_refl _) ?_ _ _ ra
          intro b c hb hc
          exact hset _ _ _ hb (get_app_old ((k1.same b (by omega) (lt_of_get hc)).trans hc) _)
        · rw [RepAll]
          refine ⟨_, _, rfl, r2.congr (Nat.le_refl _) (hset _), ?_⟩
          rw [RepAll]
      obtain ⟨h', p1, p2, p3, k3, ihm⟩ := ih (fun a ha => hs a (List.mem_cons_of_mem _ ha)) (pre ++ [y]) (by simp [hl]) k2
        (get_set_nil (lt_of_get g1) _) rr (some y) (some x1) (some (.ref h1'.length))
      rw [hv]
      rw [List.length_append, List.length_singleton] at ihm
      have hap : call program cfg (.bmeth (.ref h.length) "append") [.ref (h1'.length + 1)] (h1' ++ B) = okR .none ((h1' ++ B).set h.length (.list (ys ++ [.ref (h1'.length + 1)]))) := by
        runs [g1]
      have hga : getattr program (h1' ++ [.inst (cid (.null .null)) []]) (.ref h.length) "append" = some (.bmeth (.ref h.length) "append") := by
        have g0 : (h1' ++ ([.inst (cid (.null .null)) []] : Heap))[h.length]? = some (.list ys) :=
          get_app_old ((k1.same _ h9 hlt).trans hy) _
        simp only [getattr, g0]; rfl
      simp only [cids, show cid (.null .null) = (.rfc1155, 762) from rfl] at e1 e2 hnull hap hga ihm
      refine ⟨h', p1, p2, p3, k3, ?_⟩
      cases hr : v2Varbinds args with
      | ok vbs =>
        rw [hr] at ihm
        obtain ⟨e3, zs, hz, rz⟩ := ihm
        refine ⟨?_, zs, hz, by simpa using rz⟩
        rw [forL, hf _ hk, hy1]
        runs [Option.map_some, v2_43, ↓e1, ↓hnull, ↓e2, ↓hga, ↓hap]
        exact e3
      | error e =>
        rw [hr] at ihm
        obtain ⟨x, e3, hx⟩ := ihm
        refine ⟨x, ?_, hx⟩
        rw [forL, hf _ hk, hy1]
        runs [Option.map_some, v2_43, ↓e1, ↓hnull, ↓e2, ↓hga, ↓hap]
        exact e3

theorem RepAll.low {lo lo' : Nat} {h : Heap} {vs : List Val} {l : List V} (hl : lo' ≤ lo) (r : RepAll lo h vs l) : RepAll lo' h vs l :=
  RepAll.congr hl (fun _ _ _ h => h) _ _ r

/-- v2.py:36-50. -/
theorem run_v2_36 (hc : Limits cfg) {h : Heap} {a q d : Nat} {s : Mgr .v2} {attrs : List (String × V)} (hb : Base h)
    (r : MgrAt nm env h a s attrs q d) {args : List Arg} {x : V} (hx : RepOids h args x) (hs : ∀ arg ∈ args, ShortArg cfg arg) (t : Str) :
    Runs nm env a q d IsMsg h (call program cfg (.func .v2 36) [.ref a, x, .str t] h) (v2CreateGetRequestMessage args t s) := by
  obtain ⟨l, ⟨f, hf⟩, ha⟩ := hx.walk
  have hl9 := hb.long
  have k0 : Kept h.length h (h ++ [.list []]) := Kept.app hb _
  have hit := (hf _ k0).1
  obtain ⟨h1, p1, p2, p3, k1, hloop⟩ := run_v2Loop (cfg := cfg) hb.long (fun h' hk => (hf h' hk).2) ha hs [] rfl (acc := []) (ys := [])
    k0 (get_app _ _) (by rw [RepAll]) (some (.ref a)) (some x) (some (.str t)) none none none
  rw [List.length_nil] at hloop
  cases hm : v2Varbinds args with
  | error e =>
    rw [hm] at hloop
    obtain ⟨y, e1, hr⟩ := hloop
    have hmod : v2CreateGetRequestMessage args t s = (.error e, s) := by
      rw [v2CreateGetRequestMessage, M.at_error (x := M.lift (v2Varbinds args)) (show _ = (Except.error e, s) by rw [hm]; rfl)]
    rw [hmod]
    refine ⟨h1, attrs, (Own.refl hb _ _ _).kept k1 (Nat.le_refl _), r.kept k1 (Nat.le_refl _), y, ?_, hr⟩
    rw [call_v2_36]
    runs [v2_36, ↓hit, ↓e1]
  | ok vbs =>
    rw [hm] at hloop
    obtain ⟨e1, zs, hz, rz⟩ := hloop
    rw [List.nil_append] at rz
    have hv : RepVbs h1 vbs (.ref h.length) := .inl ⟨_, _, rfl, hl9, hz, rz.low (by omega)⟩
    obtain ⟨h2, k2, out⟩ := run_makeVBL (cfg := cfg) hc k1.base (c := .varBindList2) (.inr rfl) hv
    have k12 := k1.trans (k2.mono k1.len)
    have o2 := (Own.refl hb a q d).kept k12 (Nat.le_refl _)
    have r2 := r.kept k12 (Nat.le_refl _)
    rw [cid_varBindList2] at out
    cases hmk : mkVarBindList .varBindList2 vbs with
    | error e =>
      rw [hmk] at out
      obtain ⟨y, e2, hr⟩ := out
      have hmod : v2CreateGetRequestMessage args t s = (.error e, s) := by
        rw [v2CreateGetRequestMessage, M.at_ok (x := M.lift (v2Varbinds args)) (show _ = (Except.ok vbs, s) by rw [hm]; rfl),
          M.at_error (x := M.lift (mkVarBindList _ _)) (show _ = (Except.error e, s) by rw [hmk]; rfl)]
      rw [hmod]
      refine ⟨h2, attrs, o2, r2, y, ?_, hr⟩
      rw [call_v2_36]
      runs [v2_36, ↓hit, ↓e1, ↓e2]
    | ok v =>
      have hve := mkVarBindList_ok hmk
      subst hve
      rw [hmk] at out
      obtain ⟨y, e2, ry⟩ := out
      have hmod : v2CreateGetRequestMessage args t s = (do
            let pdu ← v2CreateGetRequestPDU vbs
            M.lift (mkMessage .message2 1 t pdu) : M .v2 Msg) s := by
        rw [v2CreateGetRequestMessage, M.at_ok (x := M.lift (v2Varbinds args)) (show _ = (Except.ok vbs, s) by rw [hm]; rfl),
          M.at_ok (x := M.lift (mkVarBindList _ _)) (show _ = (Except.ok _, s) by rw [hmk]; rfl)]
        rfl
      rw [hmod]
      have h26 := run_v2_26 (cfg := cfg) hc k2.base r2 (.inr ⟨_, ry⟩)
      have hmeth := r2.meth (name := "createGetRequestPDU") (m := .v2) (l := 26) rfl
      have hpl := fun z => place_msg (c := .message2) (.inr rfl) (.str t) z
      rw [show cid (.seq .message2) = (.rfc1905, 58) from rfl] at hpl
      refine Runs.own o2 (h26.message hc (.inr rfl) 1 t ?_ ?_ ?_)
      · intro z h2 z' h3 e4 e5
        rw [show cid (.seq .message2) = (.rfc1905, 58) from rfl] at e5
        rw [call_v2_36]
        runs [v2_36, ↓hit, ↓e1, ↓e2, ↓hmeth, ↓e4, ↓hpl, ↓e5]
      · intro z h2 z' h3 e4 e5
        rw [show cid (.seq .message2) = (.rfc1905, 58) from rfl] at e5
        rw [call_v2_36]
        runs [v2_36, ↓hit, ↓e1, ↓e2, ↓hmeth, ↓e4, ↓hpl, ↓e5]
      · intro z h2 e4
        rw [call_v2_36]
        runs [v2_36, ↓hit, ↓e1, ↓e2, ↓hmeth, ↓e4, ↓hpl]

theorem asks_v2Get {args : List Arg} {t : Str} {s s' : Mgr .v2} {m : Msg} (h : v2CreateGetRequestMessage args t s = (.ok m, s')) :
    Asks m := by
  rw [v2CreateGetRequestMessage] at h
  cases h1 : v2Varbinds args with
  | error e => rw [M.at_error (e := e) (s' := s) (by rw [h1]; rfl)] at h; cases h
  | ok vbs =>
    rw [M.at_ok (v := vbs) (s' := s) (by rw [h1]; rfl)] at h
    cases h3 : mkVarBindList .varBindList2 vbs with
    | error e => rw [M.at_error (e := e) (s' := s) (by rw [h3]; rfl)] at h; cases h
    | ok vbl =>
      rw [M.at_ok (v := vbl) (s' := s) (by rw [h3]; rfl)] at h
      cases h4 : vbl.iter with
      | error e => rw [M.at_error (e := e) (s' := s) (by rw [h4]; rfl)] at h; cases h
      | ok vbs =>
        rw [M.at_ok (v := vbs) (s' := s) (by rw [h4]; rfl)] at h
        obtain ⟨s1, h1⟩ := message_data h
        exact hasID (lifted (s := { s with nextRequestID := s.nextRequestID + 1 }) h1) ⟨_, rfl⟩

theorem body_v2_80 : v2_80.body =
    .assign (.loc "msg") (.call (.attr (.loc "self") "createGetRequestMessage") [.loc "oid", .loc "community"]) :: v1Tail := rfl

/-- v2.py:80-94. -/
theorem run_v2_80 (hc : Limits cfg) {h : Heap} {a q d : Nat} {s : Mgr .v2} {attrs : List (String × V)} (hb : Base h)
    (r : MgrAt nm env h a s attrs q d) {args : List Arg} {x : V} (hx : RepOids h args x) (hs : ∀ arg ∈ args, ShortArg cfg arg)
    (t : Str) (remote cb : Nat) :
    Runs nm env a q d (Rep 9) h (call program cfg (.func .v2 80) [.ref a, x, nm.addr remote, nm.fn cb, .str t] h)
      (v2SnmpGet args remote cb t s) := by
  have hm := r.meth (name := "createGetRequestMessage") (m := .v2) (l := 36) rfl
  refine (run_v2_36 (cfg := cfg) hc hb r hx hs t).enqueue (cfg := cfg) (by decide) (fun m s' h => asks_v2Get h) remote cb (m0 := .v2)
    (.inr rfl) ?_ ?_
  · intro b h' y h'' e1 e2
    rw [call_v2_80, body_v2_80]
    runs [↓hm, ↓e1]
    rw [e2 _ rfl rfl rfl rfl]
    rfl
  · intro y h' e1
    rw [call_v2_80]
    runs [v2_80, ↓hm, ↓e1]

/-- v2.py:96-109: there is no method `createGetNextRequest`. -/
theorem run_v2_96 {h : Heap} {a q d : Nat} {s : Mgr .v2} {attrs : List (String × V)} (hb : Base h)
    (r : MgrAt nm env h a s attrs q d) (vs : List Val) (x : V) (t : Str) (remote cb : Nat) :
    Runs nm env a q d (Rep 9) h (call program cfg (.func .v2 96) [.ref a, x, nm.addr remote, nm.fn cb, .str t] h)
      (v2SnmpGetNext vs remote cb t s) := by
  have hm := r.meth (name := "createGetNextRequestMessage") (m := .v2) (l := 52) rfl
  have hn := r.noMeth (name := "createGetNextRequest") rfl
  refine ⟨h, attrs, Own.refl hb _ _ _, r, .exc "AttributeError" [], ?_, ⟨_, rfl⟩⟩
  rw [call_v2_96]
  runs [v2_96, ↓hm, call_v2_52, v2_52, ↓hn]

/-- v2.py:111-127: the module rfc1157 has no `GetNextRequestPDU`. -/
theorem run_v2_111 {h : Heap} {a q d : Nat} {s : Mgr .v2} {attrs : List (String × V)} (hb : Base h)
    (r : MgrAt nm env h a s attrs q d) (vs : List Val) (x : V) (t : Str) (remote cb : Nat) :
    Runs nm env a q d (Rep 9) h (call program cfg (.func .v2 111) [.ref a, x, nm.addr remote, nm.fn cb, .str t] h)
      (v2SnmpSet vs remote cb t s) := by
  have hid := run_assign (cfg := cfg) r (m := .v1) (l := 47) (.inl rfl)
  have hm := r.meth (name := "assignRequestID") (m := .v1) (l := 47) rfl
  refine ⟨_, _, Own.asn' (h' := h) hb r, r.setId, .exc "AttributeError" [], ?_, ⟨_, rfl⟩⟩
  rw [call_v2_111]
  have hg : program.globals .rfc1157 "GetNextRequestPDU" = none := rfl
  runs [v2_111, ↓hm, ↓hid, ↓hg]

/-- v2.py:129-134. -/
theorem run_v2_129 (hc : Limits cfg) {h : Heap} {a q d : Nat} {s : Mgr .v2} {attrs : List (String × V)} (hb : Base h)
    (r : MgrAt nm env h a s attrs q d) {v : Val} {x : V} (hx : Rep 9 h v x) (t : Str) (remote : Nat) :
    Runs nm env a q d (Rep 9) h (call program cfg (.func .v2 129) [.ref a, nm.addr remote, x, .str t] h)
      (v2SnmpTrap remote v t s) := by
  have hm := r.meth (name := "createTrapMessage") (m := .v2) (l := 59) rfl
  refine (run_v2_59 (cfg := cfg) hc hb r t hx).send remote ?_ ?_
  · intro b h' l e1 e2 hq
    have hp := run_put (cfg := cfg) hq (.tuple [.ref b, nm.addr remote])
    have ha := attr_put hq
    rw [call_v2_129]
    runs [v2_129, ↓hm, ↓e1, ↓e2, ↓ha, ↓hp]
  · intro y h' e1
    rw [call_v2_129]
    runs [v2_129, ↓hm, ↓e1]

end Libsnmp.Src
