import Verif.Lemmas.SrcMgr5
import Verif.Lemmas.SrcOct
import Verif.Spec.SourceAsk

/-!
# `snmpManager.snmpSet`
-/

namespace Libsnmp.Src
open Libsnmp

variable {cfg : Cfg} {nm : Names} {env : Libsnmp.Env}

/-- Making an object: the object, or an exception. -/
def Made (h : Heap) (r : R V) (m : Except Exc Val) : Prop :=
  ∃ h', Kept h.length h h' ∧ Outcome (Rep 9) h' r m

theorem raised_plain {h : Heap} {e : Exc} {args : List V} (h1 : e ≠ .pduError) (h2 : e ≠ .pduError2) (h3 : e ≠ .messageError) :
    Raised h e (.exc (excName e) args) := by
  cases e <;> first | exact ⟨args, rfl⟩ | contradiction

theorem NewOr.made {h : Heap} (hb : Base h) {r : R V} {m : Except Exc Val} (hm : NewOr h.length h r m)
    (he : ∀ e, m = .error e → e ≠ .pduError ∧ e ≠ .pduError2 ∧ e ≠ .messageError) : Made h r m := by
  cases m with
  | ok v =>
    obtain ⟨h', x, h1, h2, h3⟩ := hm
    exact ⟨h', h2, x, h1, h3.congr hb.long (fun _ _ _ h => h)⟩
  | error e =>
    obtain ⟨h', args, h1, h2⟩ := hm
    obtain ⟨e1, e2, e3⟩ := he e rfl
    exact ⟨h', h2, _, h1, raised_plain e1 e2 e3⟩

theorem RepArg.val {lo : Nat} {h : Heap} {arg : Arg} {x : V} (r : RepArg lo h arg x) {v : Val} (hv : Arg.val? arg = some v) :
    Rep lo h v x := by
  cases arg <;> cases hv
  · rw [Rep]; exact r
  · rw [Rep]; exact r
  · rw [Rep]; exact r
  · exact r.2

theorem mkInteger_errs {c : IntCls} {n : Int} {e : Exc} (h : mkInteger c n = .error e) : e = .valueError := by
  unfold mkInteger at h
  split at h <;> cases h
  rfl

theorem pyChr_errs {n : Int} {e : Exc} (h : pyChr n = .error e) : e = .valueError ∨ e = .overflowError := by
  unfold pyChr at h
  repeat' split at h
  all_goals cases h
  all_goals first | exact .inl rfl | exact .inr rfl

theorem ipParse_errs {l : List Str} {e : Exc} (h : ipParse l = .error e) : e = .valueError ∨ e = .overflowError := by
  induction l with
  | nil => cases h
  | cons x l ih =>
    rw [ipParse] at h
    repeat' split at h
    all_goals first
      | (cases h; done)
      | skip
    all_goals first
      | (cases h; exact .inl rfl)
      | (cases h; exact .inr rfl)
      | (cases h; rename_i h1; exact .inl (pyInt_errs h1))
      | (cases h; rename_i h1; exact ih h1)
      | (rename_i h1; cases h; exact pyChr_errs h1)

/-- `tagDecodeDict[tag](value)`, for a tag in the dictionary. -/
theorem run_construct (hc : Limits cfg) {h : Heap} (hb : Base h) {cls : Cls} {value : Arg} {y : V} (r : RepArg 9 h value y)
    (hs : Settable cfg value cls) : Made h (call program cfg (.cls (cid cls)) [y] h) (construct cls value) := by
  cases cls with
  | asn1Object => exact hs.elim
  | seq c => exact hs.elim
  | int c =>
    obtain ⟨v, hv⟩ := Option.isSome_iff_exists.mp hs
    have h1 := run_newIntV (cfg := cfg) hc hb c (r.val hv)
    have he : newInt c v = construct (.int c) value := by
      cases value <;> cases hv <;> try rfl
      obtain ⟨ho, -⟩ := r
      cases v <;> first | rfl | cases ho
    rw [he] at h1
    refine h1.made hb ?_
    intro e h2
    have : e = .valueError ∨ e = .typeError := by
      rw [← he] at h2
      unfold newInt at h2
      split at h2
      · exact .inl (mkInteger_errs h2)
      · cases h2; exact .inr rfl
    rcases this with rfl | rfl <;> decide
  | oct c =>
    rcases hs with ⟨hcc, s, rfl⟩ | ⟨hcc, h1, h2, h3⟩
    · have h1 := run_mkOct (cfg := cfg) hb c hcc s
      have he : mkOctetStringArg c (.str s) = .ok (.octets c s) := by rcases hcc with rfl | rfl <;> rfl
      have he' : construct (.oct c) (.str s) = .ok (.octets c s) := by rcases hcc with rfl | rfl <;> rfl
      cases (show y = .str s from r)
      rw [he'] ; rw [he] at h1
      exact h1.made hb (by simp)
    · have h4 := run_mkIP (cfg := cfg) hb c hcc r h1 h2 h3
      have he : construct (.oct c) value = mkIPAddress c value := by rcases hcc with rfl | rfl <;> rfl
      rw [he]
      refine h4.made hb ?_
      intro e h5
      have : e = .valueError ∨ e = .overflowError := by
        cases value <;> simp only [mkIPAddress, reduceCtorEq] at h5
        · split at h5
          · cases h5; exact .inl rfl
          · split at h5
            · rename_i h6; cases h5; exact ipParse_errs h6
            · cases h5
        · exact absurd rfl (h1 _)
      rcases this with rfl | rfl <;> decide
  | oid =>
    have h1 := run_mkOid (cfg := cfg) hb r hs
    have he : (mkOid value).map Val.oid = construct .oid value := by
      delta construct
      dsimp only
      cases mkOid value <;> rfl
    rw [he] at h1
    refine h1.made hb ?_
    intro e h2
    rw [← he] at h2
    cases hm : mkOid value with
    | error e' =>
      rw [hm] at h2
      cases h2
      rcases mkOid_errs hm with rfl | rfl <;> decide
    | ok v => rw [hm] at h2; cases h2
  | null c =>
    rw [show construct (.null c) value = .error .typeError from rfl]
    refine ⟨_, Kept.app hb [.inst (cid (.null c)) []], .exc "TypeError" [], ?_, [], rfl⟩
    rw [call_cls, initOf, call]
    rfl

/-- `VarBindList([VarBind(objID, val)])`. -/
theorem run_pairVBL (hc : Limits cfg) {h : Heap} (hb : Base h) {ids : Option (List Int)} {x : V} (rx : Rep 9 h (.oid ids) x) {v : Val}
    {y : V} (rv : Rep 9 h v y) {c cl : SeqCls} (hv : c = .varBind ∨ c = .varBind2) (hcl : cl = .varBindList ∨ cl = .varBindList2) :
    (∃ args h', mkVarBind c (.oid ids) v = .error .valueError ∧ call program cfg (.cls (cid (.seq c))) [x, y] h =
      excR (.exc "ValueError" args) h' ∧ Kept h.length h h') ∨
    ∃ h1 z h', call program cfg (.cls (cid (.seq c))) [x, y] h = okR (.ref h.length) h1 ∧
      call program cfg (.cls (cid (.seq cl))) [.ref h1.length] (h1 ++ [.list [.ref h.length]]) = okR z h' ∧
      Kept h.length h h' ∧ Rep 9 h' (.seq cl [.seq c [.oid ids, v]]) z ∧
      mkVarBind c (.oid ids) v = .ok (.seq c [.oid ids, v]) ∧
      mkVarBindList cl [.seq c [.oid ids, v]] = .ok (.seq cl [.seq c [.oid ids, v]]) := by
  have h1 := run_newVarBind (cfg := cfg) rx rv hv
  cases hm : mkVarBind c (.oid ids) v with
  | error e =>
    rw [hm] at h1
    obtain ⟨rfl, args, h1⟩ := h1
    exact .inl ⟨args, _, rfl, h1, Kept.app hb _⟩
  | ok w =>
    rw [hm] at h1
    obtain ⟨rfl, h1⟩ := h1
    have hl := hb.long
    generalize hB : ([.inst (cid (.seq c)) [("objectID", x), ("objectValue", y), ("value", .ref (h.length + 1))], .list [x, y]] : Heap) = B at h1
    have hn : B.length = 2 := by rw [← hB]; rfl
    have r2 : Rep 9 (h ++ B) (.seq c [.oid ids, v]) (.ref h.length) := by
      rw [← hB, Rep]
      refine ⟨_, _, _, _, rfl, hl, get_app _ _, plain _, rfl, by omega, get_app_add _ _ 1, ?_, ?_⟩
      · rcases hv with rfl | rfl <;> rfl
      rw [RepAll]
      refine ⟨_, _, rfl, rx.app _, ?_⟩
      rw [RepAll]
      refine ⟨_, _, rfl, rv.app _, ?_⟩
      rw [RepAll]
    have hvb : RepVbs (h ++ B ++ [.list [.ref h.length]]) [.seq c [.oid ids, v]] (.ref (h ++ B).length) := by
      refine .inl ⟨_, _, rfl, by rw [List.length_append]; omega, get_app _ _, ?_⟩
      rw [RepAll]
      refine ⟨_, _, rfl, r2.app _, ?_⟩
      rw [RepAll]
    have k1 := Kept.app hb B
    have k2 := Kept.app k1.base [.list [.ref h.length]]
    obtain ⟨h', k3, out⟩ := run_makeVBL (cfg := cfg) hc k2.base hcl hvb
    have mv : mkVarBindList cl [.seq c [.oid ids, v]] = .ok (.seq cl [.seq c [.oid ids, v]]) := by
      rcases hv with rfl | rfl <;> rcases hcl with rfl | rfl <;> rfl
    rw [mv] at out
    obtain ⟨z, e3, r4⟩ := out
    refine .inr ⟨_, z, h', h1, e3, k1.trans ((k2.mono ?_).trans (k3.mono ?_)), r4, rfl, mv⟩
    all_goals simp

/-- snmpmanager.py:138-159, version 1. -/
theorem run_sm_138_1 (hc : Limits cfg) {h : Heap} {a q d : Nat} {s : Mgr .sm} {attrs : List (String × V)} (hb : Base h)
    (r : MgrAt nm env h a s attrs q d) {reg : Reg} (hreg : Registry cfg reg) {oid value : Arg} {x y : V} (hx : RepArg 9 h oid x)
    (hsh : ShortArg cfg oid) (hy : ArgAt h value y) {valtype : Int} (hset : ∀ cls, reg valtype.toNat = some cls → Settable cfg value cls)
    (t : Str) :
    Runs nm env a q d IsMsg h (call program cfg (.func .snmpmanager 138) [.ref a, x, .int valtype, y, .str t, .int 1] h)
      (smCreateSetRequestMessage reg oid valtype value t 1 s) := by
  have h1 := (run_mkOid (cfg := cfg) hb hx hsh).made hb (by
    intro e he
    cases hm : mkOid oid with
    | error e' =>
      rw [hm] at he
      cases he
      rcases mkOid_errs hm with rfl | rfl <;> decide
    | ok v => rw [hm] at he; cases he)
  obtain ⟨g1, k1, out⟩ := h1
  have r1 := r.kept k1 (Nat.le_refl _)
  rw [cid_oid] at out
  rw [call_snmpmanager_138, smCreateSetRequestMessage, if_pos rfl]
  cases hm : mkOid oid with
  | error e =>
    rw [hm] at out
    obtain ⟨z, e1, e2⟩ := out
    rw [M.at_error (x := M.lift (.error e)) (s' := s) rfl]
    refine ⟨g1, attrs, (Own.refl hb _ _ _).kept k1 (Nat.le_refl _), r1, z, ?_, e2⟩
    runs [snmpmanager_138, ↓e1]
  | ok ids =>
    rw [hm] at out
    obtain ⟨x1, e1, rx1⟩ := out
    rw [M.at_ok (x := M.lift (.ok ids)) (s' := s) rfl]
    have hy1 : RepArg 9 g1 value y := RepArg.same (k1.asn (Nat.le_refl _)) hy.2 hy.1
    have o1 := (Own.refl hb a q d).kept k1 (Nat.le_refl _)
    cases htag : cfg.tag valtype with
    | none =>
      have hcon : constructTag reg valtype value = .error .keyError := by
        rw [hreg valtype] at htag
        unfold constructTag
        split
        · rfl
        · rename_i hlt
          rw [if_neg hlt, Option.map_eq_none_iff] at htag
          rw [htag]
      rw [hcon, M.at_error (x := M.lift (.error Exc.keyError)) (s' := s) rfl]
      refine ⟨g1, attrs, o1, r1, .exc "KeyError" [], ?_, ⟨_, rfl⟩⟩
      runs [snmpmanager_138, ↓e1, htag]
    | some cc =>
      obtain ⟨cls, hcls, rfl, hcon⟩ : ∃ cls, reg valtype.toNat = some cls ∧ cid cls = cc ∧ constructTag reg valtype value = construct cls value := by
        rw [hreg valtype] at htag
        split at htag
        · cases htag
        · rename_i hlt
          obtain ⟨cls, h1, h2⟩ := Option.map_eq_some_iff.mp htag
          exact ⟨cls, h1, h2, by unfold constructTag; rw [if_neg hlt, h1]⟩
      obtain ⟨g2, k2, out2⟩ := run_construct (cfg := cfg) hc k1.base hy1 (hset cls hcls)
      have r2 := r1.kept k2 (Nat.le_refl _)
      have o2 := o1.trans ((Own.refl k1.base a q d).kept k2 (Nat.le_refl _))
      rw [hcon]
      cases hco : construct cls value with
      | error e =>
        rw [hco] at out2
        obtain ⟨z, e2, e3⟩ := out2
        rw [M.at_error (x := M.lift (.error e)) (s' := s) rfl]
        refine ⟨g2, attrs, o2, r2, z, ?_, e3⟩
        runs [snmpmanager_138, ↓e1, htag, ↓e2]
      | ok w =>
        rw [hco] at out2
        obtain ⟨y1, e2, ry1⟩ := out2
        rw [M.at_ok (x := M.lift (.ok w)) (s' := s) rfl]
        have rx2 := rx1.same (k2.asn (Nat.le_refl _))
        rcases run_pairVBL (cfg := cfg) hc k2.base rx2 ry1 (c := .varBind) (cl := .varBindList) (.inl rfl) (.inl rfl) with
          ⟨args, g3, m1, e3, k3⟩ | ⟨g3, z, g4, e3, e4, k3, rz, m1, m2⟩
        · rw [M.at_error (x := M.lift (mkVarBind _ _ _)) (show _ = (Except.error Exc.valueError, s) by rw [m1]; rfl)]
          refine ⟨g3, attrs, o2.trans ((Own.refl k2.base a q d).kept k3 (Nat.le_refl _)), r2.kept k3 (Nat.le_refl _), .exc "ValueError" args, ?_, ⟨args, rfl⟩⟩
          simp only [cids] at e3
          runs [snmpmanager_138, ↓e1, htag, ↓e2, ↓e3]
        · have hmod : (do
              let vb ← M.lift (mkVarBind .varBind (.oid ids) w)
              let varbindlist ← M.lift (mkVarBindList .varBindList [vb])
              let vbs ← M.lift varbindlist.iter
              let pdu ← smCreatePDU .set .set2 vbs 1
              M.lift (mkMessage .message 0 t pdu) : M .sm Msg) s = (do
                let pdu ← smCreatePDU .set .set2 [.seq .varBind [.oid ids, w]] 1
                M.lift (mkMessage .message 0 t pdu) : M .sm Msg) s := by
            rw [M.at_ok (x := M.lift (mkVarBind _ _ _)) (show _ = (Except.ok _, s) by rw [m1]; rfl),
              M.at_ok (x := M.lift (mkVarBindList _ _)) (show _ = (Except.ok _, s) by rw [m2]; rfl)]
            rfl
          rw [hmod]
          have r3 := r2.kept k3 (Nat.le_refl _)
          have o3 := o2.trans ((Own.refl k2.base a q d).kept k3 (Nat.le_refl _))
          have h54 := run_sm_92 (cfg := cfg) hc k3.base r3 (.inr ⟨_, rz⟩) 1
          have hmeth := r3.meth (name := "createSetRequestPDU") (m := .snmpmanager) (l := 92) rfl
          have hpl := fun z => place_msg (c := .message) (.inl rfl) (.str t) z
          simp only [cids] at e3 e4
          rw [show cid (.seq .message) = (.rfc1157, 87) from rfl] at hpl
          refine Runs.own o3 (h54.message hc (.inl rfl) 0 t ?_ ?_ ?_)
          · intro u h2 u' h3 e5 e6
            rw [show cid (.seq .message) = (.rfc1157, 87) from rfl] at e6
            runs [snmpmanager_138, ↓e1, htag, ↓e2, ↓e3, ↓e4, ↓hmeth, ↓e5, ↓hpl, ↓e6]
          · intro u h2 u' h3 e5 e6
            rw [show cid (.seq .message) = (.rfc1157, 87) from rfl] at e6
            runs [snmpmanager_138, ↓e1, htag, ↓e2, ↓e3, ↓e4, ↓hmeth, ↓e5, ↓hpl, ↓e6]
          · intro u h2 e5
            runs [snmpmanager_138, ↓e1, htag, ↓e2, ↓e3, ↓e4, ↓hmeth, ↓e5]

/-- snmpmanager.py:138-159, version 2. -/
theorem run_sm_138_2 (hc : Limits cfg) {h : Heap} {a q d : Nat} {s : Mgr .sm} {attrs : List (String × V)} (hb : Base h)
    (r : MgrAt nm env h a s attrs q d) {reg : Reg} (hreg : Registry cfg reg) {oid value : Arg} {x y : V} (hx : RepArg 9 h oid x)
    (hsh : ShortArg cfg oid) (hy : ArgAt h value y) {valtype : Int} (hset : ∀ cls, reg valtype.toNat = some cls → Settable cfg value cls)
    (t : Str) :
    Runs nm env a q d IsMsg h (call program cfg (.func .snmpmanager 138) [.ref a, x, .int valtype, y, .str t, .int 2] h)
      (smCreateSetRequestMessage reg oid valtype value t 2 s) := by
  have h1 := (run_mkOid (cfg := cfg) hb hx hsh).made hb (by
    intro e he
    cases hm : mkOid oid with
    | error e' =>
      rw [hm] at he
      cases he
      rcases mkOid_errs hm with rfl | rfl <;> decide
    | ok v => rw [hm] at he; cases he)
  obtain ⟨g1, k1, out⟩ := h1
  have r1 := r.kept k1 (Nat.le_refl _)
  rw [cid_oid] at out
  rw [call_snmpmanager_138, smCreateSetRequestMessage, if_neg (by decide), if_pos rfl]
  cases hm : mkOid oid with
  | error e =>
    rw [hm] at out
    obtain ⟨z, e1, e2⟩ := out
    rw [M.at_error (x := M.lift (.error e)) (s' := s) rfl]
    refine ⟨g1, attrs, (Own.refl hb _ _ _).kept k1 (Nat.le_refl _), r1, z, ?_, e2⟩
    runs [snmpmanager_138, ↓e1]
  | ok ids =>
    rw [hm] at out
    obtain ⟨x1, e1, rx1⟩ := out
    rw [M.at_ok (x := M.lift (.ok ids)) (s' := s) rfl]
    have hy1 : RepArg 9 g1 value y := RepArg.same (k1.asn (Nat.le_refl _)) hy.2 hy.1
    have o1 := (Own.refl hb a q d).kept k1 (Nat.le_refl _)
    cases htag : cfg.tag valtype with
    | none =>
      have hcon : constructTag reg valtype value = .error .keyError := by
        rw [hreg valtype] at htag
        unfold constructTag
        split
        · rfl
        · rename_i hlt
          rw [if_neg hlt, Option.map_eq_none_iff] at htag
          rw [htag]
      rw [hcon, M.at_error (x := M.lift (.error Exc.keyError)) (s' := s) rfl]
      refine ⟨g1, attrs, o1, r1, .exc "KeyError" [], ?_, ⟨_, rfl⟩⟩
      runs [snmpmanager_138, ↓e1, htag]
    | some cc =>
      obtain ⟨cls, hcls, rfl, hcon⟩ : ∃ cls, reg valtype.toNat = some cls ∧ cid cls = cc ∧ constructTag reg valtype value = construct cls value := by
        rw [hreg valtype] at htag
        split at htag
        · cases htag
        · rename_i hlt
          obtain ⟨cls, h1, h2⟩ := Option.map_eq_some_iff.mp htag
          exact ⟨cls, h1, h2, by unfold constructTag; rw [if_neg hlt, h1]⟩
      obtain ⟨g2, k2, out2⟩ := run_construct (cfg := cfg) hc k1.base hy1 (hset cls hcls)
      have r2 := r1.kept k2 (Nat.le_refl _)
      have o2 := o1.trans ((Own.refl k1.base a q d).kept k2 (Nat.le_refl _))
      rw [hcon]
      cases hco : construct cls value with
      | error e =>
        rw [hco] at out2
        obtain ⟨z, e2, e3⟩ := out2
        rw [M.at_error (x := M.lift (.error e)) (s' := s) rfl]
        refine ⟨g2, attrs, o2, r2, z, ?_, e3⟩
        runs [snmpmanager_138, ↓e1, htag, ↓e2]
      | ok w =>
        rw [hco] at out2
        obtain ⟨y1, e2, ry1⟩ := out2
        rw [M.at_ok (x := M.lift (.ok w)) (s' := s) rfl]
        have rx2 := rx1.same (k2.asn (Nat.le_refl _))
        rcases run_pairVBL (cfg := cfg) hc k2.base rx2 ry1 (c := .varBind2) (cl := .varBindList2) (.inr rfl) (.inr rfl) with
          ⟨args, g3, m1, e3, k3⟩ | ⟨g3, z, g4, e3, e4, k3, rz, m1, m2⟩
        · rw [M.at_error (x := M.lift (mkVarBind _ _ _)) (show _ = (Except.error Exc.valueError, s) by rw [m1]; rfl)]
          refine ⟨g3, attrs, o2.trans ((Own.refl k2.base a q d).kept k3 (Nat.le_refl _)), r2.kept k3 (Nat.le_refl _), .exc "ValueError" args, ?_, ⟨args, rfl⟩⟩
          simp only [cids] at e3
          runs [snmpmanager_138, ↓e1, htag, ↓e2, ↓e3]
        · have hmod : (do
              let vb ← M.lift (mkVarBind .varBind2 (.oid ids) w)
              let varbindlist ← M.lift (mkVarBindList .varBindList2 [vb])
              let vbs ← M.lift varbindlist.iter
              let pdu ← smCreatePDU .set .set2 vbs 1
              M.lift (mkMessage .message2 1 t pdu) : M .sm Msg) s = (do
                let pdu ← smCreatePDU .set .set2 [.seq .varBind2 [.oid ids, w]] 1
                M.lift (mkMessage .message2 1 t pdu) : M .sm Msg) s := by
            rw [M.at_ok (x := M.lift (mkVarBind _ _ _)) (show _ = (Except.ok _, s) by rw [m1]; rfl),
              M.at_ok (x := M.lift (mkVarBindList _ _)) (show _ = (Except.ok _, s) by rw [m2]; rfl)]
            rfl
          rw [hmod]
          have r3 := r2.kept k3 (Nat.le_refl _)
          have o3 := o2.trans ((Own.refl k2.base a q d).kept k3 (Nat.le_refl _))
          have h54 := run_sm_92 (cfg := cfg) hc k3.base r3 (.inr ⟨_, rz⟩) 1
          have hmeth := r3.meth (name := "createSetRequestPDU") (m := .snmpmanager) (l := 92) rfl
          have hpl := fun z => place_msg (c := .message2) (.inr rfl) (.str t) z
          simp only [cids] at e3 e4
          rw [show cid (.seq .message2) = (.rfc1905, 58) from rfl] at hpl
          refine Runs.own o3 (h54.message hc (.inr rfl) 1 t ?_ ?_ ?_)
          · intro u h2 u' h3 e5 e6
            rw [show cid (.seq .message2) = (.rfc1905, 58) from rfl] at e6
            runs [snmpmanager_138, ↓e1, htag, ↓e2, ↓e3, ↓e4, ↓hmeth, ↓e5, ↓hpl, ↓e6]
          · intro u h2 u' h3 e5 e6
            rw [show cid (.seq .message2) = (.rfc1905, 58) from rfl] at e6
            runs [snmpmanager_138, ↓e1, htag, ↓e2, ↓e3, ↓e4, ↓hmeth, ↓e5, ↓hpl, ↓e6]
          · intro u h2 e5
            runs [snmpmanager_138, ↓e1, htag, ↓e2, ↓e3, ↓e4, ↓hmeth, ↓e5]

theorem asks_smSet {reg : Reg} {oid value : Arg} {valtype : Int} {t : Str} {v : Int} {s s' : Mgr .sm} {m : Msg}
    (h : smCreateSetRequestMessage reg oid valtype value t v s = (.ok m, s')) : Asks m := by
  rw [smCreateSetRequestMessage] at h
  by_cases h1 : v = 1
  · rw [if_pos h1] at h
    obtain ⟨_, -, h⟩ := peel h
    obtain ⟨_, -, h⟩ := peel h
    obtain ⟨_, -, h⟩ := peel h
    obtain ⟨_, -, h⟩ := peel h
    obtain ⟨_, -, h⟩ := peel h
    obtain ⟨s1, h1⟩ := message_data h
    exact asks_smPDU ⟨_, rfl⟩ ⟨_, rfl⟩ h1
  rw [if_neg h1] at h
  by_cases h2 : v = 2
  · rw [if_pos h2] at h
    obtain ⟨_, -, h⟩ := peel h
    obtain ⟨_, -, h⟩ := peel h
    obtain ⟨_, -, h⟩ := peel h
    obtain ⟨_, -, h⟩ := peel h
    obtain ⟨_, -, h⟩ := peel h
    obtain ⟨s1, h1⟩ := message_data h
    exact asks_smPDU ⟨_, rfl⟩ ⟨_, rfl⟩ h1
  rw [if_neg h2] at h
  cases h

/-- snmpmanager.py:138-159. -/
theorem run_sm_138 (hc : Limits cfg) {h : Heap} {a q d : Nat} {s : Mgr .sm} {attrs : List (String × V)} (hb : Base h)
    (r : MgrAt nm env h a s attrs q d) {reg : Reg} (hreg : Registry cfg reg) {oid value : Arg} {x y : V} (hx : RepArg 9 h oid x)
    (hsh : ShortArg cfg oid) (hy : ArgAt h value y) {valtype : Int} (hset : ∀ cls, reg valtype.toNat = some cls → Settable cfg value cls)
    (t : Str) (v : Int) :
    Runs nm env a q d IsMsg h (call program cfg (.func .snmpmanager 138) [.ref a, x, .int valtype, y, .str t, .int v] h)
      (smCreateSetRequestMessage reg oid valtype value t v s) := by
  by_cases h1 : v = 1
  · subst h1; exact run_sm_138_1 hc hb r hreg hx hsh hy hset t
  by_cases h2 : v = 2
  · subst h2; exact run_sm_138_2 hc hb r hreg hx hsh hy hset t
  have hmod : smCreateSetRequestMessage reg oid valtype value t v s = (.error .valueError, s) := by
    rw [smCreateSetRequestMessage, if_neg h1, if_neg h2]; rfl
  rw [hmod]
  rcases run_unknown (cfg := cfg) v h with ⟨u, hu⟩ | hu
  · refine ⟨h, attrs, Own.refl hb _ _ _, r, .exc "ValueError" [.str u], ?_, ⟨_, rfl⟩⟩
    rw [call_snmpmanager_138]
    runs [snmpmanager_138, h1, h2, ↓hu]
  · refine ⟨h, attrs, Own.refl hb _ _ _, r, .exc "ValueError" [], ?_, ⟨_, rfl⟩⟩
    rw [call_snmpmanager_138]
    runs [snmpmanager_138, h1, h2, ↓hu]

/-- snmpmanager.py:230-245. -/
theorem run_sm_230 (hc : Limits cfg) {h : Heap} {a q d : Nat} {s : Mgr .sm} {attrs : List (String × V)} (hb : Base h)
    (r : MgrAt nm env h a s attrs q d) {reg : Reg} (hreg : Registry cfg reg) {oid value : Arg} {x y : V} (hx : RepArg 9 h oid x)
    (hsh : ShortArg cfg oid) (hy : ArgAt h value y) {valtype : Int} (hset : ∀ cls, reg valtype.toNat = some cls → Settable cfg value cls)
    (t : Str) (v : Int) (remote cb : Nat) :
    Runs nm env a q d (Rep 9) h (call program cfg (.func .snmpmanager 230)
        [.ref a, x, .int valtype, y, nm.addr remote, nm.fn cb, .str t, .int v] h)
      (smSnmpSet reg oid valtype value remote cb t v s) := by
  have hm := r.meth (name := "createSetRequestMessage") (m := .snmpmanager) (l := 138) rfl
  have hbody : snmpmanager_230.body = .assign (.loc "msg") (.call (.attr (.loc "self") "createSetRequestMessage")
    [.loc "oid", .loc "valtype", .loc "value", .loc "community", .loc "version"]) :: smTail := rfl
  refine (run_sm_138 (cfg := cfg) hc hb r hreg hx hsh hy hset t v).smEnqueue (cfg := cfg) (fun m s' h => asks_smSet h) remote cb ?_ ?_
  · intro b h' y h'' e1 e2
    rw [call_snmpmanager_230, hbody]
    runs [↓hm, ↓e1]
    rw [e2 _ rfl rfl rfl rfl]
    runs
  · intro y h' e1
    rw [call_snmpmanager_230, hbody]
    runs [↓hm, ↓e1]

end Libsnmp.Src
