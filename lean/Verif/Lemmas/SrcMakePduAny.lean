import Verif.Lemmas.SrcMakeVbl
import Verif.Lemmas.SrcMakePdu

/-!
# The PDU constructors with anything for the list of bindings
-/

namespace Libsnmp.Src
open Libsnmp

variable {cfg : Cfg} {h : Heap} {φ : Layout} {m : Mem}

/-- What `VarBindList(x)` does, later than `h0`. -/
def VblRun (cfg : Cfg) (h0 : Heap) (cl : SeqCls) (x : V) : Except Exc (List V) → Prop
  | .ok l => ∀ h', Kept h0.length h0 h' → call program cfg (.cls (cid (.seq cl))) [x] h' =
      okR (.ref h'.length) (h' ++ [.inst (cid (.seq cl)) (vblAttrs (h'.length + 2)), .list [], .list l])
  | .error e => ∀ h', Kept h0.length h0 h' → ∃ args h'', call program cfg (.cls (cid (.seq cl))) [x] h' = excR (.exc (excName e) args) h'' ∧
      Kept h'.length h' h''

/-- What a PDU constructor does. -/
def PduAny (h : Heap) (r : R V) (c cl : SeqCls) (c1 c2 c3 : IntCls) (k2 k3 : String) (n1 n2 n3 : Int) (w : Except Exc (List V)) : Prop :=
  (¬ (inRange c1 n1 ∧ inRange c2 n2 ∧ inRange c3 n3) → ∃ args h', r = excR (.exc "ValueError" args) h' ∧ Kept h.length h h') ∧
  (inRange c1 n1 ∧ inRange c2 n2 ∧ inRange c3 n3 → match w with
    | .ok l => ∃ h', r = okR (.ref h.length) h' ∧ Kept h.length h h' ∧ PduAt h' h.length c cl c1 c2 c3 k2 k3 n1 n2 n3 l
    | .error e => ∃ args h', r = excR (.exc (excName e) args) h' ∧ Kept h.length h h')

/-- rfc1157.py:138-151. -/
theorem run_pdu1_any (hl : Limits cfg) (hb : Base h) {c : SeqCls} (hi : initOf (.seq c) = (.rfc1157, 138)) {x : V} {w : Except Exc (List V)}
    (W : VblRun cfg h .varBindList x w) (n1 n2 n3 : Int) :
    PduAny h (call program cfg (.cls (cid (.seq c))) [.int n1, .int n2, .int n3, x] h) c .varBindList .integer .errorStatus .integer
      "errorStatus" "errorIndex" n1 n2 n3 w := by
  have hk1 : Kept h.length h (h ++ [.inst (cid (.seq c)) []]) := Kept.app hb _
  have hlo := hb.long
  have ha : (h ++ [Cell.inst (cid (.seq c)) []])[h.length]? = some (.inst (cid (.seq c)) []) := get_app _ _
  rw [call_cls, hi]
  dsimp only
  generalize h ++ [Cell.inst (cid (.seq c)) []] = G at *
  have he := isExc_cid (.seq c)
  have hlt := lt_of_get ha
  have hinit := run_seqInit (cfg := cfg) ha he
  have hkept : ∀ c t, Kept h.length G (G.set h.length c ++ t) := fun c t => (Kept.set hk1.base hlo (Nat.le_refl _) c).app' t (by simp; omega)
  refine ⟨fun r => ?_, fun ⟨r1, r2, r3⟩ => ?_⟩
  · obtain ⟨args, h', hrun, hkk⟩ := run_pduInit_bad (cfg := cfg) hl hk1.base (c := c) (x := x) ha hlo r
    rw [hrun]
    exact ⟨_, _, rfl, hk1.trans hkk⟩
  · have i1 := newInt_ok (cfg := cfg) hl (by decide) r1
    have i2 := newInt_ok (cfg := cfg) hl (by decide) r2
    have i3 := newInt_ok (cfg := cfg) hl (by decide) r3
    have K := hk1.trans (hkept (.inst (cid (.seq c)) [("value", .ref G.length), ("requestID", .ref (G.length + 1)),
        ("errorStatus", .ref (G.length + 2)), ("errorIndex", .ref (G.length + 3))]) [.list [], .inst (cid (.int .integer)) [("value", .int n1)],
        .inst (cid (.int .errorStatus)) [("value", .int n2)], .inst (cid (.int .integer)) [("value", .int n3)]])
    rw [call_rfc1157_138]
    cases w with
    | ok l =>
      have hv := W _ K
      simp only [cids] at i1 i2 i3 hv
      runs [rfc1157_138, he, hinit, get_set hlt, set_set_old hlt, i1, i2, i3, hv]
      refine ⟨_, rfl, hk1.trans (hkept _ _), G.length + 1, G.length + 2, G.length + 3, G.length + 4, G.length + 6, G.length + 7, by omega, by omega, by omega,
        by omega, by omega, by omega, get_set hlt _ _, ?_, ?_, ?_, ?_, ?_, ?_⟩
      all_goals exact get_set_add _ _ _ _ _
    | error e =>
      obtain ⟨args, h', hv, hk3⟩ := W _ K
      simp only [cids] at i1 i2 i3 hv
      runs [rfc1157_138, he, hinit, get_set hlt, set_set_old hlt, i1, i2, i3, hv]
      exact ⟨_, _, rfl, K.trans (hk3.mono (by have := hk1.len; simp; omega))⟩

/-- rfc1905.py:144-162. -/
theorem run_bulk_any (hl : Limits cfg) (hb : Base h) {c : SeqCls} (hi : initOf (.seq c) = (.rfc1905, 144)) {x : V} {w : Except Exc (List V)}
    (W : VblRun cfg h .varBindList2 x w) (n1 n2 n3 : Int) :
    PduAny h (call program cfg (.cls (cid (.seq c))) [.int n1, .int n2, .int n3, x] h) c .varBindList2 .integer32 .integer .integer
      "nonRepeaters" "maxRepetitions" n1 n2 n3 w := by
  have hk1 : Kept h.length h (h ++ [.inst (cid (.seq c)) []]) := Kept.app hb _
  have hlo := hb.long
  have ha : (h ++ [Cell.inst (cid (.seq c)) []])[h.length]? = some (.inst (cid (.seq c)) []) := get_app _ _
  rw [call_cls, hi]
  dsimp only
  generalize h ++ [Cell.inst (cid (.seq c)) []] = G at *
  have he := isExc_cid (.seq c)
  have hlt := lt_of_get ha
  have hinit := run_seqInit (cfg := cfg) ha he
  have hkept : ∀ c t, Kept h.length G (G.set h.length c ++ t) := fun c t => (Kept.set hk1.base hlo (Nat.le_refl _) c).app' t (by simp; omega)
  refine ⟨fun r => ?_, fun ⟨r1, r2, r3⟩ => ?_⟩
  · have hs := max_short hl
    rw [call_rfc1905_144]
    by_cases m2 : n2 > 2147483647
    · runs [rfc1905_144, he, hinit, get_set hlt, set_set_old hlt, m2, hs]
      exact ⟨_, _, rfl, hk1.trans (hkept _ _)⟩
    by_cases m3 : n3 > 2147483647
    · runs [rfc1905_144, he, hinit, get_set hlt, set_set_old hlt, m2, m3, hs]
      exact ⟨_, _, rfl, hk1.trans (hkept _ _)⟩
    by_cases r1 : inRange .integer32 n1
    swap
    · obtain ⟨f, i1⟩ := newInt_bad (cfg := cfg) hl (by decide) r1
      simp only [cids] at i1
      runs [rfc1905_144, he, hinit, get_set hlt, set_set_old hlt, m2, m3, i1]
      exact ⟨_, _, rfl, hk1.trans (hkept _ _)⟩
    have i1 := newInt_ok (cfg := cfg) hl (by decide) r1
    by_cases r2 : inRange .integer n2
    swap
    · obtain ⟨f, i2⟩ := newInt_bad (cfg := cfg) hl (by decide) r2
      simp only [cids] at i1 i2
      runs [rfc1905_144, he, hinit, get_set hlt, set_set_old hlt, m2, m3, i1, i2]
      exact ⟨_, _, rfl, hk1.trans (hkept _ _)⟩
    have i2 := newInt_ok (cfg := cfg) hl (by decide) r2
    have r3 : ¬ inRange .integer n3 := fun r3 => r ⟨r1, r2, r3⟩
    obtain ⟨f, i3⟩ := newInt_bad (cfg := cfg) hl (by decide) r3
    simp only [cids] at i1 i2 i3
    runs [rfc1905_144, he, hinit, get_set hlt, set_set_old hlt, m2, m3, i1, i2, i3]
    exact ⟨_, _, rfl, hk1.trans (hkept _ _)⟩
  · have i1 := newInt_ok (cfg := cfg) hl (by decide) r1
    have i2 := newInt_ok (cfg := cfg) hl (by decide) r2
    have i3 := newInt_ok (cfg := cfg) hl (by decide) r3
    have m2 := not_big r2
    have m3 := not_big r3
    have K := hk1.trans (hkept (.inst (cid (.seq c)) [("value", .ref G.length), ("requestID", .ref (G.length + 1)),
        ("nonRepeaters", .ref (G.length + 2)), ("maxRepetitions", .ref (G.length + 3))]) [.list [], .inst (cid (.int .integer32)) [("value", .int n1)],
        .inst (cid (.int .integer)) [("value", .int n2)], .inst (cid (.int .integer)) [("value", .int n3)]])
    rw [call_rfc1905_144]
    cases w with
    | ok l =>
      have hv := W _ K
      simp only [cids] at i1 i2 i3 hv
      runs [rfc1905_144, he, hinit, get_set hlt, set_set_old hlt, m2, m3, i1, i2, i3, hv]
      refine ⟨_, rfl, hk1.trans (hkept _ _), G.length + 1, G.length + 2, G.length + 3, G.length + 4, G.length + 6, G.length + 7, by omega, by omega, by omega,
        by omega, by omega, by omega, get_set hlt _ _, ?_, ?_, ?_, ?_, ?_, ?_⟩
      all_goals exact get_set_add _ _ _ _ _
    | error e =>
      obtain ⟨args, h', hv, hk3⟩ := W _ K
      simp only [cids] at i1 i2 i3 hv
      runs [rfc1905_144, he, hinit, get_set hlt, set_set_old hlt, m2, m3, i1, i2, i3, hv]
      exact ⟨_, _, rfl, K.trans (hk3.mono (by have := hk1.len; simp; omega))⟩

/-- rfc1905.py:105-121. -/
theorem run_pdu2Init_any (hc : Limits cfg) {h0 h : Heap} (hk : Kept h0.length h0 h) {a : Nat} {c : SeqCls} {x : V} {w : Except Exc (List V)}
    (W : VblRun cfg h0 .varBindList2 x w) (ha : h[a]? = some (.inst (cid (.seq c)) [])) (h9 : 9 ≤ a) (hn : h0.length ≤ a) (n1 n2 n3 : Int) :
    (¬ (inRange .integer32 n1 ∧ inRange .errorStatus2 n2 ∧ inRange .integer n3) →
      ∃ args h', call program cfg (.func .rfc1905 105) [.ref a, .int n1, .int n2, .int n3, x] h = excR (.exc "ValueError" args) h' ∧ Kept a h h') ∧
    (inRange .integer32 n1 ∧ inRange .errorStatus2 n2 ∧ inRange .integer n3 → match w with
      | .ok l => ∃ h', call program cfg (.func .rfc1905 105) [.ref a, .int n1, .int n2, .int n3, x] h = okR .none h' ∧
        Kept a h h' ∧ PduAt h' a c .varBindList2 .integer32 .errorStatus2 .integer "errorStatus" "errorIndex" n1 n2 n3 l
      | .error e => ∃ args h', call program cfg (.func .rfc1905 105) [.ref a, .int n1, .int n2, .int n3, x] h = excR (.exc (excName e) args) h' ∧ Kept a h h') := by
  have he := isExc_cid (.seq c)
  have hlt := lt_of_get ha
  have hinit := run_pduInit0 (cfg := cfg) hc hk ha h9 hn
  have hkept : ∀ c t, Kept a h (h.set a c ++ t) := fun c t =>
    (Kept.set hk.base h9 (Nat.le_refl _) c).app' t (by simp; omega)
  have hs := max_short hc
  have hlen := hk.len
  rw [call_rfc1905_105]
  by_cases m3 : n3 > 2147483647
  · refine ⟨fun _ => ?_, fun g => absurd m3 (not_big g.2.2)⟩
    runs [rfc1905_105, he, hinit, get_set hlt, set_set_old hlt, m3, hs]
    exact ⟨_, _, rfl, hkept _ _⟩
  by_cases r1 : IntCls.integer32.minVal ≤ n1 ∧ n1 ≤ IntCls.integer32.maxVal
  swap
  · refine ⟨fun _ => ?_, fun g => absurd g.1 r1⟩
    obtain ⟨f, i1⟩ := newInt_bad (cfg := cfg) hc (by decide) r1
    simp only [cids] at i1
    runs [rfc1905_105, he, hinit, get_set hlt, set_set_old hlt, m3, i1]
    exact ⟨_, _, rfl, hkept _ _⟩
  have i1 := newInt_ok (cfg := cfg) hc (by decide) r1
  generalize hrest : pduRest h.length = P at hinit
  have hP : P.length = 8 := by rw [← hrest]; rfl
  have i2 := run_newStatus (cfg := cfg) hc (hkept (.inst (cid (.seq c)) (pduAttrs (h.length + 7) (h.length + P.length) (h.length + 2) (h.length + 3) (h.length + 4)))
    (P ++ [.inst (.rfc1902, 27) [("value", .int n1)]])).base n2
  simp only [cids] at i1 i2
  by_cases r2 : IntCls.errorStatus2.minVal ≤ n2 ∧ n2 ≤ IntCls.errorStatus2.maxVal
  swap
  · refine ⟨fun _ => ?_, fun g => absurd g.2.1 r2⟩
    rw [if_neg r2] at i2
    obtain ⟨args, h', i2, hk2, -⟩ := i2
    simp only [pduAttrs] at hinit i2
    runs [rfc1905_105, he, hinit, get_set hlt, set_set_old hlt, m3, i1, i2]
    exact ⟨_, _, rfl, (hkept _ _).trans (hk2.mono (by simp; omega))⟩
  rw [if_pos r2] at i2
  obtain ⟨H, i2, hHl, hHk, -⟩ := i2
  have hHa : H[a]? = some (.inst (cid (.seq c)) (pduAttrs (h.length + 7) (h.length + P.length) (h.length + 2) (h.length + 3) (h.length + 4))) :=
    hHk.get (get_set hlt _ _) h9 (by simp; omega)
  have hHi : H[h.length + P.length]? = some (.inst (.rfc1902, 27) [("value", .int n1)]) :=
    hHk.get (by rw [get_set_add, List.getElem?_append_right (Nat.le_refl _), Nat.sub_self]; rfl) (by omega) (by simp)
  have hHL : H.length = h.length + 9 := by rw [hHl]; simp [hP]
  have hHt : a < H.length := by omega
  have hHkept : ∀ c t, Kept a h (H.set a c ++ t) := fun c t =>
    ((hkept _ _).trans ((hHk.mono (by simp; omega)).trans (Kept.set hHk.base h9 (Nat.le_refl _) c))).app' t (by simp; omega)
  have hkept0 : ∀ c t, Kept h0.length h0 (H.set a c ++ t) := fun c t => hk.trans ((hHkept c t).mono hn)
  simp only [pduAttrs] at hinit i2 hHa
  by_cases r3 : IntCls.integer.minVal ≤ n3 ∧ n3 ≤ IntCls.integer.maxVal
  swap
  · refine ⟨fun _ => ?_, fun g => absurd g.2.2 r3⟩
    obtain ⟨f, i3⟩ := newInt_bad (cfg := cfg) hc (by decide) r3
    simp only [cids] at i3
    runs [rfc1905_105, he, hinit, get_set hlt, set_set_old hlt, m3, i1, i2, get_app_old hHa, set_old hHt, i3]
    exact ⟨_, _, rfl, hHkept _ _⟩
  have i3 := newInt_ok (cfg := cfg) hc (by decide) r3
  have hkH := hkept0 (.inst (cid (.seq c)) (pduAttrs (h.length + 7) (h.length + P.length) H.length (H.length + 1) (h.length + 4)))
      [.inst (.rfc1905, 64) [("value", .int n2)], .inst (.rfc1155, 288) [("value", .int n3)]]
  refine ⟨fun g => absurd ⟨r1, r2, r3⟩ g, fun _ => ?_⟩
  cases w with
  | error e =>
    obtain ⟨args, h', hv', hk3⟩ := W _ hkH
    have hkk := (hHkept _ _).trans (hk3.mono (by simp; omega))
    simp only [cids, pduAttrs] at i3 hv'
    runs [rfc1905_105, he, hinit, get_set hlt, set_set_old hlt, m3, i1, i2, get_app_old hHa, set_old hHt, get_set hHt, set_set_old hHt, i3, hv']
    exact ⟨_, _, rfl, hkk⟩
  | ok l =>
    have hv' := W _ hkH
    simp only [cids, pduAttrs] at i3 hv'
    runs [rfc1905_105, he, hinit, get_set hlt, set_set_old hlt, m3, i1, i2, get_app_old hHa, set_old hHt, get_set hHt, set_set_old hHt, i3, hv']
    refine ⟨_, rfl, hHkept _ _, h.length + P.length, H.length, H.length + 1, H.length + 2, H.length + 4, H.length + 5, by omega, by omega, by omega, by omega, by omega, by omega,
      get_set hHt _ _, ?_, ?_, ?_, ?_, ?_, ?_⟩
    · exact get_app_old (by rw [List.getElem?_set_ne (by omega)]; exact hHi) _
    · exact get_set_new _ _ _ _
    all_goals exact get_set_add _ _ _ _ _

theorem run_pdu2_any (hl : Limits cfg) (hb : Base h) {c : SeqCls} (hi : initOf (.seq c) = (.rfc1905, 105)) {x : V} {w : Except Exc (List V)}
    (W : VblRun cfg h .varBindList2 x w) (n1 n2 n3 : Int) :
    PduAny h (call program cfg (.cls (cid (.seq c))) [.int n1, .int n2, .int n3, x] h) c .varBindList2 .integer32 .errorStatus2 .integer
      "errorStatus" "errorIndex" n1 n2 n3 w := by
  have hk1 : Kept h.length h (h ++ [.inst (cid (.seq c)) []]) := Kept.app hb _
  have hrun := run_pdu2Init_any (cfg := cfg) hl hk1 (c := c) W (get_app _ _) hb.long (Nat.le_refl _) n1 n2 n3
  rw [call_cls, hi]
  dsimp only
  refine ⟨fun hg => ?_, fun hg => ?_⟩
  · obtain ⟨args, h', e1, e2⟩ := hrun.1 hg
    rw [e1]
    exact ⟨args, h', rfl, hk1.trans e2⟩
  · have := hrun.2 hg
    cases w with
    | ok l =>
      obtain ⟨h', e1, e2, e3⟩ := this
      rw [e1]
      exact ⟨h', rfl, hk1.trans e2, e3⟩
    | error e =>
      obtain ⟨args, h', e1, e2⟩ := this
      rw [e1]
      exact ⟨args, h', rfl, hk1.trans e2⟩

/-- `VarBindList(x)` of what is neither a list nor a Sequence. -/
theorem vbl_run (hl : Limits cfg) (H : Lies φ m h) {c : SeqCls} (hc : c = .varBindList ∨ c = .varBindList2) {r : Ref} {x : V} (hr : RefAt φ r x)
    (hi : m.items r = none) : VblRun cfg h c x (match m.notBindings ((Cls.seq c).isSubclass (.seq .varBindList2)) r with
      | some e => .error e
      | none => .ok []) := by
  have h1 : (Cls.seq .varBindList).isSubclass (.seq .varBindList2) = false := by decide
  have h2 : (Cls.seq .varBindList2).isSubclass (.seq .varBindList2) = true := by decide
  have hk1 : ∀ {h'} (_ : Kept h.length h h') c, Kept h.length h (h' ++ [.inst (cid (.seq c)) []]) := fun k c => k.app' _ k.len
  have hx := not_bindings (cfg := cfg) H hr hi ((Cls.seq c).isSubclass (.seq .varBindList2))
  generalize m.notBindings ((Cls.seq c).isSubclass (.seq .varBindList2)) r = e at *
  rcases hx with O | ⟨rs, xs, rfl, I, hf, hn⟩
  · rcases hc with rfl | rfl
    · rw [h1] at O
      cases O with
      | false1 ht =>
        intro h' k
        have hr := run_vblFalse (cfg := cfg) (hk1 k .varBindList) (a := h'.length) (c := .varBindList) (get_app _ _) k.base.long k.len ht
        rw [call_cls, initOf]
        runs [hr]
        simp only [vblHeap, src]
      | stuck1 ht =>
        intro h' k
        have hr := run_vblStuck (cfg := cfg) (hk1 k .varBindList) (a := h'.length) (c := .varBindList) (get_app _ _) k.base.long k.len ht
        have e : call program cfg (.cls (cid (.seq .varBindList))) [x] h' = excR (.exc "TypeError" []) (vblHeap (h' ++ [.inst (cid (.seq .varBindList)) []]) h'.length .varBindList []) := by
          rw [call_cls, initOf]
          runs [hr]
        exact ⟨_, _, e, vblHeap_kept (Kept.app k.base _) k.base.long (Nat.le_refl _) _ _⟩
    · rw [h2] at O
      cases O with
      | false2 ht =>
        intro h' k
        have hr := run_vblFalse (cfg := cfg) (hk1 k .varBindList2) (a := h'.length) (c := .varBindList2) (get_app _ _) k.base.long k.len (fun h' k => (ht h' k).1)
        have hl := (ht _ (hk1 k .varBindList2)).2
        rw [call_cls, initOf, call_rfc1905_52]
        runs [rfc1905_52, ↓hl, hr]
        simp only [vblHeap, src]
      | stuck2 ht =>
        intro h' k
        have hl := ht _ (hk1 k .varBindList2)
        have e : call program cfg (.cls (cid (.seq .varBindList2))) [x] h' = excR (.exc "TypeError" []) (h' ++ [.inst (cid (.seq .varBindList2)) []]) := by
          rw [call_cls, initOf, call_rfc1905_52]
          runs [rfc1905_52, ↓hl]
        exact ⟨_, _, e, Kept.app k.base _⟩
  · cases rs with
    | nil =>
      cases hf
      rw [List.isEmpty_nil, if_pos rfl]
      intro h' k
      rcases hc with rfl | rfl
      · exact run_newVBL (cfg := cfg) k I (by simp)
      · exact run_newVBL2 (cfg := cfg) k I (by simp) (by simp)
    | cons q qs =>
      rw [List.isEmpty_cons, if_neg (by simp)]
      intro h' k
      have hj := judged_at H hf
      obtain ⟨args, h'', e1, e2⟩ := run_newVBL_no (cfg := cfg) hl I hc hj (by rw [List.map_cons, List.all_cons, hn q List.mem_cons_self]; rfl) h' k
      exact ⟨args, h'', e1, e2⟩

/-- A PDU whose fourth argument is neither a list nor a Sequence. -/
theorem make_pdu_odd (hl : Limits cfg) (H : Lies φ m h) {c : SeqCls}
    (hc : ((Cls.seq c).isSubclass (.seq .pdu) || (Cls.seq c).isSubclass (.seq .bulkPDU)) = true) (n1 n2 n3 : Int) {r : Ref} {x : V} (hr : RefAt φ r x)
    (hi : m.items r = none) :
    Comes φ h (call program cfg (.cls (cid (.seq c))) [.int n1, .int n2, .int n3, x] h) (m.mkPDU c n1 n2 n3 r) := by
  have L := H.lays
  -- later the argument is the same
  have hi' : ∀ m' : Mem, m'.lists = m.lists → (∃ t, m'.objs = m.objs ++ t) → m'.items r = none ∧ ∀ b, m'.notBindings b r = m.notBindings b r := by
    intro m' h1 ⟨t, h2⟩
    cases r with
    | list l => exact ⟨by simpa only [Mem.items, h1] using hi, fun b => rfl⟩
    | obj a =>
      obtain ⟨p, e1, rfl⟩ := hr
      obtain ⟨o, attrs, g1, -⟩ := L.obj e1
      have g2 : m'.objs[a]? = some o := by rw [h2, List.getElem?_append_left (List.getElem?_eq_some_iff.1 g1).1]; exact g1
      exact ⟨by simpa only [Mem.items, g1, g2, h1] using hi, fun b => by simp only [Mem.notBindings, g1, g2]⟩
    | _ => exact ⟨rfl, fun b => rfl⟩
  have hmk : ∀ (c1 c2 c3 : IntCls) (cl : SeqCls), pduParts c = (c1, c2, c3, cl) →
      m.mkPDU c n1 n2 n3 r = if inRange c1 n1 ∧ inRange c2 n2 ∧ inRange c3 n3 then
        (match m.notBindings ((Cls.seq cl).isSubclass (.seq .varBindList2)) r with
          | some e => (m, .error e)
          | none =>
            (let (m1, r1) := m.newPrim (.int c1) (.num n1)
             let (m2, r2) := m1.newPrim (.int c2) (.num n2)
             let (m3, r3) := m2.newPrim (.int c3) (.num n3)
             let (m4, r4) := m3.newSeq cl []
             let (m5, r) := m4.newSeq c [r1, r2, r3, r4]
             (m5, .ok r))) else (m, .error .valueError) := by
    intro c1 c2 c3 cl hp
    simp only [Mem.mkPDU, hp]
    by_cases r1 : inRange c1 n1
    swap
    · rw [mkInt_bad r1, if_neg fun g => r1 g.1]
    rw [mkInt_ok r1]
    dsimp only
    by_cases r2 : inRange c2 n2
    swap
    · rw [mkInt_bad r2, if_neg fun g => r2 g.2.1]
    rw [mkInt_ok r2]
    dsimp only
    by_cases r3 : inRange c3 n3
    swap
    · rw [mkInt_bad r3, if_neg fun g => r3 g.2.2]
    rw [mkInt_ok r3]
    dsimp only
    obtain ⟨e1, e2⟩ := hi' (((m.newPrim (.int c1) (.num n1)).1.newPrim (.int c2) (.num n2)).1.newPrim (.int c3) (.num n3)).1 rfl ⟨[⟨.int c1, .num n1, fun _ => none⟩, ⟨.int c2, .num n2, fun _ => none⟩, ⟨.int c3, .num n3, fun _ => none⟩], by simp [Mem.newPrim, Mem.newNode]⟩
    simp only [Mem.mkVarBindList, e1, e2]
    rw [if_pos ⟨r1, r2, r3⟩]
    cases m.notBindings ((Cls.seq cl).isSubclass (.seq .varBindList2)) r <;> rfl
  have hfin : ∀ (c1 c2 c3 : IntCls) (cl : SeqCls) (k2 k3 : String), pduParts c = (c1, c2, c3, cl) → (cl = .varBindList ∨ cl = .varBindList2) →
      (∀ w, VblRun cfg h cl x w → PduAny h (call program cfg (.cls (cid (.seq c))) [.int n1, .int n2, .int n3, x] h) c cl c1 c2 c3 k2 k3 n1 n2 n3 w) →
      (k2 ∈ dataNames ∧ k3 ∈ dataNames ∧ k2 ≠ "value" ∧ k3 ≠ "value") → (Cls.seq c).isSubclass (.seq .message) = false →
      (∀ (φ : Layout) (r1 r2 r3 r4 : Ref) (b x1 x2 x3 x4 : V), RefAt φ r1 x1 → RefAt φ r2 x2 → RefAt φ r3 x3 → RefAt φ r4 x4 → ∀ f : Attr,
        Option.Rel (RefAt φ) (attrsOf c [r1, r2, r3, r4] f)
          ([("value", b), ("requestID", x1), (k2, x2), (k3, x3), ("varBindList", x4)].lookup f.name)) →
      Comes φ h (call program cfg (.cls (cid (.seq c))) [.int n1, .int n2, .int n3, x] h) (m.mkPDU c n1 n2 n3 r) := by
    intro c1 c2 c3 cl k2 k3 hp hcl hrun hd hm hfld
    rw [hmk c1 c2 c3 cl hp]
    have P := hrun _ (vbl_run hl H hcl hr hi)
    by_cases g : inRange c1 n1 ∧ inRange c2 n2 ∧ inRange c3 n3
    · rw [if_pos g]
      have P := P.2 g
      cases hn : m.notBindings ((Cls.seq cl).isSubclass (.seq .varBindList2)) r with
      | some e =>
        rw [hn] at P
        obtain ⟨args, h', e1, e2⟩ := P
        rw [e1]
        exact made_error H e2
      | none =>
        rw [hn] at P
        obtain ⟨h', e1, e2, e3⟩ := P
        rw [e1]
        exact made_pdu H e2 e3 .nil hcl hd hm (by cases c <;> first | rfl | exact absurd hc (by decide)) hfld
    · rw [if_neg g]
      obtain ⟨args, h', e1, e2⟩ := P.1 g
      rw [e1]
      exact made_error H e2 (e := .valueError)
  have d1 : "errorStatus" ∈ dataNames ∧ "errorIndex" ∈ dataNames ∧ "errorStatus" ≠ "value" ∧ "errorIndex" ≠ "value" := by decide
  have d2 : "nonRepeaters" ∈ dataNames ∧ "maxRepetitions" ∈ dataNames ∧ "nonRepeaters" ≠ "value" ∧ "maxRepetitions" ≠ "value" := by decide
  have hthree : (initOf (.seq c) = (.rfc1157, 138) ∧ pduParts c = (.integer, .errorStatus, .integer, .varBindList)) ∨
      (initOf (.seq c) = (.rfc1905, 105) ∧ pduParts c = (.integer32, .errorStatus2, .integer, .varBindList2)) ∨
      (initOf (.seq c) = (.rfc1905, 144) ∧ pduParts c = (.integer32, .integer, .integer, .varBindList2)) := by
    revert hc; cases c <;> decide
  have hm : (Cls.seq c).isSubclass (.seq .message) = false := by revert hc; cases c <;> decide
  rcases hthree with ⟨h1, h2⟩ | ⟨h1, h2⟩ | ⟨h1, h2⟩
  · refine hfin _ _ _ _ _ _ h2 (.inl rfl) (fun w W => run_pdu1_any hl H.base h1 W n1 n2 n3) d1 hm ?_
    intro φ r1 r2 r3 r4 b x1 x2 x3 x4 R1 R2 R3 R4 f
    cases c <;> first
      | (cases h1; done)
      | (cases f <;> first | exact .some R1 | exact .some R2 | exact .some R3 | exact .some R4 | exact .none)
  · refine hfin _ _ _ _ _ _ h2 (.inr rfl) (fun w W => run_pdu2_any hl H.base h1 W n1 n2 n3) d1 hm ?_
    intro φ r1 r2 r3 r4 b x1 x2 x3 x4 R1 R2 R3 R4 f
    cases c <;> first
      | (cases h1; done)
      | (cases f <;> first | exact .some R1 | exact .some R2 | exact .some R3 | exact .some R4 | exact .none)
  · refine hfin _ _ _ _ _ _ h2 (.inr rfl) (fun w W => run_bulk_any hl H.base h1 W n1 n2 n3) d2 hm ?_
    intro φ r1 r2 r3 r4 b x1 x2 x3 x4 R1 R2 R3 R4 f
    cases c <;> first
      | (cases h1; done)
      | (cases f <;> first | exact .some R1 | exact .some R2 | exact .some R3 | exact .some R4 | exact .none)

/-- `Get(...)`, `Response(...)`, `GetBulk(...)`, ..., whatever the fourth argument is. -/
theorem make_pdu_any (hl : Limits cfg) (H : Lies φ m h) {c : SeqCls}
    (hc : ((Cls.seq c).isSubclass (.seq .pdu) || (Cls.seq c).isSubclass (.seq .bulkPDU)) = true) (n1 n2 n3 : Int) {r : Ref} {x : V} (hr : RefAt φ r x) :
    Comes φ h (call program cfg (.cls (cid (.seq c))) [.int n1, .int n2, .int n3, x] h) (m.mkPDU c n1 n2 n3 r) := by
  cases hi : m.items r with
  | some rs => exact make_pdu hl H hc n1 n2 n3 hr hi
  | none => exact make_pdu_odd hl H hc n1 n2 n3 hr hi

end Libsnmp.Src
