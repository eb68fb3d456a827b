import Verif.Lemmas.SrcMake

/-!
# Making PDUs of a graph by executing the constructors
-/

namespace Libsnmp.Src
open Libsnmp

variable {cfg : Cfg} {U : Nat → Prop} {φ φ' φ'' : Layout} {m : Mem} {h h' h'' : Heap}

/-- The cells of a new PDU at `a`. -/
def PduAt (h : Heap) (a : Nat) (c cl : SeqCls) (c1 c2 c3 : IntCls) (k2 k3 : String) (n1 n2 n3 : Int) (l : List V) : Prop :=
  ∃ a1 a2 a3 a4 b4 b, a < a1 ∧ a1 < a2 ∧ a2 < a3 ∧ a3 < a4 ∧ a4 < b4 ∧ b4 < b ∧
    h[a]? = some (.inst (cid (.seq c)) [("value", .ref b), ("requestID", .ref a1), (k2, .ref a2), (k3, .ref a3), ("varBindList", .ref a4)]) ∧
    h[a1]? = some (.inst (cid (.int c1)) [("value", .int n1)]) ∧ h[a2]? = some (.inst (cid (.int c2)) [("value", .int n2)]) ∧
    h[a3]? = some (.inst (cid (.int c3)) [("value", .int n3)]) ∧ h[a4]? = some (.inst (cid (.seq cl)) (vblAttrs b4)) ∧
    h[b4]? = some (.list l) ∧ h[b]? = some (.list [.ref a1, .ref a2, .ref a3, .ref a4])

/-- What the constructor of a PDU does. -/
def PduRun (h : Heap) (r : R V) (c cl : SeqCls) (c1 c2 c3 : IntCls) (k2 k3 : String) (n1 n2 n3 : Int) (l : List V) (good : Prop) : Prop :=
  (good → ∃ h', r = okR (.ref h.length) h' ∧ Kept h.length h h' ∧ PduAt h' h.length c cl c1 c2 c3 k2 k3 n1 n2 n3 l) ∧
  (¬ good → ∃ args h', r = excR (.exc "ValueError" args) h' ∧ Kept h.length h h')

theorem kept_self (hb : Base h) : Kept h.length h h := by have := Kept.app hb []; rwa [List.append_nil] at this

def inRange (c : IntCls) (n : Int) : Prop := c.minVal ≤ n ∧ n ≤ c.maxVal

instance (c : IntCls) (n : Int) : Decidable (inRange c n) := by unfold inRange; infer_instance

/-- rfc1157.py:138-151. -/
theorem run_pdu1 (hl : Limits cfg) (hb : Base h) {c : SeqCls} (hi : initOf (.seq c) = (.rfc1157, 138)) {x : V} {l : List V} (I : Items h x l)
    {vs : List Bool} (hj : ∀ h', Kept h.length h h' → List.Forall₂ (Judged h') vs l) (n1 n2 n3 : Int) :
    PduRun h (call program cfg (.cls (cid (.seq c))) [.int n1, .int n2, .int n3, x] h) c .varBindList .integer .errorStatus .integer
      "errorStatus" "errorIndex" n1 n2 n3 l ((inRange .integer n1 ∧ inRange .errorStatus n2 ∧ inRange .integer n3) ∧ vs.all (·) = true) := by
  have hk1 : Kept h.length h (h ++ [.inst (cid (.seq c)) []]) := Kept.app hb _
  have hlo := hb.long
  have hall : vs.all (·) = true → ∀ h', Kept h.length h h' → ∀ y ∈ l, isInst program h' y (.cls (cid (.seq .varBind))) = some true := by
    intro hv h' hk y hy
    have := hj h' hk
    clear hj I
    induction this with
    | nil => cases hy
    | cons h1 _ ih =>
      rw [List.all_cons, Bool.and_eq_true] at hv
      rcases List.mem_cons.1 hy with rfl | hy
      · have := h1.1; rw [hv.1] at this; exact this
      · exact ih hv.2 hy
  rw [call_cls, hi]
  refine ⟨fun ⟨⟨r1, r2, r3⟩, hv⟩ => ?_, fun hg => ?_⟩
  · have hrun := run_pduInit (cfg := cfg) hl hk1 (c := c) I (get_app _ _) hlo (Nat.le_refl _) (hall hv) r1 r2 r3
    simp only [src] at hrun
    dsimp only
    rw [hrun]
    refine ⟨_, rfl, Kept.app hb _, h.length + 1 + 1, h.length + 1 + 2, h.length + 1 + 3, h.length + 1 + 4, h.length + 1 + 6, h.length + 1 + 7, by omega, by omega, by omega, by omega, by omega, by omega, get_app _ _, ?_⟩
    simp only [Nat.add_assoc, get_app_add]
    exact ⟨rfl, rfl, rfl, rfl, rfl, rfl⟩
  · by_cases r : inRange .integer n1 ∧ inRange .errorStatus n2 ∧ inRange .integer n3
    · have hv : vs.all (·) = false := by
        cases hv : vs.all (·) with
        | false => rfl
        | true => exact absurd ⟨r, hv⟩ hg
      obtain ⟨r1, r2, r3⟩ := r
      have ha : (h ++ [Cell.inst (cid (.seq c)) []])[h.length]? = some (.inst (cid (.seq c)) []) := get_app _ _
      have he := isExc_cid (.seq c)
      have hlt := lt_of_get ha
      have hinit := run_seqInit (cfg := cfg) ha he
      have i1 := newInt_ok (cfg := cfg) hl (by decide) r1
      have i2 := newInt_ok (cfg := cfg) hl (by decide) r2
      have i3 := newInt_ok (cfg := cfg) hl (by decide) r3
      have hk2 : Kept h.length (h ++ [Cell.inst (cid (.seq c)) []]) ((h ++ [Cell.inst (cid (.seq c)) []]).set h.length (.inst (cid (.seq c)) [("value", .ref (h ++ [Cell.inst (cid (.seq c)) []]).length), ("requestID", .ref ((h ++ [Cell.inst (cid (.seq c)) []]).length + 1)),
        ("errorStatus", .ref ((h ++ [Cell.inst (cid (.seq c)) []]).length + 2)), ("errorIndex", .ref ((h ++ [Cell.inst (cid (.seq c)) []]).length + 3))]) ++ [.list [],
       .inst (cid (.int .integer)) [("value", .int n1)], .inst (cid (.int .errorStatus)) [("value", .int n2)],
       .inst (cid (.int .integer)) [("value", .int n3)]]) :=
        (Kept.set hk1.base hlo (Nat.le_refl _) _).app' _ (by simp)
      obtain ⟨args, h', e1, hk3⟩ := run_newVBL_no (cfg := cfg) hl (c := .varBindList) I (.inl rfl) hj hv _ (hk1.trans hk2)
      generalize h ++ [Cell.inst (cid (.seq c)) []] = G at *
      simp only [cids] at i1 i2 i3 e1
      rw [call_rfc1157_138]
      runs [rfc1157_138, he, hinit, get_set hlt, set_set_old hlt, i1, i2, i3, e1]
      exact ⟨_, _, rfl, (hk1.trans hk2).trans (hk3.mono (by have := hk1.len; simp; omega))⟩
    · obtain ⟨args, h', hrun, hkk⟩ := run_pduInit_bad (cfg := cfg) hl hk1.base (c := c) (x := x) (get_app _ _) hlo r
      dsimp only
      rw [hrun]
      exact ⟨_, _, rfl, hk1.trans hkk⟩

theorem all_judged {l : List V} {vs : List Bool} (hj : ∀ h', Kept h.length h h' → List.Forall₂ (Judged h') vs l) (hv : vs.all (·) = true) :
    ∀ h', Kept h.length h h' → ∀ y ∈ l, isInst program h' y (.cls (cid (.seq .varBind))) = some true := by
  intro h' hk y hy
  have := hj h' hk
  clear hj
  induction this with
  | nil => cases hy
  | cons h1 _ ih =>
    rw [List.all_cons, Bool.and_eq_true] at hv
    rcases List.mem_cons.1 hy with rfl | hy
    · have := h1.1; rw [hv.1] at this; exact this
    · exact ih hv.2 hy

theorem not_big {n : Int} (r : inRange .integer n) : ¬ n > 2147483647 := by
  have h1 := r.2
  have h2 : IntCls.integer.maxVal = 2147483647 := by decide
  omega

/-- rfc1905.py:144-162. -/
theorem run_bulk (hl : Limits cfg) (hb : Base h) {c : SeqCls} (hi : initOf (.seq c) = (.rfc1905, 144)) {x : V} {l : List V} (I : Items h x l)
    {vs : List Bool} (hj : ∀ h', Kept h.length h h' → List.Forall₂ (Judged h') vs l) (n1 n2 n3 : Int) :
    PduRun h (call program cfg (.cls (cid (.seq c))) [.int n1, .int n2, .int n3, x] h) c .varBindList2 .integer32 .integer .integer
      "nonRepeaters" "maxRepetitions" n1 n2 n3 l
      ((inRange .integer32 n1 ∧ inRange .integer n2 ∧ inRange .integer n3) ∧ l.length ≤ 2147483647 ∧ vs.all (·) = true) := by
  have hk1 : Kept h.length h (h ++ [.inst (cid (.seq c)) []]) := Kept.app hb _
  have hlo := hb.long
  rw [call_cls, hi]
  refine ⟨fun ⟨⟨r1, r2, r3⟩, hlen, hv⟩ => ?_, fun hg => ?_⟩
  · have hrun := run_bulkInit (cfg := cfg) hl hk1 (c := c) I (get_app _ _) hlo (Nat.le_refl _) (all_judged hj hv) (not_big r2) (not_big r3) r1 r2 r3 hlen
    simp only [src] at hrun
    dsimp only
    rw [hrun]
    refine ⟨_, rfl, Kept.app hb _, h.length + 1 + 1, h.length + 1 + 2, h.length + 1 + 3, h.length + 1 + 4, h.length + 1 + 6, h.length + 1 + 7, by omega, by omega, by omega, by omega, by omega, by omega, get_app _ _, ?_⟩
    simp only [Nat.add_assoc, get_app_add]
    exact ⟨rfl, rfl, rfl, rfl, rfl, rfl⟩
  · by_cases r : (inRange .integer32 n1 ∧ inRange .integer n2 ∧ inRange .integer n3) ∧ l.length ≤ 2147483647
    · have hv : vs.all (·) = false := by
        cases hv : vs.all (·) with
        | false => rfl
        | true => exact absurd ⟨r.1, r.2, hv⟩ hg
      obtain ⟨⟨r1, r2, r3⟩, hlen⟩ := r
      have m2 := not_big r2
      have m3 := not_big r3
      have ha : (h ++ [Cell.inst (cid (.seq c)) []])[h.length]? = some (.inst (cid (.seq c)) []) := get_app _ _
      have he := isExc_cid (.seq c)
      have hlt := lt_of_get ha
      have hinit := run_seqInit (cfg := cfg) ha he
      have i1 := newInt_ok (cfg := cfg) hl (by decide) r1
      have i2 := newInt_ok (cfg := cfg) hl (by decide) r2
      have i3 := newInt_ok (cfg := cfg) hl (by decide) r3
      have hk2 : Kept h.length (h ++ [Cell.inst (cid (.seq c)) []]) ((h ++ [Cell.inst (cid (.seq c)) []]).set h.length (.inst (cid (.seq c)) [("value", .ref (h ++ [Cell.inst (cid (.seq c)) []]).length), ("requestID", .ref ((h ++ [Cell.inst (cid (.seq c)) []]).length + 1)),
        ("nonRepeaters", .ref ((h ++ [Cell.inst (cid (.seq c)) []]).length + 2)), ("maxRepetitions", .ref ((h ++ [Cell.inst (cid (.seq c)) []]).length + 3))]) ++ [.list [],
       .inst (cid (.int .integer32)) [("value", .int n1)], .inst (cid (.int .integer)) [("value", .int n2)],
       .inst (cid (.int .integer)) [("value", .int n3)]]) :=
        (Kept.set hk1.base hlo (Nat.le_refl _) _).app' _ (by simp)
      obtain ⟨args, h', e1, hk3⟩ := run_newVBL_no (cfg := cfg) hl (c := .varBindList2) I (.inr rfl) hj hv _ (hk1.trans hk2)
      generalize h ++ [Cell.inst (cid (.seq c)) []] = G at *
      simp only [cids] at i1 i2 i3 e1
      rw [call_rfc1905_144]
      runs [rfc1905_144, he, hinit, get_set hlt, set_set_old hlt, m2, m3, i1, i2, i3, e1]
      exact ⟨_, _, rfl, (hk1.trans hk2).trans (hk3.mono (by have := hk1.len; simp; omega))⟩
    · obtain ⟨args, h', hrun, hkk⟩ := run_bulkInit_bad (cfg := cfg) hl hk1 (c := c) (x := x) I (get_app _ _) hlo (Nat.le_refl _) (n1 := n1) (n2 := n2) (n3 := n3)
        fun ⟨_, _, r1, r2, r3, hlen⟩ => r ⟨⟨r1, r2, r3⟩, hlen⟩
      dsimp only
      rw [hrun]
      exact ⟨_, _, rfl, hk1.trans hkk⟩

/-- rfc1905.py:105-121. -/
theorem run_pdu2Init' (hc : Limits cfg) {h0 h : Heap} (hk : Kept h0.length h0 h) {a : Nat} {c : SeqCls} {x : V} {l : List V}
    (hi : Items h0 x l) (ha : h[a]? = some (.inst (cid (.seq c)) [])) (h9 : 9 ≤ a) (hn : h0.length ≤ a)
    {vs : List Bool} (hj : ∀ h', Kept h0.length h0 h' → List.Forall₂ (Judged h') vs l) (n1 n2 n3 : Int) :
    ((inRange .integer32 n1 ∧ inRange .errorStatus2 n2 ∧ inRange .integer n3) ∧ l.length ≤ 2147483647 ∧ vs.all (·) = true →
      ∃ h', call program cfg (.func .rfc1905 105) [.ref a, .int n1, .int n2, .int n3, x] h = okR .none h' ∧
      Kept a h h' ∧ PduAt h' a c .varBindList2 .integer32 .errorStatus2 .integer "errorStatus" "errorIndex" n1 n2 n3 l) ∧
    (¬ ((inRange .integer32 n1 ∧ inRange .errorStatus2 n2 ∧ inRange .integer n3) ∧ l.length ≤ 2147483647 ∧ vs.all (·) = true) →
      ∃ args h', call program cfg (.func .rfc1905 105) [.ref a, .int n1, .int n2, .int n3, x] h =
      excR (.exc "ValueError" args) h' ∧ Kept a h h') := by
  have he := isExc_cid (.seq c)
  have hlt := lt_of_get ha
  have hinit := run_pduInit0 (cfg := cfg) hc hk ha h9 hn
  have hkept : ∀ c t, Kept a h (h.set a c ++ t) := fun c t =>
    (Kept.set hk.base h9 (Nat.le_refl _) c).app' t (by simp; omega)
  have hs := max_short hc
  have hlen := hk.len
  rw [call_rfc1905_105]
  by_cases m3 : n3 > 2147483647
  · refine ⟨fun g => absurd m3 (not_big g.1.2.2), fun _ => ?_⟩
    runs [rfc1905_105, he, hinit, get_set hlt, set_set_old hlt, m3, hs]
    exact ⟨_, _, rfl, hkept _ _⟩
  by_cases r1 : IntCls.integer32.minVal ≤ n1 ∧ n1 ≤ IntCls.integer32.maxVal
  swap
  · refine ⟨fun g => absurd g.1.1 r1, fun _ => ?_⟩
    obtain ⟨f, i1⟩ := newInt_bad (cfg := cfg) hc (by decide) r1
    simp only [cids] at i1
    runs [rfc1905_105, he, hinit, get_set hlt, set_set_old hlt, m3, i1]
    exact ⟨_, _, rfl, hkept _ _⟩
  have i1 := newInt_ok (cfg := cfg) hc (by decide) r1
  generalize hrest : pduRest h.length = P at hinit
  have hP : P.length = 8 := by rw [← hrest]; rfl
  have i2 := run_newStatus (cfg := cfg) hc (hkept (.inst (cid (.seq c)) (pduAttrs (h.length + 7) (h.length + P.length) (h.length + 2) (h.length + 3) (h.length + 4)))
    (P ++ [.inst (.rfc1902, 27) [("value", .int n1)]])).base n2
  simp only [cids] at i1 i2
  by_cases r2 : IntCls.errorStatus2.minVal ≤ n2 ∧ n2 ≤ IntCls.errorStatus2.maxVal
  swap
  · refine ⟨fun g => absurd g.1.2.1 r2, fun _ => ?_⟩
    rw [if_neg r2] at i2
    obtain ⟨args, h', i2, hk2, -⟩ := i2
    simp only [pduAttrs] at hinit i2
    runs [rfc1905_105, he, hinit, get_set hlt, set_set_old hlt, m3, i1, i2]
    exact ⟨_, _, rfl, (hkept _ _).trans (hk2.mono (by simp; omega))⟩
  rw [if_pos r2] at i2
  obtain ⟨H, i2, hHl, hHk, -⟩ := i2
  have hHa : H[a]? = some (.inst (cid (.seq c)) (pduAttrs (h.length + 7) (h.length + P.length) (h.length + 2) (h.length + 3) (h.length + 4))) :=
    hHk.get (get_set hlt _ _) h9 (by simp; omega)
  have hHi : H[h.length + P.length]? = some (.inst (.rfc1902, 27) [("value", .int n1)]) :=
    hHk.get (by rw [get_set_add, List.getElem?_append_right (Nat.le_refl _), Nat.sub_self]; rfl) (by omega) (by simp)
  have hHL : H.length = h.length + 9 := by rw [hHl]; simp [hP]
  have hHt : a < H.length := by omega
  have hHkept : ∀ c t, Kept a h (H.set a c ++ t) := fun c t =>
    ((hkept _ _).trans ((hHk.mono (by simp; omega)).trans (Kept.set hHk.base h9 (Nat.le_refl _) c))).app' t (by simp; omega)
  have hkept0 : ∀ c t, Kept h0.length h0 (H.set a c ++ t) := fun c t => hk.trans ((hHkept c t).mono hn)
  simp only [pduAttrs] at hinit i2 hHa
  by_cases r3 : IntCls.integer.minVal ≤ n3 ∧ n3 ≤ IntCls.integer.maxVal
  swap
  · refine ⟨fun g => absurd g.1.2.2 r3, fun _ => ?_⟩
    obtain ⟨f, i3⟩ := newInt_bad (cfg := cfg) hc (by decide) r3
    simp only [cids] at i3
    runs [rfc1905_105, he, hinit, get_set hlt, set_set_old hlt, m3, i1, i2, get_app_old hHa, set_old hHt, i3]
    exact ⟨_, _, rfl, hHkept _ _⟩
  have i3 := newInt_ok (cfg := cfg) hc (by decide) r3
  have hkH := hkept0 (.inst (cid (.seq c)) (pduAttrs (h.length + 7) (h.length + P.length) H.length (H.length + 1) (h.length + 4)))
      [.inst (.rfc1905, 64) [("value", .int n2)], .inst (.rfc1155, 288) [("value", .int n3)]]
  by_cases hll : l.length ≤ 2147483647
  swap
  · refine ⟨fun g => absurd g.2.1 hll, fun _ => ?_⟩
    obtain ⟨args, hv⟩ := run_newVBL2_long (cfg := cfg) hc hi (by omega)
    have hv' := hv _ hkH
    simp only [cids, pduAttrs] at i3 hv'
    runs [rfc1905_105, he, hinit, get_set hlt, set_set_old hlt, m3, i1, i2, get_app_old hHa, set_old hHt, get_set hHt, set_set_old hHt, i3, hv']
    exact ⟨_, _, rfl, hHkept _ _⟩
  cases hv : vs.all (·) with
  | false =>
    refine ⟨fun g => absurd g.2.2 (by simp), fun _ => ?_⟩
    obtain ⟨args, h', hv', hk3⟩ := run_newVBL_no (cfg := cfg) hc hi (.inr rfl) hj hv _ hkH
    have hkk := (hHkept _ _).trans (hk3.mono (by simp; omega))
    simp only [cids, pduAttrs] at i3 hv'
    runs [rfc1905_105, he, hinit, get_set hlt, set_set_old hlt, m3, i1, i2, get_app_old hHa, set_old hHt, get_set hHt, set_set_old hHt, i3, hv']
    exact ⟨_, _, rfl, hkk⟩
  | true =>
    refine ⟨fun _ => ?_, fun g => absurd ⟨⟨r1, r2, r3⟩, hll, rfl⟩ g⟩
    have hv' := run_newVBL2 (cfg := cfg) hkH hi (all_judged hj hv) hll
    simp only [cids, pduAttrs] at i3 hv'
    runs [rfc1905_105, he, hinit, get_set hlt, set_set_old hlt, m3, i1, i2, get_app_old hHa, set_old hHt, get_set hHt, set_set_old hHt, i3, hv']
    refine ⟨_, rfl, hHkept _ _, h.length + P.length, H.length, H.length + 1, H.length + 2, H.length + 4, H.length + 5, by omega, by omega, by omega, by omega, by omega, by omega,
      get_set hHt _ _, ?_, ?_, ?_, ?_, ?_, ?_⟩
    · exact get_app_old (by rw [List.getElem?_set_ne (by omega)]; exact hHi) _
    · exact get_set_new _ _ _ _
    all_goals exact get_set_add _ _ _ _ _

theorem run_pdu2 (hl : Limits cfg) (hb : Base h) {c : SeqCls} (hi : initOf (.seq c) = (.rfc1905, 105)) {x : V} {l : List V} (I : Items h x l)
    {vs : List Bool} (hj : ∀ h', Kept h.length h h' → List.Forall₂ (Judged h') vs l) (n1 n2 n3 : Int) :
    PduRun h (call program cfg (.cls (cid (.seq c))) [.int n1, .int n2, .int n3, x] h) c .varBindList2 .integer32 .errorStatus2 .integer
      "errorStatus" "errorIndex" n1 n2 n3 l
      ((inRange .integer32 n1 ∧ inRange .errorStatus2 n2 ∧ inRange .integer n3) ∧ l.length ≤ 2147483647 ∧ vs.all (·) = true) := by
  have hk1 : Kept h.length h (h ++ [.inst (cid (.seq c)) []]) := Kept.app hb _
  have hrun := run_pdu2Init' (cfg := cfg) hl hk1 (c := c) I (get_app _ _) hb.long (Nat.le_refl _) hj n1 n2 n3
  rw [call_cls, hi]
  dsimp only
  refine ⟨fun hg => ?_, fun hg => ?_⟩
  · obtain ⟨h', e1, e2, e3⟩ := hrun.1 hg
    rw [e1]
    exact ⟨h', rfl, hk1.trans e2, e3⟩
  · obtain ⟨args, h', e1, e2⟩ := hrun.2 hg
    rw [e1]
    exact ⟨args, h', rfl, hk1.trans e2⟩

/-- The cells of a new PDU are five objects and two lists of the graph. -/
theorem made_pdu (H : Lies φ m h) (hk : Kept h.length h h') {c cl : SeqCls} {c1 c2 c3 : IntCls} {k2 k3 : String} {n1 n2 n3 : Int} {l : List V}
    (P : PduAt h' h.length c cl c1 c2 c3 k2 k3 n1 n2 n3 l) {rs : List Ref} (hf : List.Forall₂ (RefAt φ) rs l)
    (hcl : cl = .varBindList ∨ cl = .varBindList2) (hd : k2 ∈ dataNames ∧ k3 ∈ dataNames ∧ k2 ≠ "value" ∧ k3 ≠ "value")
    (hm : (Cls.seq c).isSubclass (.seq .message) = false) (hnv : (Cls.seq c).isSubclass (.seq .varBindList) = false)
    (hfld : ∀ (φ : Layout) (r1 r2 r3 r4 : Ref) (b x1 x2 x3 x4 : V), RefAt φ r1 x1 → RefAt φ r2 x2 → RefAt φ r3 x3 → RefAt φ r4 x4 → ∀ f : Attr,
      Option.Rel (RefAt φ) (attrsOf c [r1, r2, r3, r4] f)
        ([("value", b), ("requestID", x1), (k2, x2), (k3, x3), ("varBindList", x4)].lookup f.name)) :
    Comes φ h (okR (.ref h.length) h')
      (let (m1, r1) := m.newPrim (.int c1) (.num n1)
       let (m2, r2) := m1.newPrim (.int c2) (.num n2)
       let (m3, r3) := m2.newPrim (.int c3) (.num n3)
       let (m4, r4) := m3.newSeq cl rs
       let (m5, r) := m4.newSeq c [r1, r2, r3, r4]
       (m5, .ok r)) := by
  obtain ⟨a1, a2, a3, a4, b4, b, l0, l1, l2, l3, l4, l5, e0, e1, e2, e3, e4, e5, e6⟩ := P
  have hb := H.base.long
  have L := H.kept hk
  have hi : ∀ {c : IntCls} {n : Int} {p : Nat} {U : Nat → Prop} {φ : Layout}, h'[p]? = some (.inst (cid (.int c)) [("value", .int n)]) →
      NodeAt U φ h' ⟨.int c, .num n, fun _ => none⟩ p [("value", .int n)] := fun {c} _ _ _ _ hp =>
    node_prim hp (plain [_]) rfl (by cases c <;> rfl) (value_lacks _)
  have L1 := L.adopt (p := a1) (.inr (by omega)) (hi e1)
  have L2 := L1.adopt (p := a2) ⟨.inr (by omega), by omega⟩ (hi e2)
  have L3 := L2.adopt (p := a3) ⟨⟨.inr (by omega), by omega⟩, by omega⟩ (hi e3)
  have G1 : Grown φ _ := Grown.obj φ a1
  have G2 := Grown.obj ⟨φ.objs ++ [a1], φ.lists⟩ a2
  have G3 := Grown.obj ⟨φ.objs ++ [a1] ++ [a2], φ.lists⟩ a3
  have f3 := hf.imp fun _ _ hr => (G1.trans (G2.trans G3)).ref hr
  have L4 := L3.adoptSeq (p := a4) (b := b4) (c := cl) ⟨⟨⟨.inr (by omega), by omega⟩, by omega⟩, by omega⟩ ⟨⟨⟨.inr (by omega), by omega⟩, by omega⟩, by omega⟩ e4 e5
    (plain [_, _]) rfl f3 (vbl_fields hcl rs _) (by rcases hcl with rfl | rfl <;> rfl) (fun _ => rfl)
  have G4 := grown_seq ⟨φ.objs ++ [a1] ++ [a2] ++ [a3], φ.lists⟩ a4 b4
  have R1 := (G2.trans (G3.trans G4)).ref (ref_new φ L a1)
  have R2 := (G3.trans G4).ref (ref_new _ L1 a2)
  have R3 := G4.ref (ref_new _ L2 a3)
  have R4 := ref_seq _ L3 a4 b4 cl rs
  have hpl : Plain [("value", V.ref b), ("requestID", .ref a1), (k2, .ref a2), (k3, .ref a3), ("varBindList", .ref a4)] := by
    intro p hp
    simp only [List.mem_cons, List.not_mem_nil, or_false] at hp
    rcases hp with rfl | rfl | rfl | rfl | rfl
    · simp [dataNames]
    · simp [dataNames]
    · exact hd.1
    · exact hd.2.1
    · simp [dataNames]
  have L5 := L4.adoptSeq (p := h.length) (b := b) (c := c) (by refine ⟨⟨⟨⟨⟨.inr (Nat.le_refl _), ?_⟩, ?_⟩, ?_⟩, ?_⟩, ?_⟩ <;> omega)
    (by refine ⟨⟨⟨⟨⟨.inr ?_, ?_⟩, ?_⟩, ?_⟩, ?_⟩, ?_⟩ <;> omega) e0 e6 hpl rfl (.cons R1 (.cons R2 (.cons R3 (.cons R4 .nil))))
    (hfld _ _ _ _ _ _ _ _ _ _ R1 R2 R3 R4) hm (fun hk => by rw [hnv] at hk; cases hk)
  have H5 := L5.lies hk.base fun q hq => by refine ⟨⟨⟨⟨⟨⟨⟨.inl hq, ?_⟩, ?_⟩, ?_⟩, ?_⟩, ?_⟩, ?_⟩, ?_⟩ <;> omega
  exact ⟨_, h', .ref h.length, rfl, ref_seq _ L4 h.length b c _, H5, ((((G1.trans G2).trans G3).trans G4).trans (grown_seq _ _ _))⟩

theorem forall₂_mem {α β} {R : α → β → Prop} {l : List α} {k : List β} (h : List.Forall₂ R l k) : ∀ q ∈ l, ∃ y, R q y := by
  induction h with
  | nil => simp
  | @cons q' y' _ _ h1 _ ih =>
    intro q hq
    rcases List.mem_cons.1 hq with rfl | hq
    · exact ⟨y', h1⟩
    · exact ih q hq

theorem mkInt_ok {c : IntCls} {n : Int} (r : inRange c n) : m.mkInteger c n = ((m.newPrim (.int c) (.num n)).1, .ok (m.newPrim (.int c) (.num n)).2) := by
  rw [Mem.mkInteger, if_pos (show c.minVal ≤ n ∧ n ≤ c.maxVal from r)]

theorem mkInt_bad {c : IntCls} {n : Int} (r : ¬ inRange c n) : m.mkInteger c n = (m, .error .valueError) := by
  rw [Mem.mkInteger, if_neg (show ¬ (c.minVal ≤ n ∧ n ≤ c.maxVal) from r)]

/-- `Get(...)`, `Response(...)`, `GetBulk(...)`, ... -/
theorem make_pdu (hl : Limits cfg) (H : Lies φ m h) {c : SeqCls}
    (hc : ((Cls.seq c).isSubclass (.seq .pdu) || (Cls.seq c).isSubclass (.seq .bulkPDU)) = true) (n1 n2 n3 : Int) {r : Ref} {x : V} (hr : RefAt φ r x)
    {rs : List Ref} (hi : m.items r = some rs) :
    Comes φ h (call program cfg (.cls (cid (.seq c))) [.int n1, .int n2, .int n3, x] h) (m.mkPDU c n1 n2 n3 r) := by
  obtain ⟨xs, I, hf⟩ := items_at H hr hi
  have hlen := hf.length_eq
  have hj := judged_at H hf
  have hma : (rs.map (m.isInstance · (.seq .varBind))).all (·) = rs.all (m.isInstance · (.seq .varBind)) := by rw [List.all_map]; rfl
  -- what the model does
  have hmk : ∀ (c1 c2 c3 : IntCls) (cl : SeqCls), pduParts c = (c1, c2, c3, cl) → (cl = .varBindList ∨ cl = .varBindList2) →
      m.mkPDU c n1 n2 n3 r = if (inRange c1 n1 ∧ inRange c2 n2 ∧ inRange c3 n3) ∧ (cl = .varBindList2 → rs.length ≤ 2147483647) ∧
          rs.all (m.isInstance · (.seq .varBind)) = true then
        (let (m1, r1) := m.newPrim (.int c1) (.num n1)
         let (m2, r2) := m1.newPrim (.int c2) (.num n2)
         let (m3, r3) := m2.newPrim (.int c3) (.num n3)
         let (m4, r4) := m3.newSeq cl rs
         let (m5, r) := m4.newSeq c [r1, r2, r3, r4]
         (m5, .ok r)) else (m, .error .valueError) := by
    intro c1 c2 c3 cl hp hcl
    have hi' : ∀ m' : Mem, m'.lists = m.lists → (∃ t, m'.objs = m.objs ++ t) → m'.items r = some rs := by
      intro m' h1 ⟨t, h2⟩
      cases r with
      | list l => simpa only [Mem.items, h1] using hi
      | obj a =>
        simp only [Mem.items] at hi ⊢
        cases ho : m.objs[a]? with
        | none => rw [ho] at hi; cases hi
        | some o => rw [h2, List.getElem?_append_left (List.getElem?_eq_some_iff.1 ho).1, ho, h1]; rw [ho] at hi; exact hi
      | _ => cases hi
    have ha' : ∀ m' : Mem, (∃ t, m'.objs = m.objs ++ t) → rs.all (m'.isInstance · (.seq .varBind)) = rs.all (m.isInstance · (.seq .varBind)) := by
      intro m' ⟨t, h2⟩
      have hall : ∀ q ∈ rs, m'.isInstance q (.seq .varBind) = m.isInstance q (.seq .varBind) := by
        intro q hq
        obtain ⟨y, hqy⟩ := forall₂_mem hf q hq
        cases q with
        | obj a =>
          obtain ⟨p, e1, rfl⟩ := hqy
          obtain ⟨o, attrs, h1, -⟩ := H.lays.obj e1
          simp only [Mem.isInstance, h2, List.getElem?_append_left (List.getElem?_eq_some_iff.1 h1).1]
        | _ => rfl
      rw [Bool.eq_iff_iff, List.all_eq_true, List.all_eq_true]
      exact ⟨fun h1 q hq => by rw [← hall q hq]; exact h1 q hq, fun h1 q hq => by rw [hall q hq]; exact h1 q hq⟩
    simp only [Mem.mkPDU, hp]
    by_cases r1 : inRange c1 n1
    swap
    · rw [mkInt_bad r1, if_neg fun g => r1 g.1.1]
    rw [mkInt_ok r1]
    dsimp only
    by_cases r2 : inRange c2 n2
    swap
    · rw [mkInt_bad r2, if_neg fun g => r2 g.1.2.1]
    rw [mkInt_ok r2]
    dsimp only
    by_cases r3 : inRange c3 n3
    swap
    · rw [mkInt_bad r3, if_neg fun g => r3 g.1.2.2]
    rw [mkInt_ok r3]
    dsimp only
    have e1 := hi' (((m.newPrim (.int c1) (.num n1)).1.newPrim (.int c2) (.num n2)).1.newPrim (.int c3) (.num n3)).1 rfl ⟨[⟨.int c1, .num n1, fun _ => none⟩, ⟨.int c2, .num n2, fun _ => none⟩, ⟨.int c3, .num n3, fun _ => none⟩], by simp [Mem.newPrim, Mem.newNode]⟩
    have e2 := ha' (((m.newPrim (.int c1) (.num n1)).1.newPrim (.int c2) (.num n2)).1.newPrim (.int c3) (.num n3)).1 ⟨[⟨.int c1, .num n1, fun _ => none⟩, ⟨.int c2, .num n2, fun _ => none⟩, ⟨.int c3, .num n3, fun _ => none⟩], by simp [Mem.newPrim, Mem.newNode]⟩
    simp only [Mem.mkVarBindList, e1, e2]
    cases hall : rs.all (m.isInstance · (.seq .varBind)) with
    | false =>
      rw [if_neg (c := _ ∧ _) fun g => by have := g.2.2; simp at this]
      by_cases hb : ((Cls.seq cl).isSubclass (.seq .varBindList2) && decide (2147483647 < rs.length)) = true <;> simp only [hb, if_true, if_false, Bool.false_eq_true]
    | true =>
      rcases hcl with rfl | rfl
      · rw [if_neg (by rw [show (Cls.seq .varBindList).isSubclass (.seq .varBindList2) = false from by decide]; simp), if_pos rfl, if_pos ⟨⟨r1, r2, r3⟩, by simp, rfl⟩]
      · by_cases hb : 2147483647 < rs.length
        · rw [if_pos (by rw [show (Cls.seq .varBindList2).isSubclass (.seq .varBindList2) = true from by decide]; simp [hb]), if_neg fun g => by have := g.2.1 rfl; omega]
        · rw [if_neg (by simp [hb]), if_pos rfl, if_pos ⟨⟨r1, r2, r3⟩, fun _ => by omega, rfl⟩]
  have hfin : ∀ (c1 c2 c3 : IntCls) (cl : SeqCls) (k2 k3 : String) (good : Prop), pduParts c = (c1, c2, c3, cl) → (cl = .varBindList ∨ cl = .varBindList2) →
      (good ↔ (inRange c1 n1 ∧ inRange c2 n2 ∧ inRange c3 n3) ∧ (cl = .varBindList2 → rs.length ≤ 2147483647) ∧
          rs.all (m.isInstance · (.seq .varBind)) = true) →
      PduRun h (call program cfg (.cls (cid (.seq c))) [.int n1, .int n2, .int n3, x] h) c cl c1 c2 c3 k2 k3 n1 n2 n3 xs good →
      (k2 ∈ dataNames ∧ k3 ∈ dataNames ∧ k2 ≠ "value" ∧ k3 ≠ "value") → (Cls.seq c).isSubclass (.seq .message) = false →
      (∀ (φ : Layout) (r1 r2 r3 r4 : Ref) (b x1 x2 x3 x4 : V), RefAt φ r1 x1 → RefAt φ r2 x2 → RefAt φ r3 x3 → RefAt φ r4 x4 → ∀ f : Attr,
        Option.Rel (RefAt φ) (attrsOf c [r1, r2, r3, r4] f)
          ([("value", b), ("requestID", x1), (k2, x2), (k3, x3), ("varBindList", x4)].lookup f.name)) →
      Comes φ h (call program cfg (.cls (cid (.seq c))) [.int n1, .int n2, .int n3, x] h) (m.mkPDU c n1 n2 n3 r) := by
    intro c1 c2 c3 cl k2 k3 good hp hcl hg hrun hd hm hfld
    rw [hmk c1 c2 c3 cl hp hcl]
    by_cases g : good
    · rw [if_pos (hg.1 g)]
      obtain ⟨h', e1, e2, e3⟩ := hrun.1 g
      rw [e1]
      exact made_pdu H e2 e3 hf hcl hd hm (by cases c <;> first | rfl | exact absurd hc (by decide)) hfld
    · rw [if_neg fun g' => g (hg.2 g')]
      obtain ⟨args, h', e1, e2⟩ := hrun.2 g
      rw [e1]
      exact made_error H e2 (e := .valueError)
  have dec : ∀ k ∈ ["errorStatus", "errorIndex", "nonRepeaters", "maxRepetitions"], k ∈ dataNames ∧ k ≠ "value" := by decide
  have d1 : "errorStatus" ∈ dataNames ∧ "errorIndex" ∈ dataNames ∧ "errorStatus" ≠ "value" ∧ "errorIndex" ≠ "value" := by decide
  have d2 : "nonRepeaters" ∈ dataNames ∧ "maxRepetitions" ∈ dataNames ∧ "nonRepeaters" ≠ "value" ∧ "maxRepetitions" ≠ "value" := by decide
  have g1 : ∀ c1 c2 c3 : IntCls, ((inRange c1 n1 ∧ inRange c2 n2 ∧ inRange c3 n3) ∧ (rs.map (m.isInstance · (.seq .varBind))).all (·) = true) ↔
      (inRange c1 n1 ∧ inRange c2 n2 ∧ inRange c3 n3) ∧ (SeqCls.varBindList = .varBindList2 → rs.length ≤ 2147483647) ∧
          rs.all (m.isInstance · (.seq .varBind)) = true := fun c1 c2 c3 => by rw [hma]; simp
  have g2 : ∀ c1 c2 c3 : IntCls, ((inRange c1 n1 ∧ inRange c2 n2 ∧ inRange c3 n3) ∧ xs.length ≤ 2147483647 ∧ (rs.map (m.isInstance · (.seq .varBind))).all (·) = true) ↔
      (inRange c1 n1 ∧ inRange c2 n2 ∧ inRange c3 n3) ∧ (SeqCls.varBindList2 = .varBindList2 → rs.length ≤ 2147483647) ∧
          rs.all (m.isInstance · (.seq .varBind)) = true := fun c1 c2 c3 => by rw [hma, hlen]; simp
  have hthree : (initOf (.seq c) = (.rfc1157, 138) ∧ pduParts c = (.integer, .errorStatus, .integer, .varBindList)) ∨
      (initOf (.seq c) = (.rfc1905, 105) ∧ pduParts c = (.integer32, .errorStatus2, .integer, .varBindList2)) ∨
      (initOf (.seq c) = (.rfc1905, 144) ∧ pduParts c = (.integer32, .integer, .integer, .varBindList2)) := by
    revert hc; cases c <;> decide
  have hm : (Cls.seq c).isSubclass (.seq .message) = false := by revert hc; cases c <;> decide
  rcases hthree with ⟨h1, h2⟩ | ⟨h1, h2⟩ | ⟨h1, h2⟩
  · refine hfin _ _ _ _ _ _ _ h2 (.inl rfl) (g1 _ _ _) (run_pdu1 hl H.base h1 I hj n1 n2 n3) d1 hm ?_
    intro φ r1 r2 r3 r4 b x1 x2 x3 x4 R1 R2 R3 R4 f
    cases c <;> first
      | (cases h1; done)
      | (cases f <;> first | exact .some R1 | exact .some R2 | exact .some R3 | exact .some R4 | exact .none)
  · refine hfin _ _ _ _ _ _ _ h2 (.inr rfl) (g2 _ _ _) (run_pdu2 hl H.base h1 I hj n1 n2 n3) d1 hm ?_
    intro φ r1 r2 r3 r4 b x1 x2 x3 x4 R1 R2 R3 R4 f
    cases c <;> first
      | (cases h1; done)
      | (cases f <;> first | exact .some R1 | exact .some R2 | exact .some R3 | exact .some R4 | exact .none)
  · refine hfin _ _ _ _ _ _ _ h2 (.inr rfl) (g2 _ _ _) (run_bulk hl H.base h1 I hj n1 n2 n3) d2 hm ?_
    intro φ r1 r2 r3 r4 b x1 x2 x3 x4 R1 R2 R3 R4 f
    cases c <;> first
      | (cases h1; done)
      | (cases f <;> first | exact .some R1 | exact .some R2 | exact .some R3 | exact .some R4 | exact .none)

end Libsnmp.Src
