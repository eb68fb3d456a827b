import Verif.Lemmas.SrcFin

/-!
# Running the constructors of PDUs on something that is not a VarBind
-/

namespace Libsnmp.Src
open Libsnmp

variable {cfg : Cfg}

/-- `value.__class__.__name__`. -/
theorem className {lo : Nat} {h : Heap} {v : Val} {x : V} (r : Rep lo h v x) :
    ∃ y s, getattr program h x "__class__" = some y ∧ getattr program h y "__name__" = some (.str s) := by
  have hcls : ∀ c, ∃ s, getattr program h (.cls (cid c)) "__name__" = some (.str s) := by
    intro c
    rcases c with _ | c | c | _ | c | c
    all_goals first | exact ⟨_, rfl⟩ | (cases c <;> exact ⟨_, rfl⟩)
  have key : ∀ {a : Nat} {c : Cls} {attrs : List (String × V)}, h[a]? = some (.inst (cid c) attrs) → Plain attrs →
      ∃ y s, getattr program h (.ref a) "__class__" = some y ∧ getattr program h y "__name__" = some (.str s) := by
    intro a c attrs ha hp
    obtain ⟨s, hs⟩ := hcls c
    exact ⟨_, s, by simp only [getattr, ha, hp.none (a := "__class__"), if_true], hs⟩
  match v, r with
  | .none, r => rw [Rep] at r; subst r; exact ⟨_, _, rfl, rfl⟩
  | .int n, r => rw [Rep] at r; subst r; exact ⟨_, _, rfl, rfl⟩
  | .str s, r => rw [Rep] at r; subst r; exact ⟨_, _, rfl, rfl⟩
  | .integer c n, r =>
    rw [Rep] at r
    obtain ⟨a, attrs, rfl, hl, ha, hp, _⟩ := r
    exact key ha hp
  | .octets c n, r =>
    rw [Rep] at r
    obtain ⟨a, attrs, rfl, hl, ha, hp, _⟩ := r
    exact key ha hp
  | .oid none, r =>
    rw [Rep] at r
    obtain ⟨a, attrs, rfl, hl, ha, hp, _⟩ := r
    exact key ha hp
  | .oid (some _), r =>
    rw [Rep] at r
    obtain ⟨a, attrs, _, rfl, hl, ha, hp, _⟩ := r
    exact key ha hp
  | .null c, r =>
    rw [Rep] at r
    obtain ⟨a, attrs, rfl, hl, ha, hp, _⟩ := r
    exact key ha hp
  | .seq c _, r =>
    rw [Rep] at r
    obtain ⟨a, attrs, _, _, rfl, hl, ha, hp, _⟩ := r
    exact key ha hp

theorem run_vblAppend_bad {lo : Nat} {h : Heap} {a b : Nat} {c : SeqCls} {v : Val} {x : V}
    (ha : h[a]? = some (.inst (cid (.seq c)) (vblAttrs b))) (r : Rep lo h v x) (hv : v.isInstance (.seq .varBind) = false) :
    ∃ args, call program cfg (.func .rfc1155 879) [.ref a, x] h = excR (.exc "ValueError" args) h := by
  have hx := run_isInst r (.seq .varBind)
  rw [hv] at hx
  obtain ⟨y, s, hy, hs⟩ := className r
  have hc : (vblAttrs b).lookup "componentType" = some (.cls (cid (.seq .varBind))) := rfl
  have hself : getattr program h (.ref a) "__class__" = some (.cls (cid (.seq c))) := by
    simp only [getattr, ha]; rfl
  have hname : ∃ t, getattr program h (.cls (cid (.seq c))) "__name__" = some (.str t) := by
    cases c <;> exact ⟨_, rfl⟩
  obtain ⟨t, ht⟩ := hname
  rw [call_rfc1155_879]
  runs [rfc1155_879, ha, hc, ↓hx, ↓hself, ↓ht, ↓hy, ↓hs]
  exact ⟨_, rfl⟩

/-- rfc1155.py:873-875, when a value is not a VarBind. -/
theorem run_vblLoop_bad {lo : Nat} {h : Heap} {a : Nat} {c : SeqCls} {l : List V} (ha : a < h.length)
    (hc : c = .varBindList ∨ c = .varBindList2) {f : Nat → It}
    (hf : ∀ m i, next program cfg (f i) (vblHeap h a c m) = okR (l[i]?.map fun y => (y, f (i + 1))) (vblHeap h a c m))
    {vs : List Val} (pre rest : List V) (hr : ∀ m, RepAll lo (vblHeap h a c m) vs rest)
    (hv : vs.all (·.isInstance (.seq .varBind)) = false)
    (hl : l = pre ++ rest) (ct v it : Option V) :
    ∃ m args env, forL program cfg .rfc1155 [("self", some (.ref a)), ("componentType", ct), ("value", v), ("item", it)] "item"
      (f pre.length) rfc1155_873 (vblHeap h a c pre) = some (vblHeap h a c m, env, .exc (.exc "ValueError" args)) := by
  induction vs generalizing pre rest it with
  | nil => cases hv
  | cons w ws ih =>
    have hr0 := hr pre
    rw [RepAll] at hr0
    obtain ⟨y, ys, rfl, r1, r2⟩ := hr0
    have hy : l[pre.length]? = some y := by simp [hl]
    have hA := vblHeap_self (c := c) pre ha
    have hm := attr_append c hc
    have hno : (vblAttrs (h.length + 1)).lookup "append" = none := rfl
    cases hw : w.isInstance (.seq .varBind) with
    | false =>
      obtain ⟨args, hcall⟩ := run_vblAppend_bad (cfg := cfg) hA r1 hw
      rw [forL, hf, hy]
      runs [Option.map_some, rfc1155_873, hA, hm, hcall, hno]
      exact ⟨_, _, _, rfl⟩
    | true =>
      have hx := run_isInst r1 (.seq .varBind)
      rw [hw] at hx
      have hcall := run_vblAppend (cfg := cfg) hA rfl rfl (vblHeap_list pre) hx
      rw [vblHeap_set] at hcall
      obtain ⟨m, args, env, ih⟩ := ih (pre ++ [y]) ys (fun m => by
        have := hr m
        rw [RepAll] at this
        obtain ⟨y', ys', e, _, r⟩ := this
        cases e
        exact r) (by simpa [hw] using hv) (by simp [hl]) (some y)
      rw [List.length_append, List.length_singleton] at ih
      refine ⟨m, args, env, ?_⟩
      rw [forL, hf, hy]
      runs [Option.map_some, rfc1155_873, hA, hm, hcall, hno]
      exact ih

/-- `VarBindList.__init__(self, x)`, when a value is not a VarBind. -/
theorem run_vblInit_bad {lo : Nat} {h0 h : Heap} (hk : Kept h0.length h0 h) {a : Nat} {c : SeqCls} {x : V} {l : List V}
    (hi : Items h0 x l) (ha : h[a]? = some (.inst (cid (.seq c)) [])) (h9 : 9 ≤ a) (hn : h0.length ≤ a)
    (hc : c = .varBindList ∨ c = .varBindList2) {vs : List Val} (hr : RepAll lo h0 vs l) (hlo : 9 ≤ lo)
    (hv : vs.all (·.isInstance (.seq .varBind)) = false) :
    ∃ m args, call program cfg (.func .rfc1157 80) [.ref a, x] h = excR (.exc "ValueError" args) (vblHeap h a c m) := by
  have he := isExc_cid (.seq c)
  have hk1 := fun m => vblHeap_kept hk h9 hn c m
  obtain ⟨f, hf⟩ := hi.iter
  obtain ⟨m, args, env, hl⟩ := run_vblLoop_bad (cfg := cfg) (c := c) (lt_of_get ha) hc (fun m i => (hf _ (hk1 m)).2 cfg i)
    [] l (fun m => hr.kept (hk1 m) (Nat.le_refl _) hlo (Nat.le_refl _)) hv rfl (some (.cls (cid (.seq .varBind)))) (some x) none
  have ht := hi.truth _ (hk1 []) cfg
  have hit := (hf _ (hk1 [])).1
  have hinit := run_seqInit (cfg := cfg) ha he
  have hlt := lt_of_get ha
  have hcid : cid (.seq .varBind) = (.rfc1157, 58) := rfl
  have hemp : l.isEmpty = false := by
    cases l with
    | nil =>
      cases vs with
      | nil => cases hv
      | cons w ws => rw [RepAll] at hr; obtain ⟨_, _, e, _⟩ := hr; cases e
    | cons _ _ => rfl
  refine ⟨m, args, ?_⟩
  rw [call_rfc1157_80]
  simp only [vblHeap, vblAttrs, hcid] at ht hit hl ⊢
  rw [hemp] at ht
  rw [List.length_nil] at hl
  runs [rfc1157_80, call_rfc1155_864, rfc1155_864, he, hinit, get_set hlt, set_set_old hlt, ↓ht, ↓hit, hl]

/-- `VarBindList(x)`. -/
theorem run_newVBL_bad (hcf : Limits cfg) {lo : Nat} {h0 : Heap} {c : SeqCls} {x : V} {l : List V}
    (hi : Items h0 x l) (hc : c = .varBindList ∨ c = .varBindList2) {vs : List Val} (hr : RepAll lo h0 vs l) (hlo : 9 ≤ lo)
    (hv : vs.all (·.isInstance (.seq .varBind)) = false) (h : Heap) (hk : Kept h0.length h0 h) :
    ∃ args h', call program cfg (.cls (cid (.seq c))) [x] h = excR (.exc "ValueError" args) h' ∧ Kept h.length h h' := by
  have hb := hk.base.long
  have hk1 : Kept h0.length h0 (h ++ [.inst (cid (.seq c)) []]) := hk.app' _ hk.len
  obtain ⟨m, args, hr⟩ := run_vblInit_bad (cfg := cfg) hk1 (a := h.length) (c := c) hi (get_app _ _) hb hk.len hc hr hlo hv
  have hkk : Kept h.length h (vblHeap (h ++ [.inst (cid (.seq c)) []]) h.length c m) :=
    vblHeap_kept (Kept.app hk.base [.inst (cid (.seq c)) []]) hb (Nat.le_refl _) c m
  rcases hc with rfl | rfl
  · rw [call_cls, initOf]
    runs [hr]
    exact ⟨_, _, rfl, hkk⟩
  · by_cases hl : 2147483647 < l.length
    · obtain ⟨args, h1⟩ := run_newVBL2_long (cfg := cfg) hcf hi hl
      exact ⟨_, _, h1 h hk, Kept.app hk.base _⟩
    · have hln := hi.len _ hk1 cfg
      have hcmp : ¬ ((l.length : Int) > 2147483647) := by omega
      rw [call_cls, initOf, call_rfc1905_52]
      runs [rfc1905_52, ↓hln, hcmp, hr]
      exact ⟨_, _, rfl, hkk⟩

/-- `PDU.__init__` of rfc1157. -/
theorem run_pduInit_badVB (hc : Limits cfg) {lo : Nat} {h0 h : Heap} (hk : Kept h0.length h0 h) {a : Nat} {c : SeqCls} {x : V}
    {l : List V} (hi : Items h0 x l) (ha : h[a]? = some (.inst (cid (.seq c)) [])) (h9 : 9 ≤ a) (hn : h0.length ≤ a)
    {vs : List Val} (hr : RepAll lo h0 vs l) (hlo : 9 ≤ lo) (hv : vs.all (·.isInstance (.seq .varBind)) = false) (n1 : Int) :
    ∃ args h', call program cfg (.func .rfc1157 138) [.ref a, .int n1, .int 0, .int 0, x] h =
      excR (.exc "ValueError" args) h' ∧ Kept a h h' := by
  by_cases r1 : IntCls.integer.minVal ≤ n1 ∧ n1 ≤ IntCls.integer.maxVal
  swap
  · exact run_pduInit_bad hc hk.base ha h9 fun r => r1 r.1
  have he := isExc_cid (.seq c)
  have hlt := lt_of_get ha
  have hinit := run_seqInit (cfg := cfg) ha he
  have i1 := newInt_ok (cfg := cfg) hc (by decide) r1
  have i2 := newInt_ok (cfg := cfg) (c := .errorStatus) (n := 0) hc (by decide) (by decide)
  have i3 := newInt_ok (cfg := cfg) (c := .integer) (n := 0) hc (by decide) (by decide)
  have hk2 : Kept a h (h.set a (.inst (cid (.seq c)) [("value", .ref h.length), ("requestID", .ref (h.length + 1)),
        ("errorStatus", .ref (h.length + 2)), ("errorIndex", .ref (h.length + 3))]) ++ [.list [],
       .inst (cid (.int .integer)) [("value", .int n1)], .inst (cid (.int .errorStatus)) [("value", .int 0)],
       .inst (cid (.int .integer)) [("value", .int 0)]]) :=
    (Kept.set hk.base h9 (Nat.le_refl _) _).app' _ (by simp; omega)
  obtain ⟨args, h', hb, hk3⟩ := run_newVBL_bad (cfg := cfg) hc (c := .varBindList) hi (.inl rfl) hr hlo hv _ (hk.trans (hk2.mono hn))
  simp only [cids] at i1 i2 i3 hb
  rw [call_rfc1157_138]
  runs [rfc1157_138, he, hinit, get_set hlt, set_set_old hlt, i1, i2, i3, hb]
  exact ⟨_, _, rfl, hk2.trans (hk3.mono (by simp; omega))⟩

/-- `PDU.__init__` of rfc1905. -/
theorem run_pdu2Init_badVB (hc : Limits cfg) {lo : Nat} {h0 h : Heap} (hk : Kept h0.length h0 h) {a : Nat} {c : SeqCls} {x : V}
    {l : List V} (hi : Items h0 x l) (ha : h[a]? = some (.inst (cid (.seq c)) [])) (h9 : 9 ≤ a) (hn : h0.length ≤ a)
    {vs : List Val} (hr : RepAll lo h0 vs l) (hlo : 9 ≤ lo) (hv : vs.all (·.isInstance (.seq .varBind)) = false) (n1 : Int) :
    ∃ args h', call program cfg (.func .rfc1905 105) [.ref a, .int n1, .int 0, .int 0, x] h =
      excR (.exc "ValueError" args) h' ∧ Kept a h h' := by
  have he := isExc_cid (.seq c)
  have hlt := lt_of_get ha
  have hinit := run_pduInit0 (cfg := cfg) hc hk ha h9 hn
  have hkept : ∀ c t, Kept a h (h.set a c ++ t) := fun c t =>
    (Kept.set hk.base h9 (Nat.le_refl _) c).app' t (by simp; omega)
  have hs := max_short hc
  have hlen := hk.len
  have m3 : ¬ (0 : Int) > 2147483647 := by decide
  rw [call_rfc1905_105]
  by_cases r1 : IntCls.integer32.minVal ≤ n1 ∧ n1 ≤ IntCls.integer32.maxVal
  swap
  · obtain ⟨f, i1⟩ := newInt_bad (cfg := cfg) hc (by decide) r1
    simp only [cids] at i1
    runs [rfc1905_105, he, hinit, get_set hlt, set_set_old hlt, m3, i1]
    exact ⟨_, _, rfl, hkept _ _⟩
  have i1 := newInt_ok (cfg := cfg) hc (by decide) r1
  generalize hrest : pduRest h.length = P at hinit
  have hP : P.length = 8 := by rw [← hrest]; rfl
  have i2 := run_newStatus (cfg := cfg) hc (hkept (.inst (cid (.seq c)) (pduAttrs (h.length + 7) (h.length + P.length) (h.length + 2) (h.length + 3) (h.length + 4)))
    (P ++ [.inst (.rfc1902, 27) [("value", .int n1)]])).base 0
  rw [if_pos (by decide)] at i2
  obtain ⟨H, i2, hHl, hHk, -⟩ := i2
  simp only [cids] at i1 i2
  have hHa : H[a]? = some (.inst (cid (.seq c)) (pduAttrs (h.length + 7) (h.length + P.length) (h.length + 2) (h.length + 3) (h.length + 4))) :=
    hHk.get (get_set hlt _ _) h9 (by simp; omega)
  have hHL : H.length = h.length + 9 := by rw [hHl]; simp [hP]
  have hHt : a < H.length := by omega
  have hHkept : ∀ c t, Kept a h (H.set a c ++ t) := fun c t =>
    ((hkept _ _).trans ((hHk.mono (by simp; omega)).trans (Kept.set hHk.base h9 (Nat.le_refl _) c))).app' t (by simp; omega)
  simp only [pduAttrs] at hinit i2 hHa
  have i3 := newInt_ok (cfg := cfg) (c := .integer) (n := 0) hc (by decide) (by decide)
  obtain ⟨args, h', hb, hk3⟩ := run_newVBL_bad (cfg := cfg) hc (c := .varBindList2) hi (.inr rfl) hr hlo hv
    (H.set a (.inst (cid (.seq c)) (pduAttrs (h.length + 7) (h.length + P.length) H.length (H.length + 1) (h.length + 4))) ++
      [.inst (.rfc1905, 64) [("value", .int 0)], .inst (.rfc1155, 288) [("value", .int 0)]]) (hk.trans ((hHkept _ _).mono hn))
  have hkf := (hHkept (.inst (cid (.seq c)) (pduAttrs (h.length + 7) (h.length + P.length) H.length (H.length + 1) (h.length + 4)))
      [.inst (.rfc1905, 64) [("value", .int 0)], .inst (.rfc1155, 288) [("value", .int 0)]]).trans (hk3.mono (by simp; omega))
  simp only [cids, pduAttrs] at i3 hb
  runs [rfc1905_105, he, hinit, get_set hlt, set_set_old hlt, m3, i1, i2, get_app_old hHa, set_old hHt, get_set hHt, set_set_old hHt, i3, hb]
  exact ⟨_, _, rfl, hkf⟩

/-- `Get(requestID, varBindList=x)` and the like, for any values in `x`. -/
theorem run_request (hc : Limits cfg) {lo : Nat} {h : Heap} (hb : Base h) {c : SeqCls}
    (hp : (Cls.seq c).isSubclass (.seq .pdu) = true)
    {x : V} {l : List V} {vs : List Val} (hit : Items h x l) (hr : RepAll lo h vs l) (h9 : 9 ≤ lo) (hlo : lo ≤ h.length) (n : Int) :
    Makes lo h (call program cfg (.cls (cid (.seq c))) [.int n, .int 0, .int 0, x] h) (mkPDU c n 0 0 vs) := by
  cases hv : vs.all (·.isInstance (.seq .varBind)) with
  | true => exact run_newPDU hc hb (.inl hp) hit hr h9 hlo hv n 0 0
  | false =>
    have hk1 : Kept h.length h (h ++ [.inst (cid (.seq c)) []]) := Kept.app hb _
    have hl := hb.long
    have key : (initOf (.seq c) = (.rfc1157, 138) ∧ mkPDU c n 0 0 vs = mkPDU1 c n 0 0 vs) ∨
        (initOf (.seq c) = (.rfc1905, 105) ∧ mkPDU c n 0 0 vs = mkPDU2 c n 0 0 vs) := by
      cases c <;> first
        | exact .inl ⟨rfl, rfl⟩
        | exact .inr ⟨rfl, rfl⟩
        | exact absurd hp (by decide)
    have hmk : ∀ c, mkVarBindList c vs = .error .valueError := by
      intro c
      rw [mkVarBindList, hv]
      split <;> rfl
    rcases key with ⟨h1, h2⟩ | ⟨h1, h2⟩
    · have hm : mkPDU1 c n 0 0 vs = .error .valueError := by
        have e2 : mkInteger .errorStatus 0 = .ok (.integer .errorStatus 0) := by rfl
        have e3 : mkInteger .integer 0 = .ok (.integer .integer 0) := by rfl
        by_cases r1 : IntCls.integer.minVal ≤ n ∧ n ≤ IntCls.integer.maxVal
        · simp only [mkPDU1, hmk, e2, e3]; simp only [mkInteger, if_pos r1]; rfl
        · simp only [mkPDU1, mkInteger, if_neg r1]; rfl
      obtain ⟨args, h', hrun, hkk⟩ := run_pduInit_badVB (cfg := cfg) hc hk1 (c := c) hit (get_app _ _) hl (Nat.le_refl _) hr h9 hv n
      rw [h2, hm, Makes, call_cls, h1, hrun]
      exact ⟨_, _, rfl, hk1.trans hkk, rfl⟩
    · have hm : mkPDU2 c n 0 0 vs = .error .valueError := by
        have e2 : mkInteger .errorStatus2 0 = .ok (.integer .errorStatus2 0) := by rfl
        have e3 : mkInteger .integer 0 = .ok (.integer .integer 0) := by rfl
        have m3 : ¬ (0 : Int) > 2147483647 := by decide
        by_cases r1 : IntCls.integer32.minVal ≤ n ∧ n ≤ IntCls.integer32.maxVal
        · simp only [mkPDU2, hmk, e2, e3, if_neg m3]; simp only [mkInteger, if_pos r1]; rfl
        · simp only [mkPDU2, mkInteger, if_neg r1, if_neg m3]; rfl
      obtain ⟨args, h', hrun, hkk⟩ := run_pdu2Init_badVB (cfg := cfg) hc hk1 (c := c) hit (get_app _ _) hl (Nat.le_refl _) hr h9 hv n
      rw [h2, hm, Makes, call_cls, h1, hrun]
      exact ⟨_, _, rfl, hk1.trans hkk, rfl⟩

end Libsnmp.Src
