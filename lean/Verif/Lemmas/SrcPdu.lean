import Verif.Lemmas.SrcSeq

/-!
# Running the constructors of PDUs
-/

namespace Libsnmp.Src
open Libsnmp

variable {cfg : Cfg}

/-- Making an integer that is in range. -/
theorem newInt_ok (hc : Limits cfg) {c : IntCls} (hne : c ≠ .errorStatus2) {n : Int} (hr : c.minVal ≤ n ∧ n ≤ c.maxVal) (h : Heap) :
    call program cfg (.cls (cid (.int c))) [.int n] h = okR (.ref h.length) (h ++ [.inst (cid (.int c)) [("value", .int n)]]) := by
  have := run_newInt (cfg := cfg) hc hne n h
  rwa [if_pos hr] at this

/-- Making one that is not. -/
theorem newInt_bad (hc : Limits cfg) {c : IntCls} (hne : c ≠ .errorStatus2) {n : Int} (hr : ¬ (c.minVal ≤ n ∧ n ≤ c.maxVal)) :
    ∃ f : Heap → List V, ∀ h, call program cfg (.cls (cid (.int c))) [.int n] h =
      excR (.exc "ValueError" (f h)) (h ++ [.inst (cid (.int c)) []]) := by
  have : ∀ h, ∃ args, call program cfg (.cls (cid (.int c))) [.int n] h =
      excR (.exc "ValueError" args) (h ++ [.inst (cid (.int c)) []]) := fun h => by
    have := run_newInt (cfg := cfg) hc hne n h
    rwa [if_neg hr] at this
  exact ⟨fun h => (this h).choose, fun h => (this h).choose_spec⟩

/-- `PDU.__init__` of rfc1157 with good arguments. -/
theorem run_pduInit (hc : Limits cfg) {h0 h : Heap} (hk : Kept h0.length h0 h) {a : Nat} {c : SeqCls} {x : V} {l : List V}
    (hi : Items h0 x l) (ha : h[a]? = some (.inst (cid (.seq c)) [])) (h9 : 9 ≤ a) (hn : h0.length ≤ a)
    (hx : ∀ h', Kept h0.length h0 h' → ∀ y ∈ l, isInst program h' y (.cls (cid (.seq .varBind))) = some true)
    {n1 n2 n3 : Int} (r1 : IntCls.integer.minVal ≤ n1 ∧ n1 ≤ IntCls.integer.maxVal)
    (r2 : IntCls.errorStatus.minVal ≤ n2 ∧ n2 ≤ IntCls.errorStatus.maxVal)
    (r3 : IntCls.integer.minVal ≤ n3 ∧ n3 ≤ IntCls.integer.maxVal) :
    call program cfg (.func .rfc1157 138) [.ref a, .int n1, .int n2, .int n3, x] h = okR .none
      (h.set a (.inst (cid (.seq c)) [("value", .ref (h.length + 7)), ("requestID", .ref (h.length + 1)),
        ("errorStatus", .ref (h.length + 2)), ("errorIndex", .ref (h.length + 3)), ("varBindList", .ref (h.length + 4))]) ++
      [.list [], .inst (cid (.int .integer)) [("value", .int n1)], .inst (cid (.int .errorStatus)) [("value", .int n2)],
       .inst (cid (.int .integer)) [("value", .int n3)],
       .inst (cid (.seq .varBindList)) (vblAttrs (h.length + 6)), .list [], .list l,
       .list [.ref (h.length + 1), .ref (h.length + 2), .ref (h.length + 3), .ref (h.length + 4)]]) := by
  have he := isExc_cid (.seq c)
  have hlt := lt_of_get ha
  have hinit := run_seqInit (cfg := cfg) ha he
  have i1 := newInt_ok (cfg := cfg) hc (by decide) r1
  have i2 := newInt_ok (cfg := cfg) hc (by decide) r2
  have i3 := newInt_ok (cfg := cfg) hc (by decide) r3
  have hv := run_newVBL (cfg := cfg) (((hk.set' h9 hn (.inst (cid (.seq c)) [("value", .ref h.length), ("requestID", .ref (h.length + 1)),
        ("errorStatus", .ref (h.length + 2)), ("errorIndex", .ref (h.length + 3))])).app' [.list [], .inst (cid (.int .integer)) [("value", .int n1)], .inst (cid (.int .errorStatus)) [("value", .int n2)],
       .inst (cid (.int .integer)) [("value", .int n3)]] (by have := hk.len; simp; omega))) hi hx
  simp only [cids] at i1 i2 i3 hv ⊢
  rw [call_rfc1157_138]
  runs [rfc1157_138, he, hinit, get_set hlt, set_set_old hlt, i1, i2, i3, hv]

/-- `PDU.__init__` of rfc1157 with a number out of range. -/
theorem run_pduInit_bad (hc : Limits cfg) {h : Heap} (hb : Base h) {a : Nat} {c : SeqCls} {x : V}
    (ha : h[a]? = some (.inst (cid (.seq c)) [])) (h9 : 9 ≤ a) {n1 n2 n3 : Int}
    (r : ¬ ((IntCls.integer.minVal ≤ n1 ∧ n1 ≤ IntCls.integer.maxVal) ∧
      (IntCls.errorStatus.minVal ≤ n2 ∧ n2 ≤ IntCls.errorStatus.maxVal) ∧
      (IntCls.integer.minVal ≤ n3 ∧ n3 ≤ IntCls.integer.maxVal))) :
    ∃ args h', call program cfg (.func .rfc1157 138) [.ref a, .int n1, .int n2, .int n3, x] h =
      excR (.exc "ValueError" args) h' ∧ Kept a h h' := by
  have he := isExc_cid (.seq c)
  have hlt := lt_of_get ha
  have hinit := run_seqInit (cfg := cfg) ha he
  have hkept : ∀ c t, Kept a h (h.set a c ++ t) := fun c t =>
    (Kept.set hb h9 (Nat.le_refl _) c).app' t (by simp; omega)
  rw [call_rfc1157_138]
  by_cases r1 : IntCls.integer.minVal ≤ n1 ∧ n1 ≤ IntCls.integer.maxVal
  · have i1 := newInt_ok (cfg := cfg) hc (by decide) r1
    by_cases r2 : IntCls.errorStatus.minVal ≤ n2 ∧ n2 ≤ IntCls.errorStatus.maxVal
    · have i2 := newInt_ok (cfg := cfg) hc (by decide) r2
      have r3 : ¬ (IntCls.integer.minVal ≤ n3 ∧ n3 ≤ IntCls.integer.maxVal) := fun r3 => r ⟨r1, r2, r3⟩
      obtain ⟨f, i3⟩ := newInt_bad (cfg := cfg) hc (by decide) r3
      simp only [cids] at i1 i2 i3
      runs [rfc1157_138, he, hinit, get_set hlt, set_set_old hlt, i1, i2, i3]
      exact ⟨_, _, rfl, hkept _ _⟩
    · obtain ⟨f, i2⟩ := newInt_bad (cfg := cfg) hc (by decide) r2
      simp only [cids] at i1 i2
      runs [rfc1157_138, he, hinit, get_set hlt, set_set_old hlt, i1, i2]
      exact ⟨_, _, rfl, hkept _ _⟩
  · obtain ⟨f, i1⟩ := newInt_bad (cfg := cfg) hc (by decide) r1
    simp only [cids] at i1
    runs [rfc1157_138, he, hinit, get_set hlt, set_set_old hlt, i1]
    exact ⟨_, _, rfl, hkept _ _⟩

@[src] theorem set_set_add (h : Heap) (a : Nat) (c d : Cell) (t : Heap) (k : Nat) :
    (h.set a d ++ t).set (h.length + k) c = h.set a d ++ t.set k c := by
  have := set_app_add (h.set a d) t k c
  rwa [List.length_set] at this

/-- `TrapPDU.__init__`. -/
theorem run_trapInit {h : Heap} {a : Nat} {c : SeqCls} (ha : h[a]? = some (.inst (cid (.seq c)) [])) (x1 x2 x3 x4 x5 x6 : V) :
    call program cfg (.func .rfc1157 233) [.ref a, x1, x2, x3, x4, x5, x6] h = okR .none
      (h.set a (.inst (cid (.seq c)) [("value", .ref (h.length + 1)), ("enterprise", x1), ("agentAddr", x2), ("genericTrap", x3),
        ("specificTrap", x4), ("timestamp", x5), ("varBindList", x6)]) ++ [.list [], .list [x1, x2, x3, x4, x5, x6]]) := by
  have he := isExc_cid (.seq c)
  have hlt := lt_of_get ha
  have hinit := run_seqInit (cfg := cfg) ha he
  rw [call_rfc1157_233]
  runs [rfc1157_233, he, hinit, get_set hlt, set_set_old hlt]

/-- The heap with other texts in the dictionaries. -/
def texts (h : Heap) (d1 d2 : List (V × V)) : Heap := (h.set 1 (.dict d1)).set 2 (.dict d2)

theorem texts_id {h : Heap} {d1 d2 : List (V × V)} (h1 : h[1]? = some (.dict d1)) (h2 : h[2]? = some (.dict d2)) :
    texts h d1 d2 = h := by
  have hs : ∀ {k c}, h[k]? = some c → h.set k c = h := fun {k c} hk => by
    obtain ⟨hlt, he⟩ := List.getElem?_eq_some_iff.1 hk
    rw [← he, List.set_getElem_self]
  rw [texts, hs h1, hs h2]

theorem texts_kept {h : Heap} (hb : Base h) (d1 d2 : List (V × V)) (hd : .dict d1 = dictOfTable (extendErrString errString1)) :
    Kept h.length h (texts h d1 d2) := by
  have hl := hb.long
  have hs : ∀ b, b ≠ 1 → b ≠ 2 → (texts h d1 d2)[b]? = h[b]? := fun b n1 n2 => by
    rw [texts, List.getElem?_set_ne (Ne.symm n2), List.getElem?_set_ne (Ne.symm n1)]
  have h1 : (texts h d1 d2)[1]? = some (dictOfTable (extendErrString errString1)) := by
    rw [texts, List.getElem?_set_ne (by decide), List.getElem?_set_self (by omega), hd]
  refine ⟨⟨.inr h1, ⟨d2, ?_⟩, ?_, ?_, ?_, ?_, ?_, ?_⟩, by simp [texts], fun b h9 _ => hs b (by omega) (by omega), .inr h1⟩
  · rw [texts, List.getElem?_set_self (by rw [List.length_set]; omega)]
  · rw [hs _ (by decide) (by decide)]; exact hb.traps
  · rw [hs _ (by decide) (by decide)]; exact hb.list3
  · rw [hs _ (by decide) (by decide)]; exact hb.list4
  · rw [hs _ (by decide) (by decide)]; exact hb.list6
  · rw [hs _ (by decide) (by decide)]; exact hb.list7
  · rw [hs _ (by decide) (by decide)]; exact hb.list8

theorem texts_set (h : Heap) (d1 d2 e : List (V × V)) : (texts h d1 d2).set 1 (.dict e) = texts h e d2 := by
  rw [texts, texts, List.set_comm _ _ (by decide), List.set_set]

theorem texts_set' (h : Heap) (d1 d2 e : List (V × V)) : (texts h d1 d2).set 2 (.dict e) = texts h d1 e := by
  rw [texts, texts, List.set_set]

theorem texts_app {h : Heap} (hb : Base h) (d1 d2 : List (V × V)) (t : Heap) : texts (h ++ t) d1 d2 = texts h d1 d2 ++ t := by
  have := hb.long
  rw [texts, List.set_append_left _ _ (by omega), List.set_append_left _ _ (by rw [List.length_set]; omega), texts]

/-- `rfc1905.ErrorStatus(n)`: the constructor also writes into the dictionaries of texts. -/
theorem run_newStatus (hc : Limits cfg) {h : Heap} (hb : Base h) (n : Int) :
    if IntCls.errorStatus2.minVal ≤ n ∧ n ≤ IntCls.errorStatus2.maxVal then
      ∃ h', call program cfg (.cls (cid (.int .errorStatus2))) [.int n] h =
        okR (.ref h'.length) (h' ++ [.inst (cid (.int .errorStatus2)) [("value", .int n)]]) ∧ h'.length = h.length ∧
        Kept h.length h h' ∧ h'[1]? = some (dictOfTable (extendErrString errString1))
    else ∃ args h', call program cfg (.cls (cid (.int .errorStatus2))) [.int n] h = excR (.exc "ValueError" args) h' ∧
      Kept h.length h h' ∧ h'[1]? = h[1]? := by
  have hi := run_intInit (cfg := cfg) hc (get_app h [.inst (cid (.int .errorStatus2)) []]) n
  have he := isExc_cid (.int .errorStatus2)
  rw [call_cls, initOf, call_rfc1905_68]
  split
  · rename_i hr
    rw [if_pos hr] at hi
    have hl := hb.long
    obtain ⟨d1, h1, hd1⟩ : ∃ d1, h[1]? = some (.dict d1) ∧ (.dict d1 = dictOfTable errString1 ∨
        .dict d1 = dictOfTable (extendErrString errString1)) := by
      rcases hb.strings with h1 | h1
      · exact ⟨_, h1, .inl rfl⟩
      · exact ⟨_, h1, .inr rfl⟩
    obtain ⟨d2, h2⟩ := hb.numbers
    have hcid : cid (.int .errorStatus2) = (.rfc1905, 64) := rfl
    rw [set_app, List.set_cons_zero] at hi
    have hin : h ++ [.inst (cid (.int .errorStatus2)) [("value", .int n)]] = texts (h ++ [.inst (cid (.int .errorStatus2)) [("value", .int n)]]) d1 d2 :=
      (texts_id (get_app_old h1 _) (get_app_old h2 _)).symm
    rw [hin] at hi
    have hA : ∀ e1 e2, (texts (h ++ [.inst (cid (.int .errorStatus2)) [("value", .int n)]]) e1 e2)[h.length]? =
        some (.inst (.rfc1905, 64) [("value", .int n)]) := fun e1 e2 => by
      rw [texts_app hb, ← hcid, List.getElem?_append_right (by simp [texts])]
      simp [texts]
    have h1' : ∀ e1 e2, (texts (h ++ [.inst (cid (.int .errorStatus2)) [("value", .int n)]]) e1 e2)[1]? = some (.dict e1) := fun e1 e2 => by
      rw [texts, List.getElem?_set_ne (by decide), List.getElem?_set_self (by simp; omega)]
    have h2' : ∀ e1 e2, (texts (h ++ [.inst (cid (.int .errorStatus2)) [("value", .int n)]]) e1 e2)[2]? = some (.dict e2) := fun e1 e2 => by
      rw [texts, List.getElem?_set_self (by simp; omega)]
    have hs1 := texts_set (h ++ [.inst (cid (.int .errorStatus2)) [("value", .int n)]])
    have hs2 := texts_set' (h ++ [.inst (cid (.int .errorStatus2)) [("value", .int n)]])
    have ha1 : program.attr (.rfc1905, 64) "errString" = some (.ref 1) := rfl
    have ha2 : program.attr (.rfc1905, 64) "errNum" = some (.ref 2) := rfl
    have hend : ∀ e1 e2, .dict e1 = dictOfTable (extendErrString errString1) → ∃ h', okR (V.ref h.length) (texts (h ++ [.inst (cid (.int .errorStatus2)) [("value", .int n)]]) e1 e2) =
        okR (V.ref h'.length) (h' ++ [.inst (cid (.int .errorStatus2)) [("value", .int n)]]) ∧ h'.length = h.length ∧
        Kept h.length h h' ∧ h'[1]? = some (dictOfTable (extendErrString errString1)) := fun e1 e2 hd =>
      ⟨texts h e1 e2, by rw [texts_app hb]; simp [texts], by simp [texts], texts_kept hb _ _ hd, by
        rw [texts, List.getElem?_set_ne (by decide), List.getElem?_set_self (by omega), hd]⟩
    generalize htx : texts (h ++ [.inst (cid (.int .errorStatus2)) [("value", .int n)]]) = T at *
    runs [rfc1905_68, hi, he, hA, h1', h2', hs1, hs2, ha1, ha2]
    refine hend _ _ ?_
    rcases hd1 with hd1 | hd1 <;> (injection hd1 with hd1; subst hd1; rfl)
  · rename_i hr
    rw [if_neg hr] at hi
    obtain ⟨args, hi⟩ := hi
    runs [rfc1905_68, hi]
    exact ⟨_, _, rfl, Kept.app hb _, List.getElem?_append_left (by have := hb.long; omega)⟩

/-! ## Calling the classes -/

/-- All the elements are VarBinds. -/
theorem all_varBind {lo : Nat} {h : Heap} {vs : List Val} {l : List V} (r : RepAll lo h vs l)
    (hv : vs.all (·.isInstance (.seq .varBind)) = true) : ∀ y ∈ l, isInst program h y (.cls (cid (.seq .varBind))) = some true := by
  induction vs generalizing l with
  | nil => rw [RepAll] at r; subst r; simp
  | cons v vs ih =>
    rw [RepAll] at r
    obtain ⟨x, xs, rfl, r1, r2⟩ := r
    rw [List.all_cons, Bool.and_eq_true] at hv
    intro y hy
    rcases List.mem_cons.1 hy with rfl | hy
    · rw [run_isInst r1, hv.1]
    · exact ih r2 hv.2 y hy

theorem all_varBind' {lo : Nat} {h : Heap} {vs : List Val} {l : List V} (r : RepAll lo h vs l) (h9 : 9 ≤ lo)
    (hv : vs.all (·.isInstance (.seq .varBind)) = true) (h' : Heap) (hk : Kept h.length h h') :
    ∀ y ∈ l, isInst program h' y (.cls (cid (.seq .varBind))) = some true :=
  all_varBind (r.kept hk (Nat.le_refl _) h9 (Nat.le_refl _)) hv

theorem plain (attrs : List (String × V)) (h : attrs.map (·.1) ⊆ dataNames := by simp only [List.map]; decide) : Plain attrs :=
  fun _ hp => h (List.mem_map_of_mem hp)

/-- A PDU with three numbers and a list of bindings. -/
theorem rep_pdu {lo a : Nat} {h : Heap} {c cl : SeqCls} {c1 c2 c3 : IntCls} {n1 n2 n3 : Int} {vs : List Val} {l : List V}
    {attrs : List (String × V)} {b a1 a2 a3 a4 b4 : Nat} (ha : h[a]? = some (.inst (cid (.seq c)) attrs)) (hp : Plain attrs)
    (hv : attrs.lookup "value" = some (.ref b)) (hb : h[b]? = some (.list [.ref a1, .ref a2, .ref a3, .ref a4]))
    (hf : Fields c attrs [.ref a1, .ref a2, .ref a3, .ref a4])
    (h1 : h[a1]? = some (.inst (cid (.int c1)) [("value", .int n1)])) (h2 : h[a2]? = some (.inst (cid (.int c2)) [("value", .int n2)]))
    (h3 : h[a3]? = some (.inst (cid (.int c3)) [("value", .int n3)])) (h4 : h[a4]? = some (.inst (cid (.seq cl)) (vblAttrs b4)))
    (hcl : fieldNames cl = []) (h5 : h[b4]? = some (.list l)) (hr : RepAll lo h vs l) (l0 : lo ≤ a) (lb : lo ≤ b) (l1 : lo ≤ a1)
    (l2 : lo ≤ a2) (l3 : lo ≤ a3) (l4 : lo ≤ a4) (l5 : lo ≤ b4) :
    Rep lo h (.seq c [.integer c1 n1, .integer c2 n2, .integer c3 n3, .seq cl vs]) (.ref a) := by
  rw [Rep]
  refine ⟨a, attrs, b, _, rfl, l0, ha, hp, hv, lb, hb, hf, ?_⟩
  rw [RepAll]; refine ⟨_, _, rfl, ?_, ?_⟩
  · rw [Rep]; exact ⟨a1, _, rfl, l1, h1, plain [_], rfl⟩
  rw [RepAll]; refine ⟨_, _, rfl, ?_, ?_⟩
  · rw [Rep]; exact ⟨a2, _, rfl, l2, h2, plain [_], rfl⟩
  rw [RepAll]; refine ⟨_, _, rfl, ?_, ?_⟩
  · rw [Rep]; exact ⟨a3, _, rfl, l3, h3, plain [_], rfl⟩
  rw [RepAll]; refine ⟨_, _, rfl, ?_, ?_⟩
  · rw [Rep]; exact ⟨a4, _, b4, l, rfl, l4, h4, plain [_, _], rfl, l5, h5, by rw [Fields, hcl]; rfl, hr⟩
  · rw [RepAll]

theorem run_newPDU1 (hc : Limits cfg) {lo : Nat} {h : Heap} (hb : Base h) {c : SeqCls} (hi : initOf (.seq c) = (.rfc1157, 138))
    (hfn : fieldNames c = ["requestID", "errorStatus", "errorIndex", "varBindList"])
    {x : V} {l : List V} {vs : List Val} (hit : Items h x l) (hr : RepAll lo h vs l) (h9 : 9 ≤ lo) (hlo : lo ≤ h.length)
    (hv : vs.all (·.isInstance (.seq .varBind)) = true) (n1 n2 n3 : Int) :
    Makes lo h (call program cfg (.cls (cid (.seq c))) [.int n1, .int n2, .int n3, x] h) (mkPDU1 c n1 n2 n3 vs) := by
  have hk1 : Kept h.length h (h ++ [.inst (cid (.seq c)) []]) := Kept.app hb _
  have hl := hb.long
  have hmk : mkVarBindList .varBindList vs = .ok (.seq .varBindList vs) := by
    rw [mkVarBindList, hv]; rfl
  rw [call_cls, hi]
  by_cases r : ((IntCls.integer.minVal ≤ n1 ∧ n1 ≤ IntCls.integer.maxVal) ∧
      (IntCls.errorStatus.minVal ≤ n2 ∧ n2 ≤ IntCls.errorStatus.maxVal) ∧
      (IntCls.integer.minVal ≤ n3 ∧ n3 ≤ IntCls.integer.maxVal))
  · obtain ⟨r1, r2, r3⟩ := r
    have hrun := run_pduInit (cfg := cfg) hc hk1 (c := c) hit (get_app _ _) hl (Nat.le_refl _) (all_varBind' hr h9 hv) r1 r2 r3
    have hm : mkPDU1 c n1 n2 n3 vs = .ok (.seq c [.integer .integer n1, .integer .errorStatus n2, .integer .integer n3, .seq .varBindList vs]) := by
      simp only [mkPDU1, mkInteger, if_pos r1, if_pos r2, if_pos r3, hmk]; rfl
    rw [hm, Makes]
    simp only [src] at hrun
    rw [hrun]
    have hk2 := Kept.app hb [.inst (cid (.seq c)) [("value", .ref (h.length + 1 + 7)), ("requestID", .ref (h.length + 1 + 1)), ("errorStatus", .ref (h.length + 1 + 2)), ("errorIndex", .ref (h.length + 1 + 3)), ("varBindList", .ref (h.length + 1 + 4))], .list [], .inst (cid (.int .integer)) [("value", .int n1)], .inst (cid (.int .errorStatus)) [("value", .int n2)],
       .inst (cid (.int .integer)) [("value", .int n3)],
       .inst (cid (.seq .varBindList)) (vblAttrs (h.length + 1 + 6)), .list [], .list l,
       .list [.ref (h.length + 1 + 1), .ref (h.length + 1 + 2), .ref (h.length + 1 + 3), .ref (h.length + 1 + 4)]]
    refine ⟨_, rfl, hk2, ?_⟩
    refine rep_pdu (attrs := _) (a1 := h.length + 1 + 1) (a2 := h.length + 1 + 2) (a3 := h.length + 1 + 3) (a4 := h.length + 1 + 4)
      (b := h.length + 1 + 7) (b4 := h.length + 1 + 6) (l := l) (get_app _ _) (plain [_, _, _, _, _]) rfl ?_ ?_ ?_ ?_ ?_ ?_ rfl ?_
      (hr.kept hk2 (Nat.le_refl _) h9 (Nat.le_refl _))
      (by omega) (by omega) (by omega) (by omega) (by omega) (by omega) (by omega)
    · simp only [Nat.add_assoc, get_app_add]; rfl
    · rw [Fields, hfn]; rfl
    all_goals simp only [Nat.add_assoc, get_app_add]; rfl
  · obtain ⟨args, h', hrun, hkk⟩ := run_pduInit_bad (cfg := cfg) hc hk1.base (c := c) (x := x) (get_app _ _) hl r
    have hm : mkPDU1 c n1 n2 n3 vs = .error .valueError := by
      by_cases r1 : IntCls.integer.minVal ≤ n1 ∧ n1 ≤ IntCls.integer.maxVal
      · by_cases r2 : IntCls.errorStatus.minVal ≤ n2 ∧ n2 ≤ IntCls.errorStatus.maxVal
        · have r3 : ¬ (IntCls.integer.minVal ≤ n3 ∧ n3 ≤ IntCls.integer.maxVal) := fun r3 => r ⟨r1, r2, r3⟩
          simp only [mkPDU1, mkInteger, if_pos r1, if_pos r2, if_neg r3]; rfl
        · simp only [mkPDU1, mkInteger, if_pos r1, if_neg r2]; rfl
      · simp only [mkPDU1, mkInteger, if_neg r1]; rfl
    rw [hm, Makes, hrun]
    exact ⟨_, _, rfl, hk1.trans hkk, rfl⟩

/-! ## SNMPv2 -/

theorem max_short (hc : Limits cfg) : tooLong cfg.digits 2147483647 = false := hc.short (by
  exact Nat.lt_of_lt_of_le (m := 10 ^ 20) (by decide) (Nat.pow_le_pow_right (by decide) (by decide)))

/-- `BulkPDU.__init__` with good arguments. -/
theorem run_bulkInit (hc : Limits cfg) {h0 h : Heap} (hk : Kept h0.length h0 h) {a : Nat} {c : SeqCls} {x : V} {l : List V}
    (hi : Items h0 x l) (ha : h[a]? = some (.inst (cid (.seq c)) [])) (h9 : 9 ≤ a) (hn : h0.length ≤ a)
    (hx : ∀ h', Kept h0.length h0 h' → ∀ y ∈ l, isInst program h' y (.cls (cid (.seq .varBind))) = some true)
    {n1 n2 n3 : Int} (m2 : ¬ n2 > 2147483647) (m3 : ¬ n3 > 2147483647)
    (r1 : IntCls.integer32.minVal ≤ n1 ∧ n1 ≤ IntCls.integer32.maxVal)
    (r2 : IntCls.integer.minVal ≤ n2 ∧ n2 ≤ IntCls.integer.maxVal)
    (r3 : IntCls.integer.minVal ≤ n3 ∧ n3 ≤ IntCls.integer.maxVal) (hl : l.length ≤ 2147483647) :
    call program cfg (.func .rfc1905 144) [.ref a, .int n1, .int n2, .int n3, x] h = okR .none
      (h.set a (.inst (cid (.seq c)) [("value", .ref (h.length + 7)), ("requestID", .ref (h.length + 1)),
        ("nonRepeaters", .ref (h.length + 2)), ("maxRepetitions", .ref (h.length + 3)), ("varBindList", .ref (h.length + 4))]) ++
      [.list [], .inst (cid (.int .integer32)) [("value", .int n1)], .inst (cid (.int .integer)) [("value", .int n2)],
       .inst (cid (.int .integer)) [("value", .int n3)],
       .inst (cid (.seq .varBindList2)) (vblAttrs (h.length + 6)), .list [], .list l,
       .list [.ref (h.length + 1), .ref (h.length + 2), .ref (h.length + 3), .ref (h.length + 4)]]) := by
  have he := isExc_cid (.seq c)
  have hlt := lt_of_get ha
  have hinit := run_seqInit (cfg := cfg) ha he
  have i1 := newInt_ok (cfg := cfg) hc (by decide) r1
  have i2 := newInt_ok (cfg := cfg) hc (by decide) r2
  have i3 := newInt_ok (cfg := cfg) hc (by decide) r3
  have hv := run_newVBL2 (cfg := cfg) (((hk.set' h9 hn (.inst (cid (.seq c)) [("value", .ref h.length), ("requestID", .ref (h.length + 1)),
        ("nonRepeaters", .ref (h.length + 2)), ("maxRepetitions", .ref (h.length + 3))])).app' [.list [], .inst (cid (.int .integer32)) [("value", .int n1)], .inst (cid (.int .integer)) [("value", .int n2)],
       .inst (cid (.int .integer)) [("value", .int n3)]] (by have := hk.len; simp; omega))) hi hx hl
  simp only [cids] at i1 i2 i3 hv ⊢
  rw [call_rfc1905_144]
  runs [rfc1905_144, he, hinit, get_set hlt, set_set_old hlt, m2, m3, i1, i2, i3, hv]

/-- `BulkPDU.__init__` with bad ones. -/
theorem run_bulkInit_bad (hc : Limits cfg) {h0 h : Heap} (hk : Kept h0.length h0 h) {a : Nat} {c : SeqCls} {x : V} {l : List V}
    (hi : Items h0 x l) (ha : h[a]? = some (.inst (cid (.seq c)) [])) (h9 : 9 ≤ a) (hn : h0.length ≤ a) {n1 n2 n3 : Int}
    (r : ¬ (¬ n2 > 2147483647 ∧ ¬ n3 > 2147483647 ∧ (IntCls.integer32.minVal ≤ n1 ∧ n1 ≤ IntCls.integer32.maxVal) ∧
      (IntCls.integer.minVal ≤ n2 ∧ n2 ≤ IntCls.integer.maxVal) ∧ (IntCls.integer.minVal ≤ n3 ∧ n3 ≤ IntCls.integer.maxVal) ∧
      l.length ≤ 2147483647)) :
    ∃ args h', call program cfg (.func .rfc1905 144) [.ref a, .int n1, .int n2, .int n3, x] h =
      excR (.exc "ValueError" args) h' ∧ Kept a h h' := by
  have he := isExc_cid (.seq c)
  have hlt := lt_of_get ha
  have hinit := run_seqInit (cfg := cfg) ha he
  have hkept : ∀ c t, Kept a h (h.set a c ++ t) := fun c t =>
    (Kept.set hk.base h9 (Nat.le_refl _) c).app' t (by simp; omega)
  have hkept0 : ∀ c t, Kept h0.length h0 (h.set a c ++ t) := fun c t => hk.trans ((hkept c t).mono hn)
  have hs := max_short hc
  rw [call_rfc1905_144]
  by_cases m2 : n2 > 2147483647
  · runs [rfc1905_144, he, hinit, get_set hlt, set_set_old hlt, m2, hs]
    exact ⟨_, _, rfl, hkept _ _⟩
  by_cases m3 : n3 > 2147483647
  · runs [rfc1905_144, he, hinit, get_set hlt, set_set_old hlt, m2, m3, hs]
    exact ⟨_, _, rfl, hkept _ _⟩
  by_cases r1 : IntCls.integer32.minVal ≤ n1 ∧ n1 ≤ IntCls.integer32.maxVal
  swap
  · obtain ⟨f, i1⟩ := newInt_bad (cfg := cfg) hc (by decide) r1
    simp only [cids] at i1
    runs [rfc1905_144, he, hinit, get_set hlt, set_set_old hlt, m2, m3, i1]
    exact ⟨_, _, rfl, hkept _ _⟩
  have i1 := newInt_ok (cfg := cfg) hc (by decide) r1
  by_cases r2 : IntCls.integer.minVal ≤ n2 ∧ n2 ≤ IntCls.integer.maxVal
  swap
  · obtain ⟨f, i2⟩ := newInt_bad (cfg := cfg) hc (by decide) r2
    simp only [cids] at i1 i2
    runs [rfc1905_144, he, hinit, get_set hlt, set_set_old hlt, m2, m3, i1, i2]
    exact ⟨_, _, rfl, hkept _ _⟩
  have i2 := newInt_ok (cfg := cfg) hc (by decide) r2
  by_cases r3 : IntCls.integer.minVal ≤ n3 ∧ n3 ≤ IntCls.integer.maxVal
  swap
  · obtain ⟨f, i3⟩ := newInt_bad (cfg := cfg) hc (by decide) r3
    simp only [cids] at i1 i2 i3
    runs [rfc1905_144, he, hinit, get_set hlt, set_set_old hlt, m2, m3, i1, i2, i3]
    exact ⟨_, _, rfl, hkept _ _⟩
  have i3 := newInt_ok (cfg := cfg) hc (by decide) r3
  have hl : 2147483647 < l.length := by
    rcases Nat.lt_or_ge 2147483647 l.length with hl | hl
    · exact hl
    · exact absurd ⟨m2, m3, r1, r2, r3, hl⟩ r
  obtain ⟨args, hv⟩ := run_newVBL2_long (cfg := cfg) hc hi hl
  have hv' := hv _ (hkept0 (.inst (cid (.seq c)) [("value", .ref h.length), ("requestID", .ref (h.length + 1)),
        ("nonRepeaters", .ref (h.length + 2)), ("maxRepetitions", .ref (h.length + 3))]) [.list [], .inst (cid (.int .integer32)) [("value", .int n1)], .inst (cid (.int .integer)) [("value", .int n2)],
       .inst (cid (.int .integer)) [("value", .int n3)]])
  simp only [cids] at i1 i2 i3 hv'
  runs [rfc1905_144, he, hinit, get_set hlt, set_set_old hlt, m2, m3, i1, i2, i3, hv']
  exact ⟨_, _, rfl, hkept _ _⟩

theorem run_newBulk (hc : Limits cfg) {lo : Nat} {h : Heap} (hb : Base h) {c : SeqCls} (hi : initOf (.seq c) = (.rfc1905, 144))
    (hfn : fieldNames c = ["requestID", "nonRepeaters", "maxRepetitions", "varBindList"])
    {x : V} {l : List V} {vs : List Val} (hit : Items h x l) (hr : RepAll lo h vs l) (h9 : 9 ≤ lo) (hlo : lo ≤ h.length)
    (hv : vs.all (·.isInstance (.seq .varBind)) = true) (n1 n2 n3 : Int) :
    Makes lo h (call program cfg (.cls (cid (.seq c))) [.int n1, .int n2, .int n3, x] h) (mkBulk c n1 n2 n3 vs) := by
  have hk1 : Kept h.length h (h ++ [.inst (cid (.seq c)) []]) := Kept.app hb _
  have hl := hb.long
  have hmk : mkVarBindList .varBindList2 vs = if 2147483647 < vs.length then .error .valueError else .ok (.seq .varBindList2 vs) := by
    have : (Cls.seq .varBindList2).isSubclass (.seq .varBindList2) = true := by decide
    rw [mkVarBindList, hv, this]
    by_cases h' : 2147483647 < vs.length <;> simp [h']
  rw [call_cls, hi]
  by_cases r : (¬ n2 > 2147483647 ∧ ¬ n3 > 2147483647 ∧ (IntCls.integer32.minVal ≤ n1 ∧ n1 ≤ IntCls.integer32.maxVal) ∧
      (IntCls.integer.minVal ≤ n2 ∧ n2 ≤ IntCls.integer.maxVal) ∧ (IntCls.integer.minVal ≤ n3 ∧ n3 ≤ IntCls.integer.maxVal) ∧
      l.length ≤ 2147483647)
  · obtain ⟨m2, m3, r1, r2, r3, hlen⟩ := r
    have hrun := run_bulkInit (cfg := cfg) hc hk1 (c := c) hit (get_app _ _) hl (Nat.le_refl _) (all_varBind' hr h9 hv) m2 m3 r1 r2 r3 hlen
    have hlen' : ¬ 2147483647 < vs.length := by have := hr.length; omega
    have hm : mkBulk c n1 n2 n3 vs = .ok (.seq c [.integer .integer32 n1, .integer .integer n2, .integer .integer n3, .seq .varBindList2 vs]) := by
      simp only [mkBulk, mkInteger, if_neg m2, if_neg m3, if_pos r1, if_pos r2, if_pos r3, hmk, if_neg hlen']; rfl
    rw [hm, Makes]
    simp only [src] at hrun
    rw [hrun]
    have hk2 := Kept.app hb [.inst (cid (.seq c)) [("value", .ref (h.length + 1 + 7)), ("requestID", .ref (h.length + 1 + 1)), ("nonRepeaters", .ref (h.length + 1 + 2)), ("maxRepetitions", .ref (h.length + 1 + 3)), ("varBindList", .ref (h.length + 1 + 4))], .list [], .inst (cid (.int .integer32)) [("value", .int n1)], .inst (cid (.int .integer)) [("value", .int n2)],
       .inst (cid (.int .integer)) [("value", .int n3)],
       .inst (cid (.seq .varBindList2)) (vblAttrs (h.length + 1 + 6)), .list [], .list l,
       .list [.ref (h.length + 1 + 1), .ref (h.length + 1 + 2), .ref (h.length + 1 + 3), .ref (h.length + 1 + 4)]]
    refine ⟨_, rfl, hk2, ?_⟩
    refine rep_pdu (attrs := _) (a1 := h.length + 1 + 1) (a2 := h.length + 1 + 2) (a3 := h.length + 1 + 3) (a4 := h.length + 1 + 4)
      (b := h.length + 1 + 7) (b4 := h.length + 1 + 6) (l := l) (get_app _ _) (plain [_, _, _, _, _]) rfl ?_ ?_ ?_ ?_ ?_ ?_ rfl ?_
      (hr.kept hk2 (Nat.le_refl _) h9 (Nat.le_refl _))
      (by omega) (by omega) (by omega) (by omega) (by omega) (by omega) (by omega)
    · simp only [Nat.add_assoc, get_app_add]; rfl
    · rw [Fields, hfn]; rfl
    all_goals simp only [Nat.add_assoc, get_app_add]; rfl
  · obtain ⟨args, h', hrun, hkk⟩ := run_bulkInit_bad (cfg := cfg) hc hk1 (c := c) (x := x) hit (get_app _ _) hl (Nat.le_refl _) r
    have hm : mkBulk c n1 n2 n3 vs = .error .valueError := by
      by_cases m2 : n2 > 2147483647
      · simp only [mkBulk, if_pos m2]
      by_cases m3 : n3 > 2147483647
      · simp only [mkBulk, if_neg m2, if_pos m3]
      by_cases r1 : IntCls.integer32.minVal ≤ n1 ∧ n1 ≤ IntCls.integer32.maxVal
      swap
      · simp only [mkBulk, if_neg m2, if_neg m3, mkInteger, if_neg r1]; rfl
      by_cases r2 : IntCls.integer.minVal ≤ n2 ∧ n2 ≤ IntCls.integer.maxVal
      swap
      · simp only [mkBulk, if_neg m2, if_neg m3, mkInteger, if_pos r1, if_neg r2]; rfl
      by_cases r3 : IntCls.integer.minVal ≤ n3 ∧ n3 ≤ IntCls.integer.maxVal
      swap
      · simp only [mkBulk, if_neg m2, if_neg m3, mkInteger, if_pos r1, if_pos r2, if_neg r3]; rfl
      have hlen : 2147483647 < vs.length := by
        rcases Nat.lt_or_ge 2147483647 vs.length with hl | hl
        · exact hl
        · exact absurd ⟨m2, m3, r1, r2, r3, by have := hr.length; omega⟩ r
      simp only [mkBulk, if_neg m2, if_neg m3, mkInteger, if_pos r1, if_pos r2, if_pos r3, hmk, if_pos hlen]; rfl
    rw [hm, Makes, hrun]
    exact ⟨_, _, rfl, hk1.trans hkk, rfl⟩

/-- The attributes of an SNMPv2 PDU. -/
def pduAttrs (v r s i b : Nat) : List (String × V) :=
  [("value", .ref v), ("requestID", .ref r), ("errorStatus", .ref s), ("errorIndex", .ref i), ("varBindList", .ref b)]

/-- What the constructor of rfc1157 leaves behind. -/
def pduRest (L : Nat) : Heap :=
  [.list [], .inst (.rfc1155, 288) [("value", .int 0)], .inst (.rfc1157, 20) [("value", .int 0)],
   .inst (.rfc1155, 288) [("value", .int 0)],
   .inst (.rfc1157, 76) [("value", .ref (L + 6)), ("componentType", .cls (.rfc1157, 58))], .list [], .list [],
   .list [.ref (L + 1), .ref (L + 2), .ref (L + 3), .ref (L + 4)]]

theorem run_pduInit0 (hc : Limits cfg) {h0 h : Heap} (hk : Kept h0.length h0 h) {a : Nat} {c : SeqCls}
    (ha : h[a]? = some (.inst (cid (.seq c)) [])) (h9 : 9 ≤ a) (hn : h0.length ≤ a) :
    call program cfg (.func .rfc1157 138) [.ref a] h = okR .none (h.set a (.inst (cid (.seq c))
      (pduAttrs (h.length + 7) (h.length + 1) (h.length + 2) (h.length + 3) (h.length + 4))) ++ pduRest h.length) := by
  have := run_pduInit (cfg := cfg) hc hk (items_of fun h' hk => hk.base.list4) ha h9 hn (by simp) (n1 := 0) (n2 := 0) (n3 := 0)
    (by decide) (by decide) (by decide)
  rw [call_rfc1157_138] at this
  rw [call_rfc1157_138_1, this]
  rfl

/-- Which arguments the constructor of rfc1905.PDU takes. -/
def Good2 (n1 n2 n3 : Int) (l : List V) : Prop :=
  ¬ n3 > 2147483647 ∧ (IntCls.integer32.minVal ≤ n1 ∧ n1 ≤ IntCls.integer32.maxVal) ∧
    (IntCls.errorStatus2.minVal ≤ n2 ∧ n2 ≤ IntCls.errorStatus2.maxVal) ∧
    (IntCls.integer.minVal ≤ n3 ∧ n3 ≤ IntCls.integer.maxVal) ∧ l.length ≤ 2147483647

/-- `PDU.__init__` of rfc1905. -/
theorem run_pdu2Init (hc : Limits cfg) {h0 h : Heap} (hk : Kept h0.length h0 h) {lo a : Nat} {c : SeqCls} {x : V} {l : List V}
    {vs : List Val} (hr : RepAll lo h0 vs l) (hlo : lo ≤ h0.length) (hlo9 : 9 ≤ lo)
    (hi : Items h0 x l) (ha : h[a]? = some (.inst (cid (.seq c)) [])) (h9 : 9 ≤ a) (hn : h0.length ≤ a)
    (hx : ∀ h', Kept h0.length h0 h' → ∀ y ∈ l, isInst program h' y (.cls (cid (.seq .varBind))) = some true)
    (hfn : fieldNames c = ["requestID", "errorStatus", "errorIndex", "varBindList"]) (n1 n2 n3 : Int) :
    (Good2 n1 n2 n3 l → ∃ h', call program cfg (.func .rfc1905 105) [.ref a, .int n1, .int n2, .int n3, x] h = okR .none h' ∧
      Kept a h h' ∧ Rep lo h' (.seq c [.integer .integer32 n1, .integer .errorStatus2 n2, .integer .integer n3, .seq .varBindList2 vs])
        (.ref a)) ∧
    (¬ Good2 n1 n2 n3 l → ∃ args h', call program cfg (.func .rfc1905 105) [.ref a, .int n1, .int n2, .int n3, x] h =
      excR (.exc "ValueError" args) h' ∧ Kept a h h') := by
  have he := isExc_cid (.seq c)
  have hlt := lt_of_get ha
  have hinit := run_pduInit0 (cfg := cfg) hc hk ha h9 hn
  have hkept : ∀ c t, Kept a h (h.set a c ++ t) := fun c t =>
    (Kept.set hk.base h9 (Nat.le_refl _) c).app' t (by simp; omega)
  have hs := max_short hc
  have hlen := hk.len
  rw [call_rfc1905_105]
  by_cases m3 : n3 > 2147483647
  · refine ⟨fun g => absurd m3 g.1, fun _ => ?_⟩
    runs [rfc1905_105, he, hinit, get_set hlt, set_set_old hlt, m3, hs]
    exact ⟨_, _, rfl, hkept _ _⟩
  by_cases r1 : IntCls.integer32.minVal ≤ n1 ∧ n1 ≤ IntCls.integer32.maxVal
  swap
  · refine ⟨fun g => absurd g.2.1 r1, fun _ => ?_⟩
    obtain ⟨f, i1⟩ := newInt_bad (cfg := cfg) hc (by decide) r1
    simp only [cids] at i1
    runs [rfc1905_105, he, hinit, get_set hlt, set_set_old hlt, m3, i1]
    exact ⟨_, _, rfl, hkept _ _⟩
  have i1 := newInt_ok (cfg := cfg) hc (by decide) r1
  generalize hrest : pduRest h.length = P at hinit
  have hP : P.length = 8 := by rw [← hrest]; rfl
  have i2 := run_newStatus (cfg := cfg) hc (hkept (.inst (cid (.seq c)) (pduAttrs (h.length + 7) (h.length + P.length) (h.length + 2) (h.length + 3) (h.length + 4)))
    (P ++ [.inst (.rfc1902, 27) [("value", .int n1)]])).base n2
  simp only [cids] at i1 i2
  by_cases r2 : IntCls.errorStatus2.minVal ≤ n2 ∧ n2 ≤ IntCls.errorStatus2.maxVal
  swap
  · refine ⟨fun g => absurd g.2.2.1 r2, fun _ => ?_⟩
    rw [if_neg r2] at i2
    obtain ⟨args, h', i2, hk2, -⟩ := i2
    simp only [pduAttrs] at hinit i2
    runs [rfc1905_105, he, hinit, get_set hlt, set_set_old hlt, m3, i1, i2]
    exact ⟨_, _, rfl, (hkept _ _).trans (hk2.mono (by simp; omega))⟩
  rw [if_pos r2] at i2
  obtain ⟨H, i2, hHl, hHk, -⟩ := i2
  have hHa : H[a]? = some (.inst (cid (.seq c)) (pduAttrs (h.length + 7) (h.length + P.length) (h.length + 2) (h.length + 3) (h.length + 4))) :=
    hHk.get (get_set hlt _ _) h9 (by simp; omega)
  have hHi : H[h.length + P.length]? = some (.inst (.rfc1902, 27) [("value", .int n1)]) :=
    hHk.get (by rw [get_set_add, List.getElem?_append_right (Nat.le_refl _), Nat.sub_self]; rfl) (by omega) (by simp)
  have hHL : H.length = h.length + 9 := by rw [hHl]; simp [hP]
  have hHt : a < H.length := by omega
  have hHkept : ∀ c t, Kept a h (H.set a c ++ t) := fun c t =>
    ((hkept _ _).trans ((hHk.mono (by simp; omega)).trans (Kept.set hHk.base h9 (Nat.le_refl _) c))).app' t (by simp; omega)
  have hkept0 : ∀ c t, Kept h0.length h0 (H.set a c ++ t) := fun c t => hk.trans ((hHkept c t).mono hn)
  simp only [pduAttrs] at hinit i2 hHa
  by_cases r3 : IntCls.integer.minVal ≤ n3 ∧ n3 ≤ IntCls.integer.maxVal
  swap
  · refine ⟨fun g => absurd g.2.2.2.1 r3, fun _ => ?_⟩
    obtain ⟨f, i3⟩ := newInt_bad (cfg := cfg) hc (by decide) r3
    simp only [cids] at i3
    runs [rfc1905_105, he, hinit, get_set hlt, set_set_old hlt, m3, i1, i2, get_app_old hHa, set_old hHt, i3]
    exact ⟨_, _, rfl, hHkept _ _⟩
  have i3 := newInt_ok (cfg := cfg) hc (by decide) r3
  by_cases hll : l.length ≤ 2147483647
  swap
  · refine ⟨fun g => absurd g.2.2.2.2 hll, fun _ => ?_⟩
    obtain ⟨args, hv⟩ := run_newVBL2_long (cfg := cfg) hc hi (by omega)
    have hv' := hv _ (hkept0 (.inst (cid (.seq c)) (pduAttrs (h.length + 7) (h.length + P.length) H.length (H.length + 1) (h.length + 4)))
      [.inst (.rfc1905, 64) [("value", .int n2)], .inst (.rfc1155, 288) [("value", .int n3)]])
    simp only [cids, pduAttrs] at i3 hv'
    runs [rfc1905_105, he, hinit, get_set hlt, set_set_old hlt, m3, i1, i2, get_app_old hHa, set_old hHt, get_set hHt, set_set_old hHt, i3, hv']
    exact ⟨_, _, rfl, hHkept _ _⟩
  refine ⟨fun _ => ?_, fun g => absurd ⟨m3, r1, r2, r3, hll⟩ g⟩
  have hv' := run_newVBL2 (cfg := cfg) (hkept0 (.inst (cid (.seq c)) (pduAttrs (h.length + 7) (h.length + P.length) H.length (H.length + 1) (h.length + 4)))
      [.inst (.rfc1905, 64) [("value", .int n2)], .inst (.rfc1155, 288) [("value", .int n3)]]) hi hx hll
  simp only [cids, pduAttrs] at i3 hv'
  runs [rfc1905_105, he, hinit, get_set hlt, set_set_old hlt, m3, i1, i2, get_app_old hHa, set_old hHt, get_set hHt, set_set_old hHt, i3, hv']
  refine ⟨_, rfl, hHkept _ _, ?_⟩
  refine rep_pdu (attrs := _) (a1 := h.length + P.length) (a2 := H.length) (a3 := H.length + 1) (a4 := H.length + 2)
      (b := H.length + 5) (b4 := H.length + 4) (l := l) (get_set hHt _ _) (plain [_, _, _, _, _]) rfl (get_set_add _ _ _ _ _) ?_ ?_
      ?_ ?_ ?_ rfl ?_
      (hr.kept (hkept0 _ _) (Nat.le_refl _) hlo9 (Nat.le_refl _))
      (by omega) (by omega) (by omega) (by omega) (by omega) (by omega) (by omega)
  · rw [Fields, hfn]; rfl
  · exact get_app_old (by rw [List.getElem?_set_ne (by omega)]; exact hHi) _
  · exact get_set_new _ _ _ _
  all_goals exact get_set_add _ _ _ _ _

theorem run_newPDU2 (hc : Limits cfg) {lo : Nat} {h : Heap} (hb : Base h) {c : SeqCls} (hi : initOf (.seq c) = (.rfc1905, 105))
    (hfn : fieldNames c = ["requestID", "errorStatus", "errorIndex", "varBindList"])
    {x : V} {l : List V} {vs : List Val} (hit : Items h x l) (hr : RepAll lo h vs l) (h9 : 9 ≤ lo) (hlo : lo ≤ h.length)
    (hv : vs.all (·.isInstance (.seq .varBind)) = true) (n1 n2 n3 : Int) :
    Makes lo h (call program cfg (.cls (cid (.seq c))) [.int n1, .int n2, .int n3, x] h) (mkPDU2 c n1 n2 n3 vs) := by
  have hk1 : Kept h.length h (h ++ [.inst (cid (.seq c)) []]) := Kept.app hb _
  have hl := hb.long
  have hmk : mkVarBindList .varBindList2 vs = if 2147483647 < vs.length then .error .valueError else .ok (.seq .varBindList2 vs) := by
    have : (Cls.seq .varBindList2).isSubclass (.seq .varBindList2) = true := by decide
    rw [mkVarBindList, hv, this]
    by_cases h' : 2147483647 < vs.length <;> simp [h']
  rw [call_cls, hi]
  have hrun := run_pdu2Init (cfg := cfg) hc hk1 hr hlo h9 (c := c) hit (get_app _ _) hl (Nat.le_refl _) (all_varBind' hr h9 hv) hfn n1 n2 n3
  by_cases r : Good2 n1 n2 n3 l
  · obtain ⟨h', hrun, hkk, hrep⟩ := hrun.1 r
    obtain ⟨m3, r1, r2, r3, hlen⟩ := r
    have hlen' : ¬ 2147483647 < vs.length := by have := hr.length; omega
    have hm : mkPDU2 c n1 n2 n3 vs = .ok (.seq c [.integer .integer32 n1, .integer .errorStatus2 n2, .integer .integer n3, .seq .varBindList2 vs]) := by
      simp only [mkPDU2, mkInteger, if_neg m3, if_pos r1, if_pos r2, if_pos r3, hmk, if_neg hlen']; rfl
    rw [hm, Makes, hrun]
    exact ⟨_, rfl, hk1.trans hkk, hrep⟩
  · obtain ⟨args, h', hrun, hkk⟩ := hrun.2 r
    have hm : mkPDU2 c n1 n2 n3 vs = .error .valueError := by
      by_cases m3 : n3 > 2147483647
      · simp only [mkPDU2, if_pos m3]
      by_cases r1 : IntCls.integer32.minVal ≤ n1 ∧ n1 ≤ IntCls.integer32.maxVal
      swap
      · simp only [mkPDU2, if_neg m3, mkInteger, if_neg r1]; rfl
      by_cases r2 : IntCls.errorStatus2.minVal ≤ n2 ∧ n2 ≤ IntCls.errorStatus2.maxVal
      swap
      · simp only [mkPDU2, if_neg m3, mkInteger, if_pos r1, if_neg r2]; rfl
      by_cases r3 : IntCls.integer.minVal ≤ n3 ∧ n3 ≤ IntCls.integer.maxVal
      swap
      · simp only [mkPDU2, if_neg m3, mkInteger, if_pos r1, if_pos r2, if_neg r3]; rfl
      have hlen : 2147483647 < vs.length := by
        rcases Nat.lt_or_ge 2147483647 vs.length with hl | hl
        · exact hl
        · exact absurd ⟨m3, r1, r2, r3, by have := hr.length; omega⟩ r
      simp only [mkPDU2, if_neg m3, mkInteger, if_pos r1, if_pos r2, if_pos r3, hmk, if_pos hlen]; rfl
    rw [hm, Makes, hrun]
    exact ⟨_, _, rfl, hk1.trans hkk, rfl⟩

/-- Calling a class of PDUs. -/
theorem run_newPDU (hc : Limits cfg) {lo : Nat} {h : Heap} (hb : Base h) {c : SeqCls}
    (hp : (Cls.seq c).isSubclass (.seq .pdu) = true ∨ (Cls.seq c).isSubclass (.seq .bulkPDU) = true)
    {x : V} {l : List V} {vs : List Val} (hit : Items h x l) (hr : RepAll lo h vs l) (h9 : 9 ≤ lo) (hlo : lo ≤ h.length)
    (hv : vs.all (·.isInstance (.seq .varBind)) = true) (n1 n2 n3 : Int) :
    Makes lo h (call program cfg (.cls (cid (.seq c))) [.int n1, .int n2, .int n3, x] h) (mkPDU c n1 n2 n3 vs) := by
  have key : (initOf (.seq c) = (.rfc1157, 138) ∧ fieldNames c = ["requestID", "errorStatus", "errorIndex", "varBindList"] ∧
        mkPDU c n1 n2 n3 vs = mkPDU1 c n1 n2 n3 vs) ∨
      (initOf (.seq c) = (.rfc1905, 105) ∧ fieldNames c = ["requestID", "errorStatus", "errorIndex", "varBindList"] ∧
        mkPDU c n1 n2 n3 vs = mkPDU2 c n1 n2 n3 vs) ∨
      (initOf (.seq c) = (.rfc1905, 144) ∧ fieldNames c = ["requestID", "nonRepeaters", "maxRepetitions", "varBindList"] ∧
        mkPDU c n1 n2 n3 vs = mkBulk c n1 n2 n3 vs) := by
    cases c <;> first
      | exact .inl ⟨rfl, rfl, rfl⟩
      | exact .inr (.inl ⟨rfl, rfl, rfl⟩)
      | exact .inr (.inr ⟨rfl, rfl, rfl⟩)
      | exact absurd hp (by decide)
  rcases key with ⟨h1, h2, h3⟩ | ⟨h1, h2, h3⟩ | ⟨h1, h2, h3⟩ <;> rw [h3]
  · exact run_newPDU1 hc hb h1 h2 hit hr h9 hlo hv n1 n2 n3
  · exact run_newPDU2 hc hb h1 h2 hit hr h9 hlo hv n1 n2 n3
  · exact run_newBulk hc hb h1 h2 hit hr h9 hlo hv n1 n2 n3

end Libsnmp.Src
