import Verif.Lemmas.SrcVal

/-!
# Running the constructors of sequences
-/

namespace Libsnmp.Src
open Libsnmp

variable {cfg : Cfg}

theorem Rep.app {lo : Nat} {h : Heap} {v : Val} {x : V} (r : Rep lo h v x) (t : Heap) : Rep lo (h ++ t) v x :=
  Rep.congr (Nat.le_refl _) (fun _ _ _ hc => get_app_old hc t) v x r

theorem RepAll.app {lo : Nat} {h : Heap} {v : List Val} {x : List V} (r : RepAll lo h v x) (t : Heap) :
    RepAll lo (h ++ t) v x :=
  RepAll.congr (Nat.le_refl _) (fun _ _ _ hc => get_app_old hc t) v x r

/-- `Sequence.__init__(self)`. -/
theorem run_seqInit {h : Heap} {a : Nat} {c : CId} (ha : h[a]? = some (.inst c [])) (he : program.isExc 8 c = false) :
    call program cfg (.func .rfc1155 796) [.ref a] h =
      okR .none (h.set a (.inst c [("value", .ref h.length)]) ++ [.list []]) := by
  rw [call_rfc1155_796_1]
  runs [rfc1155_796, get_app_old ha, he, set_old (lt_of_get ha)]

theorem run_newSeq (h : Heap) : call program cfg (.cls (cid (.seq .sequence))) [] h =
    okR (.ref h.length) (h ++ [.inst (cid (.seq .sequence)) [("value", .ref (h.length + 1))], .list []]) := by
  rw [call_cls, initOf]
  runs [run_seqInit (get_app h [.inst (cid (.seq .sequence)) []]) (isExc_cid _)]

/-- `VarBind(name, value)`. -/
theorem run_newVarBind {lo : Nat} {h : Heap} {n v : Val} {x y : V} (rn : Rep lo h n x) (rv : Rep lo h v y) {c : SeqCls}
    (hc : c = .varBind ∨ c = .varBind2) :
    match mkVarBind c n v with
    | .ok w => w = .seq c [n, v] ∧ call program cfg (.cls (cid (.seq c))) [x, y] h = okR (.ref h.length)
        (h ++ [.inst (cid (.seq c)) [("objectID", x), ("objectValue", y), ("value", .ref (h.length + 1))], .list [x, y]])
    | .error e => e = .valueError ∧ ∃ args, call program cfg (.cls (cid (.seq c))) [x, y] h = excR (.exc "ValueError" args)
        (h ++ [.inst (cid (.seq c)) []]) := by
  have hi : initOf (.seq c) = (.rfc1157, 63) := by rcases hc with rfl | rfl <;> rfl
  have he := isExc_cid (.seq c)
  have hin := run_isInst (rn.app [.inst (cid (.seq c)) []]) .oid
  have hiv := run_isInst (rv.app [.inst (cid (.seq c)) []]) .asn1Object
  have htn := run_truth (cfg := cfg) (rn.app [.inst (cid (.seq c)) []])
  have htv := run_truth (cfg := cfg) (rv.app [.inst (cid (.seq c)) []])
  simp only [show cid .oid = (Module.rfc1155, 550) from rfl, show cid .asn1Object = (Module.rfc1155, 64) from rfl] at hin hiv
  rw [call_cls, hi, call_rfc1157_63, mkVarBind]
  cases h1 : n.truthy <;> cases h2 : n.isInstance .oid <;> cases h3 : v.truthy <;> cases h4 : v.isInstance .asn1Object <;>
    simp only [h1, h2, h3, h4, Bool.not_true, Bool.not_false, Bool.and_true, Bool.and_false, Bool.true_and, Bool.false_and,
      Bool.false_eq_true, if_true, if_false] at htn htv hin hiv ⊢ <;>
    runs [rfc1157_63, ↓htn, ↓htv, ↓hin, ↓hiv, he, call_rfc1155_796, rfc1155_796]
  all_goals first | exact ⟨_, rfl⟩ | skip

/-- `SequenceOf.append` on a list of VarBinds. -/
theorem run_vblAppend {h : Heap} {a b : Nat} {c : CId} {attrs : List (String × V)} {l : List V} {x : V}
    (ha : h[a]? = some (.inst c attrs)) (hc : attrs.lookup "componentType" = some (.cls (cid (.seq .varBind))))
    (hv : attrs.lookup "value" = some (.ref b)) (hb : h[b]? = some (.list l))
    (hx : isInst program h x (.cls (cid (.seq .varBind))) = some true) :
    call program cfg (.func .rfc1155 879) [.ref a, x] h = okR .none (h.set b (.list (l ++ [x]))) := by
  rw [call_rfc1155_879]
  runs [rfc1155_879, ha, hc, hv, hb, ↓hx, call_rfc1155_824, rfc1155_824]

/-! ## What a list of bindings can be made of -/

theorem items_of {h : Heap} {a : Nat} {l : List V} (hk : ∀ h', Kept h.length h h' → h'[a]? = some (.list l)) :
    Items h (.ref a) l where
  iter := ⟨fun i => .list a i, fun h' h1 => ⟨by simp only [iterOf, hk h' h1], fun cfg i => by
    cases hi : l[i]? <;> runs [hk h' h1, hi] <;> rfl⟩⟩
  truth := fun h' h1 cfg => by runs [hk h' h1]
  len := fun h' h1 cfg => by runs [hk h' h1]

/-- A list. -/
theorem items_list {h : Heap} {a : Nat} {l : List V} (h9 : 9 ≤ a) (ha : h[a]? = some (.list l)) : Items h (.ref a) l :=
  items_of fun _ h1 => h1.get ha h9 (lt_of_get ha)

/-- An instance of a class of sequences. -/
theorem items_seq {h : Heap} {a b : Nat} {c : SeqCls} {attrs : List (String × V)} {l : List V} (h9 : 9 ≤ a)
    (ha : h[a]? = some (.inst (cid (.seq c)) attrs)) (hv : attrs.lookup "value" = some (.ref b)) (h9b : 9 ≤ b)
    (hb : h[b]? = some (.list l)) : Items h (.ref a) l where
  iter := ⟨fun i => .inst (.ref a) i, fun h' h1 => by
    have ha' := h1.get ha h9 (lt_of_get ha)
    have hb' := h1.get hb h9b (lt_of_get hb)
    refine ⟨by simp only [iterOf, ha', item_seq]; rfl, fun cfg i => ?_⟩
    cases hi : l[i]? <;> runs [ha', run_seqItem ha' hv hb', hi] <;> rfl⟩
  truth := fun h' h1 cfg => by
    have ha' := h1.get ha h9 (lt_of_get ha)
    have hb' := h1.get hb h9b (lt_of_get hb)
    runs [ha', run_seqLen ha' hv hb']
    cases l <;> simp
  len := fun h' h1 cfg => by
    have ha' := h1.get ha h9 (lt_of_get ha)
    have hb' := h1.get hb h9b (lt_of_get hb)
    runs [ha', run_seqLen ha' hv hb']

/-! ## VarBindList -/

theorem attr_append (c : SeqCls) (hc : c = .varBindList ∨ c = .varBindList2) :
    program.attr (cid (.seq c)) "append" = some (.func .rfc1155 879) := by rcases hc with rfl | rfl <;> rfl

/-- A list of bindings and its elements. -/
def vblAttrs (b : Nat) : List (String × V) := [("value", .ref b), ("componentType", .cls (cid (.seq .varBind)))]

/-- The heap after the constructor has put the elements `m` into the object at `a`. -/
def vblHeap (h : Heap) (a : Nat) (c : SeqCls) (m : List V) : Heap :=
  h.set a (.inst (cid (.seq c)) (vblAttrs (h.length + 1))) ++ [.list [], .list m]

theorem vblHeap_self {h : Heap} {a : Nat} {c : SeqCls} (m : List V) (ha : a < h.length) :
    (vblHeap h a c m)[a]? = some (.inst (cid (.seq c)) (vblAttrs (h.length + 1))) := by
  rw [vblHeap, List.getElem?_append_left (by simpa using ha), List.getElem?_set_self ha]

theorem vblHeap_list {h : Heap} {a : Nat} {c : SeqCls} (m : List V) : (vblHeap h a c m)[h.length + 1]? = some (.list m) := by
  rw [vblHeap, List.getElem?_append_right (by simp)]
  simp

theorem vblHeap_set {h : Heap} {a : Nat} {c : SeqCls} (m m' : List V) :
    (vblHeap h a c m).set (h.length + 1) (.list m') = vblHeap h a c m' := by
  rw [vblHeap, List.set_append_right _ _ (by simp)]
  simp [vblHeap]

/-- rfc1155.py:873-875. -/
theorem run_vblLoop {h : Heap} {a : Nat} {c : SeqCls} {l : List V} (ha : a < h.length) (hc : c = .varBindList ∨ c = .varBindList2)
    {f : Nat → It}
    (hf : ∀ m i, next program cfg (f i) (vblHeap h a c m) = okR (l[i]?.map fun y => (y, f (i + 1))) (vblHeap h a c m))
    (hx : ∀ m, ∀ y ∈ l, isInst program (vblHeap h a c m) y (.cls (cid (.seq .varBind))) = some true)
    (pre rest : List V) (hl : l = pre ++ rest) (ct v it : Option V) :
    ∃ it', forL program cfg .rfc1155 [("self", some (.ref a)), ("componentType", ct), ("value", v), ("item", it)] "item"
      (f pre.length) rfc1155_873 (vblHeap h a c pre) =
      some (vblHeap h a c l, [("self", some (.ref a)), ("componentType", ct), ("value", v), ("item", it')], .next) := by
  induction rest generalizing pre it with
  | nil =>
    rw [List.append_nil] at hl
    subst hl
    rw [forL, hf]
    runs [List.getElem?_eq_none (Nat.le_refl l.length), Option.map_none]
    exact ⟨_, rfl⟩
  | cons y ys ih =>
    have hy : l[pre.length]? = some y := by simp [hl]
    have hA := vblHeap_self (c := c) pre ha
    have hcall := run_vblAppend (cfg := cfg) hA rfl rfl (vblHeap_list pre) (hx pre y (by simp [hl]))
    rw [vblHeap_set] at hcall
    have hm := attr_append c hc
    obtain ⟨it', ih⟩ := ih (pre ++ [y]) (by simp [hl]) (some y)
    rw [List.length_append, List.length_singleton] at ih
    refine ⟨it', ?_⟩
    rw [forL, hf, hy]
    have hno : (vblAttrs (h.length + 1)).lookup "append" = none := rfl
    runs [Option.map_some, rfc1155_873, hA, hm, hcall, hno]
    exact ih

theorem vblHeap_kept {h0 h : Heap} (hk : Kept h0.length h0 h) {a : Nat} (h9 : 9 ≤ a) (hn : h0.length ≤ a) (c : SeqCls)
    (m : List V) : Kept h0.length h0 (vblHeap h a c m) :=
  (hk.set' h9 hn _).app' _ (by have := hk.len; simp; omega)

/-- `VarBindList.__init__(self, x)`, with `x` made of VarBinds. -/
theorem run_vblInit {h0 h : Heap} (hk : Kept h0.length h0 h) {a : Nat} {c : SeqCls} {x : V} {l : List V}
    (hi : Items h0 x l) (ha : h[a]? = some (.inst (cid (.seq c)) [])) (h9 : 9 ≤ a) (hn : h0.length ≤ a)
    (hc : c = .varBindList ∨ c = .varBindList2)
    (hx : ∀ h', Kept h0.length h0 h' → ∀ y ∈ l, isInst program h' y (.cls (cid (.seq .varBind))) = some true) :
    call program cfg (.func .rfc1157 80) [.ref a, x] h = okR .none (vblHeap h a c l) := by
  have he := isExc_cid (.seq c)
  have hk1 := fun m => vblHeap_kept hk h9 hn c m
  obtain ⟨f, hf⟩ := hi.iter
  obtain ⟨it', hl⟩ := run_vblLoop (cfg := cfg) (c := c) (lt_of_get ha) hc (fun m i => (hf _ (hk1 m)).2 cfg i)
    (fun m y hy => hx _ (hk1 m) y hy) [] l rfl (some (.cls (cid (.seq .varBind)))) (some x) none
  have ht := hi.truth _ (hk1 []) cfg
  have hit := (hf _ (hk1 [])).1
  have hinit := run_seqInit (cfg := cfg) ha he
  have hlt := lt_of_get ha
  have hcid : cid (.seq .varBind) = (.rfc1157, 58) := rfl
  rw [call_rfc1157_80]
  simp only [vblHeap, vblAttrs, hcid] at ht hit hl ⊢
  cases hemp : l.isEmpty with
  | true =>
    rw [List.isEmpty_iff] at hemp
    subst hemp
    runs [rfc1157_80, call_rfc1155_864, rfc1155_864, he, hinit, get_set hlt, set_set_old hlt, ↓ht, List.isEmpty_nil]
  | false =>
    rw [hemp] at ht
    rw [List.length_nil] at hl
    runs [rfc1157_80, call_rfc1155_864, rfc1155_864, he, hinit, get_set hlt, set_set_old hlt, ↓ht, ↓hit, hl]

theorem run_newVBL {h0 h : Heap} (hk : Kept h0.length h0 h) {x : V} {l : List V} (hi : Items h0 x l)
    (hx : ∀ h', Kept h0.length h0 h' → ∀ y ∈ l, isInst program h' y (.cls (cid (.seq .varBind))) = some true) :
    call program cfg (.cls (.rfc1157, 76)) [x] h = okR (.ref h.length)
      (h ++ [.inst (cid (.seq .varBindList)) (vblAttrs (h.length + 2)), .list [], .list l]) := by
  have hb := hk.base.long
  have hk1 : Kept h0.length h0 (h ++ [.inst (cid (.seq .varBindList)) []]) := hk.app' _ hk.len
  have hr := run_vblInit (cfg := cfg) hk1 (a := h.length) (c := .varBindList) hi (get_app _ _) hb hk.len (.inl rfl) hx
  rw [show ((Module.rfc1157, 76) : CId) = cid (.seq .varBindList) from rfl, call_cls, initOf]
  runs [hr]
  simp only [vblHeap, src]

theorem run_newVBL0 {h : Heap} (hb : Base h) : call program cfg (.cls (.rfc1157, 76)) [] h = okR (.ref h.length)
      (h ++ [.inst (cid (.seq .varBindList)) (vblAttrs (h.length + 2)), .list [], .list []]) := by
  have hl := hb.long
  have hk1 : Kept h.length h (h ++ [.inst (cid (.seq .varBindList)) []]) := Kept.app hb _
  have hr := run_vblInit (cfg := cfg) hk1 (a := h.length) (c := .varBindList) (items_of fun h' hk => hk.base.list3) (get_app _ _)
    hl (Nat.le_refl _) (.inl rfl) (by simp)
  rw [call_rfc1157_80] at hr
  rw [show ((Module.rfc1157, 76) : CId) = cid (.seq .varBindList) from rfl, call_cls, initOf, call_rfc1157_80_1]
  runs [hr]
  simp only [vblHeap, src]

theorem run_newVBL2 {h0 h : Heap} (hk : Kept h0.length h0 h) {x : V} {l : List V} (hi : Items h0 x l)
    (hx : ∀ h', Kept h0.length h0 h' → ∀ y ∈ l, isInst program h' y (.cls (cid (.seq .varBind))) = some true)
    (hl : l.length ≤ 2147483647) :
    call program cfg (.cls (cid (.seq .varBindList2))) [x] h = okR (.ref h.length)
      (h ++ [.inst (cid (.seq .varBindList2)) (vblAttrs (h.length + 2)), .list [], .list l]) := by
  have hb := hk.base.long
  have hk1 : Kept h0.length h0 (h ++ [.inst (cid (.seq .varBindList2)) []]) := hk.app' _ hk.len
  have hr := run_vblInit (cfg := cfg) hk1 (a := h.length) (c := .varBindList2) hi (get_app _ _) hb hk.len (.inr rfl) hx
  have hln := hi.len _ hk1 cfg
  have hcmp : ¬ ((l.length : Int) > 2147483647) := by omega
  rw [call_cls, initOf, call_rfc1905_52]
  runs [rfc1905_52, ↓hln, hcmp, hr]
  simp only [vblHeap, src]

theorem run_newVBL2_long (hc : Limits cfg) {h0 : Heap} {x : V} {l : List V} (hi : Items h0 x l) (hl : 2147483647 < l.length) :
    ∃ args, ∀ h, Kept h0.length h0 h → call program cfg (.cls (cid (.seq .varBindList2))) [x] h =
      excR (.exc "ValueError" args) (h ++ [.inst (cid (.seq .varBindList2)) []]) := by
  have hs : tooLong cfg.digits 2147483647 = false := hc.short (by
    exact Nat.lt_of_lt_of_le (m := 10 ^ 20) (by decide) (Nat.pow_le_pow_right (by decide) (by decide)))
  refine ⟨[.str (lit "A VarBindList must be shorter than " ++ padLeft 0 32 (pyStrInt 2147483647))], fun h hk => ?_⟩
  have hk1 : Kept h0.length h0 (h ++ [.inst (cid (.seq .varBindList2)) []]) := hk.app' _ hk.len
  have hln := hi.len _ hk1 cfg
  have hcmp : (l.length : Int) > 2147483647 := by omega
  rw [call_cls, initOf, call_rfc1905_52]
  runs [rfc1905_52, ↓hln, hcmp, hs]

end Libsnmp.Src
