import Verif.Lemmas.SrcDec

/-!
# Rebuilding the list of bindings
-/

namespace Libsnmp.Src
open Libsnmp

variable {cfg : Cfg}

/-- `x[i]`, also later. -/
theorem run_getItem' {lo : Nat} {h : Heap} {v : Val} {x : V} (r : Rep lo h v x) (h9 : 9 ≤ lo) (i : Nat) :
    match v.getItem i with
    | .ok w => ∃ y, Rep lo h w y ∧ ∀ H, Kept h.length h H → ∀ cfg, getitem program cfg x (.int i) H = okR y H
    | .error e => ∀ H, Kept h.length h H → ∀ cfg, getitem program cfg x (.int i) H = excR (.exc (excName e) []) H := by
  match v, r with
  | .none, r => rw [Rep] at r; subst r; runs [Val.getItem, excName]; exact fun _ _ _ => trivial
  | .int n, r => rw [Rep] at r; subst r; runs [Val.getItem, excName]; exact fun _ _ _ => trivial
  | .str s, r =>
    rw [Rep] at r; subst r
    cases hi : s[i]? <;> runs [Val.getItem, excName, hi]
    · exact fun _ _ _ => trivial
    · exact ⟨_, by rw [Rep], fun _ _ _ => rfl⟩
  | .integer c n, r =>
    rw [Rep] at r
    obtain ⟨a, attrs, rfl, hl, ha, hp, hv⟩ := r
    simp only [Val.getItem]
    intro H hk cfg
    have ha' := hk.get ha (by omega) (lt_of_get ha)
    runs [ha', excName]
  | .octets c n, r =>
    rw [Rep] at r
    obtain ⟨a, attrs, rfl, hl, ha, hp, hv⟩ := r
    simp only [Val.getItem]
    intro H hk cfg
    have ha' := hk.get ha (by omega) (lt_of_get ha)
    runs [ha', excName]
  | .null c, r =>
    rw [Rep] at r
    obtain ⟨a, attrs, rfl, hl, ha, hp⟩ := r
    simp only [Val.getItem]
    intro H hk cfg
    have ha' := hk.get ha (by omega) (lt_of_get ha)
    runs [ha', excName]
  | .oid none, r =>
    rw [Rep] at r
    obtain ⟨a, attrs, rfl, hl, ha, hp, hv⟩ := r
    simp only [Val.getItem]
    intro H hk cfg
    have ha' := hk.get ha (by omega) (lt_of_get ha)
    runs [ha', excName, run_oidItem0 ha' hv]
  | .oid (some ids), r =>
    rw [Rep] at r
    obtain ⟨a, attrs, b, rfl, hl, ha, hp, hv, hb, hr⟩ := r
    cases hi : ids[i]? <;> simp only [Val.getItem, hi]
    · intro H hk cfg
      have ha' := hk.get ha (by omega) (lt_of_get ha)
      have hr' := hk.get hr (by omega) (lt_of_get hr)
      runs [ha', excName, run_oidItem ha' hv hr', List.getElem?_map, hi]
    · refine ⟨_, by rw [Rep], fun H hk cfg => ?_⟩
      have ha' := hk.get ha (by omega) (lt_of_get ha)
      have hr' := hk.get hr (by omega) (lt_of_get hr)
      runs [ha', excName, run_oidItem ha' hv hr', List.getElem?_map, hi]
  | .seq c items, r =>
    rw [Rep] at r
    obtain ⟨a, attrs, b, l, rfl, hl, ha, hp, hv, hb, hr, hf, hi⟩ := r
    cases hj : items[i]? with
    | none =>
      have : l[i]? = none := by
        rw [List.getElem?_eq_none_iff] at hj ⊢
        rw [hi.length]; exact hj
      simp only [Val.getItem, hj]
      intro H hk cfg
      have ha' := hk.get ha (by omega) (lt_of_get ha)
      have hr' := hk.get hr (by omega) (lt_of_get hr)
      runs [ha', excName, run_seqItem ha' hv hr', this]
    | some w =>
      obtain ⟨y, hy, ry⟩ := hi.get hj
      simp only [Val.getItem, hj]
      refine ⟨y, ry, fun H hk cfg => ?_⟩
      have ha' := hk.get ha (by omega) (lt_of_get ha)
      have hr' := hk.get hr (by omega) (lt_of_get hr)
      runs [ha', excName, run_seqItem ha' hv hr', hy]

theorem getItem_exc {v : Val} {i : Nat} {e : Exc} (h : v.getItem i = .error e) : e ≠ .pduError ∧ e ≠ .pduError2 ∧ e ≠ .messageError := by
  unfold Val.getItem at h
  repeat' split at h
  all_goals first | (cases h; decide) | cases h

/-- `iter(x)`, also later. -/
theorem run_iter {lo : Nat} {h : Heap} {v : Val} {x : V} (r : Rep lo h v x) (h9 : 9 ≤ lo) :
    match v.iter with
    | .ok vs => ∃ l, RepAll lo h vs l ∧ Items h x l
    | .error e => ∀ H, Kept h.length h H → (e = .typeError ∧ iterOf program H x = none) ∨
        (e = .attributeError ∧ iterOf program H x = some (.inst x 0) ∧
          ∀ cfg, next program cfg (.inst x 0) H = excR (.exc "AttributeError" []) H) := by
  match v, r with
  | .none, r => rw [Rep] at r; subst r; exact fun _ _ => .inl ⟨rfl, rfl⟩
  | .int n, r => rw [Rep] at r; subst r; exact fun _ _ => .inl ⟨rfl, rfl⟩
  | .str s, r =>
    rw [Rep] at r; subst r
    refine ⟨s.map fun c => .str [c], ?_, ⟨fun i => .vals ((s.map fun c => .str [c]).drop i), fun H hk => ⟨rfl, fun cfg i => ?_⟩⟩, ?_, ?_⟩
    · clear r
      induction s with
      | nil => rw [List.map_nil, RepAll]; rfl
      | cons c s ih => rw [List.map_cons, RepAll]; exact ⟨_, _, rfl, by rw [Rep], ih⟩
    · dsimp only
      generalize hl : (s.map fun c => V.str [c]) = l
      cases hi : l[i]? with
      | none =>
        rw [List.getElem?_eq_none_iff] at hi
        rw [List.drop_eq_nil_of_le hi]
        runs
        try rfl
      | some y =>
        obtain ⟨hlt, hy⟩ := List.getElem?_eq_some_iff.1 hi
        rw [List.drop_eq_getElem_cons hlt, hy]
        runs
        try rfl
    · intro H _ cfg
      cases s <;> runs <;> rfl
    · intro H _ cfg
      runs
  | .integer c n, r =>
    rw [Rep] at r
    obtain ⟨a, attrs, rfl, hl, ha, hp, hv⟩ := r
    refine fun H hk => .inl ⟨rfl, ?_⟩
    simp only [iterOf, hk.get ha (by omega) (lt_of_get ha), item_int]; rfl
  | .octets c n, r =>
    rw [Rep] at r
    obtain ⟨a, attrs, rfl, hl, ha, hp, hv⟩ := r
    refine fun H hk => .inl ⟨rfl, ?_⟩
    simp only [iterOf, hk.get ha (by omega) (lt_of_get ha), item_oct]; rfl
  | .null c, r =>
    rw [Rep] at r
    obtain ⟨a, attrs, rfl, hl, ha, hp⟩ := r
    refine fun H hk => .inl ⟨rfl, ?_⟩
    simp only [iterOf, hk.get ha (by omega) (lt_of_get ha), item_null]; rfl
  | .oid none, r =>
    rw [Rep] at r
    obtain ⟨a, attrs, rfl, hl, ha, hp, hv⟩ := r
    refine fun H hk => .inr ⟨rfl, ?_, fun cfg => ?_⟩
    · simp only [iterOf, hk.get ha (by omega) (lt_of_get ha), item_oid]; rfl
    · have ha' := hk.get ha (by omega) (lt_of_get ha)
      runs [ha', run_oidItem0 ha' hv 0]
      rfl
  | .oid (some ids), r =>
    rw [Rep] at r
    obtain ⟨a, attrs, b, rfl, hl, ha, hp, hv, hb, hr⟩ := r
    refine ⟨ids.map V.int, ?_, ⟨fun i => .inst (.ref a) i, fun H hk => ?_⟩, ?_, ?_⟩
    · clear hr
      induction ids with
      | nil => rw [List.map_nil, RepAll]; rfl
      | cons c s ih => rw [List.map_cons, RepAll]; exact ⟨_, _, rfl, by rw [Rep], ih⟩
    · have ha' := hk.get ha (by omega) (lt_of_get ha)
      have hr' := hk.get hr (by omega) (lt_of_get hr)
      refine ⟨by simp only [iterOf, ha', item_oid]; rfl, fun cfg i => ?_⟩
      have hi := run_oidItem (cfg := cfg) ha' hv hr' i
      cases hq : (ids.map V.int)[i]? <;> rw [hq] at hi <;> runs [ha', hi] <;> rfl
    · intro H hk cfg
      have ha' := hk.get ha (by omega) (lt_of_get ha)
      have hr' := hk.get hr (by omega) (lt_of_get hr)
      runs [ha', run_oidLen ha' hv hr']
      cases ids <;> simp
    · intro H hk cfg
      have ha' := hk.get ha (by omega) (lt_of_get ha)
      have hr' := hk.get hr (by omega) (lt_of_get hr)
      runs [ha', run_oidLen ha' hv hr']
  | .seq c items, r =>
    rw [Rep] at r
    obtain ⟨a, attrs, b, l, rfl, hl, ha, hp, hv, hb, hr, hf, hi⟩ := r
    exact ⟨l, hi, items_seq (by omega) ha hv (by omega) hr⟩

/-- Whatever happens to the list at `b`, the objects stand for the values. -/
def Closed (lo b : Nat) (H : Heap) (vs : List Val) (l : List V) : Prop :=
  ∀ H' : Heap, (∀ k c, k ≠ b → H[k]? = some c → H'[k]? = some c) → RepAll lo H' vs l

theorem Closed.next {lo b : Nat} {h0 H : Heap} (hk : Kept h0.length h0 H) (h9 : 9 ≤ lo) (hb : h0.length ≤ b) (hbH : b < H.length)
    (hlo : lo ≤ h0.length)
    {vs : List Val} {l : List V} (hc : Closed lo b H vs l) {n v : Val} {x y : V} (rn : Rep lo h0 n x) (rv : Rep lo h0 v y)
    {c : SeqCls} (hcc : c = .varBind ∨ c = .varBind2) (z : Cell) :
    Closed lo b ((H ++ ([.inst (cid (.seq c)) [("objectID", x), ("objectValue", y), ("value", .ref (H.length + 1))], .list [x, y]] : Heap)).set b z)
      (vs ++ [.seq c [n, v]]) (l ++ [.ref H.length]) := by
  have hlen := hk.len
  intro H' hag
  have hag1 : ∀ k c, k ≠ b → H[k]? = some c → H'[k]? = some c := fun k c hkb hkc => by
    refine hag k c hkb ?_
    rw [List.getElem?_set_ne (Ne.symm hkb)]
    exact get_app_old hkc _
  have h0' : ∀ k c, lo ≤ k → h0[k]? = some c → H'[k]? = some c := fun k c hlk hkc => by
    have := lt_of_get hkc
    exact hag1 k c (by omega) (hk.get hkc (by omega) this)
  have e1 : H'[H.length]? = some (.inst (cid (.seq c)) [("objectID", x), ("objectValue", y), ("value", .ref (H.length + 1))]) := by
    refine hag _ _ (by omega) ?_
    rw [List.getElem?_set_ne (by omega)]; exact get_app _ _
  have e2 : H'[H.length + 1]? = some (.list [x, y]) := by
    refine hag _ _ (by omega) ?_
    rw [List.getElem?_set_ne (by omega)]; exact get_app_add _ _ _
  refine (hc H' hag1).append ?_
  rw [RepAll]
  refine ⟨_, _, rfl, ?_, by rw [RepAll]⟩
  rw [Rep]
  refine ⟨H.length, _, H.length + 1, _, rfl, by omega, e1, plain [_, _, _], rfl, by omega, e2, ?_, ?_⟩
  · rcases hcc with rfl | rfl <;> rfl
  · rw [RepAll]; refine ⟨_, _, rfl, Rep.congr (Nat.le_refl _) h0' _ _ rn, ?_⟩
    rw [RepAll]; exact ⟨_, _, rfl, Rep.congr (Nat.le_refl _) h0' _ _ rv, by rw [RepAll]⟩

/-- How the loops over the bindings end. -/
def Bound (lo : Nat) (h0 : Heap) (m : Heap → Prop) (b : Nat) (done : List Val) (l : List V) (r : S) (env : Option V → Env)
    (w : Except Exc (List Val)) : Prop :=
  match w with
  | .ok ws => ∃ H' l' i, r = some (H', env i, .next) ∧ Kept h0.length h0 H' ∧ m H' ∧ H'[b]? = some (.list (l ++ l')) ∧
      Closed lo b H' (done ++ ws) (l ++ l')
  | .error e => ∃ H' env' x, r = some (H', env', .exc x) ∧ Kept h0.length h0 H' ∧ Raised H' e x

theorem mkVarBinds_cons (c : SeqCls) (w : Val) (ws : List Val) : mkVarBinds c (w :: ws) =
    match w.getItem 0 with
    | .error e => .error e
    | .ok n => match w.getItem 1 with
      | .error e => .error e
      | .ok v => match mkVarBind c n v with
        | .error e => .error e
        | .ok vb => match mkVarBinds c ws with
          | .error e => .error e
          | .ok vbs => .ok (vb :: vbs) := by
  rw [mkVarBinds]
  cases w.getItem 0 with
  | error e => rfl
  | ok n =>
    cases w.getItem 1 with
    | error e => rfl
    | ok v =>
      simp only [bind, Except.bind]
      cases mkVarBind c n v with
      | error e => rfl
      | ok vb =>
        dsimp only
        cases mkVarBinds c ws <;> rfl

/-- rfc1157.py:162-163. -/
theorem run_bindLoop {lo : Nat} {h0 : Heap} (h9 : 9 ≤ lo) (hlo : lo ≤ h0.length) {f : Nat → It} {l0 : List V}
    (hf : ∀ H, Kept h0.length h0 H → ∀ i, next program cfg (f i) H = okR (l0[i]?.map fun y => (y, f (i + 1))) H)
    {m b : Nat} (hm : h0.length ≤ m) (hb : h0.length ≤ b) (hmb : m ≠ b) (s st ol : Option V)
    (pre rest : List V) (hl0 : l0 = pre ++ rest) (ws : List Val) (hr : RepAll lo h0 ws rest)
    {H : Heap} (hk : Kept h0.length h0 H) (hHm : H[m]? = some (.inst (cid (.seq .varBindList)) (vblAttrs b)))
    {l : List V} (hHb : H[b]? = some (.list l)) {done : List Val} (hcl : Closed lo b H done l) (it : Option V) :
    Bound lo h0 (fun H' => H'[m]? = some (.inst (cid (.seq .varBindList)) (vblAttrs b))) b done l
      (forL program cfg .rfc1157 [("self", s), ("stream", st), ("objectList", ol), ("myVarList", some (.ref m)), ("item", it)]
        "item" (f pre.length) rfc1157_162 H)
      (fun i => [("self", s), ("stream", st), ("objectList", ol), ("myVarList", some (.ref m)), ("item", i)])
      (mkVarBinds .varBind ws) := by
  induction rest generalizing pre ws H l done it with
  | nil =>
    have : ws = [] := by
      have := hr.length
      simpa using this.symm
    subst this
    rw [List.append_nil] at hl0
    subst hl0
    rw [forL, hf H hk]
    runs [List.getElem?_eq_none (Nat.le_refl l0.length), Option.map_none]
    exact ⟨H, [], it, rfl, hk, hHm, by rw [List.append_nil]; exact hHb, by rw [List.append_nil, List.append_nil]; exact hcl⟩
  | cons y ys ih =>
    have hlen := hk.len
    have hHlt := lt_of_get hHb
    rcases ws with _ | ⟨w, ws⟩
    · rw [RepAll] at hr; cases hr
    rw [RepAll] at hr
    obtain ⟨_, _, heq, hr1, hr2⟩ := hr
    cases heq
    have hy : l0[pre.length]? = some y := by simp [hl0]
    have g0 := run_getItem' hr1 h9 0
    have g1 := run_getItem' hr1 h9 1
    rw [forL, hf H hk, hy, mkVarBinds_cons]
    have hno : (vblAttrs b).lookup "append" = none := rfl
    have hap := attr_append .varBindList (.inl rfl)
    cases e0 : w.getItem 0 with
    | error e =>
      simp only [e0] at g0
      have g0 : getitem program cfg y (.int 0) H = _ := g0 H hk cfg
      have hx := getItem_exc e0
      runs [Option.map_some, rfc1157_162, hHm, hno, hap, ↓g0]
      exact ⟨_, _, _, rfl, hk, excName_plain hx.1 hx.2.1 hx.2.2⟩
    | ok n =>
    simp only [e0] at g0
    obtain ⟨x0, r0, g0⟩ := g0
    have g0 : getitem program cfg y (.int 0) H = _ := g0 H hk cfg
    cases e1 : w.getItem 1 with
    | error e =>
      simp only [e1] at g1
      have g1 : getitem program cfg y (.int 1) H = _ := g1 H hk cfg
      have hx := getItem_exc e1
      runs [Option.map_some, rfc1157_162, hHm, hno, hap, ↓g0, ↓g1]
      exact ⟨_, _, _, rfl, hk, excName_plain hx.1 hx.2.1 hx.2.2⟩
    | ok v =>
    simp only [e1] at g1
    obtain ⟨x1, r1, g1⟩ := g1
    have g1 : getitem program cfg y (.int 1) H = _ := g1 H hk cfg
    have hnew := run_newVarBind (cfg := cfg) (r0.kept hk (Nat.le_refl _) h9 (Nat.le_refl _))
      (r1.kept hk (Nat.le_refl _) h9 (Nat.le_refl _)) (c := .varBind) (.inl rfl)
    cases e2 : mkVarBind .varBind n v with
    | error e =>
      simp only [e2] at hnew
      obtain ⟨rfl, args, hnew⟩ := hnew
      simp only [cids] at hnew
      simp only [e2]
      runs [Option.map_some, rfc1157_162, hHm, hno, hap, ↓g0, ↓g1, hnew]
      exact ⟨_, _, _, rfl, hk.app' _ hk.len, ⟨_, rfl⟩⟩
    | ok vb =>
    simp only [e2] at hnew
    obtain ⟨rfl, hnew⟩ := hnew
    have hHm' := get_app_old hHm [.inst (cid (.seq .varBind)) [("objectID", x0), ("objectValue", x1), ("value", .ref (H.length + 1))], .list [x0, x1]]
    have hHb' := get_app_old hHb [.inst (cid (.seq .varBind)) [("objectID", x0), ("objectValue", x1), ("value", .ref (H.length + 1))], .list [x0, x1]]
    have happ := run_vblAppend (cfg := cfg) (x := .ref H.length) hHm' rfl rfl hHb' (by
      simp only [isInst, instOf, get_app, List.getElem?_cons_zero]; rw [sub_cid]; rfl)
    have hcl' := hcl.next hk h9 hb hHlt hlo r0 r1 (c := .varBind) (.inl rfl) (.list (l ++ [.ref H.length]))
    have hk' : Kept h0.length h0 ((H ++ ([.inst (cid (.seq .varBind)) [("objectID", x0), ("objectValue", x1), ("value", .ref (H.length + 1))], .list [x0, x1]] : Heap)).set b (.list (l ++ [.ref H.length]))) :=
      (hk.app' _ hk.len).set' (by omega) hb _
    have ih' := ih (pre ++ [y]) (by simp [hl0]) ws hr2 hk' (by rw [List.getElem?_set_ne (Ne.symm hmb)]; exact hHm')
      (List.getElem?_set_self (by simp; omega)) hcl' (some y)
    rw [List.length_append, List.length_singleton] at ih'
    simp only [cid_varBind] at hnew happ ih'
    simp only [e2]
    cases e3 : mkVarBinds .varBind ws with
    | error e =>
      rw [e3] at ih'
      obtain ⟨H', env', x, ih', hk'', hx⟩ := ih'
      runs [Option.map_some, rfc1157_162, hHm, hno, hap, ↓g0, ↓g1, hnew, happ]
      exact ⟨H', env', x, ih', hk'', hx⟩
    | ok vbs =>
      rw [e3] at ih'
      obtain ⟨H', l', i, ih', hk'', hm', hb', hcl''⟩ := ih'
      runs [Option.map_some, rfc1157_162, hHm, hno, hap, ↓g0, ↓g1, hnew, happ]
      simp only [List.append_assoc, List.singleton_append] at hb' hcl''
      exact ⟨H', _, i, ih', hk'', hm', hb', hcl''⟩

/-- rfc1905.py:173-174: here the list is a plain one. -/
theorem run_bulkLoop {lo : Nat} {h0 : Heap} (h9 : 9 ≤ lo) (hlo : lo ≤ h0.length) {f : Nat → It} {l0 : List V}
    (hf : ∀ H, Kept h0.length h0 H → ∀ i, next program cfg (f i) H = okR (l0[i]?.map fun y => (y, f (i + 1))) H)
    {b : Nat} (hb : h0.length ≤ b) (s st ol : Option V)
    (pre rest : List V) (hl0 : l0 = pre ++ rest) (ws : List Val) (hr : RepAll lo h0 ws rest)
    {H : Heap} (hk : Kept h0.length h0 H)
    {l : List V} (hHb : H[b]? = some (.list l)) {done : List Val} (hcl : Closed lo b H done l) (it : Option V) :
    Bound lo h0 (fun _ => True) b done l
      (forL program cfg .rfc1905 [("self", s), ("stream", st), ("objectList", ol), ("myVarList", some (.ref b)), ("item", it)]
        "item" (f pre.length) rfc1905_173 H)
      (fun i => [("self", s), ("stream", st), ("objectList", ol), ("myVarList", some (.ref b)), ("item", i)])
      (mkVarBinds .varBind2 ws) := by
  induction rest generalizing pre ws H l done it with
  | nil =>
    have : ws = [] := by
      have := hr.length
      simpa using this.symm
    subst this
    rw [List.append_nil] at hl0
    subst hl0
    rw [forL, hf H hk]
    runs [List.getElem?_eq_none (Nat.le_refl l0.length), Option.map_none]
    exact ⟨H, [], it, rfl, hk, trivial, by rw [List.append_nil]; exact hHb, by rw [List.append_nil, List.append_nil]; exact hcl⟩
  | cons y ys ih =>
    have hlen := hk.len
    have hHlt := lt_of_get hHb
    rcases ws with _ | ⟨w, ws⟩
    · rw [RepAll] at hr; cases hr
    rw [RepAll] at hr
    obtain ⟨_, _, heq, hr1, hr2⟩ := hr
    cases heq
    have hy : l0[pre.length]? = some y := by simp [hl0]
    have g0 := run_getItem' hr1 h9 0
    have g1 := run_getItem' hr1 h9 1
    rw [forL, hf H hk, hy, mkVarBinds_cons]
    cases e0 : w.getItem 0 with
    | error e =>
      simp only [e0] at g0
      have g0 : getitem program cfg y (.int 0) H = _ := g0 H hk cfg
      have hx := getItem_exc e0
      runs [Option.map_some, rfc1905_173, hHb, ↓g0]
      exact ⟨_, _, _, rfl, hk, excName_plain hx.1 hx.2.1 hx.2.2⟩
    | ok n =>
    simp only [e0] at g0
    obtain ⟨x0, r0, g0⟩ := g0
    have g0 : getitem program cfg y (.int 0) H = _ := g0 H hk cfg
    cases e1 : w.getItem 1 with
    | error e =>
      simp only [e1] at g1
      have g1 : getitem program cfg y (.int 1) H = _ := g1 H hk cfg
      have hx := getItem_exc e1
      runs [Option.map_some, rfc1905_173, hHb, ↓g0, ↓g1]
      exact ⟨_, _, _, rfl, hk, excName_plain hx.1 hx.2.1 hx.2.2⟩
    | ok v =>
    simp only [e1] at g1
    obtain ⟨x1, r1, g1⟩ := g1
    have g1 : getitem program cfg y (.int 1) H = _ := g1 H hk cfg
    have hnew := run_newVarBind (cfg := cfg) (r0.kept hk (Nat.le_refl _) h9 (Nat.le_refl _))
      (r1.kept hk (Nat.le_refl _) h9 (Nat.le_refl _)) (c := .varBind2) (.inr rfl)
    cases e2 : mkVarBind .varBind2 n v with
    | error e =>
      simp only [e2] at hnew
      obtain ⟨rfl, args, hnew⟩ := hnew
      simp only [cids] at hnew
      simp only [e2]
      runs [Option.map_some, rfc1905_173, hHb, ↓g0, ↓g1, hnew]
      exact ⟨_, _, _, rfl, hk.app' _ hk.len, ⟨_, rfl⟩⟩
    | ok vb =>
    simp only [e2] at hnew
    obtain ⟨rfl, hnew⟩ := hnew
    have hHb' := get_app_old hHb [.inst (cid (.seq .varBind2)) [("objectID", x0), ("objectValue", x1), ("value", .ref (H.length + 1))], .list [x0, x1]]
    have hcl' := hcl.next hk h9 hb hHlt hlo r0 r1 (c := .varBind2) (.inr rfl) (.list (l ++ [.ref H.length]))
    have hk' : Kept h0.length h0 ((H ++ ([.inst (cid (.seq .varBind2)) [("objectID", x0), ("objectValue", x1), ("value", .ref (H.length + 1))], .list [x0, x1]] : Heap)).set b (.list (l ++ [.ref H.length]))) :=
      (hk.app' _ hk.len).set' (by omega) hb _
    have ih' := ih (pre ++ [y]) (by simp [hl0]) ws hr2 hk'
      (List.getElem?_set_self (by simp; omega)) hcl' (some y)
    rw [List.length_append, List.length_singleton] at ih'
    simp only [cid_varBind2] at hnew ih' hHb'
    simp only [e2]
    cases e3 : mkVarBinds .varBind2 ws with
    | error e =>
      rw [e3] at ih'
      obtain ⟨H', env', x, ih', hk'', hx⟩ := ih'
      runs [Option.map_some, rfc1905_173, hHb, ↓g0, ↓g1, hnew, hHb']
      exact ⟨H', env', x, ih', hk'', hx⟩
    | ok vbs =>
      rw [e3] at ih'
      obtain ⟨H', l', i, ih', hk'', hm', hb', hcl''⟩ := ih'
      runs [Option.map_some, rfc1905_173, hHb, ↓g0, ↓g1, hnew, hHb']
      simp only [List.append_assoc, List.singleton_append] at hb' hcl''
      exact ⟨H', _, i, ih', hk'', hm', hb', hcl''⟩

theorem mkVarBinds_all {c : SeqCls} (hc : c = .varBind ∨ c = .varBind2) {vs ws : List Val} (h : mkVarBinds c vs = .ok ws) :
    ws.all (·.isInstance (.seq .varBind)) = true := by
  induction vs generalizing ws with
  | nil => cases h; rfl
  | cons v vs ih =>
    rw [mkVarBinds_cons] at h
    cases e0 : v.getItem 0 with
    | error e => simp [e0] at h
    | ok n =>
    cases e1 : v.getItem 1 with
    | error e => simp [e0, e1] at h
    | ok w =>
    cases e2 : mkVarBind c n w with
    | error e => simp [e0, e1, e2] at h
    | ok vb =>
    cases e3 : mkVarBinds c vs with
    | error e => simp [e0, e1, e2, e3] at h
    | ok vbs =>
    simp only [e0, e1, e2, e3, Except.ok.injEq] at h
    subst h
    have h1 : vb.isInstance (.seq .varBind) = true := by
      unfold mkVarBind at e2
      repeat' split at e2
      all_goals first | cases e2 | skip
      rcases hc with rfl | rfl <;> rfl
    rw [List.all_cons, h1, ih e3]; rfl

/-! ## The exceptions of the package -/

/-- `raise PDUError(text)`. -/
theorem run_newErr {m : Module} {k l : Nat} {fn : Fn}
    (ht : (m, k, l, fn) ∈ [(Module.rfc1157, 168, 169, rfc1157_169), (.rfc1905, 227, 228, rfc1905_228)]) (s : Str) (h : Heap) :
    ∃ attrs, call program cfg (.cls (m, k)) [.str s] h = okR (.ref h.length) (h ++ [.inst (m, k) attrs]) := by
  simp only [List.mem_cons, Prod.mk.injEq, List.not_mem_nil, or_false] at ht
  rcases ht with ⟨rfl, rfl, rfl, rfl⟩ | ⟨rfl, rfl, rfl, rfl⟩
  · have hi : program.attr (.rfc1157, 168) "__init__" = some (.func .rfc1157 169) := rfl
    have he : program.isExc 8 (.rfc1157, 168) = true := rfl
    rw [call.eq_4, hi]
    runs [he, call_rfc1157_169, rfc1157_169]
    exact ⟨_, rfl⟩
  · have hi : program.attr (.rfc1905, 227) "__init__" = some (.func .rfc1905 228) := rfl
    have he : program.isExc 8 (.rfc1905, 227) = true := rfl
    rw [call.eq_4, hi]
    runs [he, call_rfc1905_228, rfc1905_228]
    exact ⟨_, rfl⟩

/-! ## `decodeContents` of PDUs, after the components have been decoded -/

theorem run_toInt' {lo : Nat} {h : Heap} {v : Val} {x : V} (r : Rep lo h v x) (hs : ∀ s, v ≠ .str s) :
    match v.toInt with
    | .ok n => toInt program cfg x h = okR (.int n) h
    | .error e => toInt program cfg x h = excR (.exc (excName e) []) h ∧ e ≠ .pduError ∧ e ≠ .pduError2 ∧ e ≠ .messageError := by
  have h1 := run_toInt (cfg := cfg) r hs
  cases hv : v.toInt with
  | ok n => rw [hv] at h1; exact h1
  | error e =>
    rw [hv] at h1
    refine ⟨h1, ?_⟩
    unfold Val.toInt at hv
    repeat' split at hv
    all_goals first | (cases hv; decide) | cases hv | exact absurd rfl (hs _) | (rw [Rep] at r; exact r.elim)

/-- What `Sequence.decodeContents` leaves. -/
structure Filled (a : Nat) (h h1 : Heap) (c : SeqCls) (items : List Val) (l : List V) (attrs : List (String × V)) (b : Nat) : Prop where
  kept : Kept a h h1
  self : h1[a]? = some (.inst (cid (.seq c)) attrs)
  plain : Plain attrs
  value : attrs.lookup "value" = some (.ref b)
  le : a ≤ b
  list : h1[b]? = some (.list l)
  all : RepAll a h1 items l
  objs : ∀ v ∈ items, ∀ s, v ≠ .str s

theorem finishPDU_bad {c : SeqCls} {items : List Val} (hl : items.length ≠ 4) :
    finishPDU c items = .error (if (Cls.seq c).isSubclass (.seq .bulkPDU) = true then .pduError2 else .pduError) := by
  unfold finishPDU
  split
  · simp at hl
  · rfl

theorem finishPDU_four (c : SeqCls) (o0 o1 o2 o3 : Val) : finishPDU c [o0, o1, o2, o3] =
    match o3.iter with
    | .error e => .error e
    | .ok ws => match mkVarBinds (if (Cls.seq c).isSubclass (.seq .bulkPDU) = true then .varBind2 else .varBind) ws with
      | .error e => .error e
      | .ok vbs => match o0.toInt with
        | .error e => .error e
        | .ok n0 => match o1.toInt with
          | .error e => .error e
          | .ok n1 => match o2.toInt with
            | .error e => .error e
            | .ok n2 => mkPDU c n0 n1 n2 vbs := by
  unfold finishPDU
  dsimp only
  cases o3.iter with
  | error e => rfl
  | ok ws =>
    simp only [bind, Except.bind]
    cases mkVarBinds (if (Cls.seq c).isSubclass (.seq .bulkPDU) = true then .varBind2 else .varBind) ws with
    | error e => rfl
    | ok vbs =>
      dsimp only
      cases o0.toInt with
      | error e => rfl
      | ok n0 =>
        dsimp only
        cases o1.toInt with
        | error e => rfl
        | ok n1 => dsimp only; cases o2.toInt <;> rfl

/-- The components of an instance of a class of sequences. -/
theorem seq_item {H : Heap} {a b : Nat} {c : SeqCls} {attrs : List (String × V)} {l : List V}
    (ha : H[a]? = some (.inst (cid (.seq c)) attrs)) (hv : attrs.lookup "value" = some (.ref b)) (hb : H[b]? = some (.list l))
    {i : Nat} {y : V} (hy : l[i]? = some y) : getitem program cfg (.ref a) (.int i) H = okR y H := by
  runs [ha, run_seqItem ha hv hb, hy]

theorem run_finPDU (hc : Limits cfg) {a b : Nat} {h h1 : Heap} {c : SeqCls} {items : List Val} {l : List V} {attrs : List (String × V)}
    (h9 : 9 ≤ a) (hp : (Cls.seq c).isSubclass (.seq .pdu) = true) (f : Filled a h h1 c items l attrs b) {s : Str}
    (hcall : call program cfg (.func .rfc1155 842) [.ref a, .str s] h = okR (.ref a) h1) (hlen : items.length < 10 ^ 640) :
    Decodes a h (call program cfg (.func .rfc1157 153) [.ref a, .str s] h) (finishPDU c items) := by
  have hbulk : (Cls.seq c).isSubclass (.seq .bulkPDU) = false := by cases c <;> first | rfl | cases hp
  have hvl := f.all.length
  have hself := f.self
  have hvalue := f.value
  have hlist := f.list
  have hk := f.kept
  have ha1 := lt_of_get hself
  rw [call_rfc1157_153]
  by_cases hl : items.length = 4
  · have hne : ((l.length : Int) = 4) := by omega
    obtain ⟨o0, o1, o2, o3, rfl⟩ : ∃ o0 o1 o2 o3, items = [o0, o1, o2, o3] := by
      match items, hl with
      | [o0, o1, o2, o3], _ => exact ⟨_, _, _, _, rfl⟩
    have hall := f.all
    simp only [RepAll] at hall
    obtain ⟨x0, _, rfl, r0, x1, _, rfl, r1, x2, _, rfl, r2, x3, _, rfl, r3, rfl⟩ := hall
    have hobj := f.objs
    have hb1 := hk.base
    have hh1 := hb1.long
    have hv0 := run_newVBL0 (cfg := cfg) hb1
    rw [finishPDU_four, hbulk]
    simp only [Bool.false_eq_true, if_false]
    generalize hH : h1 ++ [.inst (cid (.seq .varBindList)) (vblAttrs (h1.length + 2)), .list [], .list []] = H at hv0
    have hkH : Kept h1.length h1 H := hH ▸ Kept.app hb1 _
    have hselfH := hkH.get hself h9 ha1
    have hlistH := hkH.get hlist (by have := f.le; omega) (lt_of_get hlist)
    have g3 : getitem program cfg (.ref a) (.int 3) H = okR x3 H := seq_item (i := 3) hselfH hvalue hlistH rfl
    have hit := run_iter r3 h9
    cases e3 : o3.iter with
    | error e =>
      rw [e3] at hit
      rcases hit H hkH with ⟨rfl, hit0⟩ | ⟨rfl, hit0, hnx⟩
      · have hit' : (orRaise (iterOf program H x3) "TypeError" H : R It) = excR (.exc "TypeError" []) H := by rw [hit0]; rfl
        runs [rfc1157_153, hcall, hself, hvalue, hlist, hne, hv0, hselfH, ↓g3, ↓hit']
        exact ⟨_, _, rfl, (hk.trans (hkH.mono (by omega))), ⟨_, rfl⟩⟩
      · have hnx := hnx cfg
        runs [rfc1157_153, hcall, hself, hvalue, hlist, hne, hv0, hselfH, ↓g3, ↓hit0, forL, ↓hnx]
        exact ⟨_, _, rfl, (hk.trans (hkH.mono (by omega))), ⟨_, rfl⟩⟩
    | ok ws =>
      rw [e3] at hit
      obtain ⟨l3, hr3, hi3⟩ := hit
      obtain ⟨fi, hfi⟩ := hi3.iter
      have hit := (hfi H hkH).1
      have hloop := run_bindLoop (cfg := cfg) h9 (Nat.le_of_lt ha1) (fun H hk i => (hfi H hk).2 cfg i) (Nat.le_refl h1.length)
        (b := h1.length + 2) (by omega) (by omega) (some (.ref a)) (some (.str s)) (some (.ref a)) [] l3 rfl ws hr3 hkH
        (hH ▸ get_app _ _) (hH ▸ get_app_add _ _ 2) (done := []) (fun H' _ => by rw [RepAll]) none
      rw [List.length_nil] at hloop
      cases e4 : mkVarBinds .varBind ws with
      | error e =>
        rw [e4] at hloop
        simp only [e4]
        obtain ⟨H', env', x, hloop, hk', hx⟩ := hloop
        runs [rfc1157_153, hcall, hself, hvalue, hlist, hne, hv0, hselfH, ↓g3, ↓hit, hloop]
        exact ⟨_, _, rfl, (hk.trans (hk'.mono (by omega))), hx⟩
      | ok vbs =>
        rw [e4] at hloop
        obtain ⟨H', l', i, hloop, hk', hm, hbl, hcl⟩ := hloop
        rw [List.nil_append] at hbl hcl
        rw [List.nil_append] at hcl
        have hselfH' := hk'.get hself h9 ha1
        have hlistH' := hk'.get hlist (by have := f.le; omega) (lt_of_get hlist)
        have g0 : getitem program cfg (.ref a) (.int 0) H' = okR x0 H' := seq_item (i := 0) hselfH' hvalue hlistH' rfl
        have g1 : getitem program cfg (.ref a) (.int 1) H' = okR x1 H' := seq_item (i := 1) hselfH' hvalue hlistH' rfl
        have g2 : getitem program cfg (.ref a) (.int 2) H' = okR x2 H' := seq_item (i := 2) hselfH' hvalue hlistH' rfl
        have i0 := run_toInt' (cfg := cfg) (r0.kept hk' (Nat.le_refl _) h9 (Nat.le_refl _)) (hobj _ (by simp))
        have i1 := run_toInt' (cfg := cfg) (r1.kept hk' (Nat.le_refl _) h9 (Nat.le_refl _)) (hobj _ (by simp))
        have i2 := run_toInt' (cfg := cfg) (r2.kept hk' (Nat.le_refl _) h9 (Nat.le_refl _)) (hobj _ (by simp))
        have hcls : attrs.lookup "__class__" = none := f.plain.none
        simp only [e4]
        cases t0 : o0.toInt with
        | error e =>
          simp only [t0] at i0
          obtain ⟨i0, hx⟩ := i0
          runs [rfc1157_153, hcall, hself, hvalue, hlist, hne, hv0, hselfH, ↓g3, ↓hit, hloop, hselfH', hcls, ↓g0, ↓i0]
          exact ⟨_, _, rfl, (hk.trans (hk'.mono (by omega))), excName_plain hx.1 hx.2.1 hx.2.2⟩
        | ok n0 =>
        simp only [t0] at i0
        cases t1 : o1.toInt with
        | error e =>
          simp only [t1] at i1
          obtain ⟨i1, hx⟩ := i1
          runs [rfc1157_153, hcall, hself, hvalue, hlist, hne, hv0, hselfH, ↓g3, ↓hit, hloop, hselfH', hcls, ↓g0, ↓i0, ↓g1, ↓i1]
          exact ⟨_, _, rfl, (hk.trans (hk'.mono (by omega))), excName_plain hx.1 hx.2.1 hx.2.2⟩
        | ok n1 =>
        simp only [t1] at i1
        cases t2 : o2.toInt with
        | error e =>
          simp only [t2] at i2
          obtain ⟨i2, hx⟩ := i2
          runs [rfc1157_153, hcall, hself, hvalue, hlist, hne, hv0, hselfH, ↓g3, ↓hit, hloop, hselfH', hcls, ↓g0, ↓i0, ↓g1, ↓i1, ↓g2, ↓i2]
          exact ⟨_, _, rfl, (hk.trans (hk'.mono (by omega))), excName_plain hx.1 hx.2.1 hx.2.2⟩
        | ok n2 =>
        simp only [t2] at i2
        have hlen' := hk'.len
        have hnew := run_newPDU (cfg := cfg) hc hk'.base (c := c) (.inl hp) (items_seq (by omega) hm rfl (by omega) hbl)
          (hcl H' fun _ _ _ h => h) h9 (by omega) (mkVarBinds_all (.inl rfl) e4) n0 n1 n2
        simp only []
        cases e5 : mkPDU c n0 n1 n2 vbs with
        | error e =>
          rw [e5] at hnew
          obtain ⟨args, h'', hnew, hk'', rfl⟩ := hnew
          runs [rfc1157_153, hcall, hself, hvalue, hlist, hne, hv0, hselfH, ↓g3, ↓hit, hloop, hselfH', hcls, ↓g0, ↓i0, ↓g1, ↓i1, ↓g2, ↓i2, ↓hnew]
          exact ⟨_, _, rfl, hk.trans ((hk'.mono (by omega)).trans (hk''.mono (by omega))), ⟨_, rfl⟩⟩
        | ok v =>
          rw [e5] at hnew
          obtain ⟨h'', hnew, hk'', hr⟩ := hnew
          runs [rfc1157_153, hcall, hself, hvalue, hlist, hne, hv0, hselfH, ↓g3, ↓hit, hloop, hselfH', hcls, ↓g0, ↓i0, ↓g1, ↓i1, ↓g2, ↓i2, ↓hnew]
          exact ⟨_, _, rfl, hk.trans ((hk'.mono (by omega)).trans (hk''.mono (by omega))), hr⟩
  · have hne : ¬ ((l.length : Int) = 4) := by omega
    have hsh : tooLong cfg.digits (l.length : Int) = false := hc.short (by omega)
    obtain ⟨at', hnew⟩ := run_newErr (cfg := cfg) (.head _) (lit "Malformed PDU: Incorrect length " ++ padLeft 0 32 (pyStrInt l.length)) h1
    rw [finishPDU_bad hl, hbulk]
    have hpc : pieces ((lit "Malformed PDU: Incorrect length %d").length + 1) (lit "Malformed PDU: Incorrect length %d") =
      some [.text (lit "Malformed PDU: Incorrect length "), .conv 0 none 100] := by decide +kernel
    have he : program.isExc 8 (.rfc1157, 168) = true := rfl
    runs [rfc1157_153, hcall, hself, hvalue, hlist, hne, hnew, hpc, hsh, he, Bool.false_eq_true]
    exact ⟨_, _, rfl, hk.app' _ (by omega), ⟨_, _, rfl, by exact get_app _ _⟩⟩

theorem run_finBulk (hc : Limits cfg) {a b : Nat} {h h1 : Heap} {c : SeqCls} {items : List Val} {l : List V} {attrs : List (String × V)}
    (h9 : 9 ≤ a) (hp : (Cls.seq c).isSubclass (.seq .bulkPDU) = true) (f : Filled a h h1 c items l attrs b) {s : Str}
    (hcall : call program cfg (.func .rfc1155 842) [.ref a, .str s] h = okR (.ref a) h1) (hlen : items.length < 10 ^ 640) :
    Decodes a h (call program cfg (.func .rfc1905 164) [.ref a, .str s] h) (finishPDU c items) := by
  have hbulk := hp
  have hvl := f.all.length
  have hself := f.self
  have hvalue := f.value
  have hlist := f.list
  have hk := f.kept
  have ha1 := lt_of_get hself
  rw [call_rfc1905_164]
  by_cases hl : items.length = 4
  · have hne : ((l.length : Int) = 4) := by omega
    obtain ⟨o0, o1, o2, o3, rfl⟩ : ∃ o0 o1 o2 o3, items = [o0, o1, o2, o3] := by
      match items, hl with
      | [o0, o1, o2, o3], _ => exact ⟨_, _, _, _, rfl⟩
    have hall := f.all
    simp only [RepAll] at hall
    obtain ⟨x0, _, rfl, r0, x1, _, rfl, r1, x2, _, rfl, r2, x3, _, rfl, r3, rfl⟩ := hall
    have hobj := f.objs
    have hb1 := hk.base
    have hh1 := hb1.long
    rw [finishPDU_four, hbulk]
    simp only [if_true]
    generalize hH : h1 ++ [.list []] = H
    have hkH : Kept h1.length h1 H := hH ▸ Kept.app hb1 _
    have hselfH := hkH.get hself h9 ha1
    have hlistH := hkH.get hlist (by have := f.le; omega) (lt_of_get hlist)
    have g3 : getitem program cfg (.ref a) (.int 3) H = okR x3 H := seq_item (i := 3) hselfH hvalue hlistH rfl
    have hit := run_iter r3 h9
    cases e3 : o3.iter with
    | error e =>
      rw [e3] at hit
      rcases hit H hkH with ⟨rfl, hit0⟩ | ⟨rfl, hit0, hnx⟩
      · have hit' : (orRaise (iterOf program H x3) "TypeError" H : R It) = excR (.exc "TypeError" []) H := by rw [hit0]; rfl
        runs [rfc1905_164, hcall, hself, hvalue, hlist, hne, hH, hselfH, ↓g3, ↓hit']
        exact ⟨_, _, rfl, (hk.trans (hkH.mono (by omega))), ⟨_, rfl⟩⟩
      · have hnx := hnx cfg
        runs [rfc1905_164, hcall, hself, hvalue, hlist, hne, hH, hselfH, ↓g3, ↓hit0, forL, ↓hnx]
        exact ⟨_, _, rfl, (hk.trans (hkH.mono (by omega))), ⟨_, rfl⟩⟩
    | ok ws =>
      rw [e3] at hit
      obtain ⟨l3, hr3, hi3⟩ := hit
      obtain ⟨fi, hfi⟩ := hi3.iter
      have hit := (hfi H hkH).1
      have hloop := run_bulkLoop (cfg := cfg) h9 (Nat.le_of_lt ha1) (fun H hk i => (hfi H hk).2 cfg i) 
        (b := h1.length) (by omega) (some (.ref a)) (some (.str s)) (some (.ref a)) [] l3 rfl ws hr3 hkH
        (hH ▸ get_app _ _) (done := []) (fun H' _ => by rw [RepAll]) none
      rw [List.length_nil] at hloop
      cases e4 : mkVarBinds .varBind2 ws with
      | error e =>
        rw [e4] at hloop
        simp only [e4]
        obtain ⟨H', env', x, hloop, hk', hx⟩ := hloop
        runs [rfc1905_164, hcall, hself, hvalue, hlist, hne, hH, hselfH, ↓g3, ↓hit, hloop]
        exact ⟨_, _, rfl, (hk.trans (hk'.mono (by omega))), hx⟩
      | ok vbs =>
        rw [e4] at hloop
        obtain ⟨H', l', i, hloop, hk', hm, hbl, hcl⟩ := hloop
        rw [List.nil_append] at hbl hcl
        rw [List.nil_append] at hcl
        have hselfH' := hk'.get hself h9 ha1
        have hlistH' := hk'.get hlist (by have := f.le; omega) (lt_of_get hlist)
        have g0 : getitem program cfg (.ref a) (.int 0) H' = okR x0 H' := seq_item (i := 0) hselfH' hvalue hlistH' rfl
        have g1 : getitem program cfg (.ref a) (.int 1) H' = okR x1 H' := seq_item (i := 1) hselfH' hvalue hlistH' rfl
        have g2 : getitem program cfg (.ref a) (.int 2) H' = okR x2 H' := seq_item (i := 2) hselfH' hvalue hlistH' rfl
        have i0 := run_toInt' (cfg := cfg) (r0.kept hk' (Nat.le_refl _) h9 (Nat.le_refl _)) (hobj _ (by simp))
        have i1 := run_toInt' (cfg := cfg) (r1.kept hk' (Nat.le_refl _) h9 (Nat.le_refl _)) (hobj _ (by simp))
        have i2 := run_toInt' (cfg := cfg) (r2.kept hk' (Nat.le_refl _) h9 (Nat.le_refl _)) (hobj _ (by simp))
        have hcls : attrs.lookup "__class__" = none := f.plain.none
        simp only [e4]
        cases t0 : o0.toInt with
        | error e =>
          simp only [t0] at i0
          obtain ⟨i0, hx⟩ := i0
          runs [rfc1905_164, hcall, hself, hvalue, hlist, hne, hH, hselfH, ↓g3, ↓hit, hloop, hselfH', hcls, ↓g0, ↓i0]
          exact ⟨_, _, rfl, (hk.trans (hk'.mono (by omega))), excName_plain hx.1 hx.2.1 hx.2.2⟩
        | ok n0 =>
        simp only [t0] at i0
        cases t1 : o1.toInt with
        | error e =>
          simp only [t1] at i1
          obtain ⟨i1, hx⟩ := i1
          runs [rfc1905_164, hcall, hself, hvalue, hlist, hne, hH, hselfH, ↓g3, ↓hit, hloop, hselfH', hcls, ↓g0, ↓i0, ↓g1, ↓i1]
          exact ⟨_, _, rfl, (hk.trans (hk'.mono (by omega))), excName_plain hx.1 hx.2.1 hx.2.2⟩
        | ok n1 =>
        simp only [t1] at i1
        cases t2 : o2.toInt with
        | error e =>
          simp only [t2] at i2
          obtain ⟨i2, hx⟩ := i2
          runs [rfc1905_164, hcall, hself, hvalue, hlist, hne, hH, hselfH, ↓g3, ↓hit, hloop, hselfH', hcls, ↓g0, ↓i0, ↓g1, ↓i1, ↓g2, ↓i2]
          exact ⟨_, _, rfl, (hk.trans (hk'.mono (by omega))), excName_plain hx.1 hx.2.1 hx.2.2⟩
        | ok n2 =>
        simp only [t2] at i2
        have hlen' := hk'.len
        have hnew := run_newPDU (cfg := cfg) hc hk'.base (c := c) (.inr hp) (items_list (by omega) hbl)
          (hcl H' fun _ _ _ h => h) h9 (by omega) (mkVarBinds_all (.inr rfl) e4) n0 n1 n2
        simp only []
        cases e5 : mkPDU c n0 n1 n2 vbs with
        | error e =>
          rw [e5] at hnew
          obtain ⟨args, h'', hnew, hk'', rfl⟩ := hnew
          runs [rfc1905_164, hcall, hself, hvalue, hlist, hne, hH, hselfH, ↓g3, ↓hit, hloop, hselfH', hcls, ↓g0, ↓i0, ↓g1, ↓i1, ↓g2, ↓i2, ↓hnew]
          exact ⟨_, _, rfl, hk.trans ((hk'.mono (by omega)).trans (hk''.mono (by omega))), ⟨_, rfl⟩⟩
        | ok v =>
          rw [e5] at hnew
          obtain ⟨h'', hnew, hk'', hr⟩ := hnew
          runs [rfc1905_164, hcall, hself, hvalue, hlist, hne, hH, hselfH, ↓g3, ↓hit, hloop, hselfH', hcls, ↓g0, ↓i0, ↓g1, ↓i1, ↓g2, ↓i2, ↓hnew]
          exact ⟨_, _, rfl, hk.trans ((hk'.mono (by omega)).trans (hk''.mono (by omega))), hr⟩
  · have hne : ¬ ((l.length : Int) = 4) := by omega
    have hsh : tooLong cfg.digits (l.length : Int) = false := hc.short (by omega)
    obtain ⟨at', hnew⟩ := run_newErr (cfg := cfg) (.tail _ (.head _)) (lit "Malformed BulkPDU: Incorrect length " ++ padLeft 0 32 (pyStrInt l.length)) h1
    rw [finishPDU_bad hl, if_pos hbulk]
    have hpc : pieces ((lit "Malformed BulkPDU: Incorrect length %d").length + 1) (lit "Malformed BulkPDU: Incorrect length %d") =
      some [.text (lit "Malformed BulkPDU: Incorrect length "), .conv 0 none 100] := by decide +kernel
    have he : program.isExc 8 (.rfc1905, 227) = true := rfl
    runs [rfc1905_164, hcall, hself, hvalue, hlist, hne, hnew, hpc, hsh, he, Bool.false_eq_true]
    exact ⟨_, _, rfl, hk.app' _ (by omega), ⟨_, _, rfl, by exact get_app _ _⟩⟩

theorem finishTrap_bad {items : List Val} (hl : items.length ≠ 6) : finishTrap items = .error .pduError := by
  unfold finishTrap
  split
  · simp at hl
  · rfl

theorem finishTrap_six (o0 o1 o2 o3 o4 o5 : Val) : finishTrap [o0, o1, o2, o3, o4, o5] =
    match o5.iter with
    | .error e => .error e
    | .ok ws => match mkVarBinds .varBind ws with
      | .error e => .error e
      | .ok vbs => match o2.toInt with
        | .error e => .error e
        | .ok n => match mkInteger .genericTrap n with
          | .error e => .error e
          | .ok g => .ok (mkTrap o0 o1 g o3 o4 (.seq .varBindList vbs)) := by
  unfold finishTrap
  dsimp only
  cases o5.iter with
  | error e => rfl
  | ok ws =>
    simp only [bind, Except.bind]
    cases mkVarBinds .varBind ws with
    | error e => rfl
    | ok vbs =>
      dsimp only
      cases o2.toInt with
      | error e => rfl
      | ok n => dsimp only; cases mkInteger .genericTrap n <;> rfl

theorem run_newTrap (h : Heap) (x1 x2 x3 x4 x5 x6 : V) : call program cfg (.cls (cid (.seq .trapPDU))) [x1, x2, x3, x4, x5, x6] h =
    okR (.ref h.length) (h ++ [.inst (cid (.seq .trapPDU)) [("value", .ref (h.length + 2)), ("enterprise", x1), ("agentAddr", x2),
      ("genericTrap", x3), ("specificTrap", x4), ("timestamp", x5), ("varBindList", x6)], .list [], .list [x1, x2, x3, x4, x5, x6]]) := by
  rw [call_cls, initOf]
  runs [run_trapInit (get_app h [.inst (cid (.seq .trapPDU)) []])]

theorem rfc1157_265_eq : rfc1157_265 = rfc1157_162 := rfl

theorem run_finTrap (hc : Limits cfg) {a b : Nat} {h h1 : Heap} {items : List Val} {l : List V} {attrs : List (String × V)}
    (h9 : 9 ≤ a) (f : Filled a h h1 .trapPDU items l attrs b) {s : Str}
    (hcall : call program cfg (.func .rfc1155 842) [.ref a, .str s] h = okR (.ref a) h1) (hlen : items.length < 10 ^ 640) :
    Decodes a h (call program cfg (.func .rfc1157 255) [.ref a, .str s] h) (finishTrap items) := by
  have hvl := f.all.length
  have hself := f.self
  have hvalue := f.value
  have hlist := f.list
  have hk := f.kept
  have ha1 := lt_of_get hself
  rw [call_rfc1157_255]
  by_cases hl : items.length = 6
  · have hne : ((l.length : Int) = 6) := by omega
    obtain ⟨o0, o1, o2, o3, o4, o5, rfl⟩ : ∃ o0 o1 o2 o3 o4 o5, items = [o0, o1, o2, o3, o4, o5] := by
      match items, hl with
      | [o0, o1, o2, o3, o4, o5], _ => exact ⟨_, _, _, _, _, _, rfl⟩
    have hall := f.all
    simp only [RepAll] at hall
    obtain ⟨x0, _, rfl, r0, x1, _, rfl, r1, x2, _, rfl, r2, x3, _, rfl, r3, x4, _, rfl, r4, x5, _, rfl, r5, rfl⟩ := hall
    have hobj := f.objs
    have hb1 := hk.base
    have hh1 := hb1.long
    have hv0 := run_newVBL0 (cfg := cfg) hb1
    rw [finishTrap_six]
    generalize hH : h1 ++ [.inst (cid (.seq .varBindList)) (vblAttrs (h1.length + 2)), .list [], .list []] = H at hv0
    have hkH : Kept h1.length h1 H := hH ▸ Kept.app hb1 _
    have hselfH := hkH.get hself h9 ha1
    have hlistH := hkH.get hlist (by have := f.le; omega) (lt_of_get hlist)
    have g5 : getitem program cfg (.ref a) (.int 5) H = okR x5 H := seq_item (i := 5) hselfH hvalue hlistH rfl
    have hit := run_iter r5 h9
    cases e5 : o5.iter with
    | error e =>
      rw [e5] at hit
      rcases hit H hkH with ⟨rfl, hit0⟩ | ⟨rfl, hit0, hnx⟩
      · have hit' : (orRaise (iterOf program H x5) "TypeError" H : R It) = excR (.exc "TypeError" []) H := by rw [hit0]; rfl
        runs [rfc1157_255, rfc1157_265_eq, hcall, hself, hvalue, hlist, hne, hv0, hselfH, ↓g5, ↓hit']
        exact ⟨_, _, rfl, (hk.trans (hkH.mono (by omega))), ⟨_, rfl⟩⟩
      · have hnx := hnx cfg
        runs [rfc1157_255, rfc1157_265_eq, hcall, hself, hvalue, hlist, hne, hv0, hselfH, ↓g5, ↓hit0, forL, ↓hnx]
        exact ⟨_, _, rfl, (hk.trans (hkH.mono (by omega))), ⟨_, rfl⟩⟩
    | ok ws =>
      rw [e5] at hit
      obtain ⟨l5, hr5, hi5⟩ := hit
      obtain ⟨fi, hfi⟩ := hi5.iter
      have hit := (hfi H hkH).1
      have hloop := run_bindLoop (cfg := cfg) h9 (Nat.le_of_lt ha1) (fun H hk i => (hfi H hk).2 cfg i) (Nat.le_refl h1.length)
        (b := h1.length + 2) (by omega) (by omega) (some (.ref a)) (some (.str s)) (some (.ref a)) [] l5 rfl ws hr5 hkH
        (hH ▸ get_app _ _) (hH ▸ get_app_add _ _ 2) (done := []) (fun H' _ => by rw [RepAll]) none
      rw [List.length_nil] at hloop
      cases e4 : mkVarBinds .varBind ws with
      | error e =>
        rw [e4] at hloop
        simp only [e4]
        obtain ⟨H', env', x, hloop, hk', hx⟩ := hloop
        runs [rfc1157_255, rfc1157_265_eq, hcall, hself, hvalue, hlist, hne, hv0, hselfH, ↓g5, ↓hit, hloop]
        exact ⟨_, _, rfl, (hk.trans (hk'.mono (by omega))), hx⟩
      | ok vbs =>
        rw [e4] at hloop
        obtain ⟨H', l', i, hloop, hk', hm, hbl, hcl⟩ := hloop
        rw [List.nil_append] at hbl hcl
        rw [List.nil_append] at hcl
        have hselfH' := hk'.get hself h9 ha1
        have hlistH' := hk'.get hlist (by have := f.le; omega) (lt_of_get hlist)
        have g0 : getitem program cfg (.ref a) (.int 0) H' = okR x0 H' := seq_item (i := 0) hselfH' hvalue hlistH' rfl
        have g1 : getitem program cfg (.ref a) (.int 1) H' = okR x1 H' := seq_item (i := 1) hselfH' hvalue hlistH' rfl
        have g2 : getitem program cfg (.ref a) (.int 2) H' = okR x2 H' := seq_item (i := 2) hselfH' hvalue hlistH' rfl
        have i2 := run_toInt' (cfg := cfg) (r2.kept hk' (Nat.le_refl _) h9 (Nat.le_refl _)) (hobj _ (by simp))
        have hcls : attrs.lookup "__class__" = none := f.plain.none
        have hlen' := hk'.len
        simp only [e4]
        cases t2 : o2.toInt with
        | error e =>
          simp only [t2] at i2
          obtain ⟨i2, hx⟩ := i2
          runs [rfc1157_255, rfc1157_265_eq, hcall, hself, hvalue, hlist, hne, hv0, hselfH, ↓g5, ↓hit, hloop, hselfH', hcls, ↓g0, ↓g1, ↓g2, ↓i2]
          exact ⟨_, _, rfl, (hk.trans (hk'.mono (by omega))), excName_plain hx.1 hx.2.1 hx.2.2⟩
        | ok n2 =>
        simp only [t2] at i2
        simp only [mkInteger]
        by_cases hr : IntCls.genericTrap.minVal ≤ n2 ∧ n2 ≤ IntCls.genericTrap.maxVal
        · have hnew := newInt_ok (cfg := cfg) hc (c := .genericTrap) (by decide) hr H'
          have hselfG := get_app_old hselfH' [.inst (cid (.int .genericTrap)) [("value", .int n2)]]
          have hlistG := get_app_old hlistH' [.inst (cid (.int .genericTrap)) [("value", .int n2)]]
          have g3 : getitem program cfg (.ref a) (.int 3) _ = okR x3 _ := seq_item (i := 3) hselfG hvalue hlistG rfl
          have g4 : getitem program cfg (.ref a) (.int 4) _ = okR x4 _ := seq_item (i := 4) hselfG hvalue hlistG rfl
          have htr := run_newTrap (cfg := cfg) (H' ++ [.inst (cid (.int .genericTrap)) [("value", .int n2)]])
            x0 x1 (.ref H'.length) x3 x4 (.ref h1.length)
          simp only [cids] at hnew htr g3 g4
          simp only [hr, and_self, if_true]
          runs [rfc1157_255, rfc1157_265_eq, hcall, hself, hvalue, hlist, hne, hv0, hselfH, ↓g5, ↓hit, hloop, hselfH', hcls, ↓g0, ↓g1, ↓g2, ↓i2, hnew, ↓g3, ↓g4, ↓htr]
          refine ⟨_, _, rfl, hk.trans ((hk'.mono (by omega)).trans ?_), ?_⟩
          · exact (Kept.refl hk'.base _).app' _ (by omega)
          have hg : Rep a (H' ++ [.inst (Module.rfc1157, 197) [("value", .int n2)]]) (.integer .genericTrap n2) (.ref H'.length) := by
            rw [Rep]
            exact ⟨_, _, rfl, by omega, get_app _ _, plain [_], rfl⟩
          have hvb : Rep a H' (.seq .varBindList vbs) (.ref h1.length) := by
            rw [Rep]
            exact ⟨_, _, _, l', rfl, by omega, hm, plain [_, _], rfl, by omega, hbl, rfl, hcl H' fun _ _ _ h => h⟩
          have old : ∀ {v x} T, Rep a h1 v x → Rep a (H' ++ T) v x := fun T r => (r.kept hk' (Nat.le_refl _) h9 (Nat.le_refl _)).app T
          have hg' := hg.app [Cell.inst (cid (Cls.seq SeqCls.trapPDU))
          [("value", V.ref (List.length H' + 1 + 2)), ("enterprise", x0), ("agentAddr", x1),
            ("genericTrap", V.ref (List.length H')), ("specificTrap", x3), ("timestamp", x4),
            ("varBindList", V.ref (List.length h1))],
           Cell.list [], Cell.list [x0, x1, V.ref (List.length H'), x3, x4, V.ref (List.length h1)]]
          rw [List.append_assoc] at hg'
          rw [mkTrap, Rep]
          refine ⟨H'.length + 1, _, H'.length + 3, _, rfl, by omega, get_app_add _ _ 1, plain [_, _, _, _, _, _, _], rfl, by omega, get_app_add _ _ 3, rfl, ?_⟩
          simp only [RepAll]
          exact ⟨_, _, rfl, old _ r0, _, _, rfl, old _ r1, _, _, rfl, hg', _, _, rfl, old _ r3, _, _, rfl, old _ r4, _, _, rfl,
            hvb.app _, rfl⟩
        · obtain ⟨ff, hnew⟩ := newInt_bad (cfg := cfg) hc (c := .genericTrap) (by decide) hr
          simp only [cids] at hnew
          simp only [hr, if_false]
          runs [rfc1157_255, rfc1157_265_eq, hcall, hself, hvalue, hlist, hne, hv0, hselfH, ↓g5, ↓hit, hloop, hselfH', hcls, ↓g0, ↓g1, ↓g2, ↓i2, hnew]
          exact ⟨_, _, rfl, hk.trans ((hk'.mono (by omega)).trans ((Kept.refl hk'.base _).app' _ (by omega))), ⟨_, rfl⟩⟩
  · have hne : ¬ ((l.length : Int) = 6) := by omega
    have hsh : tooLong cfg.digits (l.length : Int) = false := hc.short (by omega)
    obtain ⟨at', hnew⟩ := run_newErr (cfg := cfg) (.head _) (lit "Malformed TrapPDU: Incorrect length " ++ padLeft 0 32 (pyStrInt l.length)) h1
    rw [finishTrap_bad hl]
    have hpc : pieces ((lit "Malformed TrapPDU: Incorrect length %d").length + 1) (lit "Malformed TrapPDU: Incorrect length %d") =
      some [.text (lit "Malformed TrapPDU: Incorrect length "), .conv 0 none 100] := by decide +kernel
    have he : program.isExc 8 (.rfc1157, 168) = true := rfl
    runs [rfc1157_255, rfc1157_265_eq, hcall, hself, hvalue, hlist, hne, hnew, hpc, hsh, he, Bool.false_eq_true]
    exact ⟨_, _, rfl, hk.app' _ (by omega), ⟨_, _, rfl, by exact get_app _ _⟩⟩

end Libsnmp.Src
