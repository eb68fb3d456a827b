import Verif.Lemmas.SrcStep
import Verif.Lemmas.SrcOidOps

/-!
# `VarBindList(x)`, where `x` is no list and no Sequence
-/

namespace Libsnmp.Src
open Libsnmp

variable {cfg : Cfg} {h : Heap} {φ : Layout} {m : Mem}

theorem items_str (s : Str) : Items h (.str s) (s.map fun c => .str [c]) where
  iter := ⟨fun i => .vals ((s.map fun c => V.str [c]).drop i), fun h' _ => ⟨rfl, fun cfg i => by
    rw [next.eq_def]
    dsimp only
    cases hd : (s.map fun c => V.str [c]).drop i with
    | nil =>
      rw [List.drop_eq_nil_iff] at hd
      rw [List.getElem?_eq_none hd]; rfl
    | cons y ys =>
      have h1 := List.getElem?_drop (xs := s.map fun c => V.str [c]) (i := i) (j := 0)
      rw [hd] at h1
      simp only [List.getElem?_cons_zero, Nat.add_zero] at h1
      have h2 : (s.map fun c => V.str [c]).drop (i + 1) = ys := by rw [← List.drop_drop, hd]; rfl
      rw [h2, ← h1]; rfl⟩⟩
  truth := fun h' _ cfg => by rw [truth]; cases s <;> rfl
  len := fun h' _ cfg => by rw [len, List.length_map]

/-- An empty argument, or one whose elements are no VarBinds. -/
theorem make_vbl_none (hl : Limits cfg) (H : Lies φ m h) {c : SeqCls} (hc : c = .varBindList ∨ c = .varBindList2) {x : V}
    {rs : List Ref} {xs : List V} (I : Items h x xs) (hf : List.Forall₂ (RefAt φ) rs xs) (hn : ∀ r ∈ rs, m.isInstance r (.seq .varBind) = false) :
    Comes φ h (call program cfg (.cls (cid (.seq c))) [x] h)
      (if rs.isEmpty then let (m1, r) := m.newSeq c []; (m1, .ok r) else (m, .error .valueError)) := by
  have := make_vbl_of (cfg := cfg) hl H hc I hf
  cases rs with
  | nil =>
    rw [if_neg (by simp), List.all_nil, if_pos rfl] at this
    rw [List.isEmpty_nil, if_pos rfl]
    exact this
  | cons r rs =>
    have h1 : ((r :: rs).all (m.isInstance · (.seq .varBind))) = false := by
      rw [List.all_cons, hn r List.mem_cons_self]; rfl
    rw [h1] at this
    simp only [Bool.false_eq_true, if_false, ite_self] at this
    exact this

/-- An ObjectID with numbers. -/
theorem items_oid {a b : Nat} {attrs : List (String × V)} {l : List V} (h9 : 9 ≤ a)
    (ha : h[a]? = some (.inst (cid .oid) attrs)) (hv : attrs.lookup "value" = some (.ref b)) (h9b : 9 ≤ b)
    (hb : h[b]? = some (.list l)) : Items h (.ref a) l where
  iter := ⟨fun i => .inst (.ref a) i, fun h' h1 => by
    have ha' := h1.get ha h9 (lt_of_get ha)
    have hb' := h1.get hb h9b (lt_of_get hb)
    refine ⟨by simp only [iterOf, ha', item_oid]; rfl, fun cfg i => ?_⟩
    cases hi : l[i]? <;> runs [ha', run_oidItem ha' hv hb', hi] <;> rfl⟩
  truth := fun h' h1 cfg => by
    have ha' := h1.get ha h9 (lt_of_get ha)
    have hb' := h1.get hb h9b (lt_of_get hb)
    runs [ha', run_oidLen ha' hv hb']
    cases l <;> simp
  len := fun h' h1 cfg => by
    have ha' := h1.get ha h9 (lt_of_get ha)
    have hb' := h1.get hb h9b (lt_of_get hb)
    runs [ha', run_oidLen ha' hv hb']

/-- `VarBindList.__init__(self, x)` of something false. -/
theorem run_vblFalse {h0 h : Heap} (hk : Kept h0.length h0 h) {a : Nat} {c : SeqCls} {x : V}
    (ha : h[a]? = some (.inst (cid (.seq c)) [])) (h9 : 9 ≤ a) (hn : h0.length ≤ a)
    (ht : ∀ h', Kept h0.length h0 h' → truth program cfg x h' = okR false h') :
    call program cfg (.func .rfc1157 80) [.ref a, x] h = okR .none (vblHeap h a c []) := by
  have he := isExc_cid (.seq c)
  have ht := ht _ (vblHeap_kept hk h9 hn c [])
  have hinit := run_seqInit (cfg := cfg) ha he
  have hlt := lt_of_get ha
  have hcid : cid (.seq .varBind) = (.rfc1157, 58) := rfl
  rw [call_rfc1157_80]
  simp only [vblHeap, vblAttrs, hcid] at ht ⊢
  runs [rfc1157_80, call_rfc1155_864, rfc1155_864, he, hinit, get_set hlt, set_set_old hlt, ↓ht]

/-- `VarBindList.__init__(self, x)` of something true, over which one cannot iterate. -/
theorem run_vblStuck {h0 h : Heap} (hk : Kept h0.length h0 h) {a : Nat} {c : SeqCls} {x : V}
    (ha : h[a]? = some (.inst (cid (.seq c)) [])) (h9 : 9 ≤ a) (hn : h0.length ≤ a)
    (ht : ∀ h', Kept h0.length h0 h' → truth program cfg x h' = okR true h' ∧ iterOf program h' x = none) :
    call program cfg (.func .rfc1157 80) [.ref a, x] h = excR (.exc "TypeError" []) (vblHeap h a c []) := by
  have he := isExc_cid (.seq c)
  have ⟨ht, hit⟩ := ht _ (vblHeap_kept hk h9 hn c [])
  have hinit := run_seqInit (cfg := cfg) ha he
  have hlt := lt_of_get ha
  have hcid : cid (.seq .varBind) = (.rfc1157, 58) := rfl
  rw [call_rfc1157_80]
  simp only [vblHeap, vblAttrs, hcid] at ht hit ⊢
  runs [rfc1157_80, call_rfc1155_864, rfc1155_864, he, hinit, get_set hlt, set_set_old hlt, ↓ht, ↓hit]

/-- What is known of an argument that is neither a list nor a Sequence. -/
inductive Odd (cfg : Cfg) (h : Heap) (x : V) : Bool → Option Exc → Prop where
  | false1 : (∀ h', Kept h.length h h' → truth program cfg x h' = okR false h') → Odd cfg h x false none
  | false2 : (∀ h', Kept h.length h h' → truth program cfg x h' = okR false h' ∧ len program cfg x h' = okR (.int 0) h') → Odd cfg h x true none
  | stuck1 : (∀ h', Kept h.length h h' → truth program cfg x h' = okR true h' ∧ iterOf program h' x = none) → Odd cfg h x false (some .typeError)
  | stuck2 : (∀ h', Kept h.length h h' → len program cfg x h' = excR (.exc "TypeError" []) h') → Odd cfg h x true (some .typeError)

theorem made_vbl0 (H : Lies φ m h) {c : SeqCls} (hc : c = .varBindList ∨ c = .varBindList2) :
    Comes φ h (okR (.ref h.length) (h ++ [.inst (cid (.seq c)) (vblAttrs (h.length + 2)), .list [], .list []]))
      (let (m1, r) := m.newSeq c []; (m1, .ok r)) := by
  have hb := H.base.long
  have L := H.app [.inst (cid (.seq c)) (vblAttrs (h.length + 2)), .list [], .list []]
  have L2 := L.adoptSeq (p := h.length) (b := h.length + 2) (rs := []) (.inr (Nat.le_refl _)) (.inr (by omega)) (get_app _ _)
    (by rw [get_app_add]; rfl) (plain [_, _]) rfl .nil (vbl_fields hc [] _) (by rcases hc with rfl | rfl <;> rfl) (fun _ => rfl)
  exact ⟨_, _, _, rfl, ref_seq φ L _ _ c _, L2.lies (Kept.app H.base _).base fun q hq => ⟨⟨.inl hq, by omega⟩, by omega⟩, grown_seq φ _ _⟩

theorem make_vbl_odd (H : Lies φ m h) {c : SeqCls} (hc : c = .varBindList ∨ c = .varBindList2) {x : V} {e : Option Exc}
    (O : Odd cfg h x ((Cls.seq c).isSubclass (.seq .varBindList2)) e) :
    Comes φ h (call program cfg (.cls (cid (.seq c))) [x] h)
      (match e with
        | some e => (m, .error e)
        | none => let (m1, r) := m.newSeq c []; (m1, .ok r)) := by
  have hb := H.base.long
  have hk1 : Kept h.length h (h ++ [.inst (cid (.seq c)) []]) := Kept.app H.base _
  have h1 : (Cls.seq .varBindList).isSubclass (.seq .varBindList2) = false := by decide
  have h2 : (Cls.seq .varBindList2).isSubclass (.seq .varBindList2) = true := by decide
  rcases hc with rfl | rfl
  · rw [h1] at O
    cases O with
    | false1 ht =>
      have hr := run_vblFalse (cfg := cfg) hk1 (a := h.length) (c := .varBindList) (get_app _ _) hb (Nat.le_refl _) ht
      have e : call program cfg (.cls (cid (.seq .varBindList))) [x] h = okR (.ref h.length)
          (h ++ [.inst (cid (.seq .varBindList)) (vblAttrs (h.length + 2)), .list [], .list []]) := by
        rw [call_cls, initOf]
        runs [hr]
        simp only [vblHeap, src]
      rw [e]
      exact made_vbl0 H (.inl rfl)
    | stuck1 ht =>
      have hr := run_vblStuck (cfg := cfg) hk1 (a := h.length) (c := .varBindList) (get_app _ _) hb (Nat.le_refl _) ht
      have e : call program cfg (.cls (cid (.seq .varBindList))) [x] h = excR (.exc "TypeError" []) (vblHeap (h ++ [.inst (cid (.seq .varBindList)) []]) h.length .varBindList []) := by
        rw [call_cls, initOf]
        runs [hr]
      rw [e]
      exact made_error H (vblHeap_kept hk1 hb (Nat.le_refl _) _ _) (e := .typeError)
  · rw [h2] at O
    cases O with
    | false2 ht =>
      have hr := run_vblFalse (cfg := cfg) hk1 (a := h.length) (c := .varBindList2) (get_app _ _) hb (Nat.le_refl _) (fun h' k => (ht h' k).1)
      have hl := (ht _ hk1).2
      have e : call program cfg (.cls (cid (.seq .varBindList2))) [x] h = okR (.ref h.length)
          (h ++ [.inst (cid (.seq .varBindList2)) (vblAttrs (h.length + 2)), .list [], .list []]) := by
        rw [call_cls, initOf, call_rfc1905_52]
        runs [rfc1905_52, ↓hl, hr]
        simp only [vblHeap, src]
      rw [e]
      exact made_vbl0 H (.inr rfl)
    | stuck2 ht =>
      have hl := ht _ hk1
      have e : call program cfg (.cls (cid (.seq .varBindList2))) [x] h = excR (.exc "TypeError" []) (h ++ [.inst (cid (.seq .varBindList2)) []]) := by
        rw [call_cls, initOf, call_rfc1905_52]
        runs [rfc1905_52, ↓hl]
      rw [e]
      exact made_error H hk1 (e := .typeError)

theorem lists_some (L : Lays U φ m h) {l p : Nat} (e : φ.lists[l]? = some p) : ∃ rs, m.lists[l]? = some rs := by
  have h1 := (List.getElem?_eq_some_iff.1 e).1
  rw [L.lists] at h1
  exact ⟨_, List.getElem?_eq_getElem h1⟩

/-- One can neither iterate over it nor take its length. -/
theorem odd_plain {a : Nat} {c : CId} {attrs : List (String × V)} (h9 : 9 ≤ a) (ha : h[a]? = some (.inst c attrs))
    (hl : program.attr c "__len__" = none) (hi : program.attr c "__getitem__" = none) (b : Bool) : Odd cfg h (.ref a) b (some .typeError) := by
  cases b with
  | true =>
    refine .stuck2 fun h' k => ?_
    have ha' := k.get ha h9 (lt_of_get ha)
    runs [ha', hl]
  | false =>
    refine .stuck1 fun h' k => ?_
    have ha' := k.get ha h9 (lt_of_get ha)
    exact ⟨by runs [ha', hl], by simp only [iterOf, ha', hi]; rfl⟩

theorem all_int (ids : List Int) : List.Forall₂ (RefAt φ) (ids.map Ref.int) (ids.map V.int) := by
  induction ids with
  | nil => exact .nil
  | cons n ns ih => exact .cons rfl ih

theorem all_str (s : Str) : List.Forall₂ (RefAt φ) (s.map fun c => Ref.str [c]) (s.map fun c => V.str [c]) := by
  induction s with
  | nil => exact .nil
  | cons n ns ih => exact .cons rfl ih

/-- The argument is false, or one cannot iterate over it, or its elements are no VarBinds. -/
theorem not_bindings (H : Lies φ m h) {r : Ref} {x : V} (hr : RefAt φ r x) (hi : m.items r = none) (v2 : Bool) :
    Odd cfg h x v2 (m.notBindings v2 r) ∨ ∃ rs xs, m.notBindings v2 r = (if rs.isEmpty then none else some .valueError) ∧
      Items h x xs ∧ List.Forall₂ (RefAt φ) rs xs ∧ ∀ r ∈ rs, m.isInstance r (.seq .varBind) = false := by
  have L := H.lays
  have odd : ∀ {e}, m.notBindings v2 r = e → Odd cfg h x v2 e →
      Odd cfg h x v2 (m.notBindings v2 r) ∨ ∃ rs xs, m.notBindings v2 r = (if rs.isEmpty then none else some .valueError) ∧
        Items h x xs ∧ List.Forall₂ (RefAt φ) rs xs ∧ ∀ r ∈ rs, m.isInstance r (.seq .varBind) = false := by
    intro e he O
    rw [← he] at O
    exact .inl O
  have even : ∀ {rs xs}, m.notBindings v2 r = (if rs.isEmpty then none else some .valueError) →
      Items h x xs → List.Forall₂ (RefAt φ) rs xs → (∀ r ∈ rs, m.isInstance r (.seq .varBind) = false) →
      Odd cfg h x v2 (m.notBindings v2 r) ∨ ∃ rs xs, m.notBindings v2 r = (if rs.isEmpty then none else some .valueError) ∧
        Items h x xs ∧ List.Forall₂ (RefAt φ) rs xs ∧ ∀ r ∈ rs, m.isInstance r (.seq .varBind) = false :=
    fun he I hf hn => .inr ⟨_, _, he, I, hf, hn⟩
  cases r with
  | none =>
    cases hr
    cases v2 with
    | false => exact odd rfl (.false1 fun h' _ => by runs [])
    | true => exact odd rfl (.stuck2 fun h' _ => by runs [])
  | int n =>
    cases hr
    cases v2 with
    | true => exact odd rfl (.stuck2 fun h' _ => by runs [])
    | false =>
      by_cases hn : n = 0
      · subst hn
        exact odd rfl (.false1 fun h' _ => by runs [])
      · refine odd (e := some .typeError) (by simp [Mem.notBindings, hn]) (.stuck1 fun h' _ => ⟨by runs []; simp [hn], rfl⟩)
  | str s =>
    cases hr
    refine even (rs := s.map fun c => Ref.str [c]) (by cases s <;> rfl) (items_str s) (all_str s) fun q hq => ?_
    obtain ⟨_, _, rfl⟩ := List.mem_map.1 hq
    rfl
  | bytes s => exact hr.elim
  | list l =>
    obtain ⟨p, e1, rfl⟩ := hr
    obtain ⟨rs, e2⟩ := lists_some L e1
    rw [Mem.items, e2] at hi
    cases hi
  | obj a =>
    obtain ⟨p, e1, rfl⟩ := hr
    obtain ⟨o, attrs, h1, N⟩ := L.obj e1
    have ha := N.cell
    have hs := N.value
    have h9 : 9 ≤ p := by have := L.free _ (mem_of_get e1); omega
    obtain ⟨k, v, as⟩ := o
    cases k <;> cases v <;> try exact hs.elim
    · exact odd (e := some .typeError) (by simp [Mem.notBindings, h1]) (odd_plain h9 ha (len_int _) (item_int _) _)
    · exact odd (e := some .typeError) (by simp [Mem.notBindings, h1]) (odd_plain h9 ha (len_oct _) (item_oct _) _)
    · rename_i ids
      cases ids with
      | none =>
        refine odd (e := none) (by simp [Mem.notBindings, h1]) ?_
        have ht : ∀ h', Kept h.length h h' → truth program cfg (.ref p) h' = okR false h' ∧ len program cfg (.ref p) h' = okR (.int 0) h' := by
          intro h' k
          have ha' := k.get ha h9 (lt_of_get ha)
          have := run_oidLen0 (cfg := cfg) ha' hs
          exact ⟨by runs [ha', this], by runs [ha', this]⟩
        cases v2 with
        | true => exact .false2 ht
        | false => exact .false1 fun h' k => (ht h' k).1
      | some ids =>
        obtain ⟨b, f1, f2, f3, f4⟩ := hs
        refine even (rs := ids.map Ref.int) (by cases ids <;> simp [Mem.notBindings, h1]) (items_oid h9 ha f1 (by omega) f4) (all_int ids) fun q hq => ?_
        obtain ⟨_, _, rfl⟩ := List.mem_map.1 hq
        rfl
    · exact odd (e := some .typeError) (by simp [Mem.notBindings, h1]) (odd_plain h9 ha (len_null _) (item_null _) _)
    · obtain ⟨b, f1, f2⟩ := hs
      obtain ⟨rs, e2⟩ := lists_some L f1
      simp only [Mem.items, h1, e2] at hi
      cases hi

/-- `VarBindList(x)`, whatever `x` is. -/
theorem make_vbl_any (hl : Limits cfg) (H : Lies φ m h) {c : SeqCls} (hc : c = .varBindList ∨ c = .varBindList2) {r : Ref} {x : V} (hr : RefAt φ r x) :
    Comes φ h (call program cfg (.cls (cid (.seq c))) [x] h) (m.mkVarBindList c r) := by
  cases hi : m.items r with
  | some rs => exact make_vbl hl H hc hr hi
  | none =>
    rw [Mem.mkVarBindList, hi]
    dsimp only
    rcases not_bindings (cfg := cfg) H hr hi ((Cls.seq c).isSubclass (.seq .varBindList2)) with O | ⟨rs, xs, he, I, hf, hn⟩
    · have := make_vbl_odd H hc O
      generalize m.notBindings ((Cls.seq c).isSubclass (.seq .varBindList2)) r = e at *
      cases e <;> exact this
    · rw [he]
      have := make_vbl_none (cfg := cfg) hl H hc I hf hn
      cases rs with
      | nil => rw [List.isEmpty_nil, if_pos rfl] at this ⊢; exact this
      | cons y ys => rw [List.isEmpty_cons, if_neg (by simp)] at this ⊢; exact this

end Libsnmp.Src
