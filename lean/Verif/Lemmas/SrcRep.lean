import Verif.Lemmas.SrcOid

/-!
# Values of the model and objects in the heap
-/

namespace Libsnmp.Src
open Libsnmp

/-! ## The objects that exist from the start -/

theorem base_statics : Base statics :=
  ⟨.inl rfl, ⟨_, rfl⟩, rfl, rfl, rfl, rfl, rfl, rfl⟩

theorem Base.long {h : Heap} (hb : Base h) : 9 ≤ h.length := lt_of_get hb.list8

theorem Base.congr {h h' : Heap} (hb : Base h) (he : ∀ b, b < 9 → h'[b]? = h[b]?) : Base h' where
  strings := by rw [he 1 (by omega)]; exact hb.strings
  numbers := by rw [he 2 (by omega)]; exact hb.numbers
  traps := by rw [he 5 (by omega)]; exact hb.traps
  list3 := by rw [he 3 (by omega)]; exact hb.list3
  list4 := by rw [he 4 (by omega)]; exact hb.list4
  list6 := by rw [he 6 (by omega)]; exact hb.list6
  list7 := by rw [he 7 (by omega)]; exact hb.list7
  list8 := by rw [he 8 (by omega)]; exact hb.list8

theorem Kept.refl {h : Heap} (hb : Base h) (n : Nat) : Kept n h h := ⟨hb, Nat.le_refl _, fun _ _ _ => rfl, .inl rfl⟩

theorem Kept.trans {n : Nat} {h h' h'' : Heap} (h1 : Kept n h h') (h2 : Kept n h' h'') : Kept n h h'' :=
  ⟨h2.base, Nat.le_trans h1.len h2.len, fun b h9 hb => (h2.same b h9 hb).trans (h1.same b h9 hb), by
    rcases h2.texts with e | e
    · rw [e]; exact h1.texts
    · exact .inr e⟩

theorem Kept.mono {n m : Nat} {h h' : Heap} (h1 : Kept n h h') (hm : m ≤ n) : Kept m h h' :=
  ⟨h1.base, h1.len, fun b h9 hb => h1.same b h9 (Nat.lt_of_lt_of_le hb hm), h1.texts⟩

theorem Kept.get {n : Nat} {h h' : Heap} (h1 : Kept n h h') {b : Nat} {c : Cell} (hc : h[b]? = some c) (h9 : 9 ≤ b)
    (hb : b < n) : h'[b]? = some c := by rw [h1.same b h9 hb, hc]

theorem Kept.app {h : Heap} (hb : Base h) (t : Heap) : Kept h.length h (h ++ t) where
  base := hb.congr fun b h9 => List.getElem?_append_left (Nat.lt_of_lt_of_le h9 hb.long)
  len := by simp
  same := fun b _ hl => List.getElem?_append_left hl
  texts := .inl (List.getElem?_append_left (Nat.lt_of_lt_of_le (by decide) hb.long))

theorem Kept.set {h : Heap} (hb : Base h) {a n : Nat} (h9 : 9 ≤ a) (hn : n ≤ a) (c : Cell) : Kept n h (h.set a c) where
  base := hb.congr fun b h9 => List.getElem?_set_ne (by omega)
  len := by simp
  same := fun b _ hl => List.getElem?_set_ne (by omega)
  texts := .inl (List.getElem?_set_ne (by omega))

theorem Kept.set' {n : Nat} {h h' : Heap} (h1 : Kept n h h') {a : Nat} (h9 : 9 ≤ a) (hn : n ≤ a) (c : Cell) :
    Kept n h (h'.set a c) := h1.trans (Kept.set h1.base h9 hn c)

theorem Kept.app' {n : Nat} {h h' : Heap} (h1 : Kept n h h') (t : Heap) (hn : n ≤ h'.length) : Kept n h (h' ++ t) :=
  h1.trans ((Kept.app h1.base t).mono hn)

/-! ## Representation -/

theorem Plain.none {attrs : List (String × V)} (hp : Plain attrs) {a : String} (ha : a ∉ dataNames := by decide) :
    attrs.lookup a = none := by
  induction attrs with
  | nil => rfl
  | cons p ps ih =>
    rw [List.lookup_cons]
    have h1 : p.1 ∈ dataNames := hp p List.mem_cons_self
    have : (a == p.1) = false := by
      rw [beq_eq_false_iff_ne]
      rintro rfl
      exact ha h1
    rw [this]
    exact ih fun q hq => hp q (List.mem_cons_of_mem _ hq)

mutual
theorem Rep.congr {lo lo' : Nat} {h h' : Heap} (hlo : lo' ≤ lo) (he : ∀ b c, lo ≤ b → h[b]? = some c → h'[b]? = some c) :
    ∀ (v : Val) (x : V), Rep lo h v x → Rep lo' h' v x
  | .none, _, r => by rw [Rep] at r ⊢; exact r
  | .int _, _, r => by rw [Rep] at r ⊢; exact r
  | .str _, _, r => by rw [Rep] at r ⊢; exact r
  | .bytes _, _, r => by rw [Rep] at r; exact r.elim
  | .raw _ _, _, r => by rw [Rep] at r; exact r.elim
  | .integer c n, x, r => by
    rw [Rep] at r ⊢
    obtain ⟨a, attrs, hx, hl, ha, hr⟩ := r
    exact ⟨a, attrs, hx, Nat.le_trans hlo hl, he _ _ hl ha, hr⟩
  | .octets c n, x, r => by
    rw [Rep] at r ⊢
    obtain ⟨a, attrs, hx, hl, ha, hr⟩ := r
    exact ⟨a, attrs, hx, Nat.le_trans hlo hl, he _ _ hl ha, hr⟩
  | .oid none, x, r => by
    rw [Rep] at r ⊢
    obtain ⟨a, attrs, hx, hl, ha, hr⟩ := r
    exact ⟨a, attrs, hx, Nat.le_trans hlo hl, he _ _ hl ha, hr⟩
  | .oid (some ids), x, r => by
    rw [Rep] at r ⊢
    obtain ⟨a, attrs, b, hx, hl, ha, hp, hv, hb, hr⟩ := r
    exact ⟨a, attrs, b, hx, Nat.le_trans hlo hl, he _ _ hl ha, hp, hv, Nat.le_trans hlo hb, he _ _ hb hr⟩
  | .null c, x, r => by
    rw [Rep] at r ⊢
    obtain ⟨a, attrs, hx, hl, ha, hr⟩ := r
    exact ⟨a, attrs, hx, Nat.le_trans hlo hl, he _ _ hl ha, hr⟩
  | .seq c items, x, r => by
    rw [Rep] at r ⊢
    obtain ⟨a, attrs, b, l, hx, hl, ha, hp, hv, hb, hr, hf, hi⟩ := r
    exact ⟨a, attrs, b, l, hx, Nat.le_trans hlo hl, he _ _ hl ha, hp, hv, Nat.le_trans hlo hb, he _ _ hb hr, hf,
      RepAll.congr hlo he items l hi⟩
theorem RepAll.congr {lo lo' : Nat} {h h' : Heap} (hlo : lo' ≤ lo) (he : ∀ b c, lo ≤ b → h[b]? = some c → h'[b]? = some c) :
    ∀ (vs : List Val) (l : List V), RepAll lo h vs l → RepAll lo' h' vs l
  | [], _, r => by rw [RepAll] at r ⊢; exact r
  | v :: vs, _, r => by
    rw [RepAll] at r ⊢
    obtain ⟨x, xs, hx, r1, r2⟩ := r
    exact ⟨x, xs, hx, Rep.congr hlo he v x r1, RepAll.congr hlo he vs xs r2⟩
end

/-- The object is still there after other code has run. -/
theorem Rep.kept {lo lo' n : Nat} {h h' : Heap} {v : Val} {x : V} (r : Rep lo h v x) (hk : Kept n h h') (hn : h.length ≤ n)
    (h9 : 9 ≤ lo) (hlo : lo' ≤ lo) : Rep lo' h' v x :=
  Rep.congr hlo (fun b c hb hc => by
    rw [hk.same b (by omega) (Nat.lt_of_lt_of_le (lt_of_get hc) hn), hc]) v x r

theorem RepAll.kept {lo lo' n : Nat} {h h' : Heap} {v : List Val} {x : List V} (r : RepAll lo h v x) (hk : Kept n h h')
    (hn : h.length ≤ n) (h9 : 9 ≤ lo) (hlo : lo' ≤ lo) : RepAll lo' h' v x :=
  RepAll.congr hlo (fun b c hb hc => by
    rw [hk.same b (by omega) (Nat.lt_of_lt_of_le (lt_of_get hc) hn), hc]) v x r

theorem RepAll.append {lo : Nat} {h : Heap} {vs ws : List Val} {l m : List V} (r : RepAll lo h vs l) (s : RepAll lo h ws m) :
    RepAll lo h (vs ++ ws) (l ++ m) := by
  induction vs generalizing l with
  | nil => rw [RepAll] at r; subst r; exact s
  | cons v vs ih =>
    rw [RepAll] at r
    obtain ⟨x, xs, rfl, r1, r2⟩ := r
    rw [List.cons_append, List.cons_append, RepAll]
    exact ⟨x, xs ++ m, rfl, r1, ih r2⟩

theorem RepAll.length {lo : Nat} {h : Heap} {vs : List Val} {l : List V} (r : RepAll lo h vs l) : l.length = vs.length := by
  induction vs generalizing l with
  | nil => rw [RepAll] at r; subst r; rfl
  | cons v vs ih =>
    rw [RepAll] at r
    obtain ⟨x, xs, rfl, _, r2⟩ := r
    rw [List.length_cons, List.length_cons, ih r2]

theorem RepAll.get {lo : Nat} {h : Heap} {vs : List Val} {l : List V} (r : RepAll lo h vs l) {i : Nat} {v : Val}
    (hv : vs[i]? = some v) : ∃ x, l[i]? = some x ∧ Rep lo h v x := by
  induction vs generalizing l i with
  | nil => simp at hv
  | cons w vs ih =>
    rw [RepAll] at r
    obtain ⟨x, xs, rfl, r1, r2⟩ := r
    cases i with
    | zero =>
      simp only [List.getElem?_cons_zero, Option.some.injEq] at hv ⊢
      subst hv
      exact ⟨x, rfl, r1⟩
    | succ i => exact ih r2 hv

/-- A method that no attribute of the object hides. -/
theorem callMethod_eq {cfg : Cfg} {h : Heap} {a : Nat} {c : CId} {attrs : List (String × V)} {name : String} {m : Module} {l : Nat}
    (ha : h[a]? = some (.inst c attrs)) (hp : Plain attrs) (hm : program.attr c name = some (.func m l)) (args : List V)
    (hn : name ∉ dataNames := by decide) (hc : name ≠ "__class__" := by decide) :
    callMethod cfg (.ref a) name args h = call program cfg (.func m l) (.ref a :: args) h := by
  unfold callMethod
  simp only [getattr, ha, hp.none hn, hc, hm, if_false]
  runs

end Libsnmp.Src
