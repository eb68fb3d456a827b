import Verif.Lemmas.Graph

/-!
# What a program can reach, and so what it can change
-/

namespace Libsnmp

/-- A reference into the region. -/
def Ref.within (P Q : Nat → Prop) : Ref → Prop
  | .obj a => P a
  | .list l => Q l
  | _ => True

/-- The `value` of an object suits its class. -/
def SlotOK (c : Cls) (v : Slot) : Prop :=
  match c with
  | .int _ => ∃ n, v = .num n
  | .seq _ => ∃ l, v = .items l
  | .oid => ∃ l, v = .ids l
  | .null _ => v = .nothing
  | .oct _ => (∃ s, v = .text s) ∨ ∃ l, v = .addr l
  | .asn1Object => True

/-- A node all of whose references stay in the region. -/
structure NodeIn (P Q : Nat → Prop) (o : Node) : Prop where
  attrs : ∀ f x, o.attrs f = some x → x.within P Q
  items : ∀ l, o.value = .items l → Q l
  slot : SlotOK o.cls o.value

/-- A set of objects and lists closed under following references. -/
structure Region (m : Mem) (P Q : Nat → Prop) : Prop where
  objs : ∀ a, P a → ∃ o, m.objs[a]? = some o ∧ NodeIn P Q o
  lists : ∀ l, Q l → ∃ xs, m.lists[l]? = some xs ∧ ∀ x ∈ xs, x.within P Q

theorem Ref.within.mono {P Q P' Q' : Nat → Prop} (hP : ∀ a, P a → P' a) (hQ : ∀ l, Q l → Q' l) {r : Ref}
    (h : r.within P Q) : r.within P' Q' := by
  cases r <;> first | trivial | exact hP _ h | exact hQ _ h

theorem NodeIn.mono {P Q P' Q' : Nat → Prop} (hP : ∀ a, P a → P' a) (hQ : ∀ l, Q l → Q' l) {o : Node}
    (h : NodeIn P Q o) : NodeIn P' Q' o :=
  ⟨fun f x hx => (h.attrs f x hx).mono hP hQ, fun l hl => hQ l (h.items l hl), h.slot⟩

/-- Memory `m` with region `P`, `Q` may become `m'` with region `P'`, `Q'`: the region only grows by new addresses, and
nothing outside it changes (but for the `value` of Messages, which `encode()` does not read). -/
structure Flow (m : Mem) (P Q : Nat → Prop) (m' : Mem) (P' Q' : Nat → Prop) : Prop where
  region : Region m' P' Q'
  subP : ∀ a, P a → P' a
  subQ : ∀ l, Q l → Q' l
  newP : ∀ a, P' a → P a ∨ m.objs.length ≤ a
  newQ : ∀ l, Q' l → Q l ∨ m.lists.length ≤ l
  keepO : ∀ (a : Nat) (o : Node), ¬ P a → m.objs[a]? = some o → ∃ o', m'.objs[a]? = some o' ∧ Same o o'
  keepL : ∀ (l : Nat) (xs : List Ref), ¬ Q l → m.lists[l]? = some xs → m'.lists[l]? = some xs
  cls : ∀ (a : Nat) (o : Node), m.objs[a]? = some o → ∃ o', m'.objs[a]? = some o' ∧ o'.cls = o.cls
  len : m.lists.length ≤ m'.lists.length

theorem Flow.lenO {m m' : Mem} {P Q P' Q' : Nat → Prop} (h : Flow m P Q m' P' Q') :
    m.objs.length ≤ m'.objs.length := by
  cases hn : m.objs.length with
  | zero => omega
  | succ n =>
    have hx : m.objs[n]? = some (m.objs[n]'(by omega)) := List.getElem?_eq_getElem (by omega)
    obtain ⟨o', ho', _⟩ := h.cls n _ hx
    have := (List.getElem?_eq_some_iff.mp ho').1
    omega

theorem Flow.refl {m : Mem} {P Q : Nat → Prop} (h : Region m P Q) : Flow m P Q m P Q :=
  ⟨h, fun _ h => h, fun _ h => h, fun _ h => Or.inl h, fun _ h => Or.inl h, fun _ o _ h => ⟨o, h, Same.refl o⟩,
    fun _ _ _ h => h, fun _ o h => ⟨o, h, rfl⟩, Nat.le_refl _⟩

theorem Flow.trans {m1 m2 m3 : Mem} {P1 Q1 P2 Q2 P3 Q3 : Nat → Prop} (h : Flow m1 P1 Q1 m2 P2 Q2)
    (k : Flow m2 P2 Q2 m3 P3 Q3) : Flow m1 P1 Q1 m3 P3 Q3 := by
  have h1 := h.lenO
  have h2 := h.len
  refine ⟨k.region, fun a ha => k.subP a (h.subP a ha), fun l hl => k.subQ l (h.subQ l hl), fun a ha => ?_,
    fun l hl => ?_, fun a o hn ho => ?_, fun l xs hn hl => ?_, fun a o ho => ?_, Nat.le_trans h.len k.len⟩
  · rcases k.newP a ha with h' | h'
    · exact h.newP a h'
    · right; omega
  · rcases k.newQ l hl with h' | h'
    · exact h.newQ l h'
    · right; omega
  · obtain ⟨o1, ho1, s1⟩ := h.keepO a o hn ho
    obtain ⟨o2, ho2, s2⟩ := k.keepO a o1 (fun hp => by
      have := (List.getElem?_eq_some_iff.mp ho).1
      rcases h.newP a hp with h' | h'
      · exact hn h'
      · omega) ho1
    exact ⟨o2, ho2, s1.trans s2⟩
  · refine k.keepL l xs (fun hq => ?_) (h.keepL l xs hn hl)
    have := (List.getElem?_eq_some_iff.mp hl).1
    rcases h.newQ l hq with h' | h'
    · exact hn h'
    · omega
  · obtain ⟨o1, ho1, s1⟩ := h.cls a o ho
    obtain ⟨o2, ho2, s2⟩ := k.cls a o1 ho1
    exact ⟨o2, ho2, s2.trans s1⟩

/-! ## Building blocks -/

theorem newNode_old {m : Mem} (o : Node) {a : Nat} {x : Node} (h : m.objs[a]? = some x) :
    (m.newNode o).1.objs[a]? = some x := by
  have := (List.getElem?_eq_some_iff.mp h).1
  simp only [Mem.newNode]
  rw [List.getElem?_append_left this]; exact h

theorem newNode_new (m : Mem) (o : Node) : (m.newNode o).1.objs[m.objs.length]? = some o := by
  simp [Mem.newNode]

theorem newList_old {m : Mem} (l : List Ref) {a : Nat} {x : List Ref} (h : m.lists[a]? = some x) :
    (m.newList l).1.lists[a]? = some x := by
  have := (List.getElem?_eq_some_iff.mp h).1
  simp only [Mem.newList]
  rw [List.getElem?_append_left this]; exact h

theorem newList_new (m : Mem) (l : List Ref) : (m.newList l).1.lists[m.lists.length]? = some l := by
  simp [Mem.newList]

/-- A new object that the program cannot reach (yet). -/
theorem Flow.privateNode {m : Mem} {P Q : Nat → Prop} (h : Region m P Q) (o : Node) :
    Flow m P Q (m.newNode o).1 P Q := by
  refine ⟨⟨fun a ha => ?_, fun l hl => h.lists l hl⟩, fun _ h => h, fun _ h => h, fun _ h => Or.inl h, fun _ h => Or.inl h,
    fun a x _ hx => ⟨x, newNode_old o hx, Same.refl x⟩, fun _ _ _ h => h, fun a x hx => ⟨x, newNode_old o hx, rfl⟩,
    Nat.le_refl _⟩
  obtain ⟨x, hx, hin⟩ := h.objs a ha
  exact ⟨x, newNode_old o hx, hin⟩

theorem Flow.privateList {m : Mem} {P Q : Nat → Prop} (h : Region m P Q) (xs : List Ref) :
    Flow m P Q (m.newList xs).1 P Q := by
  refine ⟨⟨fun a ha => h.objs a ha, fun l hl => ?_⟩, fun _ h => h, fun _ h => h, fun _ h => Or.inl h, fun _ h => Or.inl h,
    fun a x _ hx => ⟨x, hx, Same.refl x⟩, fun l ys _ h => newList_old xs h, fun a x hx => ⟨x, hx, rfl⟩, ?_⟩
  · obtain ⟨ys, hy, hin⟩ := h.lists l hl
    exact ⟨ys, newList_old xs hy, hin⟩
  · simp [Mem.newList]

/-- The program is given an object that existed outside its region, all of whose references are in the region. -/
theorem Flow.reveal {m : Mem} {P Q : Nat → Prop} {m' : Mem} (h : Flow m P Q m' P Q) {a : Nat} {o : Node}
    (ha : m.objs.length ≤ a) (ho : m'.objs[a]? = some o) (hin : NodeIn P Q o) :
    Flow m P Q m' (fun x => P x ∨ x = a) Q := by
  have hP : ∀ x, P x → (P x ∨ x = a) := fun _ h => Or.inl h
  refine ⟨⟨fun x hx => ?_, fun l hl => ?_⟩, hP, fun _ h => h, fun x hx => ?_, fun _ h => Or.inl h,
    fun x y hn hy => h.keepO x y (fun hp => hn hp) hy, h.keepL, h.cls, h.len⟩
  · rcases hx with hx | rfl
    · obtain ⟨y, hy, hyin⟩ := h.region.objs x hx
      exact ⟨y, hy, hyin.mono hP fun _ h => h⟩
    · exact ⟨o, ho, hin.mono hP fun _ h => h⟩
  · obtain ⟨xs, hxs, hin'⟩ := h.region.lists l hl
    exact ⟨xs, hxs, fun x hx => (hin' x hx).mono hP fun _ h => h⟩
  · rcases hx with hx | rfl
    · exact Or.inl hx
    · exact Or.inr ha

/-- A new object in the region. -/
theorem Flow.node {m : Mem} {P Q : Nat → Prop} (h : Region m P Q) {o : Node} (ho : NodeIn P Q o) :
    Flow m P Q (m.newNode o).1 (fun x => P x ∨ x = m.objs.length) Q :=
  (Flow.privateNode h o).reveal (Nat.le_refl _) (newNode_new m o) ho

/-- A new list in the region. -/
theorem Flow.list {m : Mem} {P Q : Nat → Prop} (h : Region m P Q) {xs : List Ref} (hx : ∀ x ∈ xs, x.within P Q) :
    Flow m P Q (m.newList xs).1 P (fun l => Q l ∨ l = m.lists.length) := by
  have hQ : ∀ x, Q x → (Q x ∨ x = m.lists.length) := fun _ h => Or.inl h
  have s := Flow.privateList h xs
  refine ⟨⟨fun a ha => ?_, fun l hl => ?_⟩, fun _ h => h, hQ, fun _ h => Or.inl h, fun l hl => ?_, s.keepO, fun l ys hn hy =>
    newList_old xs hy, s.cls, s.len⟩
  · obtain ⟨y, hy, hyin⟩ := h.objs a ha
    exact ⟨y, hy, hyin.mono (fun _ h => h) hQ⟩
  · rcases hl with hl | rfl
    · obtain ⟨ys, hys, hin'⟩ := s.region.lists l hl
      exact ⟨ys, hys, fun x hx => (hin' x hx).mono (fun _ h => h) hQ⟩
    · exact ⟨xs, newList_new m xs, fun x h => (hx x h).mono (fun _ h => h) hQ⟩
  · rcases hl with hl | rfl
    · exact Or.inl hl
    · exact Or.inr (Nat.le_refl _)

/-- Changing an object of the region, keeping its class and staying in the region. -/
theorem Flow.update {m : Mem} {P Q : Nat → Prop} (h : Region m P Q) {a : Nat} (ha : P a) {f : Node → Node}
    (hc : ∀ o, (f o).cls = o.cls) (hf : ∀ o, m.objs[a]? = some o → NodeIn P Q o → NodeIn P Q (f o)) :
    Flow m P Q (m.update a f) P Q := by
  refine ⟨⟨fun x hx => ?_, h.lists⟩, fun _ h => h, fun _ h => h, fun _ h => Or.inl h, fun _ h => Or.inl h,
    fun x o hn ho => ⟨o, ?_, Same.refl o⟩, fun _ _ _ h => h, fun x o ho => ?_, Nat.le_refl _⟩
  · obtain ⟨o, ho, hin⟩ := h.objs x hx
    by_cases e : a = x
    · subst e
      exact ⟨f o, by rw [update_objs_eq, ho]; rfl, hf o ho hin⟩
    · exact ⟨o, by rw [update_objs_ne _ _ e]; exact ho, hin⟩
  · have : a ≠ x := fun e => hn (e ▸ ha)
    rw [update_objs_ne _ _ this]; exact ho
  · by_cases e : a = x
    · subst e
      exact ⟨f o, by rw [update_objs_eq, ho]; rfl, hc o⟩
    · exact ⟨o, by rw [update_objs_ne _ _ e]; exact ho, rfl⟩

/-- Changing a list of the region. -/
theorem Flow.setList {m : Mem} {P Q : Nat → Prop} (h : Region m P Q) {l : Nat} (hl : Q l) {xs : List Ref}
    (hx : ∀ x ∈ xs, x.within P Q) : Flow m P Q (m.setList l xs) P Q := by
  refine ⟨⟨h.objs, fun k hk => ?_⟩, fun _ h => h, fun _ h => h, fun _ h => Or.inl h, fun _ h => Or.inl h,
    fun x o hn ho => ⟨o, ho, Same.refl o⟩, fun k ys hn hy => ?_, fun x o ho => ⟨o, ho, rfl⟩, by simp [Mem.setList]⟩
  · obtain ⟨ys, hys, hin⟩ := h.lists k hk
    by_cases e : l = k
    · subst e
      have := (List.getElem?_eq_some_iff.mp hys).1
      exact ⟨xs, by simp [Mem.setList, this], hx⟩
    · exact ⟨ys, by simp only [Mem.setList]; rw [List.getElem?_set_ne e]; exact hys, hin⟩
  · have : l ≠ k := fun e => hn (e ▸ hl)
    simp only [Mem.setList]; rw [List.getElem?_set_ne this]; exact hy

theorem NodeIn.setAttr {P Q : Nat → Prop} {o : Node} (h : NodeIn P Q o) (f : Attr) {x : Ref} (hx : x.within P Q) :
    NodeIn P Q { o with attrs := fun g => if g = f then some x else o.attrs g } := by
  refine ⟨fun g y hy => ?_, h.items, h.slot⟩
  simp only at hy
  split at hy
  · cases hy; exact hx
  · exact h.attrs g y hy

/-- `encode()` of anything, whoever calls it. -/
theorem Flow.loadMessage {m : Mem} {P Q : Nat → Prop} (h : Region m P Q) {a : Nat} {o : Node} (ho : m.objs[a]? = some o)
    (hm : o.cls.isMessage = true) : ∃ Q', Flow m P Q (m.loadMessage a o).1 P Q' := by
  unfold Mem.loadMessage
  split
  · next v c d h1 h2 h3 =>
    have hsl : ∀ l, SlotOK o.cls (.items l) := by
      intro l
      cases hc : o.cls <;> rw [hc] at hm <;> simp [Cls.isMessage] at hm
      exact ⟨l, rfl⟩
    by_cases hp : P a
    · obtain ⟨o1, ho1, hin⟩ := h.objs a hp
      rw [ho] at ho1; cases ho1
      have s1 := Flow.list h (xs := [v, c, d]) (by
        intro x hx
        simp only [List.mem_cons, List.not_mem_nil, or_false] at hx
        rcases hx with rfl | rfl | rfl
        · exact hin.attrs _ _ h1
        · exact hin.attrs _ _ h2
        · exact hin.attrs _ _ h3)
      refine ⟨_, s1.trans (Flow.update s1.region hp (f := fun o => { o with value := .items m.lists.length })
        (fun _ => rfl) ?_)⟩
      intro o' ho' hin'
      have : o' = o := by
        have e : (m.newList [v, c, d]).1.objs[a]? = m.objs[a]? := rfl
        rw [e, ho] at ho'; cases ho'; rfl
      subst this
      refine ⟨hin'.attrs, fun l hl => ?_, hsl _⟩
      simp only [Slot.items.injEq] at hl
      exact Or.inr hl.symm
    · have s1 := Flow.privateList h [v, c, d]
      refine ⟨Q, ⟨⟨fun x hx => ?_, s1.region.lists⟩, fun _ h => h, fun _ h => h, fun _ h => Or.inl h, fun _ h => Or.inl h,
        fun x y hn hy => ?_, s1.keepL, fun x y hy => ?_, s1.len⟩⟩
      · obtain ⟨y, hy, hin⟩ := s1.region.objs x hx
        have e : a ≠ x := fun e => hp (e ▸ hx)
        exact ⟨y, by simp only; rw [setValue_ne _ _ e]; exact hy, hin⟩
      · by_cases e : a = x
        · subst e
          rw [ho] at hy; cases hy
          refine ⟨{ o with value := .items m.lists.length }, ?_, rfl, rfl, fun hf => by rw [hm] at hf; cases hf⟩
          simp only
          rw [setValue_eq]
          show Option.map _ m.objs[a]? = _
          rw [ho]; rfl
        · exact ⟨y, by simp only; rw [setValue_ne _ _ e]; exact hy, Same.refl y⟩
      · by_cases e : a = x
        · subst e
          rw [ho] at hy; cases hy
          refine ⟨{ o with value := .items m.lists.length }, ?_, rfl⟩
          simp only
          rw [setValue_eq]
          show Option.map _ m.objs[a]? = _
          rw [ho]; rfl
        · exact ⟨y, by simp only; rw [setValue_ne _ _ e]; exact hy, rfl⟩
  · exact ⟨Q, Flow.refl h⟩

theorem Flow.encodeRefs {enc : Mem → Ref → Mem × Except Exc Str} {P : Nat → Prop}
    (henc : ∀ (m : Mem) (Q : Nat → Prop) (r : Ref), Region m P Q → ∃ Q', Flow m P Q (enc m r).1 P Q') {m : Mem}
    {Q : Nat → Prop} (h : Region m P Q) (l : List Ref) : ∃ Q', Flow m P Q (encodeRefs enc m l).1 P Q' := by
  induction l generalizing m Q with
  | nil => exact ⟨Q, Flow.refl h⟩
  | cons r rs ih =>
    obtain ⟨Q1, s1⟩ := henc m Q r h
    obtain ⟨Q2, s2⟩ := ih s1.region
    unfold Libsnmp.encodeRefs
    generalize hx : enc m r = x at *
    rcases x with ⟨m1, e | s⟩
    · exact ⟨Q1, s1⟩
    · simp only at s1 s2 ⊢
      generalize hy : Libsnmp.encodeRefs enc m1 rs = y at *
      rcases y with ⟨m2, e | t⟩
      · exact ⟨Q2, s1.trans s2⟩
      · exact ⟨Q2, s1.trans s2⟩

theorem Flow.encode (d : Nat) {m : Mem} {P Q : Nat → Prop} (h : Region m P Q) (r : Ref) :
    ∃ Q', Flow m P Q (gEncode d m r).1 P Q' := by
  induction d generalizing m Q r with
  | zero => cases r <;> exact ⟨Q, Flow.refl h⟩
  | succ d ih =>
    cases r with
    | obj a =>
      rw [gEncode]
      split
      · exact ⟨Q, Flow.refl h⟩
      · next o ho =>
        split
        · split <;> exact ⟨Q, Flow.refl h⟩
        · split <;> exact ⟨Q, Flow.refl h⟩
        · split
          · split <;> exact ⟨Q, Flow.refl h⟩
          · exact ⟨Q, Flow.refl h⟩
        · exact ⟨Q, Flow.refl h⟩
        · exact ⟨Q, Flow.refl h⟩
        · next c hc =>
          split
          · next hm =>
            obtain ⟨Q1, s1⟩ := Flow.loadMessage h ho (by rw [hc]; exact hm)
            generalize m.loadMessage a o = x at *
            rcases x with ⟨m1, e | l⟩
            · exact ⟨Q1, s1⟩
            · simp only [finishTlv_fst]
              obtain ⟨Q2, s2⟩ := Flow.encodeRefs (fun m Q r h => ih h r) s1.region l
              exact ⟨Q2, s1.trans s2⟩
          · split
            · simp only [finishTlv_fst]
              exact Flow.encodeRefs (fun m Q r h => ih h r) h _
            · exact ⟨Q, Flow.refl h⟩
    | _ => exact ⟨Q, Flow.refl h⟩

end Libsnmp
