import Verif.Lemmas.Region

/-!
# Every operation of a program stays within what the program can reach
-/

namespace Libsnmp

/-- `m'` is `m` with new objects and lists added. -/
structure Grown (m m' : Mem) : Prop where
  objs : ∃ s, m'.objs = m.objs ++ s
  lists : ∃ s, m'.lists = m.lists ++ s

theorem Grown.refl (m : Mem) : Grown m m := ⟨⟨[], by simp⟩, ⟨[], by simp⟩⟩

theorem Grown.trans {a b c : Mem} (h : Grown a b) (k : Grown b c) : Grown a c := by
  obtain ⟨⟨s1, h1⟩, ⟨t1, g1⟩⟩ := h
  obtain ⟨⟨s2, h2⟩, ⟨t2, g2⟩⟩ := k
  exact ⟨⟨s1 ++ s2, by rw [h2, h1, List.append_assoc]⟩, ⟨t1 ++ t2, by rw [g2, g1, List.append_assoc]⟩⟩

theorem Grown.newNode (m : Mem) (o : Node) : Grown m (m.newNode o).1 := ⟨⟨[o], rfl⟩, ⟨[], by simp [Mem.newNode]⟩⟩

theorem Grown.newList (m : Mem) (l : List Ref) : Grown m (m.newList l).1 := ⟨⟨[], by simp [Mem.newList]⟩, ⟨[l], rfl⟩⟩

theorem Grown.newSeq (m : Mem) (c : SeqCls) (l : List Ref) : Grown m (m.newSeq c l).1 :=
  (Grown.newList m l).trans (Grown.newNode _ _)

theorem Grown.obj {m m' : Mem} (h : Grown m m') {a : Nat} {o : Node} (ho : m.objs[a]? = some o) :
    m'.objs[a]? = some o := by
  obtain ⟨⟨s, hs⟩, _⟩ := h
  rw [hs, List.getElem?_append_left (List.getElem?_eq_some_iff.mp ho).1]; exact ho

theorem Grown.list {m m' : Mem} (h : Grown m m') {a : Nat} {o : List Ref} (ho : m.lists[a]? = some o) :
    m'.lists[a]? = some o := by
  obtain ⟨_, ⟨s, hs⟩⟩ := h
  rw [hs, List.getElem?_append_left (List.getElem?_eq_some_iff.mp ho).1]; exact ho

theorem Grown.len {m m' : Mem} (h : Grown m m') : m.objs.length ≤ m'.objs.length ∧ m.lists.length ≤ m'.lists.length := by
  obtain ⟨⟨s, hs⟩, ⟨t, ht⟩⟩ := h
  rw [hs, ht]; simp

/-- New objects the program does not know leave it where it was. -/
theorem Grown.flow {m m' : Mem} (g : Grown m m') {P Q : Nat → Prop} (h : Region m P Q) : Flow m P Q m' P Q := by
  refine ⟨⟨fun a ha => ?_, fun l hl => ?_⟩, fun _ h => h, fun _ h => h, fun _ h => Or.inl h, fun _ h => Or.inl h,
    fun a x _ hx => ⟨x, g.obj hx, Same.refl x⟩, fun _ _ _ h => g.list h, fun a x hx => ⟨x, g.obj hx, rfl⟩, g.len.2⟩
  · obtain ⟨x, hx, hin⟩ := h.objs a ha
    exact ⟨x, g.obj hx, hin⟩
  · obtain ⟨x, hx, hin⟩ := h.lists l hl
    exact ⟨x, g.list hx, hin⟩

theorem Grown.mkInteger (m : Mem) (c : IntCls) (n : Int) : Grown m (m.mkInteger c n).1 := by
  unfold Mem.mkInteger
  split
  · exact Grown.newNode m _
  · exact Grown.refl m

theorem Grown.mkVarBind (m : Mem) (c : SeqCls) (r s : Ref) : Grown m (m.mkVarBind c r s).1 := by
  unfold Mem.mkVarBind
  split
  · exact Grown.refl m
  · split
    · exact Grown.refl m
    · exact Grown.newSeq m _ _

theorem Grown.mkVarBindList (m : Mem) (c : SeqCls) (r : Ref) : Grown m (m.mkVarBindList c r).1 := by
  unfold Mem.mkVarBindList
  split
  · split
    · exact Grown.refl m
    · exact Grown.newSeq m _ _
  · split
    · exact Grown.refl m
    · split
      · exact Grown.newSeq m _ _
      · exact Grown.refl m

/-- What a successful PDU constructor did. -/
theorem gPDU_ok {m m' : Mem} {c : SeqCls} {a b d : Int} {v r : Ref} (h : m.mkPDU c a b d v = (m', .ok r)) :
    ∃ m1 m2 m3 m4 r1 r2 r3 r4,
      m.mkInteger (pduParts c).1 a = (m1, .ok r1) ∧ m1.mkInteger (pduParts c).2.1 b = (m2, .ok r2) ∧
      m2.mkInteger (pduParts c).2.2.1 d = (m3, .ok r3) ∧ m3.mkVarBindList (pduParts c).2.2.2 v = (m4, .ok r4) ∧
      m4.newSeq c [r1, r2, r3, r4] = (m', r) := by
  unfold Mem.mkPDU at h
  simp only at h
  cases h1 : m.mkInteger (pduParts c).1 a with
  | mk m1 x1 =>
    rw [h1] at h
    cases x1 with
    | error e => simp at h
    | ok r1 =>
      simp only at h
      cases h2 : m1.mkInteger (pduParts c).2.1 b with
      | mk m2 x2 =>
        rw [h2] at h
        cases x2 with
        | error e => simp at h
        | ok r2 =>
          simp only at h
          cases h3 : m2.mkInteger (pduParts c).2.2.1 d with
          | mk m3 x3 =>
            rw [h3] at h
            cases x3 with
            | error e => simp at h
            | ok r3 =>
              simp only at h
              cases h4 : m3.mkVarBindList (pduParts c).2.2.2 v with
              | mk m4 x4 =>
                rw [h4] at h
                cases x4 with
                | error e => simp at h
                | ok r4 =>
                  simp only [Prod.mk.injEq, Except.ok.injEq] at h
                  exact ⟨m1, m2, m3, m4, r1, r2, r3, r4, rfl, h2, h3, h4, Prod.ext h.1 h.2⟩

theorem gPDU_err {m m' : Mem} {c : SeqCls} {a b d : Int} {v : Ref} {e : Exc} (h : m.mkPDU c a b d v = (m', .error e)) :
    m' = m := by
  unfold Mem.mkPDU at h
  simp only at h
  split at h
  · simp only [Prod.mk.injEq] at h; exact h.1.symm
  · split at h
    · simp only [Prod.mk.injEq] at h; exact h.1.symm
    · split at h
      · simp only [Prod.mk.injEq] at h; exact h.1.symm
      · split at h
        · simp only [Prod.mk.injEq] at h; exact h.1.symm
        · simp at h

theorem Grown.of_eq {m m' : Mem} {α : Type} {x : Mem × α} {y : α} (h : x = (m', y)) (g : Grown m x.1) : Grown m m' := by
  rw [h] at g; exact g

theorem Grown.mkPDU (m : Mem) (c : SeqCls) (a b d : Int) (v : Ref) : Grown m (m.mkPDU c a b d v).1 := by
  cases h : m.mkPDU c a b d v with
  | mk m' x =>
    cases x with
    | error e => rw [gPDU_err h]; exact Grown.refl m
    | ok r =>
      obtain ⟨m1, m2, m3, m4, r1, r2, r3, r4, h1, h2, h3, h4, h5⟩ := gPDU_ok h
      exact ((((Grown.of_eq h1 (Grown.mkInteger ..)).trans (Grown.of_eq h2 (Grown.mkInteger ..))).trans
        (Grown.of_eq h3 (Grown.mkInteger ..))).trans (Grown.of_eq h4 (Grown.mkVarBindList ..))).trans
        (Grown.of_eq h5 (Grown.newSeq ..))

theorem Grown.mkMessage (m : Mem) (c : SeqCls) (n : Int) (s : Str) (d : Ref) : Grown m (m.mkMessage c n s d).1 := by
  unfold Mem.mkMessage
  have g := Grown.mkInteger m .integer n
  split
  · exact Grown.refl m
  · next m1 v h =>
    rw [h] at g
    exact ((g.trans (Grown.newNode _ _)).trans (Grown.newList _ _)).trans (Grown.newNode _ _)

theorem Grown.getBinds (m : Mem) (c : SeqCls) (l : List Arg) : Grown m (m.getBinds c l).1 := by
  induction l generalizing m with
  | nil => exact Grown.refl m
  | cons a as ih =>
    rw [Mem.getBinds]
    cases mkOid a with
    | error e => exact Grown.refl m
    | ok ids =>
      simp only
      have g1 : Grown m (m.newPrim .oid (.ids ids)).1 := Grown.newNode _ _
      have g2 : Grown (m.newPrim .oid (.ids ids)).1 ((m.newPrim .oid (.ids ids)).1.newPrim (.null .null) .nothing).1 :=
        Grown.newNode _ _
      generalize (m.newPrim .oid (.ids ids)) = x1 at *
      rcases x1 with ⟨m1, o⟩
      simp only at g1 g2 ⊢
      generalize (m1.newPrim (.null .null) .nothing) = x2 at *
      rcases x2 with ⟨m2, z⟩
      simp only at g1 g2 ⊢
      have g3 := Grown.mkVarBind m2 c o z
      generalize m2.mkVarBind c o z = x at *
      rcases x with ⟨m3, e | vb⟩
      · exact (g1.trans g2).trans g3
      · have g4 := ih m3
        simp only at g3 ⊢
        generalize m3.getBinds c as = y at *
        rcases y with ⟨m4, e | vbs⟩
        · exact ((g1.trans g2).trans g3).trans g4
        · exact ((g1.trans g2).trans g3).trans g4

/-! ## Operations whose result the program sees -/

/-- An operation that leads from memory `m`, region `P`, `Q` to a result in a grown region. -/
def Confined (m : Mem) (P Q : Nat → Prop) (x : Mem × Except Exc Ref) : Prop :=
  ∃ P' Q', Flow m P Q x.1 P' Q' ∧ ∀ r, x.2 = .ok r → r.within P' Q'

theorem Confined.same {m : Mem} {P Q : Nat → Prop} (h : Region m P Q) {x : Except Exc Ref}
    (hx : ∀ r, x = .ok r → r.within P Q) : Confined m P Q (m, x) := ⟨P, Q, Flow.refl h, hx⟩

theorem Confined.error {m : Mem} {P Q : Nat → Prop} (h : Region m P Q) (e : Exc) : Confined m P Q (m, .error e) :=
  Confined.same h fun _ h => by cases h

theorem nodeIn_prim {P Q : Nat → Prop} {c : Cls} {v : Slot} (h : SlotOK c v) (hv : ∀ l, v ≠ .items l) :
    NodeIn P Q ⟨c, v, fun _ => Option.none⟩ :=
  ⟨fun _ _ h => by simp at h, fun l hl => absurd hl (hv l), h⟩

theorem Confined.newPrim {m : Mem} {P Q : Nat → Prop} (h : Region m P Q) {c : Cls} {v : Slot} (hc : SlotOK c v)
    (hv : ∀ l, v ≠ .items l) : Confined m P Q ((m.newPrim c v).1, .ok (m.newPrim c v).2) := by
  refine ⟨_, _, Flow.node h (nodeIn_prim hc hv), ?_⟩
  intro r hr
  simp only [Except.ok.injEq] at hr
  subst hr
  exact Or.inr rfl

theorem attrsOf_mem {c : SeqCls} {l : List Ref} {f : Attr} {x : Ref} (h : attrsOf c l f = some x) : x ∈ l := by
  unfold attrsOf at h
  have key : ∀ i, l[i]? = some x → x ∈ l := fun i h => List.mem_of_getElem? h
  split at h
  · cases f <;> simp only [reduceCtorEq] at h <;> exact key _ h
  · split at h
    · cases f <;> simp only [reduceCtorEq] at h <;> exact key _ h
    · split at h
      · cases f <;> simp only [reduceCtorEq] at h <;> exact key _ h
      · split at h
        · cases f <;> simp only [reduceCtorEq] at h <;> exact key _ h
        · split at h
          · cases f <;> simp only [reduceCtorEq] at h <;> exact key _ h
          · cases h

theorem Confined.newSeq {m : Mem} {P Q : Nat → Prop} (h : Region m P Q) (c : SeqCls) {l : List Ref}
    (hl : ∀ x ∈ l, x.within P Q) : Confined m P Q ((m.newSeq c l).1, .ok (m.newSeq c l).2) := by
  have s1 := Flow.list h hl
  have s2 := Flow.node s1.region (o := ⟨.seq c, .items m.lists.length, attrsOf c l⟩)
    ⟨fun f x hx => (hl x (attrsOf_mem hx)).mono (fun _ h => h) fun _ h => Or.inl h,
      fun k hk => Or.inr (by simp only [Slot.items.injEq] at hk; exact hk.symm), ⟨_, rfl⟩⟩
  refine ⟨_, _, s1.trans s2, ?_⟩
  intro r hr
  simp only [Except.ok.injEq] at hr
  subst hr
  exact Or.inr rfl

theorem Confined.mkInteger {m : Mem} {P Q : Nat → Prop} (h : Region m P Q) (c : IntCls) (n : Int) :
    Confined m P Q (m.mkInteger c n) := by
  unfold Mem.mkInteger
  split
  · exact Confined.newPrim h ⟨n, rfl⟩ (by simp)
  · exact Confined.error h _

theorem Confined.mkVarBind {m : Mem} {P Q : Nat → Prop} (h : Region m P Q) (c : SeqCls) {r s : Ref} (hr : r.within P Q)
    (hs : s.within P Q) : Confined m P Q (m.mkVarBind c r s) := by
  unfold Mem.mkVarBind
  split
  · exact Confined.error h _
  · split
    · exact Confined.error h _
    · refine Confined.newSeq h c ?_
      intro x hx
      simp only [List.mem_cons, List.not_mem_nil, or_false] at hx
      rcases hx with rfl | rfl <;> assumption

theorem items_within {m : Mem} {P Q : Nat → Prop} (h : Region m P Q) {r : Ref} (hr : r.within P Q) {l : List Ref}
    (hl : m.items r = some l) : ∀ x ∈ l, x.within P Q := by
  unfold Mem.items at hl
  have key : ∀ k, Q k → m.lists[k]? = some l → ∀ x ∈ l, x.within P Q := by
    intro k hk hkl
    obtain ⟨xs, hxs, hin⟩ := h.lists k hk
    rw [hkl] at hxs; cases hxs
    exact hin
  cases r with
  | list k => exact key k hr hl
  | obj a =>
    obtain ⟨o, ho, hin⟩ := h.objs a hr
    simp only [ho] at hl
    split at hl
    · next k hk => exact key k (hin.items k hk) hl
    · cases hl
  | _ => cases hl

theorem Confined.mkVarBindList {m : Mem} {P Q : Nat → Prop} (h : Region m P Q) (c : SeqCls) {r : Ref} (hr : r.within P Q) :
    Confined m P Q (m.mkVarBindList c r) := by
  unfold Mem.mkVarBindList
  split
  · split
    · exact Confined.error h _
    · exact Confined.newSeq h c (fun _ hx => by cases hx)
  · next l hl =>
    split
    · exact Confined.error h _
    · split
      · exact Confined.newSeq h c (items_within h hr hl)
      · exact Confined.error h _

theorem Confined.mkPDU {m : Mem} {P Q : Nat → Prop} (h : Region m P Q) (c : SeqCls) (a b d : Int) {r : Ref}
    (hr : r.within P Q) : Confined m P Q (m.mkPDU c a b d r) := by
  cases hx : m.mkPDU c a b d r with
  | mk m' x =>
    cases x with
    | error e => rw [gPDU_err hx]; exact Confined.error h _
    | ok p =>
      obtain ⟨m1, m2, m3, m4, r1, r2, r3, r4, h1, h2, h3, h4, h5⟩ := gPDU_ok hx
      obtain ⟨P1, Q1, f1, w1⟩ := Confined.mkInteger h (pduParts c).1 a
      rw [h1] at f1 w1
      obtain ⟨P2, Q2, f2, w2⟩ := Confined.mkInteger f1.region (pduParts c).2.1 b
      rw [h2] at f2 w2
      obtain ⟨P3, Q3, f3, w3⟩ := Confined.mkInteger f2.region (pduParts c).2.2.1 d
      rw [h3] at f3 w3
      have g3 := (f1.trans f2).trans f3
      obtain ⟨P4, Q4, f4, w4⟩ := Confined.mkVarBindList f3.region (pduParts c).2.2.2 (hr.mono g3.subP g3.subQ)
      rw [h4] at f4 w4
      obtain ⟨P5, Q5, f5, w5⟩ := Confined.newSeq f4.region c (l := [r1, r2, r3, r4]) (by
        intro x hx
        simp only [List.mem_cons, List.not_mem_nil, or_false] at hx
        rcases hx with rfl | rfl | rfl | rfl
        · exact (w1 _ rfl).mono ((f2.trans f3).trans f4).subP ((f2.trans f3).trans f4).subQ
        · exact (w2 _ rfl).mono (f3.trans f4).subP (f3.trans f4).subQ
        · exact (w3 _ rfl).mono f4.subP f4.subQ
        · exact w4 _ rfl)
      rw [h5] at f5 w5
      exact ⟨P5, Q5, ((g3.trans f4).trans f5), w5⟩

theorem Confined.message {m : Mem} {P Q : Nat → Prop} (h : Region m P Q) (c : SeqCls) {l : List Ref}
    (hl : ∀ x ∈ l, x.within P Q) :
    Confined m P Q (((m.newList []).1.newNode ⟨.seq c, .items (m.newList []).2, attrsOf c l⟩).1,
      .ok ((m.newList []).1.newNode ⟨.seq c, .items (m.newList []).2, attrsOf c l⟩).2) := by
  have s1 := Flow.list h (xs := []) (by simp)
  have s2 := Flow.node s1.region (o := ⟨.seq c, .items (m.newList []).2, attrsOf c l⟩)
    ⟨fun f x hx => (hl x (attrsOf_mem hx)).mono (fun _ h => h) fun _ h => Or.inl h,
      fun k hk => Or.inr (by simp only [Slot.items.injEq] at hk; exact hk.symm), ⟨_, rfl⟩⟩
  refine ⟨_, _, s1.trans s2, ?_⟩
  intro r hr
  simp only [Except.ok.injEq] at hr
  subst hr
  exact Or.inr rfl

theorem Confined.mkMessage {m : Mem} {P Q : Nat → Prop} (h : Region m P Q) (c : SeqCls) (n : Int) (s : Str) {d : Ref}
    (hd : d.within P Q) : Confined m P Q (m.mkMessage c n s d) := by
  unfold Mem.mkMessage
  obtain ⟨P1, Q1, f1, w1⟩ := Confined.mkInteger h .integer n
  generalize m.mkInteger .integer n = x at *
  rcases x with ⟨m1, e | v⟩
  · exact Confined.error h _
  · simp only at f1 w1 ⊢
    obtain ⟨P2, Q2, f2, w2⟩ := Confined.newPrim f1.region (c := .oct .octetString) (v := .text s) (Or.inl ⟨s, rfl⟩) (by simp)
    obtain ⟨P3, Q3, f3, w3⟩ := Confined.message f2.region c (l := [v, (m1.newPrim (.oct .octetString) (.text s)).2, d]) (by
      intro x hx
      simp only [List.mem_cons, List.not_mem_nil, or_false] at hx
      rcases hx with rfl | rfl | rfl
      · exact (w1 _ rfl).mono f2.subP f2.subQ
      · exact w2 _ rfl
      · exact hd.mono (f1.trans f2).subP (f1.trans f2).subQ)
    exact ⟨P3, Q3, (f1.trans f2).trans f3, w3⟩

mutual
theorem Confined.alloc {m : Mem} {P Q : Nat → Prop} (h : Region m P Q) (v : Val) :
    Confined m P Q ((m.alloc v).1, .ok (m.alloc v).2) := by
  match v with
  | .none => rw [Mem.alloc]; exact Confined.same h fun r hr => by cases hr; trivial
  | .int n => rw [Mem.alloc]; exact Confined.same h fun r hr => by cases hr; trivial
  | .str s => rw [Mem.alloc]; exact Confined.same h fun r hr => by cases hr; trivial
  | .bytes b => rw [Mem.alloc]; exact Confined.same h fun r hr => by cases hr; trivial
  | .integer c n => rw [Mem.alloc]; exact Confined.newPrim h ⟨n, rfl⟩ (by simp)
  | .octets c s => rw [Mem.alloc]; exact Confined.newPrim h (Or.inl ⟨s, rfl⟩) (by simp)
  | .raw c l => rw [Mem.alloc]; exact Confined.newPrim h (Or.inr ⟨l, rfl⟩) (by simp)
  | .oid l => rw [Mem.alloc]; exact Confined.newPrim h ⟨l, rfl⟩ (by simp)
  | .null c => rw [Mem.alloc]; exact Confined.newPrim h rfl (by simp)
  | .seq c items =>
    rw [Mem.alloc]
    obtain ⟨P1, Q1, f1, w1⟩ := Confined.allocItems h items
    obtain ⟨P2, Q2, f2, w2⟩ := Confined.newSeq f1.region c w1
    exact ⟨P2, Q2, f1.trans f2, w2⟩
theorem Confined.allocItems {m : Mem} {P Q : Nat → Prop} (h : Region m P Q) (vs : List Val) :
    ∃ P' Q', Flow m P Q (m.allocItems vs).1 P' Q' ∧ ∀ x ∈ (m.allocItems vs).2, x.within P' Q' := by
  match vs with
  | [] => rw [Mem.allocItems]; exact ⟨P, Q, Flow.refl h, by simp⟩
  | v :: vs =>
    rw [Mem.allocItems]
    obtain ⟨P1, Q1, f1, w1⟩ := Confined.alloc h v
    obtain ⟨P2, Q2, f2, w2⟩ := Confined.allocItems f1.region vs
    refine ⟨P2, Q2, f1.trans f2, ?_⟩
    intro x hx
    simp only [List.mem_cons] at hx
    rcases hx with rfl | hx
    · exact (w1 _ rfl).mono f2.subP f2.subQ
    · exact w2 x hx
end

theorem Confined.decodeMessage {m : Mem} {P Q : Nat → Prop} (h : Region m P Q) (reg : Reg) (c : SeqCls) (s : Str) :
    Confined m P Q (m.decodeMessage reg c s) := by
  unfold Mem.decodeMessage
  split
  · exact Confined.error h _
  · next msg _ =>
    obtain ⟨P1, Q1, f1, w1⟩ := Confined.alloc h msg.version
    obtain ⟨P2, Q2, f2, w2⟩ := Confined.alloc f1.region msg.community
    obtain ⟨P3, Q3, f3, w3⟩ := Confined.alloc f2.region msg.data
    generalize m.alloc msg.version = x1 at *
    rcases x1 with ⟨m1, r1⟩
    simp only at f1 w1 f2 w2 f3 w3 ⊢
    generalize m1.alloc msg.community = x2 at *
    rcases x2 with ⟨m2, r2⟩
    simp only at f1 w1 f2 w2 f3 w3 ⊢
    generalize m2.alloc msg.data = x3 at *
    rcases x3 with ⟨m3, r3⟩
    simp only at f1 w1 f2 w2 f3 w3 ⊢
    obtain ⟨P4, Q4, f4, w4⟩ := Confined.message f3.region c (l := [r1, r2, r3]) (by
      intro x hx
      simp only [List.mem_cons, List.not_mem_nil, or_false] at hx
      rcases hx with rfl | rfl | rfl
      · exact (w1 _ rfl).mono (f2.trans f3).subP (f2.trans f3).subQ
      · exact (w2 _ rfl).mono f3.subP f3.subQ
      · exact w3 _ rfl)
    exact ⟨P4, Q4, ((f1.trans f2).trans f3).trans f4, w4⟩

theorem Confined.append {m : Mem} {P Q : Nat → Prop} (h : Region m P Q) {r x : Ref} (hr : r.within P Q)
    (hx : x.within P Q) : Confined m P Q (m.append r x) := by
  have key : ∀ l xs, Q l → m.lists.getD l [] = xs → Confined m P Q (m.setList l (xs ++ [x]), .ok .none) := by
    intro l xs hl he
    refine ⟨P, Q, Flow.setList h hl ?_, fun r hr => by cases hr; trivial⟩
    obtain ⟨ys, hys, hin⟩ := h.lists l hl
    have : xs = ys := by rw [← he]; simp [List.getD, hys]
    subst this
    intro y hy
    simp only [List.mem_append, List.mem_cons, List.not_mem_nil, or_false] at hy
    rcases hy with hy | rfl
    · exact hin y hy
    · exact hx
  unfold Mem.append
  cases r with
  | list l =>
    simp only
    split
    · next xs hxs => exact key l xs hr (by simp [List.getD, hxs])
    · exact Confined.error h _
  | obj a =>
    simp only
    obtain ⟨o, ho, hin⟩ := h.objs a hr
    rw [ho]
    simp only
    split
    · next l hl =>
      split
      · exact Confined.error h _
      · exact key l _ (hin.items l hl) rfl
    · exact Confined.error h _
  | _ => exact Confined.error h _

theorem Confined.assign {m : Mem} {P Q : Nat → Prop} (h : Region m P Q) {r : Ref} (hr : r.within P Q) {v : Slot}
    {ok : Cls → Bool} (hok : ∀ c, ok c = true → SlotOK c v) (hv : ∀ l, v = .items l → Q l) :
    Confined m P Q (m.assign r v ok) := by
  unfold Mem.assign
  cases r with
  | obj a =>
    simp only
    obtain ⟨o, ho, hin⟩ := h.objs a hr
    rw [ho]
    simp only
    split
    · next hc =>
      refine ⟨P, Q, Flow.update h hr (fun _ => rfl) ?_, fun r hr => by cases hr; trivial⟩
      intro o' ho' hin'
      rw [ho] at ho'; cases ho'
      exact ⟨hin'.attrs, hv, hok _ hc⟩
    · exact Confined.error h _
  | _ => exact Confined.error h _

/-! ## The step of a program -/

/-- The program's variables lead only into the region. -/
def Prog.Knows (p : Prog) (P Q : Nat → Prop) : Prop := Region p.mem P Q ∧ ∀ r ∈ p.vars, r.within P Q

/-- From a program state with a region to another. -/
def Prog.Moves (p : Prog) (P Q : Nat → Prop) (p' : Prog) : Prop :=
  ∃ P' Q', Flow p.mem P Q p'.mem P' Q' ∧ p'.Knows P' Q'

theorem Moves.refl {p : Prog} {P Q : Nat → Prop} (h : p.Knows P Q) : p.Moves P Q p := ⟨P, Q, Flow.refl h.1, h⟩

theorem finish_moves {p : Prog} {P Q : Nat → Prop} (h : p.Knows P Q) {x : Mem × Except Exc Ref} (g : Confined p.mem P Q x) :
    p.Moves P Q (p.finish x).1 := by
  obtain ⟨P', Q', f, w⟩ := g
  rcases x with ⟨m, e | r⟩
  · exact ⟨P', Q', f, f.region, fun r hr => (h.2 r hr).mono f.subP f.subQ⟩
  · refine ⟨P', Q', f, f.region, fun x hx => ?_⟩
    simp only [Prog.finish, Prog.bind, List.mem_append, List.mem_cons, List.not_mem_nil, or_false] at hx
    rcases hx with hx | rfl
    · exact (h.2 x hx).mono f.subP f.subQ
    · exact w _ rfl

theorem Knows.var {p : Prog} {P Q : Nat → Prop} (h : p.Knows P Q) {v : Nat} {r : Ref} (hv : p.vars[v]? = some r) :
    r.within P Q := h.2 r (List.mem_of_getElem? hv)

theorem Knows.refs {p : Prog} {P Q : Nat → Prop} (h : p.Knows P Q) {vs : List Nat} {rs : List Ref}
    (hv : p.refs vs = some rs) : ∀ x ∈ rs, x.within P Q := by
  induction vs generalizing rs with
  | nil => simp [Prog.refs] at hv; subst hv; simp
  | cons v vs ih =>
    rw [Prog.refs] at hv
    cases h1 : p.vars[v]? with
    | none => rw [h1] at hv; simp at hv
    | some r =>
      cases h2 : p.refs vs with
      | none => rw [h1, h2] at hv; simp at hv
      | some rs' =>
        rw [h1, h2] at hv
        simp at hv
        subst hv
        intro x hx
        simp only [List.mem_cons] at hx
        rcases hx with rfl | hx
        · exact Knows.var h h1
        · exact ih h2 x hx

/-- The request ID object in a new PDU. -/
theorem mkPDU_requestID {m m' : Mem} {c : SeqCls} {a b d : Int} {v r : Ref} (h : m.mkPDU c a b d v = (m', .ok r))
    (hc : (Cls.seq c).isSubclass (.seq .pdu) = true) :
    m'.requestIDOf r = some (.obj m.objs.length) ∧
      m'.objs[m.objs.length]? = some ⟨.int (pduParts c).1, .num a, fun _ => Option.none⟩ := by
  obtain ⟨m1, m2, m3, m4, r1, r2, r3, r4, h1, h2, h3, h4, h5⟩ := gPDU_ok h
  have g : Grown m1 m' := (((Grown.of_eq h2 (Grown.mkInteger ..)).trans
        (Grown.of_eq h3 (Grown.mkInteger ..))).trans (Grown.of_eq h4 (Grown.mkVarBindList ..))).trans
        (Grown.of_eq h5 (Grown.newSeq ..))
  have hr1 : r1 = .obj m.objs.length ∧ m1.objs[m.objs.length]? = some ⟨.int (pduParts c).1, .num a, fun _ => Option.none⟩ := by
    unfold Mem.mkInteger at h1
    split at h1
    · simp only [Mem.newPrim, Mem.newNode, Prod.mk.injEq, Except.ok.injEq] at h1
      refine ⟨h1.2.symm, ?_⟩
      rw [← h1.1]; simp
    · simp at h1
  refine ⟨?_, g.obj hr1.2⟩
  simp only [Mem.newSeq, Mem.newList, Mem.newNode, Prod.mk.injEq] at h5
  obtain ⟨h5, rfl⟩ := h5
  subst h5
  have key : attrsOf c [r1, r2, r3, r4] .requestID = some r1 := by
    cases c <;> first | (exfalso; revert hc; decide) | rfl
  rw [hr1.1] at key
  simp [Mem.requestIDOf, Mem.attr, key, hr1.1]

theorem reveal_requestID {m m' : Mem} {P Q : Nat → Prop} (h : Region m P Q) (g : Grown m m') {a : Nat} {n : Int}
    {c : IntCls} (ha : m.objs.length ≤ a) (ho : m'.objs[a]? = some ⟨.int c, .num n, fun _ => Option.none⟩) :
    Flow m P Q m' (fun x => P x ∨ x = a) Q :=
  (g.flow h).reveal ha ho (nodeIn_prim ⟨n, rfl⟩ (by simp))

theorem api_get_pdu (k : Api) : (Cls.seq k.get).isSubclass (.seq .pdu) = true := by cases k <;> decide
theorem api_getNext_pdu (k : Api) : (Cls.seq k.getNext).isSubclass (.seq .pdu) = true := by cases k <;> decide

/-- A state whose memory has only grown, with the same variables. -/
theorem grown_moves {p p' : Prog} {P Q : Nat → Prop} (h : p.Knows P Q) (g : Grown p.mem p'.mem)
    (hv : ∀ r ∈ p'.vars, r ∈ p.vars ∨ r = .none) : p.Moves P Q p' := by
  have f := g.flow h.1
  refine ⟨P, Q, f, f.region, fun r hr => ?_⟩
  rcases hv r hr with hr | rfl
  · exact h.2 r hr
  · trivial

theorem requestID_moves {p p' : Prog} {P Q : Nat → Prop} (h : p.Knows P Q) {m1 m2 : Mem} {c : SeqCls} {n : Int}
    {vbl pdu : Ref} (g1 : Grown p.mem m1) (hp : m1.mkPDU c n 0 0 vbl = (m2, .ok pdu))
    (hc : (Cls.seq c).isSubclass (.seq .pdu) = true) (g2 : Grown m2 p'.mem)
    (hv : ∀ r ∈ p'.vars, r ∈ p.vars ∨ p'.mem.requestIDOf pdu = some r) : p.Moves P Q p' := by
  obtain ⟨q1, q2⟩ := mkPDU_requestID hp hc
  have gm : Grown m1 m2 := Grown.of_eq hp (Grown.mkPDU ..)
  have q3 : p'.mem.requestIDOf pdu = some (.obj m1.objs.length) := by
    cases pdu with
    | obj a =>
      simp only [Mem.requestIDOf, Mem.attr] at q1 ⊢
      cases ha : m2.objs[a]? with
      | none => rw [ha] at q1; cases q1
      | some o => rw [ha] at q1; rw [g2.obj ha]; exact q1
    | _ => cases q1
  have f := reveal_requestID h.1 ((g1.trans gm).trans g2) g1.len.1 (g2.obj q2)
  refine ⟨_, _, f, f.region, fun r hr => ?_⟩
  rcases hv r hr with hr | hr
  · exact (h.2 r hr).mono f.subP f.subQ
  · rw [q3] at hr; cases hr
    exact Or.inr rfl

theorem snmpGet_moves {p : Prog} {P Q : Nat → Prop} (h : p.Knows P Q) (k : Api) (oids : List Arg) (community : Str) :
    p.Moves P Q (p.snmpGet k oids community).1 := by
  unfold Prog.snmpGet
  have g1 := Grown.getBinds p.mem k.varBind oids
  generalize p.mem.getBinds k.varBind oids = x1 at *
  rcases x1 with ⟨m, e | vbs⟩
  · exact grown_moves h g1 fun r hr => Or.inl hr
  · have g2 := Grown.newList m vbs
    simp only at g1 ⊢
    generalize m.newList vbs = x2 at *
    rcases x2 with ⟨m0, l⟩
    have g3 := Grown.mkVarBindList m0 k.varBindList (.list l)
    simp only at g2 ⊢
    generalize m0.mkVarBindList k.varBindList (.list l) = x3 at *
    rcases x3 with ⟨m1, e | vbl⟩
    · exact grown_moves h ((g1.trans g2).trans g3) fun r hr => Or.inl hr
    · simp only at g3 ⊢
      have g4 := Grown.mkPDU m1 k.get p.nextID 0 0 vbl
      cases hp : m1.mkPDU k.get p.nextID 0 0 vbl with
      | mk m2 x4 =>
        rw [hp] at g4
        cases x4 with
        | error e => exact grown_moves h (((g1.trans g2).trans g3).trans g4) fun r hr => Or.inl hr
        | ok pdu =>
          simp only
          have g5 := Grown.mkMessage m2 k.message k.version community pdu
          generalize m2.mkMessage k.message k.version community pdu = x5 at *
          rcases x5 with ⟨m3, e | msg⟩
          · exact grown_moves h ((((g1.trans g2).trans g3).trans g4).trans g5) fun r hr => Or.inl hr
          · simp only at g5 ⊢
            cases hq : m3.requestIDOf pdu with
            | none =>
              exact grown_moves h ((((g1.trans g2).trans g3).trans g4).trans g5) fun r hr => Or.inl hr
            | some r =>
              refine requestID_moves h ((g1.trans g2).trans g3) hp (api_get_pdu k) g5 fun x hx => ?_
              simp only [List.mem_append, List.mem_cons, List.not_mem_nil, or_false] at hx
              rcases hx with hx | rfl
              · exact Or.inl hx
              · exact Or.inr hq

theorem snmpGetNext_moves {p : Prog} {P Q : Nat → Prop} (h : p.Knows P Q) (k : Api) (vbs : Ref) (community : Str) :
    p.Moves P Q (p.snmpGetNext k vbs community).1 := by
  unfold Prog.snmpGetNext
  split
  · exact Moves.refl h
  · have g4 := Grown.mkPDU p.mem k.getNext p.nextID 0 0 vbs
    cases hp : p.mem.mkPDU k.getNext p.nextID 0 0 vbs with
    | mk m2 x4 =>
      rw [hp] at g4
      cases x4 with
      | error e => exact grown_moves h g4 fun r hr => Or.inl hr
      | ok pdu =>
        simp only
        have g5 := Grown.mkMessage m2 k.message k.version community pdu
        generalize m2.mkMessage k.message k.version community pdu = x5 at *
        rcases x5 with ⟨m3, e | msg⟩
        · exact grown_moves h (g4.trans g5) fun r hr => Or.inl hr
        · simp only at g5 ⊢
          cases hq : m3.requestIDOf pdu with
          | none => exact grown_moves h (g4.trans g5) fun r hr => Or.inl hr
          | some r =>
            refine requestID_moves h (Grown.refl _) hp (api_getNext_pdu k) g5 fun x hx => ?_
            simp only [List.mem_append, List.mem_cons, List.not_mem_nil, or_false] at hx
            rcases hx with hx | rfl
            · exact Or.inl hx
            · exact Or.inr hq

theorem snmpTrap_moves {p : Prog} {P Q : Nat → Prop} (h : p.Knows P Q) (k : Api) (pdu : Ref) (community : Str) :
    p.Moves P Q (p.snmpTrap k pdu community).1 := by
  unfold Prog.snmpTrap
  split
  · exact Moves.refl h
  · have g5 := Grown.mkMessage p.mem k.message k.version community pdu
    generalize p.mem.mkMessage k.message k.version community pdu = x5 at *
    rcases x5 with ⟨m3, e | msg⟩
    · exact grown_moves h g5 fun r hr => Or.inl hr
    · refine grown_moves h g5 fun r hr => ?_
      simpa only [List.mem_append, List.mem_cons, List.not_mem_nil, or_false] using hr

theorem step_moves {p : Prog} {P Q : Nat → Prop} (h : p.Knows P Q) (op : POp) : p.Moves P Q (p.step op).1 := by
  have same : ∀ (r : Ref), r.within P Q → p.Moves P Q (p.finish (p.mem, .ok r)).1 := fun r hr =>
    finish_moves h (Confined.same h.1 fun x hx => by cases hx; exact hr)
  cases op with
  | constNone => exact same _ trivial
  | constInt n => exact same _ trivial
  | constStr s => exact same _ trivial
  | list vs =>
    rw [Prog.step]
    split
    · next rs hrs =>
      refine finish_moves h ⟨_, _, Flow.list h.1 (Knows.refs h hrs), fun r hr => ?_⟩
      cases hr
      exact Or.inr rfl
    · exact Moves.refl h
  | setList v vs =>
    rw [Prog.step]
    split
    · next l rs h1 h2 =>
      exact finish_moves h ⟨_, _, Flow.setList h.1 (Knows.var h h1) (Knows.refs h h2), fun r hr => by cases hr; trivial⟩
    · exact Moves.refl h
  | integer c n => exact finish_moves h (Confined.mkInteger h.1 c n)
  | octets c s =>
    rw [Prog.step]
    split
    · exact Moves.refl h
    · exact finish_moves h (Confined.newPrim h.1 (Or.inl ⟨_, rfl⟩) (by simp))
  | oid arg =>
    rw [Prog.step]
    split
    · exact Moves.refl h
    · exact finish_moves h (Confined.newPrim h.1 ⟨_, rfl⟩ (by simp))
  | null c => exact finish_moves h (Confined.newPrim h.1 rfl (by simp))
  | sequence v =>
    rw [Prog.step]
    split
    · next l hl =>
      refine finish_moves h ⟨_, _, Flow.node h.1 ⟨fun _ _ hx => by simp at hx, fun k hk => ?_, ⟨_, rfl⟩⟩, fun r hr => ?_⟩
      · simp only [Slot.items.injEq] at hk
        subst hk
        exact Knows.var h hl
      · cases hr; exact Or.inr rfl
    · exact Moves.refl h
  | varBind c v w =>
    rw [Prog.step]
    split
    · split
      · next r s h1 h2 => exact finish_moves h (Confined.mkVarBind h.1 c (Knows.var h h1) (Knows.var h h2))
      · exact Moves.refl h
    · exact Moves.refl h
  | varBindList c v =>
    rw [Prog.step]
    split
    · split
      · next r h1 => exact finish_moves h (Confined.mkVarBindList h.1 c (Knows.var h h1))
      · exact Moves.refl h
    · exact Moves.refl h
  | pdu c a b d v =>
    rw [Prog.step]
    split
    · split
      · next r h1 => exact finish_moves h (Confined.mkPDU h.1 c a b d (Knows.var h h1))
      · exact Moves.refl h
    · exact Moves.refl h
  | trap e a g s t v =>
    rw [Prog.step]
    split
    · next h1 => exact finish_moves h (Confined.newSeq h.1 _ (Knows.refs h h1))
    · exact Moves.refl h
  | message c version community v =>
    rw [Prog.step]
    split
    · split
      · next r h1 => exact finish_moves h (Confined.mkMessage h.1 c version community (Knows.var h h1))
      · exact Moves.refl h
    · exact Moves.refl h
  | arrive reg c stream =>
    rw [Prog.step]
    split
    · exact finish_moves h (Confined.decodeMessage h.1 reg c stream)
    · exact Moves.refl h
  | attr v f =>
    rw [Prog.step]
    split
    · next a h1 =>
      split
      · next r hr =>
        refine same r ?_
        obtain ⟨o, ho, hin⟩ := h.1.objs a (Knows.var h h1)
        rw [Mem.attr, ho] at hr
        exact hin.attrs f r hr
      · exact Moves.refl h
    · exact Moves.refl h
  | item v i =>
    rw [Prog.step]
    split
    · next r h1 =>
      split
      · next l hl =>
        split
        · next x hx => exact same x (items_within h.1 (Knows.var h h1) hl x (List.mem_of_getElem? hx))
        · exact Moves.refl h
      · exact Moves.refl h
    · exact Moves.refl h
  | value v =>
    rw [Prog.step]
    split
    · next a h1 =>
      split
      · next c l at' ho =>
        obtain ⟨o, ho', hin⟩ := h.1.objs a (Knows.var h h1)
        rw [ho] at ho'; cases ho'
        exact same _ (hin.items l rfl)
      · exact Moves.refl h
    · exact Moves.refl h
  | setAttr v f w =>
    rw [Prog.step]
    split
    · next a x h1 h2 =>
      exact finish_moves h ⟨_, _, Flow.update h.1 (Knows.var h h1) (fun _ => rfl) fun o _ hin =>
        hin.setAttr f (Knows.var h h2), fun r hr => by cases hr; trivial⟩
    · exact Moves.refl h
  | setNum v n =>
    rw [Prog.step]
    split
    · next r h1 =>
      refine finish_moves h (Confined.assign h.1 (Knows.var h h1) (fun c hc => ?_) (by simp))
      cases c <;> simp [Cls.isInt] at hc
      exact ⟨n, rfl⟩
    · exact Moves.refl h
  | setText v s =>
    rw [Prog.step]
    split
    · next r h1 =>
      refine finish_moves h (Confined.assign h.1 (Knows.var h h1) (fun c hc => ?_) (by simp))
      cases c <;> simp [Cls.isOct] at hc
      exact Or.inl ⟨s, rfl⟩
    · exact Moves.refl h
  | setIds v ids =>
    rw [Prog.step]
    split
    · next r h1 =>
      refine finish_moves h (Confined.assign h.1 (Knows.var h h1) (fun c hc => ?_) (by simp))
      cases c <;> simp [Cls.isOid] at hc
      exact ⟨some ids, rfl⟩
    · exact Moves.refl h
  | setItems v w =>
    rw [Prog.step]
    split
    · next r l h1 h2 =>
      refine finish_moves h (Confined.assign h.1 (Knows.var h h1) (fun c hc => ?_) ?_)
      · cases c <;> simp [Cls.isSeq] at hc
        exact ⟨l, rfl⟩
      · intro k hk
        simp only [Slot.items.injEq] at hk
        subst hk
        exact Knows.var h h2
    · exact Moves.refl h
  | append v w =>
    rw [Prog.step]
    split
    · next r x h1 h2 => exact finish_moves h (Confined.append h.1 (Knows.var h h1) (Knows.var h h2))
    · exact Moves.refl h
  | encode depth v =>
    rw [Prog.step]
    split
    · next a h1 =>
      obtain ⟨Q', f⟩ := Flow.encode depth h.1 (.obj a)
      generalize gEncode depth p.mem (.obj a) = x at *
      rcases x with ⟨m, e | s⟩
      · exact finish_moves h ⟨P, Q', f, fun r hr => by cases hr⟩
      · exact finish_moves h ⟨P, Q', f, fun r hr => by cases hr; trivial⟩
    · exact Moves.refl h
  | snmpGet k oids community => exact snmpGet_moves h k oids community
  | snmpGetNext k v community =>
    rw [Prog.step]
    split
    · exact snmpGetNext_moves h k _ community
    · exact Moves.refl h
  | snmpTrap k v community =>
    rw [Prog.step]
    split
    · exact snmpTrap_moves h k _ community
    · exact Moves.refl h
  | send depth =>
    rw [Prog.step]
    split
    · exact Moves.refl h
    · next msg rest _ =>
      obtain ⟨Q', f⟩ := Flow.encode depth h.1 msg
      generalize gEncode depth p.mem msg = x at *
      rcases x with ⟨m, e | s⟩
      · exact ⟨P, Q', f, f.region, fun r hr => (h.2 r hr).mono f.subP f.subQ⟩
      · exact ⟨P, Q', f, f.region, fun r hr => (h.2 r hr).mono f.subP f.subQ⟩

theorem run_moves {p : Prog} {P Q : Nat → Prop} (h : p.Knows P Q) (ops : List POp) : p.Moves P Q (p.run ops) := by
  induction ops generalizing p P Q with
  | nil => exact Moves.refl h
  | cons op ops ih =>
    obtain ⟨P1, Q1, f1, k1⟩ := step_moves h op
    obtain ⟨P2, Q2, f2, k2⟩ := ih k1
    exact ⟨P2, Q2, f1.trans f2, k2⟩

end Libsnmp
