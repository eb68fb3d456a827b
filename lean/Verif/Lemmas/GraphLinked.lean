import Verif.Lemmas.GraphSend

/-! # New objects have their fields in their `value` (lemmas for C68), and what encoding leaves in a Message (C69) -/

namespace Libsnmp
open Spec

/-- The object's fields are the components of its `value`. -/
def Node.Linked (m : Mem) (o : Node) : Prop :=
  ∀ c, o.cls = .seq c → (Cls.seq c).isSubclass (.seq .message) = false → fields c ≠ [] →
    ∃ l xs, o.value = .items l ∧ m.lists[l]? = some xs ∧ ∀ p ∈ fields c, o.attrs p.1 = xs[p.2]?

/-- Memory grew, by linked objects only. -/
structure Born (m m' : Mem) : Prop where
  grown : Grown m m'
  linked : ∀ (a : Nat) (o : Node), m.objs.length ≤ a → m'.objs[a]? = some o → o.Linked m'

theorem Born.refl (m : Mem) : Born m m :=
  ⟨Grown.refl m, fun a o ha ho => by have := (List.getElem?_eq_some_iff.mp ho).1; omega⟩

theorem Born.trans {m1 m2 m3 : Mem} (h : Born m1 m2) (k : Born m2 m3) : Born m1 m3 := by
  refine ⟨h.grown.trans k.grown, fun a o ha ho => ?_⟩
  by_cases e : m2.objs.length ≤ a
  · exact k.linked a o e ho
  · have hx : m2.objs[a]? = some (m2.objs[a]'(by omega)) := List.getElem?_eq_getElem (by omega)
    have := k.grown.obj hx
    rw [ho] at this
    cases this
    intro c hc hm hf
    obtain ⟨l, xs, h1, h2, h3⟩ := h.linked a _ ha hx c hc hm hf
    exact ⟨l, xs, h1, k.grown.list h2, h3⟩

theorem Born.newNode {m : Mem} {o : Node} (h : o.Linked (m.newNode o).1) : Born m (m.newNode o).1 := by
  refine ⟨Grown.newNode m o, fun a x ha hx => ?_⟩
  have : a = m.objs.length := by
    have := (List.getElem?_eq_some_iff.mp hx).1
    simp only [Mem.newNode, List.length_append, List.length_cons, List.length_nil] at this
    omega
  subst this
  rw [newNode_new] at hx
  cases hx
  exact h

theorem Born.newList (m : Mem) (l : List Ref) : Born m (m.newList l).1 :=
  ⟨Grown.newList m l, fun a o ha ho => by
    have := (List.getElem?_eq_some_iff.mp ho).1
    simp only [Mem.newList] at this
    omega⟩

theorem Born.newPrim (m : Mem) {c : Cls} (hc : c.isSeq = false) (v : Slot) : Born m (m.newPrim c v).1 := by
  refine Born.newNode fun d hd _ _ => ?_
  simp only at hd
  subst hd; cases hc

theorem attrsOf_fields (c : SeqCls) (l : List Ref) : ∀ p ∈ fields c, attrsOf c l p.1 = l[p.2]? := by
  intro p hp
  cases c <;> simp only [fields, List.mem_cons, List.not_mem_nil, or_false] at hp <;>
    (try rcases hp with rfl | rfl | rfl | rfl | rfl | rfl) <;> (try rcases hp with rfl | rfl | rfl | rfl) <;>
    (try rcases hp with rfl | rfl) <;> first | rfl | cases hp

theorem Born.newSeq (m : Mem) (c : SeqCls) (l : List Ref) : Born m (m.newSeq c l).1 := by
  refine (Born.newList m l).trans (Born.newNode fun d hd _ _ => ?_)
  simp only [Cls.seq.injEq] at hd
  subst hd
  refine ⟨m.lists.length, l, rfl, ?_, attrsOf_fields c l⟩
  simp [Mem.newList, Mem.newNode]

theorem Born.message (m : Mem) {c : SeqCls} (hc : (Cls.seq c).isSubclass (.seq .message) = true) (v : Slot)
    (f : Attr → Option Ref) : Born m (m.newNode ⟨.seq c, v, f⟩).1 := by
  refine Born.newNode fun d hd hm _ => ?_
  simp only [Cls.seq.injEq] at hd
  subst hd
  rw [hc] at hm; cases hm

theorem Born.of_eq {m m' : Mem} {α : Type} {x : Mem × α} {y : α} (h : x = (m', y)) (g : Born m x.1) : Born m m' := by
  rw [h] at g; exact g

theorem Born.mkInteger (m : Mem) (c : IntCls) (n : Int) : Born m (m.mkInteger c n).1 := by
  unfold Mem.mkInteger
  split
  · exact Born.newPrim m rfl _
  · exact Born.refl m

theorem Born.mkVarBind (m : Mem) (c : SeqCls) (r s : Ref) : Born m (m.mkVarBind c r s).1 := by
  unfold Mem.mkVarBind
  split
  · exact Born.refl m
  · split
    · exact Born.refl m
    · exact Born.newSeq m _ _

theorem Born.mkVarBindList (m : Mem) (c : SeqCls) (r : Ref) : Born m (m.mkVarBindList c r).1 := by
  unfold Mem.mkVarBindList
  split
  · split
    · exact Born.refl m
    · exact Born.newSeq m _ _
  · split
    · exact Born.refl m
    · split
      · exact Born.newSeq m _ _
      · exact Born.refl m

theorem Born.mkPDU (m : Mem) (c : SeqCls) (a b d : Int) (v : Ref) : Born m (m.mkPDU c a b d v).1 := by
  cases h : m.mkPDU c a b d v with
  | mk m' x =>
    cases x with
    | error e => rw [gPDU_err h]; exact Born.refl m
    | ok r =>
      obtain ⟨m1, m2, m3, m4, r1, r2, r3, r4, h1, h2, h3, h4, h5⟩ := gPDU_ok h
      exact ((((Born.of_eq h1 (Born.mkInteger ..)).trans (Born.of_eq h2 (Born.mkInteger ..))).trans
        (Born.of_eq h3 (Born.mkInteger ..))).trans (Born.of_eq h4 (Born.mkVarBindList ..))).trans
        (Born.of_eq h5 (Born.newSeq ..))

theorem Born.mkMessage (m : Mem) {c : SeqCls} (hc : (Cls.seq c).isSubclass (.seq .message) = true) (n : Int) (s : Str)
    (d : Ref) : Born m (m.mkMessage c n s d).1 := by
  unfold Mem.mkMessage
  have g := Born.mkInteger m .integer n
  split
  · exact Born.refl m
  · next m1 v h =>
    rw [h] at g
    exact ((g.trans (Born.newPrim _ rfl _)).trans (Born.newList _ _)).trans (Born.message _ hc _ _)

theorem Born.getBinds (m : Mem) (c : SeqCls) (l : List Arg) : Born m (m.getBinds c l).1 := by
  induction l generalizing m with
  | nil => exact Born.refl m
  | cons a as ih =>
    rw [Mem.getBinds]
    cases mkOid a with
    | error e => exact Born.refl m
    | ok ids =>
      simp only
      have g2 := (Born.newPrim m (c := .oid) rfl (.ids ids)).trans
        (Born.newPrim (m.newPrim .oid (.ids ids)).1 (c := .null .null) rfl .nothing)
      have g3 := Born.mkVarBind ((m.newPrim .oid (.ids ids)).1.newPrim (.null .null) .nothing).1 c
        (m.newPrim .oid (.ids ids)).2 ((m.newPrim .oid (.ids ids)).1.newPrim (.null .null) .nothing).2
      generalize Mem.mkVarBind _ c _ _ = x at *
      rcases x with ⟨m3, e | vb⟩
      · exact g2.trans g3
      · simp only at g3 ⊢
        have g4 := ih m3
        generalize m3.getBinds c as = y at *
        rcases y with ⟨m4, e | vbs⟩
        · exact (g2.trans g3).trans g4
        · exact (g2.trans g3).trans g4

mutual
theorem Born.alloc (m : Mem) (v : Val) : Born m (m.alloc v).1 := by
  match v with
  | .none => rw [Mem.alloc]; exact Born.refl m
  | .int n => rw [Mem.alloc]; exact Born.refl m
  | .str s => rw [Mem.alloc]; exact Born.refl m
  | .bytes b => rw [Mem.alloc]; exact Born.refl m
  | .integer c n => rw [Mem.alloc]; exact Born.newPrim m rfl _
  | .octets c n => rw [Mem.alloc]; exact Born.newPrim m rfl _
  | .raw c n => rw [Mem.alloc]; exact Born.newPrim m rfl _
  | .oid n => rw [Mem.alloc]; exact Born.newPrim m rfl _
  | .null c => rw [Mem.alloc]; exact Born.newPrim m rfl _
  | .seq c items =>
    rw [Mem.alloc]
    exact (Born.allocItems m items).trans (Born.newSeq _ _ _)
theorem Born.allocItems (m : Mem) (vs : List Val) : Born m (m.allocItems vs).1 := by
  match vs with
  | [] => rw [Mem.allocItems]; exact Born.refl m
  | v :: vs =>
    rw [Mem.allocItems]
    exact (Born.alloc m v).trans (Born.allocItems _ vs)
end

theorem Born.decodeMessage (m : Mem) (reg : Reg) {c : SeqCls} (hc : (Cls.seq c).isSubclass (.seq .message) = true)
    (s : Str) : Born m (m.decodeMessage reg c s).1 := by
  unfold Mem.decodeMessage
  split
  · exact Born.refl m
  · exact (((((Born.alloc m _).trans (Born.alloc _ _)).trans (Born.alloc _ _)).trans (Born.newList _ _)).trans
      (Born.message _ hc _ _))

/-! ## What encoding leaves behind -/

/-- The Message at `a` has been encoded: its `value` lists its three fields. -/
def Mem.Loaded (m : Mem) (a : Nat) (v co da : Ref) : Prop :=
  ∃ o l, m.objs[a]? = some o ∧ o.attrs .version = some v ∧ o.attrs .community = some co ∧ o.attrs .data = some da ∧
    o.value = .items l ∧ m.lists[l]? = some [v, co, da]

theorem loadMessage_loaded {m : Mem} {a b : Nat} {o : Node} {v co da : Ref} (ho : m.objs[b]? = some o)
    (h : m.Loaded a v co da ∨ (a = b ∧ o.attrs .version = some v ∧ o.attrs .community = some co ∧
      o.attrs .data = some da)) : (m.loadMessage b o).1.Loaded a v co da := by
  unfold Mem.loadMessage
  by_cases e : b = a
  · subst e
    have hat : o.attrs .version = some v ∧ o.attrs .community = some co ∧ o.attrs .data = some da := by
      rcases h with ⟨o', l, h0, h1, h2, h3, _⟩ | h
      · rw [ho] at h0; cases h0; exact ⟨h1, h2, h3⟩
      · exact h.2
    obtain ⟨h1, h2, h3⟩ := hat
    simp only [h1, h2, h3]
    refine ⟨{ o with value := .items m.lists.length }, m.lists.length, ?_, h1, h2, h3, rfl, ?_⟩
    · rw [setValue_eq]
      simp [Mem.newList, ho]
    · simp [Mem.setValue, Mem.update, Mem.newList]
  · rcases h with ⟨o', l, h0, h1, h2, h3, h4, h5⟩ | h
    · split
      · refine ⟨o', l, ?_, h1, h2, h3, h4, ?_⟩
        · simp only
          rw [setValue_ne _ _ e]; exact h0
        · simp only [Mem.setValue, Mem.update]
          exact newList_old _ h5
      · exact ⟨o', l, h0, h1, h2, h3, h4, h5⟩
    · exact absurd h.1.symm e

theorem encodeRefs_loaded {enc : Mem → Ref → Mem × Except Exc Str} {a : Nat} {v co da : Ref}
    (h : ∀ m r, m.Loaded a v co da → (enc m r).1.Loaded a v co da) {m : Mem} (hm : m.Loaded a v co da) (l : List Ref) :
    (encodeRefs enc m l).1.Loaded a v co da := by
  induction l generalizing m with
  | nil => exact hm
  | cons r rs ih =>
    have h1 := h m r hm
    have h2 := ih h1
    rw [encodeRefs]
    generalize enc m r = x at *
    rcases x with ⟨m1, e | s⟩
    · exact h1
    · simp only at h2 ⊢
      generalize encodeRefs enc m1 rs = y at *
      rcases y with ⟨m2, e | t⟩
      · exact h2
      · exact h2

theorem gEncode_loaded (d : Nat) {m : Mem} {a : Nat} {v co da : Ref} (r : Ref) (hm : m.Loaded a v co da) :
    (gEncode d m r).1.Loaded a v co da := by
  induction d generalizing m r with
  | zero => cases r <;> exact hm
  | succ d ih =>
    cases r with
    | obj b =>
      rw [gEncode]
      cases ho : m.objs[b]? with
      | none => exact hm
      | some o =>
        simp only
        cases hc : o.cls with
        | int c => simp only; split <;> exact hm
        | oct c => simp only; split <;> exact hm
        | oid =>
          simp only
          split
          · split <;> exact hm
          · exact hm
        | null c => exact hm
        | asn1Object => exact hm
        | seq c =>
          simp only
          split
          · have hl := loadMessage_loaded (m := m) (a := a) ho (Or.inl hm)
            generalize m.loadMessage b o = x at *
            rcases x with ⟨m1, e | l⟩
            · exact hl
            · simp only [finishTlv_fst]
              exact encodeRefs_loaded (fun m r h => ih r h) hl l
          · split
            · simp only [finishTlv_fst]
              exact encodeRefs_loaded (fun m r h => ih r h) hm _
            · exact hm
    | _ => exact hm

/-- Encoding a Message leaves its three fields in its `value`, whether or not an exception is raised. -/
theorem gEncode_loads (d : Nat) {m : Mem} {a : Nat} {o : Node} {c : SeqCls} {v co da : Ref} (ho : m.objs[a]? = some o)
    (hc : o.cls = .seq c) (hm : (Cls.seq c).isSubclass (.seq .message) = true) (h1 : o.attrs .version = some v)
    (h2 : o.attrs .community = some co) (h3 : o.attrs .data = some da) :
    (gEncode (d + 1) m (.obj a)).1.Loaded a v co da := by
  have hl := loadMessage_loaded (m := m) (a := a) (v := v) (co := co) (da := da) ho (Or.inr ⟨rfl, h1, h2, h3⟩)
  rw [gEncode, ho]
  simp only [hc, hm, if_true]
  generalize m.loadMessage a o = x at *
  rcases x with ⟨m1, e | l⟩
  · exact hl
  · simp only [finishTlv_fst]
    exact encodeRefs_loaded (fun m r h => gEncode_loaded d r h) hl l

end Libsnmp
