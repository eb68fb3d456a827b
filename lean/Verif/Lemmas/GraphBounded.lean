import Verif.Lemmas.ProgramFlow

/-!
# In every reachable state, every Sequence's list exists
-/

namespace Libsnmp

/-- All list addresses exist: those in objects and those in references `P` says nothing about; plus all references
in lists and attributes. -/
def Ref.bounded (n : Nat) : Ref → Prop
  | .list l => l < n
  | _ => True

/-- Every list address anywhere in memory exists. -/
structure Mem.Full (m : Mem) : Prop where
  value : ∀ (a : Nat) (o : Node) (l : Nat), m.objs[a]? = some o → o.value = .items l → l < m.lists.length
  attrs : ∀ (a : Nat) (o : Node) (f : Attr) (x : Ref), m.objs[a]? = some o → o.attrs f = some x →
    x.bounded m.lists.length
  lists : ∀ (l : Nat) (xs : List Ref) (x : Ref), m.lists[l]? = some xs → x ∈ xs → x.bounded m.lists.length

theorem Mem.Full.bounded {m : Mem} (h : m.Full) : m.Bounded := h.value

theorem Ref.bounded.mono {n k : Nat} (h : n ≤ k) {r : Ref} (hr : r.bounded n) : r.bounded k := by
  cases r <;> first | trivial | (simp only [Ref.bounded] at *; omega)

theorem Mem.Full.newList {m : Mem} (h : m.Full) {l : List Ref} (hl : ∀ x ∈ l, x.bounded m.lists.length) :
    (m.newList l).1.Full := by
  have hn : m.lists.length ≤ (m.newList l).1.lists.length := by simp [Mem.newList]
  refine ⟨fun a o k ho hk => ?_, fun a o f x ho hx => (h.attrs a o f x ho hx).mono hn, fun k xs x hk hx => ?_⟩
  · have := h.value a o k ho hk; omega
  · simp only [Mem.newList] at hk
    by_cases e : k < m.lists.length
    · rw [List.getElem?_append_left e] at hk
      exact (h.lists k xs x hk hx).mono hn
    · have : k = m.lists.length := by
        have := (List.getElem?_eq_some_iff.mp hk).1
        simp at this; omega
      subst this
      simp at hk
      subst hk
      exact (hl x hx).mono hn

theorem Mem.Full.newNode {m : Mem} (h : m.Full) {o : Node} (ho : ∀ l, o.value = .items l → l < m.lists.length)
    (ha : ∀ f x, o.attrs f = some x → x.bounded m.lists.length) : (m.newNode o).1.Full := by
  have key : ∀ (a : Nat) (y : Node), (m.newNode o).1.objs[a]? = some y → m.objs[a]? = some y ∨ y = o := by
    intro a y hy
    simp only [Mem.newNode] at hy
    by_cases e : a < m.objs.length
    · rw [List.getElem?_append_left e] at hy; exact Or.inl hy
    · have : a = m.objs.length := by
        have := (List.getElem?_eq_some_iff.mp hy).1
        simp at this; omega
      subst this
      simp at hy
      exact Or.inr hy.symm
  refine ⟨fun a y k hy hk => ?_, fun a y f x hy hx => ?_, h.lists⟩
  · rcases key a y hy with hy | rfl
    · exact h.value a y k hy hk
    · exact ho k hk
  · rcases key a y hy with hy | rfl
    · exact h.attrs a y f x hy hx
    · exact ha f x hx

theorem Mem.Full.newPrim {m : Mem} (h : m.Full) {c : Cls} {v : Slot} (hv : ∀ l, v ≠ .items l) :
    (m.newPrim c v).1.Full :=
  h.newNode (fun l hl => absurd hl (hv l)) fun _ _ hx => by simp at hx

theorem Mem.Full.newSeq {m : Mem} (h : m.Full) (c : SeqCls) {l : List Ref} (hl : ∀ x ∈ l, x.bounded m.lists.length) :
    (m.newSeq c l).1.Full := by
  have hn : m.lists.length ≤ (m.newList l).1.lists.length := by simp [Mem.newList]
  refine (h.newList hl).newNode (fun k hk => ?_) fun f x hx => (hl x (attrsOf_mem hx)).mono hn
  simp only [Slot.items.injEq] at hk
  subst hk
  simp [Mem.newList]

theorem Mem.Full.mkInteger {m : Mem} (h : m.Full) (c : IntCls) (n : Int) : (m.mkInteger c n).1.Full := by
  unfold Mem.mkInteger
  split
  · exact h.newPrim (by simp)
  · exact h

theorem mkInteger_bounded {m m' : Mem} {c : IntCls} {n : Int} {r : Ref} (h : m.mkInteger c n = (m', .ok r)) (k : Nat) :
    r.bounded k := by
  unfold Mem.mkInteger at h
  split at h
  · simp only [Mem.newPrim, Mem.newNode, Prod.mk.injEq, Except.ok.injEq] at h
    rw [← h.2]; trivial
  · simp at h

theorem Mem.Full.mkVarBind {m : Mem} (h : m.Full) (c : SeqCls) {r s : Ref} (hr : r.bounded m.lists.length)
    (hs : s.bounded m.lists.length) : (m.mkVarBind c r s).1.Full := by
  unfold Mem.mkVarBind
  split
  · exact h
  · split
    · exact h
    · refine h.newSeq c ?_
      intro x hx
      simp only [List.mem_cons, List.not_mem_nil, or_false] at hx
      rcases hx with rfl | rfl <;> assumption

theorem Mem.Full.items {m : Mem} (h : m.Full) {r : Ref} {l : List Ref} (hl : m.items r = some l) :
    ∀ x ∈ l, x.bounded m.lists.length := by
  unfold Mem.items at hl
  intro x hx
  cases r with
  | list k => exact h.lists k l x hl hx
  | obj a =>
    simp only at hl
    split at hl
    · split at hl
      · exact h.lists _ l x hl hx
      · cases hl
    · cases hl
  | _ => cases hl

theorem Mem.Full.mkVarBindList {m : Mem} (h : m.Full) (c : SeqCls) (r : Ref) : (m.mkVarBindList c r).1.Full := by
  unfold Mem.mkVarBindList
  split
  · split
    · exact h
    · exact h.newSeq c (fun _ hx => by cases hx)
  · next l hl =>
    split
    · exact h
    · split
      · exact h.newSeq c (h.items hl)
      · exact h

theorem mkVarBindList_obj {m m' : Mem} {c : SeqCls} {v r : Ref} (h : m.mkVarBindList c v = (m', .ok r)) (k : Nat) :
    r.bounded k := by
  unfold Mem.mkVarBindList at h
  split at h
  · split at h
    · simp at h
    · simp only [Mem.newSeq, Mem.newList, Mem.newNode, Prod.mk.injEq, Except.ok.injEq] at h
      rw [← h.2]; trivial
  · split at h
    · simp at h
    · split at h
      · simp only [Mem.newSeq, Mem.newList, Mem.newNode, Prod.mk.injEq, Except.ok.injEq] at h
        rw [← h.2]; trivial
      · simp at h

theorem Mem.Full.mkPDU {m : Mem} (h : m.Full) (c : SeqCls) (a b d : Int) (v : Ref) : (m.mkPDU c a b d v).1.Full := by
  cases hx : m.mkPDU c a b d v with
  | mk m' x =>
    cases x with
    | error e => rw [gPDU_err hx]; exact h
    | ok p =>
      obtain ⟨m1, m2, m3, m4, r1, r2, r3, r4, h1, h2, h3, h4, h5⟩ := gPDU_ok hx
      have f1 := h.mkInteger (pduParts c).1 a
      rw [h1] at f1
      have f2 := Mem.Full.mkInteger f1 (pduParts c).2.1 b
      rw [h2] at f2
      have f3 := Mem.Full.mkInteger f2 (pduParts c).2.2.1 d
      rw [h3] at f3
      have f4 := Mem.Full.mkVarBindList f3 (pduParts c).2.2.2 v
      rw [h4] at f4
      have f5 := Mem.Full.newSeq f4 c (l := [r1, r2, r3, r4]) (by
        intro x hx
        simp only [List.mem_cons, List.not_mem_nil, or_false] at hx
        rcases hx with rfl | rfl | rfl | rfl
        · exact mkInteger_bounded h1 _
        · exact mkInteger_bounded h2 _
        · exact mkInteger_bounded h3 _
        · exact mkVarBindList_obj h4 _)
      rw [h5] at f5
      exact f5

theorem Mem.Full.message {m : Mem} (h : m.Full) (c : SeqCls) {l : List Ref} (hl : ∀ x ∈ l, x.bounded m.lists.length) :
    ((m.newList []).1.newNode ⟨.seq c, .items (m.newList []).2, attrsOf c l⟩).1.Full := by
  have hn : m.lists.length ≤ (m.newList []).1.lists.length := by simp [Mem.newList]
  refine (h.newList (by simp)).newNode (fun k hk => ?_) fun f x hx => (hl x (attrsOf_mem hx)).mono hn
  simp only [Slot.items.injEq] at hk
  subst hk
  simp [Mem.newList]

theorem Mem.Full.mkMessage {m : Mem} (h : m.Full) (c : SeqCls) (n : Int) (s : Str) {d : Ref}
    (hd : d.bounded m.lists.length) : (m.mkMessage c n s d).1.Full := by
  unfold Mem.mkMessage
  have f1 := h.mkInteger .integer n
  have g1 := (Grown.mkInteger m .integer n).len.2
  cases hx : m.mkInteger .integer n with
  | mk m1 x =>
    rw [hx] at f1 g1
    cases x with
    | error e => exact h
    | ok v =>
      simp only at f1 g1 ⊢
      have f2 : (m1.newPrim (.oct .octetString) (.text s)).1.Full := Mem.Full.newPrim f1 (by simp)
      refine Mem.Full.message f2 c ?_
      intro x hx'
      simp only [List.mem_cons, List.not_mem_nil, or_false] at hx'
      rcases hx' with rfl | rfl | rfl
      · exact mkInteger_bounded hx _
      · trivial
      · exact hd.mono g1

mutual
theorem Mem.Full.alloc {m : Mem} (h : m.Full) (v : Val) : (m.alloc v).1.Full ∧ ∀ k, (m.alloc v).2.bounded k := by
  match v with
  | .none => rw [Mem.alloc]; exact ⟨h, fun _ => trivial⟩
  | .int n => rw [Mem.alloc]; exact ⟨h, fun _ => trivial⟩
  | .str s => rw [Mem.alloc]; exact ⟨h, fun _ => trivial⟩
  | .bytes b => rw [Mem.alloc]; exact ⟨h, fun _ => trivial⟩
  | .integer c n => rw [Mem.alloc]; exact ⟨h.newPrim (by simp), fun _ => trivial⟩
  | .octets c s => rw [Mem.alloc]; exact ⟨h.newPrim (by simp), fun _ => trivial⟩
  | .raw c l => rw [Mem.alloc]; exact ⟨h.newPrim (by simp), fun _ => trivial⟩
  | .oid l => rw [Mem.alloc]; exact ⟨h.newPrim (by simp), fun _ => trivial⟩
  | .null c => rw [Mem.alloc]; exact ⟨h.newPrim (by simp), fun _ => trivial⟩
  | .seq c items =>
    rw [Mem.alloc]
    have f := Mem.Full.allocItems h items
    exact ⟨Mem.Full.newSeq f.1 c fun x hx => f.2 x hx _, fun _ => trivial⟩
theorem Mem.Full.allocItems {m : Mem} (h : m.Full) (vs : List Val) :
    (m.allocItems vs).1.Full ∧ ∀ x ∈ (m.allocItems vs).2, ∀ k, x.bounded k := by
  match vs with
  | [] => rw [Mem.allocItems]; exact ⟨h, by simp⟩
  | v :: vs =>
    rw [Mem.allocItems]
    have f1 := Mem.Full.alloc h v
    have f2 := Mem.Full.allocItems f1.1 vs
    refine ⟨f2.1, ?_⟩
    intro x hx
    simp only [List.mem_cons] at hx
    rcases hx with rfl | hx
    · exact f1.2
    · exact f2.2 x hx
end

theorem Mem.Full.decodeMessage {m : Mem} (h : m.Full) (reg : Reg) (c : SeqCls) (s : Str) :
    (m.decodeMessage reg c s).1.Full := by
  unfold Mem.decodeMessage
  split
  · exact h
  · next msg _ =>
    have f1 := h.alloc msg.version
    have f2 := Mem.Full.alloc f1.1 msg.community
    have f3 := Mem.Full.alloc f2.1 msg.data
    refine Mem.Full.message f3.1 c ?_
    intro x hx
    simp only [List.mem_cons, List.not_mem_nil, or_false] at hx
    rcases hx with rfl | rfl | rfl
    · exact f1.2 _
    · exact f2.2 _
    · exact f3.2 _

theorem Mem.Full.update {m : Mem} (h : m.Full) (a : Nat) (f : Node → Node)
    (hv : ∀ o l, m.objs[a]? = some o → (f o).value = .items l → l < m.lists.length)
    (ha : ∀ o g x, m.objs[a]? = some o → (f o).attrs g = some x → x.bounded m.lists.length) : (m.update a f).Full := by
  have key : ∀ (b : Nat) (y : Node), (m.update a f).objs[b]? = some y → m.objs[b]? = some y ∨
      ∃ o, m.objs[a]? = some o ∧ y = f o := by
    intro b y hy
    by_cases e : a = b
    · subst e
      rw [update_objs_eq] at hy
      obtain ⟨o, ho, rfl⟩ := Option.map_eq_some_iff.mp hy
      exact Or.inr ⟨o, ho, rfl⟩
    · rw [update_objs_ne _ _ e] at hy
      exact Or.inl hy
  refine ⟨fun b y k hy hk => ?_, fun b y g x hy hx => ?_, h.lists⟩
  · rw [update_lists]
    rcases key b y hy with hy | ⟨o, ho, rfl⟩
    · exact h.value b y k hy hk
    · exact hv o k ho hk
  · rw [update_lists]
    rcases key b y hy with hy | ⟨o, ho, rfl⟩
    · exact h.attrs b y g x hy hx
    · exact ha o g x ho hx

theorem Mem.Full.setList {m : Mem} (h : m.Full) (l : Nat) {xs : List Ref} (hx : ∀ x ∈ xs, x.bounded m.lists.length) :
    (m.setList l xs).Full := by
  have hn : (m.setList l xs).lists.length = m.lists.length := by simp [Mem.setList]
  refine ⟨fun a o k ho hk => ?_, fun a o f x ho hx => ?_, fun k ys y hk hy => ?_⟩
  · rw [hn]; exact h.value a o k ho hk
  · rw [hn]; exact h.attrs a o f x ho hx
  · rw [hn]
    by_cases e : l = k
    · subst e
      simp only [Mem.setList, List.getElem?_set_self'] at hk
      obtain ⟨z, _, rfl⟩ := Option.map_eq_some_iff.mp hk
      exact hx y hy
    · simp only [Mem.setList] at hk
      rw [List.getElem?_set_ne e] at hk
      exact h.lists k ys y hk hy

theorem Mem.Full.loadMessage {m : Mem} (h : m.Full) {a : Nat} {o : Node} (ho : m.objs[a]? = some o) :
    (m.loadMessage a o).1.Full := by
  unfold Mem.loadMessage
  split
  · next v c d h1 h2 h3 =>
    have f := h.newList (l := [v, c, d]) (by
      intro x hx
      simp only [List.mem_cons, List.not_mem_nil, or_false] at hx
      rcases hx with rfl | rfl | rfl
      · exact h.attrs a o _ _ ho h1
      · exact h.attrs a o _ _ ho h2
      · exact h.attrs a o _ _ ho h3)
    refine f.update a _ (fun o' l _ hl => ?_) fun o' g x ho' hx => f.attrs a o' g x ho' hx
    simp only [Mem.newList, Slot.items.injEq] at hl
    simp only [Mem.newList, List.length_append, List.length_cons]
    omega
  · exact h

theorem encodeRefs_full {enc : Mem → Ref → Mem × Except Exc Str} (h : ∀ m r, m.Full → (enc m r).1.Full)
    {m : Mem} (hm : m.Full) (l : List Ref) : (encodeRefs enc m l).1.Full := by
  induction l generalizing m with
  | nil => exact hm
  | cons r rs ih =>
    have h1 := h m r hm
    have h2 := ih h1
    unfold encodeRefs
    generalize hx : enc m r = x at *
    rcases x with ⟨m1, e | s⟩
    · exact h1
    · simp only at h1 h2 ⊢
      generalize hy : encodeRefs enc m1 rs = y at *
      rcases y with ⟨m2, e | t⟩
      · exact h2
      · exact h2

theorem gEncode_full (d : Nat) {m : Mem} (hm : m.Full) (r : Ref) : (gEncode d m r).1.Full := by
  induction d generalizing m r with
  | zero => cases r <;> exact hm
  | succ d ih =>
    cases r with
    | obj a =>
      rw [gEncode]
      split
      · exact hm
      · next o ho =>
        split
        · split <;> exact hm
        · split <;> exact hm
        · split
          · split <;> exact hm
          · exact hm
        · exact hm
        · exact hm
        · next c hc =>
          split
          · have hl := Mem.Full.loadMessage hm ho
            generalize m.loadMessage a o = x at *
            rcases x with ⟨m1, e | l⟩
            · exact hl
            · simp only [finishTlv_fst]
              exact encodeRefs_full (fun m r h => ih h r) hl _
          · split
            · simp only [finishTlv_fst]
              exact encodeRefs_full (fun m r h => ih h r) hm _
            · exact hm
    | _ => exact hm

/-! ## Programs -/

/-- All list addresses in memory and in variables exist. -/
def Prog.Full (p : Prog) : Prop := p.mem.Full ∧ ∀ r ∈ p.vars, r.bounded p.mem.lists.length

theorem full_init : (({} : Prog)).Full :=
  ⟨⟨fun a o l h => by simp at h, fun a o f x h => by simp at h, fun l xs x h => by simp at h⟩, by simp⟩

theorem getBinds_full {m : Mem} (h : m.Full) (c : SeqCls) (l : List Arg) :
    (m.getBinds c l).1.Full ∧ ∀ vbs, (m.getBinds c l).2 = .ok vbs → ∀ x ∈ vbs, ∀ k, x.bounded k := by
  induction l generalizing m with
  | nil => exact ⟨h, fun vbs hv => by simp [Mem.getBinds] at hv; subst hv; simp⟩
  | cons a as ih =>
    rw [Mem.getBinds]
    cases mkOid a with
    | error e => exact ⟨h, fun vbs hv => by cases hv⟩
    | ok ids =>
      simp only
      have f1 : (m.newPrim .oid (.ids ids)).1.Full := h.newPrim (by simp)
      have b1 : ∀ k, (m.newPrim .oid (.ids ids)).2.bounded k := fun _ => trivial
      generalize m.newPrim .oid (.ids ids) = x1 at *
      rcases x1 with ⟨m1, o⟩
      simp only at f1 b1 ⊢
      have f2 : (m1.newPrim (.null .null) .nothing).1.Full := Mem.Full.newPrim f1 (by simp)
      have b2 : ∀ k, (m1.newPrim (.null .null) .nothing).2.bounded k := fun _ => trivial
      generalize m1.newPrim (.null .null) .nothing = x2 at *
      rcases x2 with ⟨m2, z⟩
      simp only at f2 b2 ⊢
      have f3 := Mem.Full.mkVarBind f2 c (b1 _) (b2 _)
      have b3 : ∀ r, (m2.mkVarBind c o z).2 = .ok r → ∀ k, r.bounded k := by
        intro r hr k
        unfold Mem.mkVarBind at hr
        split at hr
        · cases hr
        · split at hr
          · cases hr
          · simp only [Mem.newSeq, Mem.newList, Mem.newNode, Except.ok.injEq] at hr
            rw [← hr]; trivial
      generalize m2.mkVarBind c o z = x3 at *
      rcases x3 with ⟨m3, e | vb⟩
      · exact ⟨f3, fun vbs hv => by cases hv⟩
      · have f4 := ih f3
        simp only at f3 ⊢
        generalize m3.getBinds c as = y at *
        rcases y with ⟨m4, e | vbs⟩
        · exact ⟨f4.1, fun vbs hv => by cases hv⟩
        · refine ⟨f4.1, fun vbs' hv => ?_⟩
          simp only [Except.ok.injEq] at hv
          subst hv
          intro x hx
          simp only [List.mem_cons] at hx
          rcases hx with rfl | hx
          · exact b3 _ rfl
          · exact f4.2 vbs rfl x hx

theorem mkPDU_bounded {m m' : Mem} {c : SeqCls} {a b d : Int} {v r : Ref} (h : m.mkPDU c a b d v = (m', .ok r))
    (k : Nat) : r.bounded k := by
  obtain ⟨m1, m2, m3, m4, r1, r2, r3, r4, _, _, _, _, h5⟩ := gPDU_ok h
  simp only [Mem.newSeq, Mem.newList, Mem.newNode, Prod.mk.injEq] at h5
  rw [← h5.2]; trivial

theorem requestIDOf_bounded {m : Mem} (h : m.Full) {r x : Ref} (hx : m.requestIDOf r = some x) :
    x.bounded m.lists.length := by
  cases r with
  | obj a =>
    simp only [Mem.requestIDOf, Mem.attr] at hx
    split at hx
    · cases hx
    · next o ho => exact h.attrs a o _ x ho hx
  | _ => cases hx

theorem full_vars {p : Prog} (h : p.Full) {m : Mem} (hn : p.mem.lists.length ≤ m.lists.length) :
    ∀ r ∈ p.vars, r.bounded m.lists.length := fun r hr => (h.2 r hr).mono hn

theorem snmpGet_full {p : Prog} (h : p.Full) (k : Api) (oids : List Arg) (community : Str) :
    (p.snmpGet k oids community).1.Full := by
  unfold Prog.snmpGet
  have f1 := getBinds_full h.1 k.varBind oids
  have g1 := (Grown.getBinds p.mem k.varBind oids).len.2
  generalize p.mem.getBinds k.varBind oids = x1 at *
  rcases x1 with ⟨m, e | vbs⟩
  · exact ⟨f1.1, full_vars h g1⟩
  · have f2 := Mem.Full.newList f1.1 (l := vbs) fun x hx => f1.2 vbs rfl x hx _
    have g2 := (Grown.newList m vbs).len.2
    simp only at g1 f2 g2 ⊢
    generalize m.newList vbs = x2 at *
    rcases x2 with ⟨m0, l⟩
    have f3 := Mem.Full.mkVarBindList f2 k.varBindList (.list l)
    have g3 := (Grown.mkVarBindList m0 k.varBindList (.list l)).len.2
    simp only at f2 g2 f3 g3 ⊢
    generalize m0.mkVarBindList k.varBindList (.list l) = x3 at *
    rcases x3 with ⟨m1, e | vbl⟩
    · exact ⟨f3, full_vars h (by simp only at *; omega)⟩
    · simp only at f3 g3 ⊢
      have f4 := Mem.Full.mkPDU f3 k.get p.nextID 0 0 vbl
      have g4 := (Grown.mkPDU m1 k.get p.nextID 0 0 vbl).len.2
      cases hp : m1.mkPDU k.get p.nextID 0 0 vbl with
      | mk m2 x4 =>
        rw [hp] at f4 g4
        cases x4 with
        | error e => exact ⟨f4, full_vars h (by simp only at *; omega)⟩
        | ok pdu =>
          simp only at f4 g4 ⊢
          have f5 := Mem.Full.mkMessage f4 k.message k.version community (mkPDU_bounded hp _)
          have g5 := (Grown.mkMessage m2 k.message k.version community pdu).len.2
          generalize m2.mkMessage k.message k.version community pdu = x5 at *
          rcases x5 with ⟨m3, e | msg⟩
          · exact ⟨f5, full_vars h (by simp only at *; omega)⟩
          · simp only at f5 g5 ⊢
            cases hq : m3.requestIDOf pdu with
            | none => exact ⟨f5, full_vars h (by simp only at *; omega)⟩
            | some r =>
              refine ⟨f5, fun x hx => ?_⟩
              simp only [List.mem_append, List.mem_cons, List.not_mem_nil, or_false] at hx
              rcases hx with hx | rfl
              · exact (h.2 x hx).mono (by simp only at *; omega)
              · exact requestIDOf_bounded f5 hq

theorem snmpGetNext_full {p : Prog} (h : p.Full) (k : Api) (vbs : Ref) (community : Str) :
    (p.snmpGetNext k vbs community).1.Full := by
  unfold Prog.snmpGetNext
  split
  · exact h
  · have f4 := Mem.Full.mkPDU h.1 k.getNext p.nextID 0 0 vbs
    have g4 := (Grown.mkPDU p.mem k.getNext p.nextID 0 0 vbs).len.2
    cases hp : p.mem.mkPDU k.getNext p.nextID 0 0 vbs with
    | mk m2 x4 =>
      rw [hp] at f4 g4
      cases x4 with
      | error e => exact ⟨f4, full_vars h g4⟩
      | ok pdu =>
        simp only at f4 g4 ⊢
        have f5 := Mem.Full.mkMessage f4 k.message k.version community (mkPDU_bounded hp _)
        have g5 := (Grown.mkMessage m2 k.message k.version community pdu).len.2
        generalize m2.mkMessage k.message k.version community pdu = x5 at *
        rcases x5 with ⟨m3, e | msg⟩
        · exact ⟨f5, full_vars h (by simp only at *; omega)⟩
        · simp only at f5 g5 ⊢
          cases hq : m3.requestIDOf pdu with
          | none => exact ⟨f5, full_vars h (by simp only at *; omega)⟩
          | some r =>
            refine ⟨f5, fun x hx => ?_⟩
            simp only [List.mem_append, List.mem_cons, List.not_mem_nil, or_false] at hx
            rcases hx with hx | rfl
            · exact (h.2 x hx).mono (by simp only at *; omega)
            · exact requestIDOf_bounded f5 hq

theorem snmpTrap_full {p : Prog} (h : p.Full) (k : Api) {pdu : Ref} (hb : pdu.bounded p.mem.lists.length)
    (community : Str) : (p.snmpTrap k pdu community).1.Full := by
  unfold Prog.snmpTrap
  split
  · exact h
  · have f5 := Mem.Full.mkMessage h.1 k.message k.version community hb
    have g5 := (Grown.mkMessage p.mem k.message k.version community pdu).len.2
    generalize p.mem.mkMessage k.message k.version community pdu = x5 at *
    rcases x5 with ⟨m3, e | msg⟩
    · exact ⟨f5, full_vars h g5⟩
    · refine ⟨f5, fun x hx => ?_⟩
      simp only [List.mem_append, List.mem_cons, List.not_mem_nil, or_false] at hx
      rcases hx with hx | rfl
      · exact (h.2 x hx).mono g5
      · trivial

theorem finish_full {p : Prog} (h : p.Full) {x : Mem × Except Exc Ref} (hx : x.1.Full)
    (hn : p.mem.lists.length ≤ x.1.lists.length) (hr : ∀ r, x.2 = .ok r → r.bounded x.1.lists.length) :
    (p.finish x).1.Full := by
  rcases x with ⟨m, e | r⟩
  · exact ⟨hx, full_vars h hn⟩
  · refine ⟨hx, fun y hy => ?_⟩
    simp only [Prog.finish, Prog.bind, List.mem_append, List.mem_cons, List.not_mem_nil, or_false] at hy
    rcases hy with hy | rfl
    · exact (h.2 y hy).mono hn
    · exact hr _ rfl

theorem full_var {p : Prog} (h : p.Full) {v : Nat} {r : Ref} (hv : p.vars[v]? = some r) :
    r.bounded p.mem.lists.length := h.2 r (List.mem_of_getElem? hv)

theorem full_refs {p : Prog} (h : p.Full) {vs : List Nat} {rs : List Ref}
    (hv : p.refs vs = some rs) : ∀ x ∈ rs, x.bounded p.mem.lists.length := by
  induction vs generalizing rs with
  | nil => simp [Prog.refs] at hv; subst hv; simp
  | cons v vs ih =>
    rw [Prog.refs] at hv
    cases h1 : p.vars[v]? with
    | none => rw [h1] at hv; simp at hv
    | some r =>
      cases h2 : p.refs vs with
      | none => rw [h1, h2] at hv; simp at hv
      | some rs' =>
        rw [h1, h2] at hv
        simp at hv
        subst hv
        intro x hx
        simp only [List.mem_cons] at hx
        rcases hx with rfl | hx
        · exact full_var h h1
        · exact ih h2 x hx

/-- A region is closed whatever it is; the one that suits `run_moves` may be chosen afresh for every state.  The lists of
a memory never become fewer. -/
theorem assign_full {p : Prog} (h : p.Full) (r : Ref) {v : Slot} (ok : Cls → Bool)
    (hv : ∀ l, v = .items l → l < p.mem.lists.length) : (p.finish (p.mem.assign r v ok)).1.Full := by
  unfold Mem.assign
  cases r with
  | obj a =>
    simp only
    split
    · next o ho =>
      split
      · refine finish_full h (h.1.update a _ (fun o' l _ hl => hv l hl) fun o' g x ho' hx =>
          h.1.attrs a o' g x ho' hx) (Nat.le_refl _) fun r hr => by cases hr; trivial
      · exact finish_full h h.1 (Nat.le_refl _) fun r hr => by cases hr
    · exact finish_full h h.1 (Nat.le_refl _) fun r hr => by cases hr
  | _ => exact finish_full h h.1 (Nat.le_refl _) fun r hr => by cases hr

theorem append_full {p : Prog} (h : p.Full) (r : Ref) {x : Ref} (hx : x.bounded p.mem.lists.length) :
    (p.finish (p.mem.append r x)).1.Full := by
  have key : ∀ l xs, (∀ y ∈ xs, y.bounded p.mem.lists.length) →
      (p.finish (p.mem.setList l (xs ++ [x]), .ok .none)).1.Full := by
    intro l xs hxs
    refine finish_full h (h.1.setList l ?_) (by simp [Mem.setList]) fun r hr => by cases hr; trivial
    intro y hy
    simp only [List.mem_append, List.mem_cons, List.not_mem_nil, or_false] at hy
    rcases hy with hy | rfl
    · exact hxs y hy
    · exact hx
  have nothing : ∀ e, (p.finish (p.mem, .error e)).1.Full := fun e =>
    finish_full h h.1 (Nat.le_refl _) fun r hr => by cases hr
  unfold Mem.append
  cases r with
  | list l =>
    simp only
    split
    · next xs hxs => exact key l xs fun y hy => h.1.lists l xs y hxs hy
    · exact nothing _
  | obj a =>
    simp only
    split
    · split
      · next l hl =>
        split
        · exact nothing _
        · refine key l _ fun y hy => ?_
          cases hxs : p.mem.lists[l]? with
          | none => simp [List.getD, hxs] at hy
          | some xs =>
            simp [List.getD, hxs] at hy
            exact h.1.lists l xs y hxs hy
      · exact nothing _
    · exact nothing _
  | _ => exact nothing _

theorem step_full {p : Prog} (h : p.Full) (op : POp) : (p.step op).1.Full := by
  have le := Nat.le_refl p.mem.lists.length
  have same : ∀ (r : Ref), r.bounded p.mem.lists.length → (p.finish (p.mem, .ok r)).1.Full := fun r hr =>
    finish_full h h.1 le fun x hx => by cases hx; exact hr
  have objOk : ∀ {m : Mem} {a : Nat}, ∀ r, (Except.ok (Ref.obj a) : Except Exc Ref) = .ok r → r.bounded m.lists.length :=
    fun r hr => by cases hr; trivial
  cases op with
  | constNone => exact same _ trivial
  | constInt n => exact same _ trivial
  | constStr s => exact same _ trivial
  | list vs =>
    rw [Prog.step]
    split
    · next rs hrs =>
      refine finish_full h (h.1.newList (full_refs h hrs)) (by simp [Mem.newList]) fun r hr => ?_
      cases hr
      simp [Mem.newList, Ref.bounded]
    · exact h
  | setList v vs =>
    rw [Prog.step]
    split
    · next l rs h1 h2 =>
      exact finish_full h (h.1.setList l (full_refs h h2)) (by simp [Mem.setList]) fun r hr => by cases hr; trivial
    · exact h
  | integer c n =>
    refine finish_full h (h.1.mkInteger c n) (Grown.mkInteger p.mem c n).len.2 fun r hr => ?_
    exact mkInteger_bounded (m := p.mem) (m' := (p.mem.mkInteger c n).1) (c := c) (n := n) (Prod.ext rfl hr) _
  | octets c s =>
    rw [Prog.step]
    split
    · exact h
    · exact finish_full h (h.1.newPrim (by simp)) le objOk
  | oid arg =>
    rw [Prog.step]
    split
    · exact h
    · exact finish_full h (h.1.newPrim (by simp)) le objOk
  | null c => exact finish_full h (h.1.newPrim (by simp)) le objOk
  | sequence v =>
    rw [Prog.step]
    split
    · next l hl =>
      refine finish_full h (h.1.newNode (fun k hk => ?_) fun _ _ hx => by simp at hx) le objOk
      simp only [Slot.items.injEq] at hk
      subst hk
      exact full_var h hl
    · exact h
  | varBind c v w =>
    rw [Prog.step]
    split
    · split
      · next r s h1 h2 =>
        refine finish_full h (h.1.mkVarBind c (full_var h h1) (full_var h h2)) (Grown.mkVarBind ..).len.2 fun x hx => ?_
        unfold Mem.mkVarBind at hx
        split at hx
        · cases hx
        · split at hx
          · cases hx
          · simp only [Mem.newSeq, Mem.newList, Mem.newNode, Except.ok.injEq] at hx
            rw [← hx]; trivial
      · exact h
    · exact h
  | varBindList c v =>
    rw [Prog.step]
    split
    · split
      · next r h1 =>
        exact finish_full h (h.1.mkVarBindList c r) (Grown.mkVarBindList ..).len.2 fun x hx =>
          mkVarBindList_obj (m' := (p.mem.mkVarBindList c r).1) (Prod.ext rfl hx) _
      · exact h
    · exact h
  | pdu c a b d v =>
    rw [Prog.step]
    split
    · split
      · next r h1 =>
        exact finish_full h (h.1.mkPDU c a b d r) (Grown.mkPDU ..).len.2 fun x hx =>
          mkPDU_bounded (m' := (p.mem.mkPDU c a b d r).1) (Prod.ext rfl hx) _
      · exact h
    · exact h
  | trap e a g s t v =>
    rw [Prog.step]
    split
    · next h1 => exact finish_full h (h.1.newSeq _ (full_refs h h1)) (Grown.newSeq ..).len.2 objOk
    · exact h
  | message c version community v =>
    rw [Prog.step]
    split
    · split
      · next r h1 =>
        refine finish_full h (h.1.mkMessage c version community (full_var h h1)) (Grown.mkMessage ..).len.2 fun x hx => ?_
        unfold Mem.mkMessage at hx
        split at hx
        · cases hx
        · simp only [Mem.newList, Mem.newNode, Except.ok.injEq] at hx
          rw [← hx]; trivial
      · exact h
    · exact h
  | arrive reg c stream =>
    rw [Prog.step]
    split
    · obtain ⟨P', Q', f, _⟩ := Confined.decodeMessage (m := p.mem) (P := fun _ => False) (Q := fun _ => False)
        ⟨fun _ h => h.elim, fun _ h => h.elim⟩ reg c stream
      refine finish_full h (h.1.decodeMessage reg c stream) f.len fun x hx => ?_
      unfold Mem.decodeMessage at hx
      split at hx
      · cases hx
      · simp only [Mem.newNode, Except.ok.injEq] at hx
        rw [← hx]; trivial
    · exact h
  | attr v f =>
    rw [Prog.step]
    split
    · next a h1 =>
      split
      · next r hr =>
        refine same r ?_
        unfold Mem.attr at hr
        split at hr
        · cases hr
        · next o ho => exact h.1.attrs a o f r ho hr
      · exact h
    · exact h
  | item v i =>
    rw [Prog.step]
    split
    · next r h1 =>
      split
      · next l hl =>
        split
        · next x hx => exact same x (h.1.items hl x (List.mem_of_getElem? hx))
        · exact h
      · exact h
    · exact h
  | value v =>
    rw [Prog.step]
    split
    · next a h1 =>
      split
      · next c l at' ho => exact same _ (h.1.value a _ l ho rfl)
      · exact h
    · exact h
  | setAttr v f w =>
    rw [Prog.step]
    split
    · next a x h1 h2 =>
      refine finish_full h (h.1.update a _ (fun o l ho hl => h.1.value a o l ho hl) fun o g y ho hy => ?_) le
        fun r hr => by cases hr; trivial
      simp only at hy
      split at hy
      · cases hy; exact full_var h h2
      · exact h.1.attrs a o g y ho hy
    · exact h
  | setNum v n =>
    rw [Prog.step]
    split
    · exact assign_full h _ _ (by simp)
    · exact h
  | setText v s =>
    rw [Prog.step]
    split
    · exact assign_full h _ _ (by simp)
    · exact h
  | setIds v ids =>
    rw [Prog.step]
    split
    · exact assign_full h _ _ (by simp)
    · exact h
  | setItems v w =>
    rw [Prog.step]
    split
    · next r l h1 h2 =>
      refine assign_full h _ _ fun k hk => ?_
      simp only [Slot.items.injEq] at hk
      subst hk
      exact full_var h h2
    · exact h
  | append v w =>
    rw [Prog.step]
    split
    · next r x h1 h2 => exact append_full h r (full_var h h2)
    · exact h
  | encode depth v =>
    rw [Prog.step]
    split
    · next a h1 =>
      have f := gEncode_full depth h.1 (.obj a)
      have g := (gEncode_ext depth p.mem (.obj a)).lists
      generalize gEncode depth p.mem (.obj a) = x at *
      obtain ⟨s, hs⟩ := g
      have hn : p.mem.lists.length ≤ x.1.lists.length := by rw [hs]; simp
      rcases x with ⟨m, e | s⟩
      · exact finish_full h f hn fun r hr => by cases hr
      · exact finish_full h f hn fun r hr => by cases hr; trivial
    · exact h
  | snmpGet k oids community => exact snmpGet_full h k oids community
  | snmpGetNext k v community =>
    rw [Prog.step]
    split
    · exact snmpGetNext_full h k _ community
    · exact h
  | snmpTrap k v community =>
    rw [Prog.step]
    split
    · next r h1 => exact snmpTrap_full h k (full_var h h1) community
    · exact h
  | send depth =>
    rw [Prog.step]
    split
    · exact h
    · next msg rest _ =>
      have f := gEncode_full depth h.1 msg
      have g := (gEncode_ext depth p.mem msg).lists
      generalize gEncode depth p.mem msg = x at *
      obtain ⟨s, hs⟩ := g
      have hn : p.mem.lists.length ≤ x.1.lists.length := by rw [hs]; simp
      rcases x with ⟨m, e | s⟩
      · exact ⟨f, full_vars h hn⟩
      · exact ⟨f, full_vars h hn⟩

theorem run_full_from {p : Prog} (h : p.Full) (ops : List POp) : (p.run ops).Full := by
  induction ops generalizing p with
  | nil => exact h
  | cons op ops ih => exact ih (step_full h op)

theorem run_full (ops : List POp) : (({} : Prog).run ops).Full := run_full_from full_init ops

end Libsnmp
