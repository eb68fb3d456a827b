import Verif.Lemmas.GraphBounded
import Verif.Spec.Graph

/-! # What a queued message will look like (lemmas for C70) -/

namespace Libsnmp
open Spec

/-- `m'` agrees with `m` outside `P`, `Q`, as far as `encode()` reads. -/
structure Retains (m : Mem) (P Q : Nat → Prop) (m' : Mem) : Prop where
  objs : ∀ (a : Nat) (o : Node), ¬ P a → m.objs[a]? = some o → ∃ o', m'.objs[a]? = some o' ∧ Same o o'
  lists : ∀ (l : Nat) (xs : List Ref), ¬ Q l → m.lists[l]? = some xs → m'.lists[l]? = some xs

theorem Flow.retains {m m' : Mem} {P Q P' Q' : Nat → Prop} (h : Flow m P Q m' P' Q') : Retains m P Q m' := ⟨h.keepO, h.keepL⟩

/-- In every memory that agrees with `m` outside `P`, `Q`, the reference `r` shows what `f` says. -/
def Displays (m : Mem) (P Q : Nat → Prop) (d : Nat) (r : Ref) (f : Mem → Option Val) : Prop :=
  ∀ m', Retains m P Q m' → m'.onWire d r = f m'

/-- A list of references, each showing what its function says. -/
inductive DisplaysAll (m : Mem) (P Q : Nat → Prop) (d : Nat) : List Ref → List (Mem → Option Val) → Prop
  | nil : DisplaysAll m P Q d [] []
  | cons {r rs f fs} : Displays m P Q d r f → DisplaysAll m P Q d rs fs → DisplaysAll m P Q d (r :: rs) (f :: fs)

/-- All the values, if all exist. -/
def readAll (m : Mem) : List (Mem → Option Val) → Option (List Val)
  | [] => some []
  | f :: fs => match f m, readAll m fs with
    | some v, some vs => some (v :: vs)
    | _, _ => Option.none

theorem DisplaysAll.view {m : Mem} {P Q : Nat → Prop} {d : Nat} {rs : List Ref} {fs : List (Mem → Option Val)}
    (h : DisplaysAll m P Q d rs fs) {m' : Mem} (k : Retains m P Q m') : viewRefs (m'.onWire d) rs = readAll m' fs := by
  induction h with
  | nil => rfl
  | @cons _ _ f _ h1 _ ih => rw [viewRefs, readAll, h1 m' k, ih]; cases f m' <;> rfl

theorem Displays.leaf {m : Mem} {P Q : Nat → Prop} {a : Nat} {o : Node} (hp : ¬ P a) (ho : m.objs[a]? = some o)
    (hs : o.cls.isSeq = false) {v : Val} (d : Nat) (hv : m.onWire (d + 1) (.obj a) = some v) :
    Displays m P Q (d + 1) (.obj a) fun _ => some v := by
  intro m' k
  obtain ⟨o', ho', s1, s2, s3⟩ := k.objs a o hp ho
  have hm : o.cls.isMessage = false := by cases hc : o.cls <;> rw [hc] at hs <;> first | rfl | cases hs
  have he : o' = o := by
    rcases o with ⟨c, w, f⟩
    rcases o' with ⟨c', w', f'⟩
    simp only at s1 s2 s3 hm
    rw [s1, s2, s3 hm]
  subst he
  rw [Mem.onWire, ho] at hv
  rw [Mem.onWire, ho', ← hv]
  rcases o' with ⟨c, w, f⟩
  cases c <;> first | rfl | cases hs

theorem Displays.seq {m : Mem} {P Q : Nat → Prop} {a l : Nat} {c : SeqCls} {at' : Attr → Option Ref} {rs : List Ref}
    {fs : List (Mem → Option Val)} {d : Nat} (hp : ¬ P a) (ho : m.objs[a]? = some ⟨.seq c, .items l, at'⟩)
    (hc : (Cls.seq c).isSubclass (.seq .message) = false) (hq : ¬ Q l) (hl : m.lists[l]? = some rs)
    (h : DisplaysAll m P Q d rs fs) : Displays m P Q (d + 1) (.obj a) fun m' => (readAll m' fs).map (Val.seq c) := by
  intro m' k
  obtain ⟨o', ho', s1, s2, s3⟩ := k.objs a _ hp ho
  rcases o' with ⟨c', w', f'⟩
  simp only at s1 s2 s3
  have hv : w' = .items l := s3 (by simp [Cls.isMessage, hc])
  subst s1 hv
  rw [Mem.onWire, ho']
  simp only [hc, Bool.false_eq_true, if_false, List.getD, k.lists l rs hq hl, Option.getD_some, h.view k]

theorem Displays.message {m : Mem} {P Q : Nat → Prop} {a : Nat} {c : SeqCls} {w : Slot} {at' : Attr → Option Ref}
    {v co da : Ref} {f1 f2 f3 : Mem → Option Val} {d : Nat} (hp : ¬ P a) (ho : m.objs[a]? = some ⟨.seq c, w, at'⟩)
    (hc : (Cls.seq c).isSubclass (.seq .message) = true) (h1 : at' .version = some v) (h2 : at' .community = some co)
    (h3 : at' .data = some da) (g1 : Displays m P Q d v f1) (g2 : Displays m P Q d co f2) (g3 : Displays m P Q d da f3) :
    Displays m P Q (d + 1) (.obj a) fun m' => (readAll m' [f1, f2, f3]).map (Val.seq c) := by
  intro m' k
  obtain ⟨o', ho', s1, s2, s3⟩ := k.objs a _ hp ho
  rcases o' with ⟨c', w', f'⟩
  simp only at s1 s2
  subst s1 s2
  rw [Mem.onWire, ho']
  simp only [hc, if_true, h1, h2, h3]
  rw [(DisplaysAll.cons g1 (DisplaysAll.cons g2 (DisplaysAll.cons g3 DisplaysAll.nil))).view k]

theorem Displays.self (m : Mem) (P Q : Nat → Prop) (d : Nat) (r : Ref) : Displays m P Q d r fun m' => m'.onWire d r :=
  fun _ _ => rfl

theorem DisplaysAll.self (m : Mem) (P Q : Nat → Prop) (d : Nat) (rs : List Ref) :
    DisplaysAll m P Q d rs (rs.map fun r m' => m'.onWire d r) := by
  induction rs with
  | nil => exact .nil
  | cons r rs ih => exact .cons (Displays.self m P Q d r) ih

theorem readAll_self (m : Mem) (d : Nat) (rs : List Ref) :
    readAll m (rs.map fun r m' => m'.onWire d r) = viewRefs (m.onWire d) rs := by
  induction rs with
  | nil => rfl
  | cons r rs ih => rw [viewRefs, List.map_cons, readAll, ih]; cases m.onWire d r <;> rfl

/-! ## The new objects of a request -/

theorem newPrim_at (m : Mem) (c : Cls) (v : Slot) :
    (m.newPrim c v).2 = .obj m.objs.length ∧
      (m.newPrim c v).1.objs[m.objs.length]? = some ⟨c, v, fun _ => Option.none⟩ :=
  ⟨rfl, newNode_new m _⟩

theorem newSeq_at (m : Mem) (c : SeqCls) (l : List Ref) :
    (m.newSeq c l).2 = .obj m.objs.length ∧
      (m.newSeq c l).1.objs[m.objs.length]? = some ⟨.seq c, .items m.lists.length, attrsOf c l⟩ ∧
      (m.newSeq c l).1.lists[m.lists.length]? = some l := by
  refine ⟨rfl, newNode_new (m.newList l).1 _, ?_⟩
  simp [Mem.newSeq, Mem.newList, Mem.newNode]

theorem mkInteger_at {m m' : Mem} {c : IntCls} {n : Int} {r : Ref} (h : m.mkInteger c n = (m', .ok r)) :
    r = .obj m.objs.length ∧ m'.objs[m.objs.length]? = some ⟨.int c, .num n, fun _ => Option.none⟩ := by
  unfold Mem.mkInteger at h
  split at h
  · simp only [Prod.mk.injEq, Except.ok.injEq] at h
    rw [← h.1, ← h.2]
    exact newPrim_at ..
  · simp at h

theorem mkVarBind_at {m m' : Mem} {c : SeqCls} {a b r : Ref} (h : m.mkVarBind c a b = (m', .ok r)) :
    m.newSeq c [a, b] = (m', r) := by
  unfold Mem.mkVarBind at h
  split at h
  · simp at h
  · split at h
    · simp at h
    · simp only [Prod.mk.injEq, Except.ok.injEq] at h
      exact Prod.ext h.1 h.2

theorem mkVarBindList_at {m m' : Mem} {c : SeqCls} {v r : Ref} (h : m.mkVarBindList c v = (m', .ok r)) {l : List Ref}
    (hl : m.items v = some l) : m.newSeq c l = (m', r) := by
  unfold Mem.mkVarBindList at h
  rw [hl] at h
  dsimp only at h
  split at h
  · simp at h
  · split at h
    · simp only [Prod.mk.injEq, Except.ok.injEq] at h
      exact Prod.ext h.1 h.2
    · simp at h

theorem mkMessage_at {m m' : Mem} {c : SeqCls} {n : Int} {s : Str} {d r : Ref} (h : m.mkMessage c n s d = (m', .ok r)) :
    r = .obj (m.objs.length + 2) ∧
      m'.objs[m.objs.length]? = some ⟨.int .integer, .num n, fun _ => Option.none⟩ ∧
      m'.objs[m.objs.length + 1]? = some ⟨.oct .octetString, .text s, fun _ => Option.none⟩ ∧
      ∃ l, m'.objs[m.objs.length + 2]? =
        some ⟨.seq c, .items l, attrsOf c [.obj m.objs.length, .obj (m.objs.length + 1), d]⟩ := by
  unfold Mem.mkMessage at h
  cases h1 : m.mkInteger .integer n with
  | mk m1 x =>
    rw [h1] at h
    cases x with
    | error e => simp at h
    | ok v =>
      simp only [Prod.mk.injEq, Except.ok.injEq] at h
      unfold Mem.mkInteger at h1
      split at h1
      · simp only [Mem.newPrim, Mem.newNode, Prod.mk.injEq, Except.ok.injEq] at h1
        obtain ⟨e1, e2⟩ := h1
        subst e1 e2
        obtain ⟨e3, e4⟩ := h
        subst e3 e4
        refine ⟨?_, ?_, ?_, m.lists.length, ?_⟩ <;>
          simp [Mem.newPrim, Mem.newNode, Mem.newList, List.getElem?_append_right, List.getElem?_append]
      · simp at h1

theorem getBinds_at {m m' : Mem} {c : SeqCls} {oids : List Arg} {vbs : List Ref}
    (hc : (Cls.seq c).isSubclass (.seq .message) = false) (h : m.getBinds c oids = (m', .ok vbs)) :
    ∃ names, Names oids names ∧ ∀ (M : Mem) (P Q : Nat → Prop), Grown m' M →
      (∀ a, m.objs.length ≤ a → a < m'.objs.length → ¬ P a) → (∀ l, m.lists.length ≤ l → l < m'.lists.length → ¬ Q l) →
      ∀ d, DisplaysAll M P Q (d + 2) vbs (names.map fun i _ => some (nullBind c i)) := by
  induction oids generalizing m vbs with
  | nil =>
    simp only [Mem.getBinds, Prod.mk.injEq, Except.ok.injEq] at h
    rw [← h.2]
    exact ⟨[], .nil, fun _ _ _ _ _ _ _ => .nil⟩
  | cons a as ih =>
    rw [Mem.getBinds] at h
    cases h1 : mkOid a with
    | error e => rw [h1] at h; simp at h
    | ok ids =>
      rw [h1] at h
      simp only at h
      cases hb : ((m.newPrim .oid (.ids ids)).1.newPrim (.null .null) .nothing).1.mkVarBind c
          (m.newPrim .oid (.ids ids)).2 ((m.newPrim .oid (.ids ids)).1.newPrim (.null .null) .nothing).2 with
      | mk m3 x =>
        rw [hb] at h
        cases x with
        | error e => simp at h
        | ok vb =>
          simp only at h
          cases hr : m3.getBinds c as with
          | mk m4 y =>
            rw [hr] at h
            cases y with
            | error e => simp at h
            | ok rest =>
              simp only [Prod.mk.injEq, Except.ok.injEq] at h
              obtain ⟨e1, e2⟩ := h
              subst e1 e2
              obtain ⟨names, hn, hs⟩ := ih hr
              refine ⟨ids :: names, .cons h1 hn, fun M P Q g hP hQ d => ?_⟩
              have g34 : Grown m3 m4 := Grown.of_eq hr (Grown.getBinds ..)
              have hseq := mkVarBind_at hb
              obtain ⟨q1, q2, q3⟩ := newSeq_at ((m.newPrim .oid (.ids ids)).1.newPrim (.null .null) .nothing).1 c
                [(m.newPrim .oid (.ids ids)).2, ((m.newPrim .oid (.ids ids)).1.newPrim (.null .null) .nothing).2]
              have len1 : ((m.newPrim .oid (.ids ids)).1.newPrim (.null .null) .nothing).1.objs.length
                = m.objs.length + 2 := by simp [Mem.newPrim, Mem.newNode]
              have len2 : ((m.newPrim .oid (.ids ids)).1.newPrim (.null .null) .nothing).1.lists.length
                = m.lists.length := by simp [Mem.newPrim, Mem.newNode]
              rw [hseq, len1] at q1 q2
              rw [hseq, len2] at q3
              rw [len2] at q2
              simp only at q1 q2 q3
              have gm3 : Grown m m3 := ((Grown.newNode m _).trans (Grown.newNode _ _)).trans
                (Grown.of_eq hseq (Grown.newSeq ..))
              have o1 : m3.objs[m.objs.length]? = some ⟨.oid, .ids ids, fun _ => Option.none⟩ :=
                (Grown.of_eq hseq (Grown.newSeq ..)).obj (newNode_old _ (newPrim_at m .oid (.ids ids)).2)
              have o2 : m3.objs[m.objs.length + 1]? = some ⟨.null .null, .nothing, fun _ => Option.none⟩ := by
                have := (newPrim_at (m.newPrim .oid (.ids ids)).1 (.null .null) .nothing).2
                have e : (m.newPrim .oid (.ids ids)).1.objs.length = m.objs.length + 1 := by
                  simp [Mem.newPrim, Mem.newNode]
                rw [e] at this
                exact (Grown.of_eq hseq (Grown.newSeq ..)).obj this
              have G : Grown m3 M := g34.trans g
              have lo : m.objs.length + 2 < m3.objs.length := (List.getElem?_eq_some_iff.mp q2).1
              have ll : m.lists.length < m3.lists.length := (List.getElem?_eq_some_iff.mp q3).1
              have lm := g34.len
              have r1 : (m.newPrim .oid (.ids ids)).2 = .obj m.objs.length := rfl
              have r2 : ((m.newPrim .oid (.ids ids)).1.newPrim (.null .null) .nothing).2 = .obj (m.objs.length + 1) := by
                simp [Mem.newPrim, Mem.newNode]
              refine .cons ?_ ?_
              · rw [q1]
                have p1 : Displays M P Q (d + 1) (.obj m.objs.length) fun _ => some (.oid ids) :=
                  Displays.leaf (hP _ (by omega) (by omega)) (G.obj o1) rfl d (by rw [Mem.onWire, G.obj o1])
                have p2 : Displays M P Q (d + 1) (.obj (m.objs.length + 1)) fun _ => some (.null .null) :=
                  Displays.leaf (hP _ (by omega) (by omega)) (G.obj o2) rfl d (by rw [Mem.onWire, G.obj o2])
                have := Displays.seq (d := d + 1) (hP (m.objs.length + 2) (by omega) (by omega)) (G.obj q2) hc
                  (hQ m.lists.length (by omega) (by omega)) (G.list q3)
                  (fs := [fun _ => some (.oid ids), fun _ => some (.null .null)]) (by
                    rw [r1, r2]; exact .cons p1 (.cons p2 .nil))
                exact this
              · exact hs M P Q g (fun x hx hx' => hP x (by omega) hx') (fun l hl hl' => hQ l (by omega) hl') d

theorem readAll_const (m : Mem) (vs : List Val) : readAll m (vs.map fun v _ => some v) = some vs := by
  induction vs with
  | nil => rfl
  | cons v vs ih => rw [List.map_cons, readAll, ih]

/-- After `mkPDU` and `mkMessage` the message shows the request ID's current value and the binding list's view. -/
theorem message_shows {m1 m2 m3 M : Mem} {c cm : SeqCls} {n ver : Int} {community : Str} {v pdu msg : Ref}
    (hp : m1.mkPDU c n 0 0 v = (m2, .ok pdu)) (hm : m2.mkMessage cm ver community pdu = (m3, .ok msg))
    (hc : (Cls.seq c).isSubclass (.seq .message) = false) (hcm : (Cls.seq cm).isSubclass (.seq .message) = true)
    (hcl : (Cls.seq (pduParts c).2.2.2).isSubclass (.seq .message) = false)
    (g : Grown m3 M) {P Q : Nat → Prop}
    (hP : ∀ a, m1.objs.length ≤ a → a < m3.objs.length → a ≠ m1.objs.length → ¬ P a)
    (hQ : ∀ l, m1.lists.length ≤ l → l < m3.lists.length → ¬ Q l) {d : Nat}
    {l : List Ref} {fs : List (Mem → Option Val)}
    (hl : m1.items v = some l) (h : DisplaysAll M P Q (d + 1) l fs) :
    Displays M P Q (d + 4) msg fun m' => (match m'.onWire (d + 2) (.obj m1.objs.length), readAll m' fs with
      | some r, some vs => some [r, .integer (pduParts c).2.1 0, .integer (pduParts c).2.2.1 0,
          .seq (pduParts c).2.2.2 vs]
      | _, _ => Option.none).map fun items =>
        Val.seq cm [.integer .integer ver, .octets .octetString community, .seq c items] := by
  obtain ⟨n1, n2, n3, n4, r1, r2, r3, r4, h1, h2, h3, h4, h5⟩ := gPDU_ok hp
  obtain ⟨e1, q1⟩ := mkInteger_at h1
  obtain ⟨e2, q2⟩ := mkInteger_at h2
  obtain ⟨e3, q3⟩ := mkInteger_at h3
  have G1 : Grown m1 n1 := Grown.of_eq h1 (Grown.mkInteger ..)
  have G2 : Grown n1 n2 := Grown.of_eq h2 (Grown.mkInteger ..)
  have G3 : Grown n2 n3 := Grown.of_eq h3 (Grown.mkInteger ..)
  have G4 : Grown n3 n4 := Grown.of_eq h4 (Grown.mkVarBindList ..)
  have G5 : Grown n4 m2 := Grown.of_eq h5 (Grown.newSeq ..)
  have G6 : Grown m2 m3 := Grown.of_eq hm (Grown.mkMessage ..)
  have hseq := mkVarBindList_at h4 (l := l) (by
      have GG := (G1.trans G2).trans G3
      unfold Mem.items at hl ⊢
      cases v with
      | list k => exact GG.list hl
      | obj a =>
        simp only at hl ⊢
        cases ho : m1.objs[a]? with
        | none => rw [ho] at hl; cases hl
        | some o =>
          rw [ho] at hl
          rw [GG.obj ho]
          rcases o with ⟨oc, ov, oa⟩
          cases ov <;> simp only at hl ⊢ <;> first | exact GG.list hl | cases hl
      | _ => cases hl)
  obtain ⟨e4, q4, q4'⟩ := newSeq_at n3 (pduParts c).2.2.2 l
  rw [hseq] at e4 q4 q4'
  obtain ⟨e5, q5, q5'⟩ := newSeq_at n4 c [r1, r2, r3, r4]
  rw [h5] at e5 q5 q5'
  obtain ⟨e6, q6, q7, lm, q8⟩ := mkMessage_at hm
  simp only at e4 q4 q4' e5 q5 q5'
  have L1 := G1.len; have L2 := G2.len; have L3 := G3.len; have L4 := G4.len; have L5 := G5.len; have L6 := G6.len
  have b1 := (List.getElem?_eq_some_iff.mp q1).1
  have b2 := (List.getElem?_eq_some_iff.mp q2).1
  have b3 := (List.getElem?_eq_some_iff.mp q3).1
  have b4 := (List.getElem?_eq_some_iff.mp q4).1
  have b4' := (List.getElem?_eq_some_iff.mp q4').1
  have b5 := (List.getElem?_eq_some_iff.mp q5).1
  have b5' := (List.getElem?_eq_some_iff.mp q5').1
  have b8 := (List.getElem?_eq_some_iff.mp q8).1
  have w2 := ((((G3.trans G4).trans G5).trans G6).trans g).obj q2
  have w3 := (((G4.trans G5).trans G6).trans g).obj q3
  have w4 := ((G5.trans G6).trans g).obj q4
  have w4' := ((G5.trans G6).trans g).list q4'
  have w5 := (G6.trans g).obj q5
  have w5' := (G6.trans g).list q5'
  have w6 := g.obj q6
  have w7 := g.obj q7
  have w8 := g.obj q8
  have s1 : Displays M P Q (d + 2) r1 fun m' => m'.onWire (d + 2) (.obj m1.objs.length) := by
    rw [e1]; exact Displays.self M P Q (d + 2) _
  have s2 : Displays M P Q (d + 2) r2 fun _ => some (.integer (pduParts c).2.1 0) := by
    rw [e2]; exact Displays.leaf (hP _ (by omega) (by omega) (by omega)) w2 rfl (d + 1) (by rw [Mem.onWire, w2])
  have s3 : Displays M P Q (d + 2) r3 fun _ => some (.integer (pduParts c).2.2.1 0) := by
    rw [e3]; exact Displays.leaf (hP _ (by omega) (by omega) (by omega)) w3 rfl (d + 1) (by rw [Mem.onWire, w3])
  have s4 : Displays M P Q (d + 2) r4 fun m' => (readAll m' fs).map (Val.seq (pduParts c).2.2.2) := by
    rw [e4]
    exact Displays.seq (hP _ (by omega) (by omega) (by omega)) w4 hcl (hQ _ (by omega) (by omega)) w4' h
  have s5 := Displays.seq (hP _ (by omega) (by omega) (by omega)) w5 hc (hQ _ (by omega) (by omega)) w5'
      (.cons s1 (.cons s2 (.cons s3 (.cons s4 .nil))))
  rw [← e5] at s5
  have s6 : Displays M P Q (d + 3) (.obj m2.objs.length) fun _ => some (.integer .integer ver) :=
    Displays.leaf (hP _ (by omega) (by omega) (by omega)) w6 rfl (d + 2) (by rw [Mem.onWire, w6])
  have s7 : Displays M P Q (d + 3) (.obj (m2.objs.length + 1)) fun _ => some (.octets .octetString community) :=
    Displays.leaf (hP _ (by omega) (by omega) (by omega)) w7 rfl (d + 2) (by rw [Mem.onWire, w7])
  have at1 : ∀ x y z, attrsOf cm [x, y, z] .version = some x ∧ attrsOf cm [x, y, z] .community = some y ∧
      attrsOf cm [x, y, z] .data = some z := by
    intro x y z
    cases cm <;> first | (exfalso; revert hcm; decide) | exact ⟨rfl, rfl, rfl⟩
  have s8 := Displays.message (d := d + 3) (hP (m2.objs.length + 2) (by omega) (by omega) (by omega)) w8 hcm (at1 ..).1
    (at1 ..).2.1 (at1 ..).2.2 s6 s7 s5
  rw [e6]
  intro m' k
  rw [s8 m' k]
  cases hx : m'.onWire (d + 2) (.obj m1.objs.length) <;> cases hy : readAll m' fs <;> simp [readAll, hx, hy]

end Libsnmp
