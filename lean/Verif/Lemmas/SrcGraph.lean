import Verif.Spec.SourceGraph
import Verif.Lemmas.SrcEnc
import Verif.Lemmas.Graph

/-!
# `encode` on a graph of objects
-/

namespace Libsnmp.Src
open Libsnmp

variable {cfg : Cfg} {U : Nat → Prop} {φ φ' φ'' : Layout} {m m' : Mem} {h h' h'' : Heap}

/-! ## Layouts -/

theorem Later.refl (φ : Layout) (h : Heap) : Later φ φ h h := ⟨rfl, ⟨[], (List.append_nil _).symm⟩, Nat.le_refl _, fun _ _ e _ => e⟩

theorem Later.trans (h1 : Later φ φ' h h') (h2 : Later φ' φ'' h' h'') : Later φ φ'' h h'' := by
  obtain ⟨t1, e1⟩ := h1.lists
  obtain ⟨t2, e2⟩ := h2.lists
  refine ⟨h2.objs.trans h1.objs, ⟨t1 ++ t2, by rw [e2, e1, List.append_assoc]⟩, Nat.le_trans h1.len h2.len, fun q c hq hn => ?_⟩
  exact h2.same q c (h1.same q c hq hn) (by rw [h1.objs]; exact hn)

theorem Later.app (φ : Layout) (h t : Heap) : Later φ φ h (h ++ t) :=
  ⟨rfl, ⟨[], (List.append_nil _).symm⟩, by simp, fun _ _ e _ => get_app_old e t⟩

theorem apart_list (l : List V) : Apart (.list l) := fun _ => ⟨by simp, by simp⟩

theorem RefAt.later {r : Ref} {x : V} (hr : RefAt φ r x) (ho : φ'.objs = φ.objs) (hl : ∃ t, φ'.lists = φ.lists ++ t) : RefAt φ' r x := by
  cases r with
  | obj a => obtain ⟨p, h1, h2⟩ := hr; exact ⟨p, by rw [ho]; exact h1, h2⟩
  | list a =>
    obtain ⟨p, h1, h2⟩ := hr
    obtain ⟨t, ht⟩ := hl
    exact ⟨p, by rw [ht, List.getElem?_append_left (List.getElem?_eq_some_iff.1 h1).1]; exact h1, h2⟩
  | _ => exact hr

theorem mem_of_get {α} {l : List α} {i : Nat} {x : α} (h : l[i]? = some x) : x ∈ l := List.mem_of_getElem? h

/-- More cells, and more cells that the graph does not use. -/
theorem Lays.app (L : Lays U φ m h) (t : Heap) {U' : Nat → Prop} (hU : ∀ p, U' p → U p ∨ h.length ≤ p) : Lays U' φ m (h ++ t) := by
  have hn : ∀ {p : Nat} {c : Cell}, h[p]? = some c → ¬ U p → ¬ U' p := fun hp hu hu' => (hU _ hu').elim hu fun hle => by
    have := lt_of_get hp; omega
  have hl : ∀ b ∈ φ.lists, ∃ xs, h[b]? = some (.list xs) := fun b hb => by
    obtain ⟨i, hi⟩ := List.getElem?_of_mem hb
    have hlt : i < m.lists.length := by rw [← L.lists]; exact (List.getElem?_eq_some_iff.1 hi).1
    obtain ⟨xs, h1, -⟩ := L.list i _ b (List.getElem?_eq_getElem hlt) hi
    exact ⟨xs, h1⟩
  have ho : ∀ p ∈ φ.objs, ∃ c, h[p]? = some c := fun p hp => by
    obtain ⟨i, hi⟩ := List.getElem?_of_mem hp
    have hlt : i < m.objs.length := by rw [← L.objs]; exact (List.getElem?_eq_some_iff.1 hi).1
    obtain ⟨attrs, N⟩ := L.node i _ p (List.getElem?_eq_getElem hlt) hi
    exact ⟨_, N.cell⟩
  refine ⟨L.objs, L.lists, L.apart, L.apart', fun p hp => ?_, fun b hb => ?_, fun a o p h1 h2 => ?_, fun l rs b h1 h2 => ?_⟩
  · obtain ⟨c, hc⟩ := ho p hp; exact hn hc (L.free p hp)
  · obtain ⟨c, hc⟩ := hl b hb; exact hn hc (L.free' b hb)
  · obtain ⟨attrs, N⟩ := L.node a o p h1 h2
    refine ⟨attrs, get_app_old N.cell _, N.plain, ?_, N.has, N.lacks, N.message, N.component⟩
    have hv := N.value
    revert hv
    generalize o.cls = c
    generalize o.value = v
    intro hv
    unfold SlotAt at hv ⊢
    split at hv <;> try exact hv
    obtain ⟨b, e1, e2, e3, e4⟩ := hv
    exact ⟨b, e1, hn e4 e2, e3, get_app_old e4 _⟩
  · obtain ⟨xs, e1, e2⟩ := L.list l rs b h1 h2
    exact ⟨xs, get_app_old e1 _, e2⟩

theorem Lays.weaken (L : Lays U φ m h) {U' : Nat → Prop} (hU : ∀ p, U' p → U p) : Lays U' φ m h := by
  have := L.app [] (U' := U') fun p hp => .inl (hU p hp)
  rwa [List.append_nil] at this

/-- What happens to cells that the graph does not use. -/
theorem Lays.set (L : Lays U φ m h) {R : Nat} (hR : U R) (c : Cell) : Lays U φ m (h.set R c) := by
  have hs : ∀ {p : Nat} {d : Cell}, ¬ U p → h[p]? = some d → (h.set R c)[p]? = some d := fun hp hd => by
    rw [List.getElem?_set_ne (by rintro rfl; exact hp hR)]; exact hd
  refine ⟨L.objs, L.lists, L.apart, L.apart', L.free, L.free', fun a o p h1 h2 => ?_, fun l rs b h1 h2 => ?_⟩
  · obtain ⟨attrs, N⟩ := L.node a o p h1 h2
    refine ⟨attrs, hs (L.free p (mem_of_get h2)) N.cell, N.plain, ?_, N.has, N.lacks, N.message, N.component⟩
    have hv := N.value
    revert hv
    generalize o.cls = c
    generalize o.value = v
    intro hv
    unfold SlotAt at hv ⊢
    split at hv <;> try exact hv
    obtain ⟨b, e1, e2, e3, e4⟩ := hv
    exact ⟨b, e1, e2, e3, hs e2 e4⟩
  · obtain ⟨xs, e1, e2⟩ := L.list l rs b h1 h2
    exact ⟨xs, hs (L.free' b (mem_of_get h2)) e1, e2⟩

/-! ## `Sequence.encodeContents` -/

/-- The variables of `Sequence.encodeContents`. -/
def gEnv (a R : Nat) (e : Option V) : Env :=
  [("self", some (.ref a)), ("resultlist", some (.ref R)), ("elem", e), ("result", none)]

/-- What `x.encode()` must do in the graph. -/
def Encodes (cfg : Cfg) (U : Nat → Prop) (φ : Layout) (h : Heap) (p : Nat) (r : Mem × Except Exc Str) : Prop :=
  ∃ φ' h', call program cfg (.func .rfc1155 82) [.ref p] h = outR r.2 V.str h' ∧ Lays U φ' r.1 h' ∧ Later φ φ' h h'

/-- What the expression for an element must do. -/
def ElemAt (cfg : Cfg) (U : Nat → Prop) (φ : Layout) (h : Heap) (a R : Nat) (x : V) (r : Mem × Except Exc Str) : Prop :=
  ∃ φ' h', eval program cfg .rfc1155 (gEnv a R (some x))
      (.ife (.cmp .isNot (.call (.glob "type") [.loc "elem"]) (.glob "str")) (.call (.attr (.loc "elem") "encode") []) (.loc "elem")) h =
        outR r.2 V.str h' ∧ Lays U φ' r.1 h' ∧ Later φ φ' h h'

/-- What the loop must do. -/
def LoopAt (U : Nat → Prop) (φ : Layout) (h : Heap) (a R : Nat) (acc : List Str) (r : S) : Mem × Except Exc Str → Prop
  | (m, .ok s) => ∃ φ' h' e ss, r = some (h', gEnv a R e, .next) ∧ ss.flatten = s ∧ h'[R]? = some (.list ((acc ++ ss).map V.str)) ∧
      Lays U φ' m h' ∧ Later φ φ' (h.set R (.list [])) (h'.set R (.list []))
  | (m, .error err) => ∃ φ' h' e, r = some (h', gEnv a R e, .exc (.exc (excName err) [])) ∧
      Lays U φ' m h' ∧ Later φ φ' (h.set R (.list [])) (h'.set R (.list []))

theorem Later.onSet (L : Later φ φ' h h') {R : Nat} {l : List V} (hR : h[R]? = some (.list l)) :
    Later φ φ' (h.set R (.list [])) (h'.set R (.list [])) := by
  refine ⟨L.objs, L.lists, by simpa using L.len, fun q c hq hn => ?_⟩
  by_cases hqR : q = R
  · subst hqR
    rw [List.getElem?_set_self (lt_of_get hR)] at hq
    rw [List.getElem?_set_self (Nat.lt_of_lt_of_le (lt_of_get hR) L.len)]
    exact hq
  · rw [List.getElem?_set_ne (Ne.symm hqR)] at hq ⊢
    exact L.same q c hq hn

/-- An element. -/
theorem elem_at {d : Nat} {a R : Nat} (L : Lays U φ m h) {r : Ref} {x : V} (hx : RefAt φ r x)
    (ih : ∀ b p, r = .obj b → φ.objs[b]? = some p → Encodes cfg U φ h p (gEncode d m r)) :
    ElemAt cfg U φ h a R x (gEncode d m r) := by
  cases r with
  | none =>
    cases hx
    refine ⟨φ, h, ?_, by rw [gEncode]; exact L, Later.refl _ _⟩
    rw [gEncode]; unfold gEnv; runs [outR, excName]
  | int n =>
    cases hx
    have hg : ∀ H, getattr program H (.int n) "encode" = none := fun _ => rfl
    refine ⟨φ, h, ?_, by rw [gEncode]; exact L, Later.refl _ _⟩
    rw [gEncode]; unfold gEnv; runs [outR, excName, hg]
  | str s =>
    cases hx
    refine ⟨φ, h, ?_, by rw [gEncode]; exact L, Later.refl _ _⟩
    rw [gEncode]; unfold gEnv; runs [outR]
  | bytes b => exact hx.elim
  | list l =>
    obtain ⟨p, h1, rfl⟩ := hx
    have hlt : l < m.lists.length := by rw [← L.lists]; exact (List.getElem?_eq_some_iff.1 h1).1
    obtain ⟨xs, h2, -⟩ := L.list l _ p (List.getElem?_eq_getElem hlt) h1
    refine ⟨φ, h, ?_, by rw [gEncode]; exact L, Later.refl _ _⟩
    have hg : getattr program h (.ref p) "encode" = none := by simp only [getattr, h2]; rfl
    rw [gEncode]; unfold gEnv; runs [outR, excName, h2, hg]
  | obj b =>
    obtain ⟨p, h1, rfl⟩ := hx
    obtain ⟨φ', h', e1, e2, e3⟩ := ih b p rfl h1
    have hlt : b < m.objs.length := by rw [← L.objs]; exact (List.getElem?_eq_some_iff.1 h1).1
    obtain ⟨attrs, N⟩ := L.node b _ p (List.getElem?_eq_getElem hlt) h1
    have ha := N.cell
    have n1 : attrs.lookup "encode" = none := N.plain.none
    refine ⟨φ', h', ?_, e2, e3⟩
    generalize outR (gEncode d m (.obj b)).2 V.str h' = o at e1 ⊢
    unfold gEnv
    runs [ha, n1, e1]

theorem set_set_list (h : Heap) (R : Nat) (c d : Cell) : (h.set R c).set R d = h.set R d := by rw [List.set_set]

/-- The loop. -/
theorem loop_at {d a R b : Nat} (ih : ∀ (m : Mem) (φ : Layout) (h : Heap) (c p : Nat), Lays U φ m h → (∀ q, U q → q < h.length) →
      φ.objs[c]? = some p → Modest d m (.obj c) → (gEncode d m (.obj c)).2 ≠ .error .recursionError → Encodes cfg U φ h p (gEncode d m (.obj c)))
    (hR : U R) (hb : ¬ U b) : ∀ (rs : List Ref) (m : Mem) (φ : Layout) (h : Heap) (pre xs : List V) (acc : List Str) (e : Option V),
    Lays U φ m h → (∀ q, U q → q < h.length) → ModestRefs d m rs → (encodeRefs (gEncode d) m rs).2 ≠ .error .recursionError →
    h[b]? = some (.list (pre ++ xs)) → h[R]? = some (.list (acc.map V.str)) → List.Forall₂ (RefAt φ) rs xs →
    LoopAt U φ h a R acc (forL program cfg .rfc1155 (gEnv a R e) "elem" (.list b pre.length) rfc1155_834 h) (encodeRefs (gEncode d) m rs)
  | [], m, φ, h, pre, xs, acc, e, L, _, _, _, hbl, hRl, hf => by
    cases hf
    have hb' : h[b]? = some (.list pre) := by rw [hbl, List.append_nil]
    have hx0 : pre[pre.length]? = none := by simp
    rw [forL, encodeRefs]
    refine ⟨φ, h, e, [], ?_, rfl, by rw [List.append_nil]; exact hRl, L, Later.refl _ _⟩
    runs [hb', hx0]
  | r :: rs, m, φ, h, pre, xs, acc, e, L, hU, hM, hne, hbl, hRl, hf => by
    cases hf with
    | @cons _ x _ xs hx hxs =>
    rw [ModestRefs] at hM
    have hne1 : (gEncode d m r).2 ≠ .error .recursionError := by
      intro h1
      apply hne
      rw [encodeRefs]
      generalize gEncode d m r = z at h1
      obtain ⟨z1, z2⟩ := z
      cases h1
      rfl
    obtain ⟨φ1, h1, e1, L1, k1⟩ := elem_at (cfg := cfg) (a := a) (R := R) (d := d) L hx fun c p hc hp => by
      subst hc
      exact ih m φ h c p L hU hp hM.1 hne1
    have hx0 : (pre ++ x :: xs)[pre.length]? = some x := by simp
    have hR1 : h1[R]? = some (.list (acc.map V.str)) := k1.same R _ hRl (.inl (apart_list _))
    have hb1 : h1[b]? = some (.list (pre ++ x :: xs)) := k1.same b _ hbl (.inl (apart_list _))
    have hbR : b ≠ R := by rintro rfl; exact hb hR
    rw [encodeRefs] at hne ⊢
    generalize hz : gEncode d m r = z at *
    obtain ⟨m1, z⟩ := z
    cases z with
    | error err =>
      dsimp only at e1 L1 ⊢
      rw [outR] at e1
      refine ⟨φ1, h1, some x, ?_, L1, k1.onSet hRl⟩
      rw [forL]
      unfold gEnv at e1 ⊢
      runs [hbl, hx0, rfc1155_834, hRl, ↓e1, hR1]
    | ok s =>
      dsimp only at e1 L1 hM hne ⊢
      rw [outR] at e1
      let h2 : Heap := h1.set R (.list ((acc ++ [s]).map V.str))
      have hstep : forL program cfg .rfc1155 (gEnv a R e) "elem" (.list b pre.length) rfc1155_834 h =
          forL program cfg .rfc1155 (gEnv a R (some x)) "elem" (.list b (pre ++ [x]).length) rfc1155_834 h2 := by
        conv => lhs; rw [forL]
        unfold gEnv at e1 ⊢
        runs [hbl, hx0, rfc1155_834, hRl, ↓e1, hR1]
        simp only [h2, List.map_append, List.map_cons, List.map_nil]
      have L2 : Lays U φ1 m1 h2 := L1.set hR _
      have hne2 : (encodeRefs (gEncode d) m1 rs).2 ≠ .error .recursionError := by
        intro h3
        apply hne
        generalize encodeRefs (gEncode d) m1 rs = w at h3
        obtain ⟨w1, w2⟩ := w
        cases h3
        rfl
      have hlt := lt_of_get hR1
      have ih2 := loop_at (a := a) ih hR hb rs m1 φ1 h2 (pre ++ [x]) xs (acc ++ [s]) (some x) L2 (fun q hq => by
          have := hU q hq; have := k1.len; simp only [h2, List.length_set]; omega) hM.2 hne2
        (by simp only [h2]; rw [List.getElem?_set_ne (Ne.symm hbR), hb1]; simp) (List.getElem?_set_self hlt)
        (hxs.imp fun _ _ hr => hr.later k1.objs k1.lists)
      rw [hstep]
      have k2 := k1.onSet hRl
      have hset : h2.set R (.list []) = h1.set R (.list []) := List.set_set ..
      generalize encodeRefs (gEncode d) m1 rs = w at ih2 ⊢
      obtain ⟨m2, w⟩ := w
      cases w with
      | error err =>
        obtain ⟨φ3, h3, e3, f1, f2, f3⟩ := ih2
        exact ⟨φ3, h3, e3, f1, f2, k2.trans (by rw [← hset]; exact f3)⟩
      | ok t =>
        obtain ⟨φ3, h3, e3, ss, f1, f2, f3, f4, f5⟩ := ih2
        exact ⟨φ3, h3, e3, s :: ss, f1, by rw [List.flatten_cons, f2], by rw [f3, List.append_assoc]; rfl, f4,
          k2.trans (by rw [← hset]; exact f5)⟩

/-- What `x.encodeContents()` must do in the graph. -/
def Contents (cfg : Cfg) (U : Nat → Prop) (φ : Layout) (h : Heap) (p : Nat) (f : Module × Nat) (r : Mem × Except Exc Str) : Prop :=
  ∃ φ' h', call program cfg (.func f.1 f.2) [.ref p] h = outR r.2 V.str h' ∧ Lays U φ' r.1 h' ∧ Later φ φ' h h'

/-- `Sequence.encodeContents`. -/
theorem contents_at {d : Nat} (ih : ∀ (U : Nat → Prop) (m : Mem) (φ : Layout) (h : Heap) (c p : Nat), Lays U φ m h → (∀ q, U q → q < h.length) →
      φ.objs[c]? = some p → Modest d m (.obj c) → (gEncode d m (.obj c)).2 ≠ .error .recursionError → Encodes cfg U φ h p (gEncode d m (.obj c)))
    (L : Lays U φ m h) (hU : ∀ q, U q → q < h.length) {p b l : Nat} {c : CId} {attrs : List (String × V)} {rs : List Ref}
    (hp : h[p]? = some (.inst c attrs)) (hv : attrs.lookup "value" = some (.ref b)) (hb : φ.lists[l]? = some b) (hl : m.lists[l]? = some rs)
    (hM : ModestRefs d m rs) (hne : (encodeRefs (gEncode d) m rs).2 ≠ .error .recursionError) :
    Contents cfg U φ h p (.rfc1155, 827) (encodeRefs (gEncode d) m rs) := by
  obtain ⟨xs, h1, h2⟩ := L.list l rs b hl hb
  have L0 : Lays (fun q => U q ∨ q = h.length) φ m (h ++ [.list []]) := L.app _ fun q hq => hq.imp id fun e => by omega
  have hbU : ¬ (U b ∨ b = h.length) := fun hq => hq.elim (L.free' b (mem_of_get hb)) fun e => by have := lt_of_get h1; omega
  have hloop := loop_at (cfg := cfg) (a := p) (R := h.length) (b := b) (U := fun q => U q ∨ q = h.length) (fun m φ h c p => ih _ m φ h c p) (.inr rfl) hbU rs m φ
    (h ++ [.list []]) [] xs [] none L0 (fun q hq => by
      rcases hq with hq | rfl
      · have := hU q hq; simp; omega
      · simp) hM hne (get_app_old h1 _) (get_app _ _) h2
  have ha' := get_app_old hp [Cell.list []]
  have hb' := get_app_old h1 [Cell.list []]
  unfold Contents
  rw [call_rfc1155_827]
  have hsame : ∀ {φ' : Layout} {h' : Heap}, Later φ φ' ((h ++ [Cell.list []]).set h.length (.list [])) (h'.set h.length (.list [])) → Later φ φ' h h' := by
    intro φ' h' k
    refine ⟨k.objs, k.lists, ?_, fun q c hq hn => ?_⟩
    · have := k.len; simp at this; omega
    · have hlt := lt_of_get hq
      have := k.same q c (by rw [List.getElem?_set_ne (by omega)]; exact get_app_old hq _) hn
      rwa [List.getElem?_set_ne (by omega)] at this
  unfold gEnv at hloop
  rw [List.length_nil] at hloop
  generalize encodeRefs (gEncode d) m rs = w at hloop ⊢
  obtain ⟨m2, w⟩ := w
  cases w with
  | error err =>
    obtain ⟨φ', h', e, f1, f2, f3⟩ := hloop
    unfold gEnv at f1
    refine ⟨φ', h', ?_, f2.weaken fun q hq => .inl hq, hsame f3⟩
    cases hd : cfg.debug <;> runs [rfc1155_827, hd, ha', hv, hb', f1, outR]
  | ok s =>
    obtain ⟨φ', h', e, ss, f1, f2, f3, f4, f5⟩ := hloop
    unfold gEnv at f1
    subst f2
    refine ⟨φ', h', ?_, f4.weaken fun q hq => .inl hq, hsame f5⟩
    cases hd : cfg.debug <;> runs [rfc1155_827, hd, ha', hv, hb', f1, f3, outR, allStr_map, pyJoin_empty]

/-! ## Changing an object -/

/-- A new list. -/
theorem Lays.newList (L : Lays U φ m h) (hU : ∀ q, U q → q < h.length) {rs : List Ref} {xs : List V} (hf : List.Forall₂ (RefAt φ) rs xs) :
    Lays U ⟨φ.objs, φ.lists ++ [h.length]⟩ (m.newList rs).1 (h ++ [.list xs]) := by
  have hold : ∃ t, (Layout.mk φ.objs (φ.lists ++ [h.length])).lists = φ.lists ++ t := ⟨[_], rfl⟩
  have hr : ∀ {r x}, RefAt φ r x → RefAt ⟨φ.objs, φ.lists ++ [h.length]⟩ r x := fun h1 => h1.later rfl hold
  have hin : h.length ∉ φ.lists := fun hi => by
    obtain ⟨i, hi⟩ := List.getElem?_of_mem hi
    have hlt : i < m.lists.length := by rw [← L.lists]; exact (List.getElem?_eq_some_iff.1 hi).1
    obtain ⟨xs, h1, -⟩ := L.list i _ _ (List.getElem?_eq_getElem hlt) hi
    exact Nat.lt_irrefl _ (lt_of_get h1)
  have L' := L.app [Cell.list xs] (U' := U) fun p hp => .inl hp
  refine ⟨L.objs, ?_, L.apart, ?_, L.free, ?_, fun a o p h1 h2 => ?_, fun l rs' b h1 h2 => ?_⟩
  · simp [Mem.newList, L.lists]
  · exact List.nodup_append.2 ⟨L.apart', by simp, by rintro a ha b hb rfl; simp at hb; subst hb; exact hin ha⟩
  · intro b hb
    rcases List.mem_append.1 hb with hb | hb
    · exact L.free' b hb
    · simp at hb; subst hb; exact fun hu => Nat.lt_irrefl _ (hU _ hu)
  · obtain ⟨attrs, N⟩ := L.node a o p h1 h2
    refine ⟨attrs, get_app_old N.cell _, N.plain, ?_, fun f r hf' => ?_, N.lacks, N.message, N.component⟩
    · have hv := N.value
      revert hv
      generalize o.cls = c
      generalize o.value = v
      intro hv
      unfold SlotAt at hv ⊢
      split at hv <;> try exact hv
      · obtain ⟨b, e1, e2, e3, e4⟩ := hv
        refine ⟨b, e1, e2, ?_, get_app_old e4 _⟩
        have := lt_of_get e4
        simp only [List.mem_append, List.mem_singleton, not_or]
        exact ⟨e3, by omega⟩
      · obtain ⟨b, e1, e2⟩ := hv
        exact ⟨b, by rw [List.getElem?_append_left (List.getElem?_eq_some_iff.1 e1).1]; exact e1, e2⟩
    · obtain ⟨x, e1, e2⟩ := N.has f r hf'
      exact ⟨x, e1, hr e2⟩
  · simp only [Mem.newList] at h1
    by_cases hl : l < m.lists.length
    · rw [List.getElem?_append_left hl] at h1
      rw [List.getElem?_append_left (by rw [L.lists]; exact hl)] at h2
      obtain ⟨ys, e1, e2⟩ := L.list l rs' b h1 h2
      exact ⟨ys, get_app_old e1 _, e2.imp fun _ _ => hr⟩
    · have hl2 := (List.getElem?_eq_some_iff.1 h1).1
      simp at hl2
      obtain rfl : l = m.lists.length := by omega
      simp at h1
      rw [← L.lists] at h2
      simp at h2
      subst h1; subst h2
      exact ⟨xs, get_app _ _, hf.imp fun _ _ => hr⟩

/-- An object is changed, and the cell where it lies. -/
theorem Lays.put (L : Lays U φ m h) {a p : Nat} {o : Node} {c : CId} {attrs attrs' : List (String × V)} {f : Node → Node}
    (ho : m.objs[a]? = some o) (hp : φ.objs[a]? = some p) (hpc : h[p]? = some (.inst c attrs))
    (N : NodeAt U φ (h.set p (.inst (cid (f o).cls) attrs')) (f o) p attrs') :
    Lays U φ (m.update a f) (h.set p (.inst (cid (f o).cls) attrs')) := by
  have hs : ∀ {b : Nat} {l : List V} (d : Cell), h[b]? = some (.list l) → (h.set p d)[b]? = some (.list l) := fun d hb => by
    rw [List.getElem?_set_ne (by rintro rfl; rw [hpc] at hb; simp at hb)]; exact hb
  refine ⟨by rw [L.objs]; simp [Mem.update], L.lists, L.apart, L.apart', L.free, L.free', fun a2 o2 p2 h1 h2 => ?_, fun l rs b h1 h2 => ?_⟩
  · by_cases ha : a = a2
    · subst ha
      rw [update_objs_eq, ho] at h1
      simp at h1
      subst h1
      rw [hp] at h2
      cases h2
      exact ⟨_, N⟩
    · rw [update_objs_ne _ _ ha] at h1
      obtain ⟨attrs2, N2⟩ := L.node a2 o2 p2 h1 h2
      have hpp : p ≠ p2 := by
        rintro rfl
        exact ha ((List.getElem?_inj (List.getElem?_eq_some_iff.1 hp).1 L.apart).1 (hp.trans h2.symm))
      refine ⟨attrs2, by rw [List.getElem?_set_ne hpp]; exact N2.cell, N2.plain, ?_, N2.has, N2.lacks, N2.message, N2.component⟩
      have hv := N2.value
      revert hv
      generalize o2.cls = c
      generalize o2.value = v
      intro hv
      unfold SlotAt at hv ⊢
      split at hv <;> try exact hv
      obtain ⟨b, e1, e2, e3, e4⟩ := hv
      exact ⟨b, e1, e2, e3, hs _ e4⟩
  · obtain ⟨xs, e1, e2⟩ := L.list l rs b h1 h2
    exact ⟨xs, hs _ e1, e2⟩

theorem isMsg {c : SeqCls} : (Cls.seq c).isSubclass (.seq .message) = true ↔ c = .message ∨ c = .message2 := by
  cases c <;> decide

theorem attr_value (f : Attr) : (f.name == "value") = false := by cases f <;> decide

/-- `Message.encodeContents`. -/
theorem msgContents_at {d : Nat} (ih : ∀ (U : Nat → Prop) (m : Mem) (φ : Layout) (h : Heap) (c p : Nat), Lays U φ m h → (∀ q, U q → q < h.length) →
      φ.objs[c]? = some p → Modest d m (.obj c) → (gEncode d m (.obj c)).2 ≠ .error .recursionError → Encodes cfg U φ h p (gEncode d m (.obj c)))
    (L : Lays U φ m h) (hU : ∀ q, U q → q < h.length) {a p : Nat} {o : Node} {c : SeqCls} {v co da : Ref}
    (ho : m.objs[a]? = some o) (hc : o.cls = .seq c) (hm : c = .message ∨ c = .message2) (hp : φ.objs[a]? = some p)
    (h1 : o.attrs .version = some v) (h2 : o.attrs .community = some co) (h3 : o.attrs .data = some da)
    (hM : ModestRefs d (m.loadMessage a o).1 [v, co, da])
    (hne : (encodeRefs (gEncode d) (m.loadMessage a o).1 [v, co, da]).2 ≠ .error .recursionError) :
    Contents cfg U φ h p (.rfc1157, 103) (encodeRefs (gEncode d) (m.loadMessage a o).1 [v, co, da]) := by
  obtain ⟨attrs, N⟩ := L.node a o p ho hp
  have ha := N.cell
  rw [hc] at ha
  have hA := lt_of_get ha
  have hex := isExc_cid (.seq c)
  obtain ⟨x, hx, rx⟩ := N.has _ _ h1
  obtain ⟨y, hy, ry⟩ := N.has _ _ h2
  obtain ⟨z, hz, rz⟩ := N.has _ _ h3
  change attrs.lookup "version" = _ at hx
  change attrs.lookup "community" = _ at hy
  change attrs.lookup "data" = _ at hz
  have hload : (m.loadMessage a o).1 = (m.newList [v, co, da]).1.setValue a (.items m.lists.length) := by
    unfold Mem.loadMessage; rw [h1, h2, h3]; rfl
  rw [hload] at hM hne ⊢
  let φ1 : Layout := ⟨φ.objs, φ.lists ++ [h.length]⟩
  let attrs1 := setAssoc attrs "value" (.ref h.length)
  let hh : Heap := h.set p (.inst (cid (.seq c)) attrs1) ++ [.list [x, y, z]]
  have L1 : Lays U φ1 (m.newList [v, co, da]).1 (h ++ [.list [x, y, z]]) := L.newList hU (.cons rx (.cons ry (.cons rz .nil)))
  have hlist : φ1.lists[m.lists.length]? = some h.length := by simp [φ1, ← L.lists]
  have hnode : ∀ H : Heap, H[p]? = some (.inst (cid (.seq c)) attrs1) → NodeAt U φ1 H { o with value := .items m.lists.length } p attrs1 := by
    intro H hH
    refine ⟨by rw [hH]; simp only [hc], plain_set N.plain _, ?_, fun f r hf => ?_, fun f hf => ?_, N.message, fun hk => (lookup_setOther (by decide)).trans (N.component hk)⟩
    · simp only [hc, SlotAt]
      exact ⟨h.length, hlist, lookup_setAssoc _ _ _⟩
    · obtain ⟨w, e1, e2⟩ := N.has f r hf
      exact ⟨w, by rw [← e1]; exact lookup_setOther (attr_value f), e2.later rfl ⟨[_], rfl⟩⟩
    · rw [← N.lacks f hf]; exact lookup_setOther (attr_value f)
  have L2 : Lays U φ1 ((m.newList [v, co, da]).1.setValue a (.items m.lists.length)) hh := by
    have := L1.put (a := a) (p := p) (o := o) (f := fun o => { o with value := .items m.lists.length }) (attrs' := attrs1) ho hp (get_app_old ha _)
      (hnode _ (by rw [List.getElem?_set_self (by simp; omega)]; simp only [hc]))
    simp only [hc] at this
    rw [set_old hA] at this
    exact this
  have hU2 : ∀ q, U q → q < hh.length := fun q hq => by have := hU q hq; simp [hh]; omega
  have ha1 : hh[p]? = some (.inst (cid (.seq c)) attrs1) := get_set hA _ _
  have hv1 : attrs1.lookup "value" = some (.ref h.length) := lookup_setAssoc _ _ _
  have K : Later φ φ1 h hh := by
    refine ⟨rfl, ⟨[_], rfl⟩, by simp [hh], fun q d hq hn => ?_⟩
    have hne : p ≠ q := by
      rintro rfl
      rw [ha] at hq
      cases hq
      rcases hn with hn | hn
      · rcases hm with rfl | rfl
        · exact (hn attrs).1 rfl
        · exact (hn attrs).2 rfl
      · exact hn (mem_of_get hp)
    simp only [hh]
    rw [List.getElem?_append_left (by simpa using lt_of_get hq), List.getElem?_set_ne hne, hq]
  obtain ⟨φ2, h', e1, e2, e3⟩ := contents_at (cfg := cfg) ih L2 hU2 (rs := [v, co, da]) (l := m.lists.length) ha1 hv1 hlist
    (by simp [Mem.setValue, Mem.update, Mem.newList]) hM hne
  refine ⟨φ2, h', ?_, e2, K.trans e3⟩
  generalize (encodeRefs (gEncode d) ((m.newList [v, co, da]).1.setValue a (.items m.lists.length)) [v, co, da]).2 = O at e1 ⊢
  dsimp only at e1 ⊢
  rw [call_rfc1157_103]
  have hm1 : ∀ j, (j == "value") = false → attrs1.lookup j = attrs.lookup j := fun j hj => lookup_setOther hj
  have g1 := hm1 "version" (by decide); have g2 := hm1 "community" (by decide); have g3 := hm1 "data" (by decide)
  rw [hx] at g1; rw [hy] at g2; rw [hz] at g3
  have hsa : ∀ (d : Cell) (u : Heap), (h ++ u).set p d = h.set p d ++ u := fun d u => set_old hA d u
  have hga : ∀ (u : Heap), (h.set p (.inst (cid (.seq c)) attrs1) ++ u)[p]? = some (.inst (cid (.seq c)) attrs1) := fun u => get_set hA _ _
  have hrun : setAssoc attrs "value" (.ref h.length) = attrs1 := rfl
  have hh1 : hh = h.set p (.inst (cid (.seq c)) attrs1) ++ [.list [x, y, z]] := rfl
  rw [hh1] at e1
  have ha0 := fun u => get_app_old ha u
  clear_value attrs1 hh
  runs [rfc1157_103, ha0, hex, hrun, hsa, hga, hv1, g1, g2, g3, List.length_set]
  rw [e1]
  cases O <;> rfl

/-! ## `encode` -/

/-- What is left to do once the contents are known. -/
theorem finish_at (hl : Limits cfg) {a p : Nat} {o : Node} {f : Module × Nat} {attrs : List (String × V)} {w : Mem × Except Exc Str}
    (hp : φ.objs[a]? = some p) (ha : h[p]? = some (.inst (cid o.cls) attrs)) (hpl : Plain attrs) (hne : o.cls ≠ .asn1Object)
    (hf : program.attr (cid o.cls) "encodeContents" = some (.func f.1 f.2)) (hw : ∃ o', w.1.objs[a]? = some o' ∧ o'.cls = o.cls)
    (C : Contents cfg U φ h p f w) (hs : ∀ s, w.2 = .ok s → s.length < 10 ^ 640) :
    Encodes cfg U φ h p (finishTlv o.cls w) := by
  obtain ⟨φ', h', e1, e2, e3⟩ := C
  obtain ⟨o', ho', hco⟩ := hw
  obtain ⟨w1, w⟩ := w
  obtain ⟨attrs', N'⟩ := e2.node a o' p ho' (by rw [e3.objs]; exact hp)
  have hcell := N'.cell
  rw [hco] at hcell
  cases w with
  | error e =>
    rw [outR] at e1
    refine ⟨φ', h', ?_, e2, e3⟩
    rw [run_tlvErr ha hpl hf e1]
    rfl
  | ok s =>
    rw [outR] at e1
    obtain ⟨r, t, f1, f2⟩ := run_tlv hl ha hpl hne hf e1 hcell N'.plain (hs s rfl)
    refine ⟨φ', h' ++ t, ?_, e2.app _ fun q hq => .inl hq, e3.trans (Later.app _ _ _)⟩
    rw [f2, finishTlv]
    simp only [f1, outR]

/-- The contents are read off the object. -/
theorem leaf_at (L : Lays U φ m h) {p : Nat} {f : Module × Nat} {w : Except Exc Str} {t : Heap}
    (hcall : call program cfg (.func f.1 f.2) [.ref p] h = outR w V.str (h ++ t)) : Contents cfg U φ h p f (m, w) :=
  ⟨φ, h ++ t, hcall, L.app _ fun _ hq => .inl hq, Later.app _ _ _⟩

theorem getD_some {l : Nat} {rs : List Ref} {ls : List (List Ref)} (h : ls[l]? = some rs) : ls.getD l [] = rs := by
  rw [List.getD_eq_getElem?_getD, h]; rfl

theorem finishTlv_rec {c : Cls} {w : Mem × Except Exc Str} (h : (finishTlv c w).2 ≠ .error .recursionError) : w.2 ≠ .error .recursionError := by
  obtain ⟨m, w⟩ := w
  intro h1
  cases h1
  exact h rfl

/-- `encode` on an object of the graph. -/
theorem encode_at (hl : Limits cfg) : ∀ (d : Nat) (U : Nat → Prop) (m : Mem) (φ : Layout) (h : Heap) (a p : Nat), Lays U φ m h →
    (∀ q, U q → q < h.length) → φ.objs[a]? = some p → Modest d m (.obj a) → (gEncode d m (.obj a)).2 ≠ .error .recursionError →
    Encodes cfg U φ h p (gEncode d m (.obj a))
  | 0, U, m, φ, h, a, p, _, _, _, _, hne => absurd (by rw [gEncode]) hne
  | d + 1, U, m, φ, h, a, p, L, hU, hp, hM, hne => by
    have ih := encode_at hl d
    have hlt : a < m.objs.length := by rw [← L.objs]; exact (List.getElem?_eq_some_iff.1 hp).1
    obtain ⟨o, ho⟩ : ∃ o, m.objs[a]? = some o := ⟨_, List.getElem?_eq_getElem hlt⟩
    obtain ⟨attrs, N⟩ := L.node a o p ho hp
    have ha := N.cell
    have hpl := N.plain
    have hv := N.value
    rw [Modest] at hM
    rw [gEncode] at hne ⊢
    rw [ho] at hM hne ⊢
    dsimp only at hM hne ⊢
    obtain ⟨cl, v, at'⟩ := o
    dsimp only at *
    have fin := fun (f : Module × Nat) (w : Mem × Except Exc Str) => finish_at (U := U) (o := ⟨cl, v, at'⟩) (f := f) (w := w) hl hp ha hpl
    dsimp only at fin
    cases cl with
    | int c =>
      cases v with
      | num n =>
        dsimp only [SlotAt] at hv
        have hg : getattr program h (.ref p) "value" = some (.int n) := by runs [ha, hv]
        obtain ⟨t, ht⟩ := run_intEncode (cfg := cfg) hg
        exact fin (.rfc1155, 360) (m, .ok (intEncode n)) (by simp) (enc_int c) ⟨_, ho, rfl⟩ (leaf_at L ht) (fun s hs => by cases hs; exact hM)
      | _ => exact hv.elim
    | oct c =>
      cases v with
      | text n =>
        dsimp only [SlotAt] at hv
        have ht : call program cfg (.func .rfc1155 527) [.ref p] h = okR (.str n) (h ++ []) := by
          rw [call_rfc1155_527, List.append_nil]; runs [rfc1155_527, ha, hv]
        exact fin (.rfc1155, 527) (m, .ok n) (by simp) (enc_oct c) ⟨_, ho, rfl⟩ (leaf_at L ht) (fun s hs => by cases hs; exact hM)
      | _ => exact hv.elim
    | null c =>
      have ht : call program cfg (.func .rfc1155 772) [.ref p] h = okR (.str []) (h ++ []) := by
        rw [call_rfc1155_772, List.append_nil]; runs [rfc1155_772]; rfl
      exact fin (.rfc1155, 772) (m, .ok []) (by simp) (enc_null c) ⟨_, ho, rfl⟩ (leaf_at L ht) (fun s hs => by cases hs; simp)
    | asn1Object => exact hv.elim
    | oid =>
      cases v with
      | ids ids =>
        have hfin : ∀ t, call program cfg (.func .rfc1155 663) [.ref p] h = outR (oidEncode ids) V.str (h ++ t) →
            Encodes cfg U φ h p (finishTlv .oid (m, oidEncode ids)) := fun t ht =>
          fin (.rfc1155, 663) (m, oidEncode ids) (by simp) enc_oid ⟨_, ho, rfl⟩ (leaf_at L ht) (fun s hs => hM s hs)
        have hres : Encodes cfg U φ h p (finishTlv .oid (m, oidEncode ids)) := by
          cases ids with
          | none =>
            dsimp only [SlotAt] at hv
            have hg : getattr program h (.ref p) "value" = some .none := by runs [ha, hv]
            obtain ⟨t, ht⟩ := run_oidEncode (cfg := cfg) (v := none) hg rfl
            exact hfin t ht
          | some l =>
            dsimp only [SlotAt] at hv
            obtain ⟨b, e1, -, -, e4⟩ := hv
            have hg : getattr program h (.ref p) "value" = some (.ref b) := by runs [ha, e1]
            obtain ⟨t, ht⟩ := run_oidEncode (cfg := cfg) (v := some l) hg ⟨b, rfl, e4⟩
            exact hfin t ht
        dsimp only
        cases hq : oidEncode ids <;> rw [hq] at hres <;> exact hres
      | _ => exact hv.elim
    | seq c =>
      dsimp only at hM hne ⊢
      by_cases hm : (Cls.seq c).isSubclass (.seq .message) = true
      · rw [if_pos hm] at hM hne ⊢
        obtain ⟨⟨vv, g1⟩, ⟨cc, g2⟩, dd, g3⟩ := N.message hm
        dsimp only at g1 g2 g3
        have hload : m.loadMessage a ⟨.seq c, v, at'⟩ = ((m.loadMessage a ⟨.seq c, v, at'⟩).1, .ok [vv, cc, dd]) := by
          unfold Mem.loadMessage; simp only [g1, g2, g3]
        rw [hload] at hM hne ⊢
        dsimp only at hM hne ⊢
        refine fin (.rfc1157, 103) _ (by simp) (enc_msg (isMsg.1 hm)) ?_ (msgContents_at ih L hU ho rfl (isMsg.1 hm) hp g1 g2 g3 hM.1 (finishTlv_rec hne)) hM.2
        obtain ⟨o1, h1, s1⟩ := (loadMessage_ext ho hm).some a _ ho
        obtain ⟨o2, h2, s2⟩ := (encodeRefs_ext (gEncode_ext d) (m.loadMessage a ⟨.seq c, v, at'⟩).1 [vv, cc, dd]).some a _ h1
        exact ⟨o2, h2, (s1.trans s2).1⟩
      · rw [if_neg hm] at hM hne ⊢
        cases v with
        | items l =>
          dsimp only [SlotAt] at hv hM hne ⊢
          obtain ⟨b, e1, e2⟩ := hv
          have hlt : l < m.lists.length := by rw [← L.lists]; exact (List.getElem?_eq_some_iff.1 e1).1
          have hls := List.getElem?_eq_getElem hlt
          rw [getD_some hls] at hM hne ⊢
          have hm' := fun h1 => hm (isMsg.2 h1)
          refine fin (.rfc1155, 827) _ (by simp) (enc_seq (fun h1 => hm' (.inl h1)) (fun h1 => hm' (.inr h1))) ?_
            (contents_at ih L hU ha e2 e1 hls hM.1 (finishTlv_rec hne)) hM.2
          obtain ⟨o2, h2, s2⟩ := (encodeRefs_ext (gEncode_ext d) m m.lists[l]).some a _ ho
          exact ⟨o2, h2, s2.1⟩
        | _ => exact hv.elim

/-! ## Lengths -/

theorem modestRefs_of_ok {d : Nat} (ih : ∀ (m : Mem) (a : Nat) (s : Str), (gEncode d m (.obj a)).2 = .ok s → s.length < 10 ^ 640 → Modest d m (.obj a)) :
    ∀ (rs : List Ref) (m : Mem) (s : Str), (encodeRefs (gEncode d) m rs).2 = .ok s → s.length < 10 ^ 640 → ModestRefs d m rs
  | [], _, _, _, _ => by rw [ModestRefs]; trivial
  | r :: rs, m, s, h, hs => by
    rw [encodeRefs] at h
    rw [ModestRefs]
    generalize hz : gEncode d m r = z at *
    obtain ⟨m1, z⟩ := z
    cases z with
    | error e => cases h
    | ok t =>
      dsimp only at h ⊢
      generalize hw : encodeRefs (gEncode d) m1 rs = w at *
      obtain ⟨m2, w⟩ := w
      cases w with
      | error e => cases h
      | ok u =>
        cases h
        rw [List.length_append] at hs
        refine ⟨?_, modestRefs_of_ok ih rs m1 u (by rw [hw]) (by omega)⟩
        cases r with
        | obj a => exact ih m a t (by rw [hz]) (by omega)
        | _ => rw [Modest] <;> simp

/-- What `encode` has returned bounds everything it has joined on the way. -/
theorem modest_of_ok : ∀ (d : Nat) (m : Mem) (a : Nat) (s : Str), (gEncode d m (.obj a)).2 = .ok s → s.length < 10 ^ 640 → Modest d m (.obj a)
  | 0, m, a, s, h, _ => by rw [Modest] <;> simp
  | d + 1, m, a, s, h, hs => by
    have hfin : ∀ {c : Cls} {w : Mem × Except Exc Str}, (finishTlv c w).2 = .ok s → ∃ t, w.2 = .ok t ∧ t.length < 10 ^ 640 := by
      intro c w hw
      obtain ⟨w1, w⟩ := w
      cases w with
      | error e => cases hw
      | ok t => exact ⟨t, rfl, Nat.lt_of_le_of_lt (tlv_len hw) hs⟩
    have ih := modest_of_ok d
    rw [Modest]
    rw [gEncode] at h
    split
    · trivial
    · next o ho =>
      rw [ho] at h
      obtain ⟨cl, v, at'⟩ := o
      dsimp only at h ⊢
      cases cl with
      | int c =>
        cases v with
        | num n => exact Nat.lt_of_le_of_lt (tlv_len h) hs
        | _ => trivial
      | oct c =>
        cases v with
        | text n => exact Nat.lt_of_le_of_lt (tlv_len h) hs
        | _ => trivial
      | null c => trivial
      | asn1Object => trivial
      | oid =>
        cases v with
        | ids l =>
          dsimp only at h ⊢
          intro t ht
          rw [ht] at h
          dsimp only at h
          exact Nat.lt_of_le_of_lt (tlv_len h) hs
        | _ => trivial
      | seq c =>
        dsimp only at h ⊢
        split
        · next hm =>
          rw [if_pos hm] at h
          split
          · next m1 l hload =>
            rw [hload] at h
            obtain ⟨t, h1, h2⟩ := hfin h
            exact ⟨modestRefs_of_ok ih _ _ t h1 h2, fun u hu => by rw [h1] at hu; cases hu; exact h2⟩
          · trivial
        · next hm =>
          rw [if_neg hm] at h
          cases v with
          | items l =>
            obtain ⟨t, h1, h2⟩ := hfin h
            exact ⟨modestRefs_of_ok ih _ _ t h1 h2, fun u hu => by rw [h1] at hu; cases hu; exact h2⟩
          | _ => trivial

/-! ## What a program does between two calls -/

theorem attr_data (f : Attr) : f.name ∈ dataNames := by cases f <;> decide

theorem attr_name_ne {f g : Attr} (h : g ≠ f) : (g.name == f.name) = false := by
  cases f <;> cases g <;> first | rfl | exact absurd rfl h

theorem plain_setAssoc {attrs : List (String × V)} (hp : Plain attrs) {k : String} (hk : k ∈ dataNames) (x : V) : Plain (setAssoc attrs k x) := by
  induction attrs with
  | nil => intro p hp'; simp [setAssoc] at hp'; subst hp'; exact hk
  | cons q qs ih =>
    obtain ⟨b, w⟩ := q
    have h1 : Plain qs := fun p hp' => hp p (List.mem_cons_of_mem _ hp')
    have h2 : b ∈ dataNames := hp (b, w) List.mem_cons_self
    rw [setAssoc]
    split
    · intro p hp'
      rcases List.mem_cons.1 hp' with rfl | hp'
      · first | exact hk | exact h2
      · exact h1 p hp'
    · intro p hp'
      rcases List.mem_cons.1 hp' with rfl | hp'
      · exact h2
      · exact ih h1 p hp'

/-- An attribute of an object is set. -/
theorem Lays.setAttr (L : Lays U φ m h) {a p : Nat} {o : Node} (ho : m.objs[a]? = some o) (hp : φ.objs[a]? = some p)
    (f : Attr) {r : Ref} {x : V} (hx : RefAt φ r x) :
    ∃ attrs, h[p]? = some (.inst (cid o.cls) attrs) ∧
      Lays U φ (m.setAttr a f r) (h.set p (.inst (cid o.cls) (setAssoc attrs f.name x))) := by
  obtain ⟨attrs, N⟩ := L.node a o p ho hp
  refine ⟨attrs, N.cell, L.put (f := fun o => { o with attrs := fun g => if g = f then some r else o.attrs g }) ho hp N.cell ?_⟩
  have hlt := lt_of_get N.cell
  have hval : (setAssoc attrs f.name x).lookup "value" = attrs.lookup "value" := lookup_setOther (by rw [Bool.eq_false_iff]; intro h1; have := attr_value f; simp at h1 this; exact this h1.symm)
  refine ⟨List.getElem?_set_self hlt, plain_setAssoc N.plain (attr_data f) x, ?_, fun g r' hg => ?_, fun g hg => ?_, fun hm => ?_,
    fun hk => (lookup_setOther (by cases f <;> decide)).trans (N.component hk)⟩
  · have hv := N.value
    dsimp only
    revert hv
    generalize o.cls = c
    generalize o.value = v
    intro hv
    unfold SlotAt at hv ⊢
    rw [hval]
    split at hv <;> try exact hv
    obtain ⟨b, e1, e2, e3, e4⟩ := hv
    refine ⟨b, e1, e2, e3, ?_⟩
    rw [List.getElem?_set_ne (by rintro rfl; rw [N.cell] at e4; cases e4)]
    exact e4
  · dsimp only at hg
    by_cases hgf : g = f
    · subst hgf
      rw [if_pos rfl] at hg
      cases hg
      exact ⟨x, lookup_setAssoc _ _ _, hx⟩
    · rw [if_neg hgf] at hg
      obtain ⟨y, e1, e2⟩ := N.has g r' hg
      exact ⟨y, by rw [← e1]; exact lookup_setOther (attr_name_ne hgf), e2⟩
  · dsimp only at hg
    by_cases hgf : g = f
    · rw [if_pos hgf] at hg; cases hg
    · rw [if_neg hgf] at hg
      rw [← N.lacks g hg]
      exact lookup_setOther (attr_name_ne hgf)
  · obtain ⟨⟨v, h1⟩, ⟨c, h2⟩, d, h3⟩ := N.message hm
    refine ⟨?_, ?_, ?_⟩
    · by_cases e : Attr.version = f
      · exact ⟨r, by simp only [if_pos e]⟩
      · exact ⟨v, by simp only [if_neg e]; exact h1⟩
    · by_cases e : Attr.community = f
      · exact ⟨r, by simp only [if_pos e]⟩
      · exact ⟨c, by simp only [if_neg e]; exact h2⟩
    · by_cases e : Attr.data = f
      · exact ⟨r, by simp only [if_pos e]⟩
      · exact ⟨d, by simp only [if_neg e]; exact h3⟩

/-- A list is changed in place. -/
theorem Lays.setList (L : Lays U φ m h) {l b : Nat} (hb : φ.lists[l]? = some b) {rs : List Ref} {xs : List V}
    (hf : List.Forall₂ (RefAt φ) rs xs) : Lays U φ (m.setList l rs) (h.set b (.list xs)) := by
  have hlt : l < m.lists.length := by rw [← L.lists]; exact (List.getElem?_eq_some_iff.1 hb).1
  obtain ⟨ys, hy, -⟩ := L.list l _ b (List.getElem?_eq_getElem hlt) hb
  have hcell : ∀ {q : Nat} {c : CId} {attrs : List (String × V)}, h[q]? = some (.inst c attrs) → (h.set b (.list xs))[q]? = some (.inst c attrs) := fun hq => by
    rw [List.getElem?_set_ne (by rintro rfl; rw [hy] at hq; cases hq)]; exact hq
  refine ⟨L.objs, by simp [Mem.setList, L.lists], L.apart, L.apart', L.free, L.free', fun a o p h1 h2 => ?_, fun l' rs' b' h1 h2 => ?_⟩
  · obtain ⟨attrs, N⟩ := L.node a o p h1 h2
    refine ⟨attrs, hcell N.cell, N.plain, ?_, N.has, N.lacks, N.message, N.component⟩
    have hv := N.value
    revert hv
    generalize o.cls = c
    generalize o.value = v
    intro hv
    unfold SlotAt at hv ⊢
    split at hv <;> try exact hv
    obtain ⟨q, e1, e2, e3, e4⟩ := hv
    refine ⟨q, e1, e2, e3, ?_⟩
    rw [List.getElem?_set_ne (by rintro rfl; exact e3 (mem_of_get hb))]
    exact e4
  · simp only [Mem.setList] at h1
    by_cases hll : l = l'
    · subst hll
      rw [List.getElem?_set_self hlt] at h1
      rw [hb] at h2
      cases h1; cases h2
      exact ⟨xs, List.getElem?_set_self (lt_of_get hy), hf⟩
    · rw [List.getElem?_set_ne hll] at h1
      obtain ⟨zs, e1, e2⟩ := L.list l' rs' b' h1 h2
      refine ⟨zs, ?_, e2⟩
      rw [List.getElem?_set_ne]
      · exact e1
      · rintro rfl
        exact hll ((List.getElem?_inj (List.getElem?_eq_some_iff.1 hb).1 L.apart').1 (hb.trans h2.symm))

/-- The list of every Sequence exists. -/
theorem Lays.bounded (L : Lays U φ m h) : m.Bounded := by
  intro a o l ho hv
  have hlt : a < φ.objs.length := by rw [L.objs]; exact (List.getElem?_eq_some_iff.1 ho).1
  obtain ⟨attrs, N⟩ := L.node a o _ ho (List.getElem?_eq_getElem hlt)
  have hs := N.value
  rw [hv] at hs
  cases hc : o.cls with
  | seq c =>
    rw [hc] at hs
    obtain ⟨b, e1, -⟩ := hs
    rw [← L.lists]
    exact (List.getElem?_eq_some_iff.1 e1).1
  | _ => rw [hc] at hs; exact hs.elim

end Libsnmp.Src
