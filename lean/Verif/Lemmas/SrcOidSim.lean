import Verif.Lemmas.SrcOidMeth
import Verif.Spec.SourceOid

/-!
# Histories of ObjectIDs on the source text
-/

namespace Libsnmp.Src
open Libsnmp

variable {cfg : Cfg}

/-- The cells of the model are at the addresses `cells`. -/
structure OidSim (s : OidMem) (m : SrcMem) (cells : List Nat) : Prop where
  base : Base m.heap
  len : cells.length = s.cells.length
  nodup : cells.Nodup
  cell : ∀ k a : Nat, cells[k]? = some a → 9 ≤ a ∧ m.heap[a]? = some (.list ((s.cells.read k).map V.int))
  objsLen : m.objs.length = s.objs.length
  listsLen : m.lists.length = s.lists.length
  obj : ∀ j a : Nat, m.objs[j]? = some a → 9 ≤ a ∧ ∃ attrs, m.heap[a]? = some (.inst (cid .oid) attrs) ∧ Plain attrs ∧
    ((s.objs[j]? = some none ∧ attrs.lookup "value" = some .none) ∨
      ∃ (k b : Nat), s.objs[j]? = some (some k) ∧ cells[k]? = some b ∧ attrs.lookup "value" = some (.ref b))
  list : ∀ i a : Nat, m.lists[i]? = some a → ∃ k : Nat, s.lists[i]? = some k ∧ cells[k]? = some a

theorem read_app (c : Cells Int) (l : List Int) {k : Nat} (hk : k < c.length) : Cells.read (c ++ [l]) k = Cells.read c k := by
  unfold Cells.read
  rw [List.getD_append _ _ _ _ hk]

theorem read_new (c : Cells Int) (l : List Int) : Cells.read (c ++ [l]) c.length = l := by
  simp [Cells.read, List.getD]

theorem read_set (c : Cells Int) (l : List Int) {k : Nat} (hk : k < c.length) (i : Nat) :
    Cells.read (c.set k l) i = if i = k then l else Cells.read c i := by
  unfold Cells.read List.getD
  rw [List.getElem?_set]
  by_cases h : i = k
  · subst h; simp [hk]
  · simp [h, Ne.symm h]

theorem OidSim.kept {s : OidMem} {m : SrcMem} {cells : List Nat} (r : OidSim s m cells) {h' : Heap}
    (hk : Kept m.heap.length m.heap h') : OidSim s { m with heap := h' } cells where
  base := hk.base
  len := r.len
  nodup := r.nodup
  cell k a ha := by
    obtain ⟨h9, hc⟩ := r.cell k a ha
    exact ⟨h9, hk.get hc h9 (lt_of_get hc)⟩
  objsLen := r.objsLen
  listsLen := r.listsLen
  obj j a ha := by
    obtain ⟨h9, attrs, hc, hr⟩ := r.obj j a ha
    exact ⟨h9, attrs, hk.get hc h9 (lt_of_get hc), hr⟩
  list := r.list

theorem OidSim.addCell {s : OidMem} {m : SrcMem} {cells : List Nat} (r : OidSim s m cells) {h' : Heap}
    (hk : Kept m.heap.length m.heap h') {b : Nat} {ids : List Int} (hlb : m.heap.length ≤ b)
    (hb : h'[b]? = some (.list (ids.map V.int))) :
    OidSim { s with cells := s.cells ++ [ids] } { m with heap := h' } (cells ++ [b]) := by
  have h9 := r.base.long
  have r' := r.kept hk
  have hlt : ∀ k a : Nat, cells[k]? = some a → k < s.cells.length := fun k a ha => by rw [← r.len]; exact (List.getElem?_eq_some_iff.1 ha).1
  have hold : ∀ k a : Nat, cells[k]? = some a → (cells ++ [b])[k]? = some a := fun k a ha => by
    rw [List.getElem?_append_left (by rw [r.len]; exact hlt k a ha), ha]
  refine ⟨hk.base, by simp [r.len], ?_, ?_, r.objsLen, r.listsLen, ?_, ?_⟩
  · refine List.Nodup.append r.nodup (List.nodup_singleton b) ?_
    intro x hx hxb
    rw [List.mem_singleton] at hxb
    subst hxb
    obtain ⟨k, hk, hx⟩ := List.getElem_of_mem hx
    have := (r.cell k x (by rw [List.getElem?_eq_getElem hk, hx])).2
    exact absurd (lt_of_get this) (by omega)
  · intro k a ha
    by_cases hkl : k < cells.length
    · rw [List.getElem?_append_left hkl] at ha
      have := r'.cell k a ha
      rwa [read_app _ _ (hlt k a ha)]
    · have hk1 : k = cells.length := by
        have := (List.getElem?_eq_some_iff.1 ha).1
        simp at this; omega
      subst hk1
      simp at ha
      subst ha
      exact ⟨by omega, by rw [r.len, read_new]; exact hb⟩
  · intro j a ha
    obtain ⟨q1, attrs, q2, q3, q4⟩ := r'.obj j a ha
    refine ⟨q1, attrs, q2, q3, ?_⟩
    rcases q4 with q | ⟨k, c, q, q', q''⟩
    · exact .inl q
    · exact .inr ⟨k, c, q, hold k c q', q''⟩
  · intro i a ha
    obtain ⟨k, q, q'⟩ := r.list i a ha
    exact ⟨k, q, hold k a q'⟩

theorem get_snoc {α} {l : List α} {j : Nat} {x a : α} (h : (l ++ [x])[j]? = some a) :
    l[j]? = some a ∨ (j = l.length ∧ a = x) := by
  by_cases hj : j < l.length
  · rw [List.getElem?_append_left hj] at h; exact .inl h
  · have := (List.getElem?_eq_some_iff.1 h).1
    have hj : j = l.length := by simp at this; omega
    subst hj
    simp at h
    exact .inr ⟨rfl, h.symm⟩

theorem OidSim.addObj {s : OidMem} {m : SrcMem} {cells : List Nat} (r : OidSim s m cells) {a : Nat} {attrs : List (String × V)}
    {o : Option Nat} (h9 : 9 ≤ a) (ha : m.heap[a]? = some (.inst (cid .oid) attrs)) (hp : Plain attrs)
    (hv : (o = none ∧ attrs.lookup "value" = some .none) ∨
      ∃ (k b : Nat), o = some k ∧ cells[k]? = some b ∧ attrs.lookup "value" = some (.ref b)) :
    OidSim { s with objs := s.objs ++ [o] } { m with objs := m.objs ++ [a] } cells := by
  refine ⟨r.base, r.len, r.nodup, r.cell, by simp [r.objsLen], r.listsLen, ?_, r.list⟩
  intro j a' hj
  rcases get_snoc hj with hj | ⟨rfl, rfl⟩
  · obtain ⟨q1, attrs, q2, q3, q4⟩ := r.obj j a' hj
    have hlt := (List.getElem?_eq_some_iff.1 hj).1
    have e : (s.objs ++ [o])[j]? = s.objs[j]? := List.getElem?_append_left (by rw [← r.objsLen]; exact hlt)
    refine ⟨q1, attrs, q2, q3, ?_⟩
    simp only [e]
    exact q4
  · have e : (s.objs ++ [o])[m.objs.length]? = some o := by rw [r.objsLen]; simp
    refine ⟨h9, attrs, ha, hp, ?_⟩
    simp only [e]
    rcases hv with ⟨rfl, q⟩ | ⟨k, b, rfl, q, q'⟩
    · exact .inl ⟨rfl, q⟩
    · exact .inr ⟨k, b, rfl, q, q'⟩

/-- A new object is there. -/
theorem OidSim.new {s : OidMem} {m : SrcMem} {cells : List Nat} (r : OidSim s m cells) {h' : Heap}
    (hk : Kept m.heap.length m.heap h') {v : Option (List Int)} {a : Nat} (hr : Rep m.heap.length h' (.oid v) (.ref a)) :
    ∃ cells', OidSim (match v with | none => s.newUnset | some l => s.newObj l) { heap := h', objs := m.objs ++ [a], lists := m.lists }
      cells' := by
  have h9 := r.base.long
  cases v with
  | none =>
    rw [Rep] at hr
    obtain ⟨a', attrs, e, hlo, ha, hp, hv⟩ := hr
    cases e
    exact ⟨cells, (r.kept hk).addObj (by omega) ha hp (.inl ⟨rfl, hv⟩)⟩
  | some ids =>
    rw [Rep] at hr
    obtain ⟨a', attrs, b, e, hlo, ha, hp, hv, hlb, hb⟩ := hr
    cases e
    have r' := r.addCell hk hlb hb
    refine ⟨cells ++ [b], r'.addObj (a := a) (attrs := attrs) (o := some s.cells.length) (by omega) ha hp (.inr ⟨_, b, rfl, ?_, hv⟩)⟩
    rw [← r.len]; simp

theorem OidSim.write {s : OidMem} {m : SrcMem} {cells : List Nat} (r : OidSim s m cells) {k b : Nat} (hb : cells[k]? = some b)
    (l : List Int) : OidSim (s.write k l) { m with heap := m.heap.set b (.list (l.map V.int)) } cells := by
  have hc := r.cell k b hb
  have hkc := (List.getElem?_eq_some_iff.1 hb).1
  have hks : k < s.cells.length := by rw [← r.len]; exact hkc
  refine ⟨(Kept.set r.base hc.1 (Nat.le_refl b) _).base, by simp [OidMem.write, r.len], r.nodup, ?_, r.objsLen, r.listsLen, ?_, r.list⟩
  · intro i a ha
    have h1 := r.cell i a ha
    refine ⟨h1.1, ?_⟩
    rw [OidMem.write, read_set _ _ hks]
    split
    · next e => subst e; rw [hb] at ha; cases ha; exact get_set_nil (lt_of_get hc.2) _
    · next e =>
      have hab : b ≠ a := by
        rintro rfl
        have hic := (List.getElem?_eq_some_iff.1 ha).1
        exact e ((List.Nodup.getElem_inj_iff r.nodup (hi := hic) (hj := hkc)).1
          ((List.getElem?_eq_some_iff.1 ha).2.trans (List.getElem?_eq_some_iff.1 hb).2.symm))
      rw [List.getElem?_set_ne hab]
      exact h1.2
  · intro j a ha
    obtain ⟨q1, attrs, q2, q⟩ := r.obj j a ha
    have hab : b ≠ a := by
      rintro rfl
      rw [hc.2] at q2
      cases q2
    exact ⟨q1, attrs, by rw [List.getElem?_set_ne hab]; exact q2, q⟩

theorem OidSim.same {s : OidMem} {m : SrcMem} {cells : List Nat} (r : OidSim s m cells) : SameOids s m where
  objs := r.objsLen
  lists := r.listsLen
  obj j a ha := by
    obtain ⟨h9, attrs, hc, hp, hv⟩ := r.obj j a ha
    rcases hv with ⟨q, hv⟩ | ⟨k, b, q, qb, hv⟩
    · refine ⟨none, by rw [OidMem.obj, q]; rfl, ?_⟩
      rw [Rep]
      exact ⟨a, attrs, rfl, h9, hc, hp, hv⟩
    · refine ⟨some (s.cells.read k), by rw [OidMem.obj, q]; rfl, ?_⟩
      rw [Rep]
      obtain ⟨h9b, hb⟩ := r.cell k b qb
      exact ⟨a, attrs, b, rfl, h9, hc, hp, hv, h9b, hb⟩
  list i a ha := by
    obtain ⟨k, q, qa⟩ := r.list i a ha
    exact ⟨s.cells.read k, by rw [OidMem.list, q]; rfl, (r.cell k a qa).2⟩

theorem sliceL_eq (l : List Int) (i j : Int) : sliceL (l.map V.int) (.int i) (.int j) = some ((pySlice l i j).map V.int) := by
  have hb : ∀ k : Int, bound l.length k = sliceBound l.length k := by
    intro k
    unfold bound sliceBound
    by_cases hk : k < 0
    · rw [if_neg (by omega), if_pos hk]; omega
    · rw [if_pos (by omega), if_neg hk]; omega
  simp only [sliceL, pySlice, List.length_map, hb, List.map_drop, List.map_take]

theorem position_eq (n : Nat) (i : Int) : position n i = pyIndex n i := by
  unfold position pyIndex
  repeat' split
  all_goals first | rfl | omega | (congr 1; omega)

theorem none_of_len {α β} {l : List α} {m : List β} (h : l.length = m.length) {i : Nat} (hi : l[i]? = none) : m[i]? = none := by
  rw [List.getElem?_eq_none_iff] at hi ⊢
  omega

/-- Steps that leave what there is. -/
theorem step_exc {s : OidMem} {m : SrcMem} {cells : List Nat} {op : OidOp} (r : OidSim s m cells) {e : Exc} {h' : Heap} {args : List V}
    (hc : clientCode cfg m op = excR (.exc (excName e) args) h') (hk : Kept m.heap.length m.heap h')
    (hs : s.step op = (s, .error e)) :
    ∃ m' o cells', m.step cfg op = some (m', o) ∧ OidSim (s.step op).1 m' cells' ∧ SameEnd (s.step op).2 o := by
  rw [hs]
  refine ⟨_, _, cells, by rw [SrcMem.step, hc]; rfl, r.kept hk, args, rfl⟩

theorem step_new {s : OidMem} {m : SrcMem} {cells : List Nat} {op : OidOp} (r : OidSim s m cells) {h' : Heap} {a : Nat}
    {v : Option (List Int)} (hc : clientCode cfg m op = okR (.ref a) h') (ho : makesOid op = true) (hk : Kept m.heap.length m.heap h')
    (hr : Rep m.heap.length h' (.oid v) (.ref a))
    (hs : s.step op = (match (generalizing := false) v with | none => s.newUnset | some l => s.newObj l, .ok ())) :
    ∃ m' o cells', m.step cfg op = some (m', o) ∧ OidSim (s.step op).1 m' cells' ∧ SameEnd (s.step op).2 o := by
  obtain ⟨cells', h1⟩ := r.new hk hr
  have h2 : m.step cfg op = some ({ heap := h', objs := m.objs ++ [a], lists := m.lists }, none) := by
    rw [SrcMem.step, hc]
    cases op <;> first | (cases ho; done) | rfl
  exact ⟨_, _, cells', h2, by rw [hs]; exact h1, by rw [hs]; rfl⟩

theorem step_write {s : OidMem} {m : SrcMem} {cells : List Nat} {op : OidOp} (r : OidSim s m cells) {k b : Nat} {l : List Int}
    (hb : cells[k]? = some b) (hc : clientCode cfg m op = okR .none (m.heap.set b (.list (l.map V.int))))
    (hs : s.step op = (s.write k l, .ok ())) :
    ∃ m' o cells', m.step cfg op = some (m', o) ∧ OidSim (s.step op).1 m' cells' ∧ SameEnd (s.step op).2 o := by
  have h2 : m.step cfg op = some ({ m with heap := m.heap.set b (.list (l.map V.int)) }, none) := by
    rw [SrcMem.step, hc]
    cases op <;> rfl
  exact ⟨_, _, cells, h2, by rw [hs]; exact r.write hb l, by rw [hs]; rfl⟩

theorem OidSim.step {s : OidMem} {m : SrcMem} {cells : List Nat} (r : OidSim s m cells) (op : OidOp) (hf : Fits cfg op) :
    ∃ m' o cells', m.step cfg op = some (m', o) ∧ OidSim (s.step op).1 m' cells' ∧ SameEnd (s.step op).2 o := by
  have hb := r.base
  have h9 := hb.long
  have hk0 := Kept.refl hb m.heap.length
  -- a missing object or list of the client
  have missing : ∀ op, s.step op = (s, .error .indexError) → clientCode cfg m op = raiseR "IndexError" m.heap →
      ∃ m' o cells', m.step cfg op = some (m', o) ∧ OidSim (s.step op).1 m' cells' ∧ SameEnd (s.step op).2 o :=
    fun op hs hc => step_exc r (e := .indexError) (args := []) hc hk0 hs
  -- one object of the client
  have one : ∀ j op (f : V → R V), clientCode cfg m op = withAddr m.objs j m.heap f →
      (s.objs[j]? = none → s.step op = (s, .error .indexError)) →
      (∀ a attrs, m.heap[a]? = some (.inst (cid .oid) attrs) → Plain attrs →
        clientCode cfg m op = f (.ref a) →
        (s.objs[j]? = some none ∧ attrs.lookup "value" = some .none) ∨
          (∃ k b : Nat, s.objs[j]? = some (some k) ∧ cells[k]? = some b ∧ attrs.lookup "value" = some (.ref b) ∧
            m.heap[b]? = some (.list ((s.cells.read k).map V.int))) →
        ∃ m' o cells', m.step cfg op = some (m', o) ∧ OidSim (s.step op).1 m' cells' ∧ SameEnd (s.step op).2 o) →
      ∃ m' o cells', m.step cfg op = some (m', o) ∧ OidSim (s.step op).1 m' cells' ∧ SameEnd (s.step op).2 o := by
    intro j op f hc hn hs
    cases ha : m.objs[j]? with
    | none => exact missing op (hn (none_of_len r.objsLen ha)) (by rw [hc, withAddr, ha])
    | some a =>
      obtain ⟨q9, attrs, q1, q2, q3⟩ := r.obj j a ha
      refine hs a attrs q1 q2 (by rw [hc, withAddr, ha]) ?_
      rcases q3 with q3 | ⟨k, b, q, q', q''⟩
      · exact .inl q3
      · exact .inr ⟨k, b, q, q', q'', (r.cell k b q').2⟩
  cases op with
  | newList l =>
    refine ⟨_, _, cells ++ [m.heap.length], by rw [SrcMem.step, clientCode, alloc]; rfl, ?_, rfl⟩
    have r' := r.addCell (Kept.app hb [.list (l.map V.int)]) (Nat.le_refl _) (get_app _ _)
    refine ⟨r'.base, r'.len, r'.nodup, r'.cell, r'.objsLen, by simp [OidMem.step, SrcMem.keep, r.listsLen], r'.obj, ?_⟩
    intro i a ha
    have e1 : (s.step (.newList l)).1.lists = s.lists ++ [s.cells.length] := rfl
    rw [e1]
    rcases get_snoc ha with ha | ⟨rfl, rfl⟩
    · obtain ⟨k, q, q'⟩ := r'.list i a ha
      refine ⟨k, ?_, q'⟩
      rw [List.getElem?_append_left (by rw [← r.listsLen]; exact (List.getElem?_eq_some_iff.1 ha).1)]
      exact q
    · exact ⟨s.cells.length, by rw [r.listsLen]; simp, by rw [← r.len]; simp⟩
  | setList i l =>
    cases ha : m.lists[i]? with
    | none => exact missing _ (by rw [OidMem.step, none_of_len r.listsLen ha]) (by rw [clientCode, ha])
    | some a =>
      obtain ⟨k, q, q'⟩ := r.list i a ha
      exact step_write r q' (by rw [clientCode, ha]) (by rw [OidMem.step, q])
  | construct arg =>
    have hra : RepArg 9 m.heap arg (argV arg) := by
      cases arg <;> first | exact hf.elim | rfl
    have h1 := run_mkOid (cfg := cfg) hb hra (by rintro t rfl; exact hf)
    cases hm : mkOid arg with
    | error e =>
      rw [hm] at h1
      obtain ⟨h', args, h1, h2⟩ := h1
      exact step_exc r h1 h2 (by rw [OidMem.step, hm])
    | ok v =>
      rw [hm] at h1
      obtain ⟨h', x, h1, h2, h3⟩ := h1
      obtain ⟨a, attrs, rfl, -⟩ := h3.cell
      refine step_new r h1 rfl h2 h3 ?_
      rw [OidMem.step, hm]
      cases v <;> rfl
  | fromList i =>
    cases ha : m.lists[i]? with
    | none => exact missing _ (by rw [OidMem.step, none_of_len r.listsLen ha]) (by rw [clientCode, withAddr, ha])
    | some a =>
      obtain ⟨k, q, q'⟩ := r.list i a ha
      exact step_new r (v := some (s.cells.read k)) (by rw [clientCode, withAddr, ha]; exact run_newOidList (r.cell k a q').2) rfl (Kept.app hb _)
        (rep_newOid _ _ (k := 0) rfl) (by rw [OidMem.step, q])
  | fromObj j =>
    refine one j _ (fun x => call program cfg (.cls (cid .oid)) [x] m.heap) (by rw [clientCode]) (fun h => by rw [OidMem.step, h]) fun a attrs ha hp hc hv => ?_
    rcases hv with ⟨q, hv⟩ | ⟨k, b, q, qb, hv, hl⟩
    · have h1 := run_mkOid (cfg := cfg) (lo := 0) (arg := .obj (.oid none)) hb ⟨rfl, by rw [Rep]; exact ⟨a, attrs, rfl, Nat.zero_le _, ha, hp, hv⟩⟩
        (by rintro t ⟨⟩)
      obtain ⟨h', args, h1, h2⟩ := h1
      exact step_exc r (hc.trans h1) h2 (by rw [OidMem.step, q])
    · have h1 := run_mkOid (cfg := cfg) (lo := 0) (arg := .obj (.oid (some (s.cells.read k)))) hb
        ⟨rfl, by rw [Rep]; exact ⟨a, attrs, b, rfl, Nat.zero_le _, ha, hp, hv, Nat.zero_le _, hl⟩⟩ (by rintro t ⟨⟩)
      obtain ⟨h', x, h1, h2, h3⟩ := h1
      obtain ⟨a', attrs', rfl, -⟩ := h3.cell
      exact step_new r (hc.trans h1) rfl h2 h3 (by rw [OidMem.step, q])
  | copy j =>
    refine one j _ (fun x => callMethod cfg x "copy" [] m.heap) (by rw [clientCode]) (fun h => by rw [OidMem.step, h]) fun a attrs ha hp hc hv => ?_
    rw [callMethod_eq ha hp (show program.attr (cid .oid) "copy" = some (.func .rfc1155 625) from rfl)] at hc
    rcases hv with ⟨q, hv⟩ | ⟨k, b, q, qb, hv, hl⟩
    · exact step_new r (v := none) (hc.trans (run_oidCopy_none ha hv)) rfl (Kept.app hb _)
        (by rw [Rep]; exact ⟨_, _, rfl, Nat.le_refl _, get_app _ _, plain _, rfl⟩) (by rw [OidMem.step, q])
    · exact step_new r (v := some _) (hc.trans (run_oidCopy ha hv hl)) rfl (Kept.app hb _) (rep_newOid _ _ (k := 0) rfl)
        (by rw [OidMem.step, q])
  | toObjectID j =>
    refine one j _ (fun x => callMethod cfg x "toObjectID" [] m.heap) (by rw [clientCode]) (fun h => by rw [OidMem.step, h]) fun a attrs ha hp hc hv => ?_
    rw [callMethod_eq ha hp (show program.attr (cid .oid) "toObjectID" = some (.func .rfc1155 756) from rfl)] at hc
    rcases hv with ⟨q, hv⟩ | ⟨k, b, q, qb, hv, hl⟩
    · exact step_new r (v := none) (hc.trans (run_oidToOid_none ha hv)) rfl (Kept.app hb _)
        (by rw [Rep]; exact ⟨_, _, rfl, Nat.le_refl _, get_app _ _, plain _, rfl⟩) (by rw [OidMem.step, q])
    · refine step_new r (v := some (s.cells.read k)) (hc.trans (run_oidToOid ha hv hl)) rfl (Kept.app hb _) ?_
        (by rw [OidMem.step, q])
      rw [Rep]
      exact ⟨_, _, _, rfl, by omega, get_app_add _ _ _, plain _, rfl, by omega, get_app_add _ _ _⟩
  | slice j i i' =>
    refine one j _ (fun x => slice program cfg x (.int i) (.int i') m.heap) (by rw [clientCode]) (fun h => by rw [OidMem.step, h]) fun a attrs ha hp hc hv => ?_
    have hat : program.attr (cid .oid) "__getitem__" = some (.func .rfc1155 614) := rfl
    have hc' : clientCode cfg m (.slice j i i') = call program cfg (.func .rfc1155 614) [.ref a, .slc (.int i) (.int i')] m.heap := by
      rw [hc]
      runs [slice, ha, hat]
    rcases hv with ⟨q, hv⟩ | ⟨k, b, q, qb, hv, hl⟩
    · exact step_exc r (e := .attributeError) (args := []) (hc'.trans (run_oidSlice_none ha hv _ _)) hk0 (by rw [OidMem.step, q])
    · refine step_new r (v := some (pySlice (s.cells.read k) i i')) (hc'.trans (run_oidSlice ha hv hl (sliceL_eq _ i i'))) rfl
        (Kept.app hb _) ?_ (by rw [OidMem.step, q])
      rw [Rep]
      exact ⟨_, _, _, rfl, by omega, get_app_add _ _ _, plain _, rfl, by omega, get_app_add _ _ _⟩
  | decoded t =>
    have h1 := run_newOid (cfg := cfg) m.heap
    have h2 := run_oidDecode (cfg := cfg) (h := m.heap ++ [.inst (cid .oid) [("value", .none)]]) (a := m.heap.length)
      (get_app _ _) (.inr ⟨_, rfl⟩) t
    have hc : clientCode cfg m (.decoded t) = call program cfg (.func .rfc1155 696) [.ref m.heap.length, .str t]
        (m.heap ++ [.inst (cid .oid) [("value", .none)]]) := by
      rw [clientCode, h1]
      change callMethod cfg (.ref m.heap.length) "decodeContents" [.str t] _ = _
      rw [callMethod_eq (get_app _ _) (plain _)
        (show program.attr (cid .oid) "decodeContents" = some (.func .rfc1155 696) from rfl)]
    have hh : ∀ l, (m.heap ++ [Cell.inst (cid .oid) [("value", .none)]]).set m.heap.length
        (.inst (cid .oid) [("value", .ref (m.heap ++ [Cell.inst (cid .oid) [("value", .none)]]).length)]) ++ [.list l, .list (codes t)] =
        m.heap ++ [.inst (cid .oid) [("value", .ref (m.heap.length + 1))], .list l, .list (codes t)] := by
      intro l; simp only [src]
    cases hd : oidDecode t with
    | error e =>
      rw [hd] at h2
      obtain ⟨args, l, h2⟩ := h2
      rw [hh] at h2
      exact step_exc r (hc.trans h2) (Kept.app hb _) (by rw [OidMem.step, hd])
    | ok ids =>
      rw [hd] at h2
      dsimp only at h2
      rw [hh] at h2
      exact step_new r (v := some ids) (hc.trans h2) rfl (Kept.app hb _) (rep_newOid _ _ (k := 0) rfl) (by rw [OidMem.step, hd])
  | append j n =>
    refine one j _ (fun x => callMethod cfg x "append" [.int n] m.heap) (by rw [clientCode]) (fun h => by rw [OidMem.step, h]) fun a attrs ha hp hc hv => ?_
    rw [callMethod_eq ha hp (show program.attr (cid .oid) "append" = some (.func .rfc1155 631) from rfl)] at hc
    rcases hv with ⟨q, hv⟩ | ⟨k, b, q, qb, hv, hl⟩
    · exact step_exc r (e := .attributeError) (args := []) (hc.trans (run_oidAppend_none ha hv n)) hk0 (by rw [OidMem.step, q])
    · refine step_write r (l := s.cells.read k ++ [n]) qb (hc.trans (run_oidAppend ha hv hl n) |>.trans ?_) (by rw [OidMem.step, q])
      rw [List.map_append]; rfl
  | appendOther j =>
    refine one j _ (fun x => callMethod cfg x "append" [.none] m.heap) (by rw [clientCode]) (fun h => by rw [OidMem.step, h]) fun a attrs ha hp hc hv => ?_
    rw [callMethod_eq ha hp (show program.attr (cid .oid) "append" = some (.func .rfc1155 631) from rfl)] at hc
    refine step_exc r (e := .typeError) (args := []) (hc.trans (run_oidAppend_bad (t := .builtin "NoneType") rfl (.inr ⟨_, rfl, by decide⟩))) hk0 ?_
    rcases hv with ⟨q, hv⟩ | ⟨k, b, q, qb, hv, hl⟩ <;> rw [OidMem.step, q]
  | extend j i =>
    refine one j _ (fun x => withAddr m.objs i m.heap fun y => callMethod cfg x "extend" [y] m.heap) (by rw [clientCode]) (fun h => by rw [OidMem.step, h]) fun a attrs ha hp hc hv => ?_
    cases ha' : m.objs[i]? with
    | none =>
      refine missing _ ?_ (by rw [hc, withAddr, ha'])
      have hn := none_of_len r.objsLen ha'
      rw [OidMem.step, hn]
      rcases hv with ⟨q, hv⟩ | ⟨k, b, q, qb, hv, hl⟩ <;> rw [q]
    | some a' =>
      rw [withAddr, ha'] at hc
      dsimp only at hc
      rw [callMethod_eq ha hp (show program.attr (cid .oid) "extend" = some (.func .rfc1155 638) from rfl)] at hc
      obtain ⟨q9, attrs', q1, q2, q3⟩ := r.obj i a' ha'
      have hi : isInst program m.heap (.ref a') (.cls (cid .oid)) = some true := by
        simp only [isInst, instOf, q1, src]; rfl
      rcases hv with ⟨q, hv⟩ | ⟨k, b, q, qb, hv, hl⟩
      · refine step_exc r (e := .attributeError) (args := []) (hc.trans (run_oidExtend_none ha hp hv hi)) hk0 ?_
        rcases q3 with ⟨w, _⟩ | ⟨k', b', w, _⟩ <;> rw [OidMem.step, q, w]
      · rcases q3 with ⟨w, hv'⟩ | ⟨k', b', w, qb', hv'⟩
        · exact step_exc r (e := .typeError) (args := []) (hc.trans (run_oidExtend_bad ha hp hv hl q1 hv')) hk0 (by rw [OidMem.step, q, w])
        · refine step_write r (l := s.cells.read k ++ s.cells.read k') qb
            (hc.trans (run_oidExtend ha hp hv hl q1 hv' (r.cell k' b' qb').2) |>.trans ?_) (by rw [OidMem.step, q, w])
          rw [List.map_append]
  | extendList j i =>
    refine one j _ (fun x => withAddr m.lists i m.heap fun y => callMethod cfg x "extend" [y] m.heap) (by rw [clientCode]) (fun h => by rw [OidMem.step, h]) fun a attrs ha hp hc hv => ?_
    cases ha' : m.lists[i]? with
    | none =>
      refine missing _ ?_ (by rw [hc, withAddr, ha'])
      have hn := none_of_len r.listsLen ha'
      rw [OidMem.step, hn]
      rcases hv with ⟨q, hv⟩ | ⟨k, b, q, qb, hv, hl⟩ <;> rw [q]
    | some a' =>
      rw [withAddr, ha'] at hc
      dsimp only at hc
      rw [callMethod_eq ha hp (show program.attr (cid .oid) "extend" = some (.func .rfc1155 638) from rfl)] at hc
      obtain ⟨k', w, qb'⟩ := r.list i a' ha'
      have hl' := (r.cell k' a' qb').2
      have hi : isInst program m.heap (.ref a') (.cls (cid .oid)) = some false := by
        simp only [isInst, instOf, hl', src]
      rcases hv with ⟨q, hv⟩ | ⟨k, b, q, qb, hv, hl⟩
      · exact step_exc r (e := .attributeError) (args := []) (hc.trans (run_oidExtend_none ha hp hv hi)) hk0 (by rw [OidMem.step, q, w])
      · refine step_write r (l := s.cells.read k ++ s.cells.read k') qb
          (hc.trans (run_oidExtendList ha hp hv hl hl') |>.trans ?_) (by rw [OidMem.step, q, w])
        rw [List.map_append]
  | delItem j i =>
    refine one j _ (fun x => callMethod cfg x "__delitem__" [.int i] m.heap) (by rw [clientCode]) (fun h => by rw [OidMem.step, h]) fun a attrs ha hp hc hv => ?_
    rw [callMethod_eq ha hp (show program.attr (cid .oid) "__delitem__" = some (.func .rfc1155 621) from rfl)] at hc
    rcases hv with ⟨q, hv⟩ | ⟨k, b, q, qb, hv, hl⟩
    · exact step_exc r (e := .attributeError) (args := []) (hc.trans (run_oidDel_none ha hv _)) hk0 (by rw [OidMem.step, q])
    · have h1 := run_oidDel (cfg := cfg) ha hv hl i
      rw [List.length_map, position_eq] at h1
      cases hx : pyIndex (s.cells.read k).length i with
      | none =>
        rw [hx] at h1
        exact step_exc r (e := .indexError) (args := []) (hc.trans h1) hk0 (by simp only [OidMem.step, q, hx])
      | some n =>
        rw [hx] at h1
        refine step_write r (l := (s.cells.read k).eraseIdx n) qb (hc.trans h1 |>.trans ?_) (by simp only [OidMem.step, q, hx])
        dsimp only
        rw [List.eraseIdx_map]

theorem sim_start : OidSim {} { heap := statics, objs := [], lists := [] } [] where
  base := base_statics
  len := rfl
  nodup := List.nodup_nil
  cell k a h := by simp at h
  objsLen := rfl
  listsLen := rfl
  obj j a h := by simp at h
  list i a h := by simp at h

theorem OidSim.run (ops : List OidOp) : ∀ {s : OidMem} {m : SrcMem} {cells : List Nat}, OidSim s m cells →
    (∀ op ∈ ops, Fits cfg op) → ∃ m' cells', m.run cfg ops = some m' ∧ OidSim (ops.foldl (fun s op => (s.step op).1) s) m' cells' := by
  induction ops with
  | nil => intro s m cells r _; exact ⟨m, cells, rfl, r⟩
  | cons op ops ih =>
    intro s m cells r hf
    obtain ⟨m1, o, cells1, h1, h2, -⟩ := r.step op (hf op List.mem_cons_self)
    obtain ⟨m', cells', h3, h4⟩ := ih h2 fun q hq => hf q (List.mem_cons_of_mem _ hq)
    exact ⟨m', cells', by rw [SrcMem.run, h1]; exact h3, h4⟩

end Libsnmp.Src
