import Verif.Lemmas.SrcGraph
import Verif.Lemmas.SrcBad
import Verif.Lemmas.SrcOidOps
import Verif.Lemmas.SrcOidMeth
import Verif.Lemmas.SrcMsg
import Verif.Spec.SourceProgram

/-!
# Making objects of a graph by executing the constructors
-/

namespace Libsnmp.Src
open Libsnmp

variable {cfg : Cfg} {U : Nat → Prop} {φ φ' φ'' : Layout} {m : Mem} {h h' h'' : Heap}

/-- The cells that the graph uses stay as they are. -/
theorem Lays.move (L : Lays U φ m h) {U' : Nat → Prop} (hs : ∀ (p : Nat) (c : Cell), ¬ U p → h[p]? = some c → h'[p]? = some c ∧ ¬ U' p) :
    Lays U' φ m h' := by
  have hl : ∀ b ∈ φ.lists, ∃ xs, h[b]? = some (.list xs) := fun b hb => by
    obtain ⟨i, hi⟩ := List.getElem?_of_mem hb
    have hlt : i < m.lists.length := by rw [← L.lists]; exact (List.getElem?_eq_some_iff.1 hi).1
    obtain ⟨xs, h1, -⟩ := L.list i _ b (List.getElem?_eq_getElem hlt) hi
    exact ⟨xs, h1⟩
  have ho : ∀ p ∈ φ.objs, ∃ c, h[p]? = some c := fun p hp => by
    obtain ⟨i, hi⟩ := List.getElem?_of_mem hp
    have hlt : i < m.objs.length := by rw [← L.objs]; exact (List.getElem?_eq_some_iff.1 hi).1
    obtain ⟨attrs, N⟩ := L.node i _ p (List.getElem?_eq_getElem hlt) hi
    exact ⟨_, N.cell⟩
  refine ⟨L.objs, L.lists, L.apart, L.apart', fun p hp => ?_, fun b hb => ?_, fun a o p h1 h2 => ?_, fun l rs b h1 h2 => ?_⟩
  · obtain ⟨c, hc⟩ := ho p hp; exact (hs p c (L.free p hp) hc).2
  · obtain ⟨c, hc⟩ := hl b hb; exact (hs b _ (L.free' b hb) hc).2
  · obtain ⟨attrs, N⟩ := L.node a o p h1 h2
    refine ⟨attrs, (hs _ _ (L.free p (mem_of_get h2)) N.cell).1, N.plain, ?_, N.has, N.lacks, N.message, N.component⟩
    have hv := N.value
    revert hv
    generalize o.cls = c
    generalize o.value = v
    intro hv
    unfold SlotAt at hv ⊢
    split at hv <;> try exact hv
    obtain ⟨b, e1, e2, e3, e4⟩ := hv
    exact ⟨b, e1, (hs _ _ e2 e4).2, e3, (hs _ _ e2 e4).1⟩
  · obtain ⟨xs, e1, e2⟩ := L.list l rs b h1 h2
    exact ⟨xs, (hs _ _ (L.free' b (mem_of_get h2)) e1).1, e2⟩

/-- There may be more objects and more lists. -/
structure Grown (φ φ' : Layout) : Prop where
  objs : ∃ t, φ'.objs = φ.objs ++ t
  lists : ∃ t, φ'.lists = φ.lists ++ t

theorem Grown.refl (φ : Layout) : Grown φ φ := ⟨⟨[], by simp⟩, ⟨[], by simp⟩⟩

theorem Grown.trans (g1 : Grown φ φ') (g2 : Grown φ' φ'') : Grown φ φ'' := by
  obtain ⟨⟨t, e⟩, u, f⟩ := g1
  obtain ⟨⟨t', e'⟩, u', f'⟩ := g2
  exact ⟨⟨t ++ t', by rw [e', e, List.append_assoc]⟩, ⟨u ++ u', by rw [f', f, List.append_assoc]⟩⟩

theorem Grown.ref (g : Grown φ φ') {r : Ref} {x : V} (hr : RefAt φ r x) : RefAt φ' r x := by
  obtain ⟨⟨t, ht⟩, u, hu⟩ := g
  cases r with
  | obj a =>
    obtain ⟨p, e1, e2⟩ := hr
    exact ⟨p, by rw [ht, List.getElem?_append_left (List.getElem?_eq_some_iff.1 e1).1]; exact e1, e2⟩
  | list a =>
    obtain ⟨p, e1, e2⟩ := hr
    exact ⟨p, by rw [hu, List.getElem?_append_left (List.getElem?_eq_some_iff.1 e1).1]; exact e1, e2⟩
  | _ => exact hr

theorem Grown.obj (φ : Layout) (p : Nat) : Grown φ ⟨φ.objs ++ [p], φ.lists⟩ := ⟨⟨_, rfl⟩, ⟨[], by simp⟩⟩
theorem Grown.list (φ : Layout) (b : Nat) : Grown φ ⟨φ.objs, φ.lists ++ [b]⟩ := ⟨⟨[], by simp⟩, ⟨_, rfl⟩⟩

theorem Later.grown (l : Later φ φ' h h') : Grown φ φ' := ⟨⟨[], by rw [l.objs]; simp⟩, l.lists⟩

theorem SlotAt.grown {attrs : List (String × V)} {c : Cls} {v : Slot} {U' : Nat → Prop} (s : SlotAt U φ h attrs c v) (g : Grown φ φ')
    (hn : ∀ b l, ¬ U b → b ∉ φ.lists → h[b]? = some (.list l) → ¬ U' b ∧ b ∉ φ'.lists) : SlotAt U' φ' h attrs c v := by
  unfold SlotAt at s ⊢
  split at s <;> try exact s
  · obtain ⟨b, e1, e2, e3, e4⟩ := s
    obtain ⟨n1, n2⟩ := hn b _ e2 e3 e4
    exact ⟨b, e1, n1, n2, e4⟩
  · obtain ⟨b, e1, e2⟩ := s
    obtain ⟨u, hu⟩ := g.lists
    exact ⟨b, by rw [hu, List.getElem?_append_left (List.getElem?_eq_some_iff.1 e1).1]; exact e1, e2⟩

/-- A cell that the graph did not use holds a list of things of the graph: it can be a list of the graph. -/
theorem Lays.adoptList (L : Lays U φ m h) {b : Nat} (hU : U b) {rs : List Ref} {xs : List V} (hb : h[b]? = some (.list xs))
    (hf : List.Forall₂ (RefAt φ) rs xs) : Lays (fun q => U q ∧ q ≠ b) ⟨φ.objs, φ.lists ++ [b]⟩ (m.newList rs).1 h := by
  have hin : b ∉ φ.lists := fun hi => L.free' b hi hU
  refine ⟨L.objs, ?_, L.apart, ?_, fun p hp hu => L.free p hp hu.1, fun q hq => ?_, fun a o p h1 h2 => ?_, fun l rs' q h1 h2 => ?_⟩
  · simp [Mem.newList, L.lists]
  · exact List.nodup_append.2 ⟨L.apart', by simp, by rintro a ha q hq rfl; simp at hq; subst hq; exact hin ha⟩
  · rcases List.mem_append.1 hq with hq | hq
    · exact fun hu => L.free' q hq hu.1
    · simp at hq; exact fun hu => hu.2 hq
  · obtain ⟨attrs, N⟩ := L.node a o p h1 h2
    refine ⟨attrs, N.cell, N.plain, N.value.grown (Grown.list φ b) fun q l n1 n2 _ => ⟨fun hu => n1 hu.1, ?_⟩, fun f r hf' => ?_, N.lacks, N.message, N.component⟩
    · simp only [List.mem_append, List.mem_singleton, not_or]
      exact ⟨n2, by rintro rfl; exact n1 hU⟩
    · obtain ⟨x, e1, e2⟩ := N.has f r hf'
      exact ⟨x, e1, (Grown.list φ b).ref e2⟩
  · simp only [Mem.newList] at h1
    by_cases hl : l < m.lists.length
    · rw [List.getElem?_append_left hl] at h1
      rw [List.getElem?_append_left (by rw [L.lists]; exact hl)] at h2
      obtain ⟨ys, e1, e2⟩ := L.list l rs' q h1 h2
      exact ⟨ys, e1, e2.imp fun _ _ => (Grown.list φ b).ref⟩
    · have hl2 := (List.getElem?_eq_some_iff.1 h1).1
      simp at hl2
      obtain rfl : l = m.lists.length := by omega
      simp at h1
      rw [← L.lists] at h2
      simp at h2
      subst h1; subst h2
      exact ⟨xs, hb, hf.imp fun _ _ => (Grown.list φ b).ref⟩

/-- A cell that the graph did not use holds an object of the graph. -/
theorem Lays.adopt (L : Lays U φ m h) {p : Nat} (hU : U p) {o : Node} {attrs : List (String × V)} (N : NodeAt U φ h o p attrs) :
    Lays (fun q => U q ∧ q ≠ p) ⟨φ.objs ++ [p], φ.lists⟩ (m.newNode o).1 h := by
  have hin : p ∉ φ.objs := fun hi => L.free p hi hU
  have key : ∀ {o : Node} {q : Nat} {attrs : List (String × V)}, NodeAt U φ h o q attrs →
      NodeAt (fun q => U q ∧ q ≠ p) ⟨φ.objs ++ [p], φ.lists⟩ h o q attrs := fun N => by
    refine ⟨N.cell, N.plain, N.value.grown (Grown.obj φ p) fun q l n1 n2 _ => ⟨fun hu => n1 hu.1, n2⟩, fun f r hf' => ?_, N.lacks, N.message, N.component⟩
    obtain ⟨x, e1, e2⟩ := N.has f r hf'
    exact ⟨x, e1, (Grown.obj φ p).ref e2⟩
  refine ⟨?_, L.lists, ?_, L.apart', fun q hq => ?_, fun b hb hu => L.free' b hb hu.1, fun a o' q h1 h2 => ?_, fun l rs' q h1 h2 => ?_⟩
  · simp [Mem.newNode, L.objs]
  · exact List.nodup_append.2 ⟨L.apart, by simp, by rintro a ha q hq rfl; simp at hq; subst hq; exact hin ha⟩
  · rcases List.mem_append.1 hq with hq | hq
    · exact fun hu => L.free q hq hu.1
    · simp at hq; exact fun hu => hu.2 hq
  · simp only [Mem.newNode] at h1
    by_cases hl : a < m.objs.length
    · rw [List.getElem?_append_left hl] at h1
      rw [List.getElem?_append_left (by rw [L.objs]; exact hl)] at h2
      obtain ⟨ys, e1⟩ := L.node a o' q h1 h2
      exact ⟨ys, key e1⟩
    · have hl2 := (List.getElem?_eq_some_iff.1 h1).1
      simp at hl2
      obtain rfl : a = m.objs.length := by omega
      simp at h1
      rw [← L.objs] at h2
      simp at h2
      subst h1; subst h2
      exact ⟨attrs, key N⟩
  · obtain ⟨xs, e1, e2⟩ := L.list l rs' q h1 h2
    exact ⟨xs, e1, e2.imp fun _ _ => (Grown.obj φ p).ref⟩

/-- New cells, and changed texts. -/
theorem Lies.kept (H : Lies φ m h) (hk : Kept h.length h h') : Lays (fun q => q < 9 ∨ h.length ≤ q) φ m h' :=
  H.lays.move fun p c hp hc => by
    have := lt_of_get hc
    exact ⟨hk.get hc (by omega) this, by omega⟩

theorem Lies.app (H : Lies φ m h) (t : Heap) : Lays (fun q => q < 9 ∨ h.length ≤ q) φ m (h ++ t) := H.kept (Kept.app H.base t)

theorem Lays.lies {U : Nat → Prop} (L : Lays U φ m h) (hb : Base h) (hU : ∀ q, q < 9 → U q) : Lies φ m h := ⟨hb, L.weaken hU⟩

/-- What making an object must come to. -/
def Comes (φ : Layout) (h : Heap) (r : R V) : Mem × Except Exc Ref → Prop
  | (m', .ok r') => ∃ φ' h' x, r = okR x h' ∧ RefAt φ' r' x ∧ Lies φ' m' h' ∧ Grown φ φ'
  | (m', .error e) => ∃ φ' h' args, r = excR (.exc (excName e) args) h' ∧ Lies φ' m' h' ∧ Grown φ φ'

theorem ref_new (φ : Layout) (L : Lays U φ m h) (p : Nat) : RefAt ⟨φ.objs ++ [p], φ.lists⟩ (.obj m.objs.length) (.ref p) :=
  ⟨p, by rw [← L.objs]; simp, rfl⟩

theorem list_new (φ : Layout) (L : Lays U φ m h) (p : Nat) : RefAt ⟨φ.objs, φ.lists ++ [p]⟩ (.list m.lists.length) (.ref p) :=
  ⟨p, by rw [← L.lists]; simp, rfl⟩

/-- A new object that refers to nothing. -/
theorem made_prim (H : Lies φ m h) (hk : Kept h.length h h') {p : Nat} (hp : h.length ≤ p) {c : Cls} {v : Slot} {attrs : List (String × V)}
    (N : NodeAt (fun q => q < 9 ∨ h.length ≤ q) φ h' ⟨c, v, fun _ => none⟩ p attrs) : Comes φ h (okR (.ref p) h') (let (m, r) := m.newPrim c v; (m, .ok r)) := by
  have L := H.kept hk
  have hb := H.base.long
  exact ⟨_, h', .ref p, rfl, ref_new φ L p, (L.adopt (.inr hp) N).lies hk.base fun q hq => ⟨.inl hq, by omega⟩, Grown.obj φ p⟩

theorem made_error (H : Lies φ m h) (hk : Kept h.length h h') {e : Exc} {args : List V} :
    Comes φ h (excR (.exc (excName e) args) h') (m, .error e) :=
  ⟨φ, h', args, rfl, ⟨hk.base, (H.kept hk).weaken fun _ hq => .inl hq⟩, Grown.refl φ⟩

theorem node_prim {c : Cls} {v : Slot} {p : Nat} {attrs : List (String × V)} (hc : h[p]? = some (.inst (cid c) attrs)) (hp : Plain attrs)
    (hv : SlotAt U φ h attrs c v) (hm : c.isSubclass (.seq .message) = false) (hl : ∀ f : Attr, attrs.lookup f.name = none)
    (hk : c.isSubclass (.seq .varBindList) = false := by first | rfl | (cases c <;> rfl)) :
    NodeAt U φ h ⟨c, v, fun _ => none⟩ p attrs :=
  ⟨hc, hp, hv, fun _ _ hf => (by cases hf), fun f _ => hl f, fun h1 => (by rw [hm] at h1; cases h1),
    fun h1 => (by rw [hk] at h1; cases h1)⟩

theorem value_lacks (x : V) (f : Attr) : [("value", x)].lookup f.name = none := by cases f <;> rfl

/-- `Integer(n)`, `Counter(n)`, ... -/
theorem make_int (hl : Limits cfg) (H : Lies φ m h) (c : IntCls) (n : Int) :
    Comes φ h (call program cfg (.cls (cid (.int c))) [.int n] h) (m.mkInteger c n) := by
  have hN : ∀ {h1 : Heap}, NodeAt (fun q => q < 9 ∨ h.length ≤ q) φ (h1 ++ [Cell.inst (cid (.int c)) [("value", V.int n)]]) ⟨.int c, .num n, fun _ => none⟩ h1.length [("value", .int n)] :=
    fun {h1} => node_prim (get_app _ _) (plain [_]) rfl (by cases c <;> rfl) (value_lacks _)
  rw [Mem.mkInteger]
  by_cases he : c = .errorStatus2
  · subst he
    have := run_newStatus (cfg := cfg) hl H.base n
    by_cases hr : IntCls.errorStatus2.minVal ≤ n ∧ n ≤ IntCls.errorStatus2.maxVal
    · rw [if_pos hr] at this ⊢
      obtain ⟨h1, e1, e2, e3, -⟩ := this
      rw [e1]
      exact made_prim H (e3.app' _ (by omega)) (by omega) hN
    · rw [if_neg hr] at this ⊢
      obtain ⟨args, h1, e1, e2, -⟩ := this
      rw [e1]
      exact made_error H e2 (e := .valueError)
  · have := run_newInt (cfg := cfg) hl he n h
    by_cases hr : c.minVal ≤ n ∧ n ≤ c.maxVal
    · rw [if_pos hr] at this ⊢
      rw [this]
      exact made_prim H (Kept.app H.base _) (Nat.le_refl _) hN
    · rw [if_neg hr] at this ⊢
      obtain ⟨args, e1⟩ := this
      rw [e1]
      exact made_error H (Kept.app H.base _) (e := .valueError)

/-- `OctetString(s)`. -/
theorem make_oct (H : Lies φ m h) (s : Str) :
    Comes φ h (call program cfg (.cls (cid (.oct .octetString))) [.str s] h) (let (m, r) := m.newPrim (.oct .octetString) (.text s); (m, .ok r)) := by
  rw [run_newOctStr]
  exact made_prim H (Kept.app H.base _) (Nat.le_refl _) (node_prim (get_app _ _) (plain [_]) rfl rfl (value_lacks _))

/-- `Null()`, `NoSuchObject()`, ... -/
theorem make_null (H : Lies φ m h) (c : NullCls) :
    Comes φ h (call program cfg (.cls (cid (.null c))) [] h) (let (m, r) := m.newPrim (.null c) .nothing; (m, .ok r)) := by
  rw [run_newNull]
  exact made_prim H (Kept.app H.base _) (Nat.le_refl _) (node_prim (get_app _ _) (plain []) trivial (by cases c <;> rfl) (fun _ => rfl))

/-- `ObjectID()`. -/
theorem make_oid0 (H : Lies φ m h) :
    Comes φ h (call program cfg (.cls (cid .oid)) [] h) (let (m, r) := m.newPrim .oid (.ids none); (m, .ok r)) := by
  rw [run_newOid]
  exact made_prim H (Kept.app H.base _) (Nat.le_refl _) (node_prim (get_app _ _) (plain [_]) rfl rfl (value_lacks _))

/-- A new ObjectID with a list of its own. -/
theorem made_oid (H : Lies φ m h) {t : Heap} {k : Nat} {ids : List Int} (hk : t[k]? = some (.list (ids.map V.int))) :
    Comes φ h (okR (.ref h.length) (h ++ .inst (cid .oid) [("value", .ref (h.length + (k + 1)))] :: t))
      (let (m, r) := m.newPrim .oid (.ids (some ids)); (m, .ok r)) := by
  have hb := H.base.long
  have L := H.app (.inst (cid .oid) [("value", .ref (h.length + (k + 1)))] :: t)
  have hfree : h.length + (k + 1) ∉ φ.lists := fun hi => L.free' _ hi (.inr (by omega))
  have L2 := L.weaken (U' := fun q => (q < 9 ∨ h.length ≤ q) ∧ q ≠ h.length + (k + 1)) fun q hq => hq.1
  have N : NodeAt (fun q => (q < 9 ∨ h.length ≤ q) ∧ q ≠ h.length + (k + 1)) φ (h ++ .inst (cid .oid) [("value", .ref (h.length + (k + 1)))] :: t)
      ⟨.oid, .ids (some ids), fun _ => none⟩ h.length [("value", .ref (h.length + (k + 1)))] :=
    node_prim (get_app _ _) (plain [_]) ⟨_, rfl, fun hu => hu.2 rfl, hfree, by rw [get_app_add]; exact hk⟩ rfl (value_lacks _)
  exact ⟨_, _, _, rfl, ref_new φ L2 _, (L2.adopt ⟨.inr (Nat.le_refl _), by omega⟩ N).lies (Kept.app H.base _).base
    fun q hq => ⟨⟨.inl hq, by omega⟩, by omega⟩, Grown.obj φ _⟩

/-- `ObjectID(arg)`. -/
theorem make_oid (H : Lies φ m h) {arg : Arg} {y : V} (hy : argAt arg = some y) (hn : ∀ s, arg = .str s → Short cfg s) :
    Comes φ h (call program cfg (.cls (cid .oid)) [y] h)
      (match mkOid arg with
        | .error e => (m, .error e)
        | .ok ids => (let (m, r) := m.newPrim .oid (.ids ids); (m, .ok r))) := by
  have he := isExc_cid .oid
  cases arg with
  | none =>
    cases hy
    rw [run_newOidNone]
    exact made_prim H (Kept.app H.base _) (Nat.le_refl _) (node_prim (get_app _ _) (plain [_]) rfl rfl (value_lacks _))
  | int n =>
    cases hy
    have e : call program cfg (.cls (cid .oid)) [.int n] h = okR (.ref h.length) (h ++ [.inst (cid .oid) [("value", .ref (h.length + 1))], .list [.int n]]) := by
      rw [call_cls]
      runs [initOf, call_rfc1155_557, rfc1155_557, he]
    rw [e]
    exact made_oid H (k := 0) (ids := [n]) rfl
  | tuple l =>
    cases hy
    have e : call program cfg (.cls (cid .oid)) [.tuple (l.map V.int)] h = okR (.ref h.length) (h ++ [.inst (cid .oid) [("value", .ref (h.length + 1))], .list (l.map V.int)]) := by
      rw [call_cls]
      runs [initOf, call_rfc1155_557, rfc1155_557, he]
    rw [e]
    exact made_oid H (k := 0) (ids := l) rfl
  | str s =>
    cases hy
    have hl := run_oidLoop (cfg := cfg) h (pySplit 46 (pyStrip 46 s)) [] _ rfl (fun p hp => (hn s rfl).piece hp) []
      (some (.str (pyStrip 46 s))) (some (.ref (h.length + 1))) none none
    have h46 : lit "." = [46] := by decide +kernel
    unfold oidHeap at hl
    cases hp : oidParse (pySplit 46 (pyStrip 46 s)) with
    | ok ids =>
      rw [hp] at hl
      obtain ⟨s', n', hl⟩ := hl
      rw [List.nil_append, List.map_nil, List.length_nil] at hl
      rw [show mkOid (.str s) = .ok (some ids) by rw [mkOid, hp]]
      have e : call program cfg (.cls (cid .oid)) [.str s] h = okR (.ref h.length) (h ++ [.inst (cid .oid) [("value", .ref (h.length + 2))],
          .list ((pySplit 46 (pyStrip 46 s)).map V.str), .list (ids.map V.int)]) := by
        rw [call_cls]
        runs [initOf, call_rfc1155_557, rfc1155_557, he, h46, strMethod, hl]
      rw [e]
      exact made_oid H (k := 1) rfl
    | error e =>
      rw [hp] at hl
      obtain ⟨rfl, acc', env', args, hl⟩ := hl
      rw [List.map_nil, List.length_nil] at hl
      rw [show mkOid (.str s) = .error .valueError by rw [mkOid, hp]]
      have e : call program cfg (.cls (cid .oid)) [.str s] h = excR (.exc "ValueError" args) (h ++ [.inst (cid .oid) [("value", .ref (h.length + 2))],
          .list ((pySplit 46 (pyStrip 46 s)).map V.str), .list (acc'.map V.int)]) := by
        rw [call_cls]
        runs [initOf, call_rfc1155_557, rfc1155_557, he, h46, strMethod, hl]
      rw [e]
      exact made_error H (Kept.app H.base _) (e := .valueError)
  | list l => cases hy
  | bytes s => cases hy
  | obj v => cases hy

/-! ## What Python asks of an object -/

theorem Lays.obj (L : Lays U φ m h) {a p : Nat} (hp : φ.objs[a]? = some p) : ∃ o attrs, m.objs[a]? = some o ∧ NodeAt U φ h o p attrs := by
  have hlt : a < m.objs.length := by rw [← L.objs]; exact (List.getElem?_eq_some_iff.1 hp).1
  obtain ⟨attrs, N⟩ := L.node a _ p (List.getElem?_eq_getElem hlt) hp
  exact ⟨_, attrs, List.getElem?_eq_getElem hlt, N⟩

theorem Lays.lst (L : Lays U φ m h) {l b : Nat} (hb : φ.lists[l]? = some b) :
    ∃ rs xs, m.lists[l]? = some rs ∧ h[b]? = some (.list xs) ∧ List.Forall₂ (RefAt φ) rs xs := by
  have hlt : l < m.lists.length := by rw [← L.lists]; exact (List.getElem?_eq_some_iff.1 hb).1
  obtain ⟨xs, h1, h2⟩ := L.list l _ b (List.getElem?_eq_getElem hlt) hb
  exact ⟨_, xs, List.getElem?_eq_getElem hlt, h1, h2⟩

theorem isInst_at (L : Lays U φ m h) {r : Ref} {x : V} (hr : RefAt φ r x) (d : Cls) :
    isInst program h x (.cls (cid d)) = some (m.isInstance r d) := by
  have hk : ∀ c, program.sub (cid c) (cid d) = c.isSubclass d := fun c => sub_cid c d
  cases r with
  | none => cases hr; rfl
  | int n => cases hr; rfl
  | str s => cases hr; rfl
  | bytes b => cases hr
  | obj a =>
    obtain ⟨p, e1, rfl⟩ := hr
    obtain ⟨o, attrs, h1, N⟩ := L.obj e1
    simp only [isInst, instOf, N.cell, hk, Mem.isInstance, h1]
  | list l =>
    obtain ⟨p, e1, rfl⟩ := hr
    obtain ⟨rs, xs, h1, h2, -⟩ := L.lst e1
    simp only [isInst, instOf, h2, Mem.isInstance]

theorem truth_at (L : Lays U φ m h) {r : Ref} {x : V} (hr : RefAt φ r x) : truth program cfg x h = okR (m.truthy r) h := by
  cases r with
  | none => cases hr; runs [Mem.truthy]
  | int n => cases hr; runs [Mem.truthy]; rw [decide_not]
  | str s => cases hr; cases s <;> runs [Mem.truthy] <;> rfl
  | bytes b => cases hr
  | list l =>
    obtain ⟨p, e1, rfl⟩ := hr
    obtain ⟨rs, xs, h1, h2, h3⟩ := L.lst e1
    have hlen := h3.length_eq
    runs [Mem.truthy, h2, getD_some h1]
    cases rs <;> cases xs <;> simp at hlen ⊢
  | obj a =>
    obtain ⟨p, e1, rfl⟩ := hr
    obtain ⟨o, attrs, h1, N⟩ := L.obj e1
    have ha := N.cell
    have hs := N.value
    obtain ⟨c, v, as⟩ := o
    simp only [Mem.truthy, h1]
    cases c with
    | int c => cases v <;> try exact hs.elim
               runs [ha]
    | oct c => cases v <;> try exact hs.elim
               runs [ha]
    | null c => cases v <;> try exact hs.elim
                runs [ha]
    | asn1Object => cases v <;> exact hs.elim
    | oid =>
      cases v with
      | ids l =>
        cases l with
        | none => runs [ha, run_oidLen0 ha hs]; rfl
        | some l =>
          obtain ⟨b, f1, -, -, f4⟩ := hs
          runs [ha, run_oidLen ha f1 f4]
          cases l <;> simp
      | _ => exact hs.elim
    | seq c =>
      cases v with
      | items l =>
        obtain ⟨b, f1, f2⟩ := hs
        obtain ⟨rs, xs, g1, g2, g3⟩ := L.lst f1
        have hlen := g3.length_eq
        runs [ha, run_seqLen ha f2 g2, getD_some g1]
        cases rs <;> cases xs <;> simp at hlen ⊢
      | _ => exact hs.elim

/-- `value.__class__.__name__`. -/
theorem name_at (L : Lays U φ m h) {r : Ref} {x : V} (hr : RefAt φ r x) :
    ∃ y s, getattr program h x "__class__" = some y ∧ getattr program h y "__name__" = some (.str s) := by
  cases r with
  | none => cases hr; exact ⟨_, _, rfl, rfl⟩
  | int n => cases hr; exact ⟨_, _, rfl, rfl⟩
  | str s => cases hr; exact ⟨_, _, rfl, rfl⟩
  | bytes b => cases hr
  | list l =>
    obtain ⟨p, e1, rfl⟩ := hr
    obtain ⟨rs, xs, h1, h2, h3⟩ := L.lst e1
    exact ⟨.builtin "list", _, by simp only [getattr, h2]; rfl, rfl⟩
  | obj a =>
    obtain ⟨p, e1, rfl⟩ := hr
    obtain ⟨o, attrs, h1, N⟩ := L.obj e1
    have hcls : ∀ c, ∃ s, getattr program h (.cls (cid c)) "__name__" = some (.str s) := by
      intro c
      rcases c with _ | c | c | _ | c | c
      all_goals first | exact ⟨_, rfl⟩ | (cases c <;> exact ⟨_, rfl⟩)
    obtain ⟨s, hs⟩ := hcls o.cls
    exact ⟨_, s, by simp only [getattr, N.cell, N.plain.none (a := "__class__"), if_true], hs⟩

/-! ## Sequences -/

/-- An object of a class of sequences and its list, in new cells. -/
theorem Lays.adoptSeq (L : Lays U φ m h) {p b : Nat} (hp : U p) (hb : U b) {c : SeqCls} {rs : List Ref} {xs : List V} {attrs : List (String × V)}
    (hc : h[p]? = some (.inst (cid (.seq c)) attrs)) (hl : h[b]? = some (.list xs)) (hpl : Plain attrs)
    (hv : attrs.lookup "value" = some (.ref b)) (hx : List.Forall₂ (RefAt φ) rs xs)
    (hf : ∀ f : Attr, Option.Rel (RefAt φ) (attrsOf c rs f) (attrs.lookup f.name)) (hm : (Cls.seq c).isSubclass (.seq .message) = false)
    (hk : (Cls.seq c).isSubclass (.seq .varBindList) = true → attrs.lookup "componentType" = some (.cls (cid (.seq .varBind)))) :
    Lays (fun q => (U q ∧ q ≠ b) ∧ q ≠ p) ⟨φ.objs ++ [p], φ.lists ++ [b]⟩ (m.newSeq c rs).1 h := by
  have hpb : p ≠ b := by rintro rfl; rw [hc] at hl; cases hl
  have L1 := L.adoptList hb hl hx
  refine L1.adopt (o := ⟨.seq c, .items m.lists.length, attrsOf c rs⟩) ⟨hp, hpb⟩ (attrs := attrs) ⟨hc, hpl, ?_, fun f r hr => ?_, fun f hr => ?_, fun h1 => ?_, hk⟩
  · exact ⟨b, by rw [← L.lists]; simp, hv⟩
  · have := hf f
    dsimp only at hr
    rw [hr] at this
    generalize attrs.lookup f.name = y at this
    cases this with
    | some h1 => exact ⟨_, rfl, (Grown.list φ b).ref h1⟩
  · have := hf f
    dsimp only at hr
    rw [hr] at this
    generalize attrs.lookup f.name = y at this
    cases this
    rfl
  · dsimp only at h1
    rw [hm] at h1; cases h1

theorem ref_seq (φ : Layout) (L : Lays U φ m h) (p b : Nat) (c : SeqCls) (rs : List Ref) :
    RefAt ⟨φ.objs ++ [p], φ.lists ++ [b]⟩ (m.newSeq c rs).2 (.ref p) :=
  ⟨p, by simp only [Mem.newList]; rw [← L.objs]; simp, rfl⟩

theorem grown_seq (φ : Layout) (p b : Nat) : Grown φ ⟨φ.objs ++ [p], φ.lists ++ [b]⟩ := ⟨⟨_, rfl⟩, ⟨_, rfl⟩⟩

/-- `VarBind(name, value)`. -/
theorem make_varBind (H : Lies φ m h) {c : SeqCls} (hc : c = .varBind ∨ c = .varBind2) {r s : Ref} {x y : V} (hx : RefAt φ r x) (hy : RefAt φ s y) :
    Comes φ h (call program cfg (.cls (cid (.seq c))) [x, y] h) (m.mkVarBind c r s) := by
  have hi : initOf (.seq c) = (.rfc1157, 63) := by rcases hc with rfl | rfl <;> rfl
  have he := isExc_cid (.seq c)
  have L := H.app [.inst (cid (.seq c)) []]
  have hin := isInst_at L hx .oid
  have hiv := isInst_at L hy .asn1Object
  have htn := truth_at (cfg := cfg) L hx
  have htv := truth_at (cfg := cfg) L hy
  simp only [show cid .oid = (Module.rfc1155, 550) from rfl, show cid .asn1Object = (Module.rfc1155, 64) from rfl] at hin hiv
  have hok : Comes φ h (okR (.ref h.length) (h ++ [.inst (cid (.seq c)) [("objectID", x), ("objectValue", y), ("value", .ref (h.length + 1))], .list [x, y]]))
      (let (m1, r) := m.newSeq c [r, s]; (m1, .ok r)) := by
    have hb := H.base.long
    have L := H.app [.inst (cid (.seq c)) [("objectID", x), ("objectValue", y), ("value", .ref (h.length + 1))], .list [x, y]]
    have L2 := L.adoptSeq (p := h.length) (b := h.length + 1) (rs := [r, s]) (.inr (Nat.le_refl _)) (.inr (by omega)) (get_app _ _)
      (by rw [get_app_add]; rfl) (plain [_, _, _]) rfl (.cons hx (.cons hy .nil)) (fun f => by
        rcases hc with rfl | rfl <;> cases f <;> first | exact .some hx | exact .some hy | exact .none) (by rcases hc with rfl | rfl <;> rfl)
      (fun hk => by rcases hc with rfl | rfl <;> cases hk)
    exact ⟨_, _, _, rfl, ref_seq φ L _ _ c _, L2.lies (Kept.app H.base _).base fun q hq => ⟨⟨.inl hq, by omega⟩, by omega⟩, grown_seq φ _ _⟩
  rw [call_cls, hi, call_rfc1157_63, Mem.mkVarBind]
  cases h1 : m.truthy r <;> cases h2 : m.isInstance r .oid <;> cases h3 : m.truthy s <;> cases h4 : m.isInstance s .asn1Object <;>
    simp only [h1, h2, h3, h4, Bool.not_true, Bool.not_false, Bool.and_true, Bool.and_false, Bool.true_and, Bool.false_and,
      Bool.false_eq_true, if_true, if_false] at htn htv hin hiv ⊢ <;>
    runs [rfc1157_63, ↓htn, ↓htv, ↓hin, ↓hiv, he, call_rfc1155_796, rfc1155_796]
  all_goals first | exact hok | exact made_error H (Kept.app H.base _) (e := .valueError)

/-- `TrapPDU(...)`. -/
theorem make_trap (H : Lies φ m h) {r1 r2 r3 r4 r5 r6 : Ref} {x1 x2 x3 x4 x5 x6 : V} (h1 : RefAt φ r1 x1) (h2 : RefAt φ r2 x2)
    (h3 : RefAt φ r3 x3) (h4 : RefAt φ r4 x4) (h5 : RefAt φ r5 x5) (h6 : RefAt φ r6 x6) :
    Comes φ h (call program cfg (.cls (cid (.seq .trapPDU))) [x1, x2, x3, x4, x5, x6] h)
      (let (m1, r) := m.mkTrap r1 r2 r3 r4 r5 r6; (m1, .ok r)) := by
  rw [run_newTrap]
  have hb := H.base.long
  have L := H.app [.inst (cid (.seq .trapPDU)) [("value", .ref (h.length + 2)), ("enterprise", x1), ("agentAddr", x2),
      ("genericTrap", x3), ("specificTrap", x4), ("timestamp", x5), ("varBindList", x6)], .list [], .list [x1, x2, x3, x4, x5, x6]]
  have L2 := L.adoptSeq (p := h.length) (b := h.length + 2) (c := .trapPDU) (rs := [r1, r2, r3, r4, r5, r6]) (.inr (Nat.le_refl _)) (.inr (by omega)) (get_app _ _)
      (by rw [get_app_add]; rfl) (plain [_, _, _, _, _, _, _]) rfl (.cons h1 (.cons h2 (.cons h3 (.cons h4 (.cons h5 (.cons h6 .nil)))))) (fun f => by
        cases f <;> first | exact .some h1 | exact .some h2 | exact .some h3 | exact .some h4 | exact .some h5 | exact .some h6 | exact .none) rfl (fun hk => by cases hk)
  exact ⟨_, _, _, rfl, ref_seq φ L _ _ .trapPDU _, L2.lies (Kept.app H.base _).base fun q hq => ⟨⟨.inl hq, by omega⟩, by omega⟩, grown_seq φ _ _⟩

/-- `Sequence(l)` keeps the list itself. -/
theorem make_seq (H : Lies φ m h) {l b : Nat} (hb : φ.lists[l]? = some b) :
    Comes φ h (call program cfg (.cls (cid (.seq .sequence))) [.ref b] h)
      (let (m1, r) := m.newNode ⟨.seq .sequence, .items l, fun _ => none⟩; (m1, .ok r)) := by
  have he := isExc_cid (.seq .sequence)
  have e : call program cfg (.cls (cid (.seq .sequence))) [.ref b] h = okR (.ref h.length) (h ++ [.inst (cid (.seq .sequence)) [("value", .ref b)]]) := by
    rw [call_cls, initOf, call_rfc1155_796]
    runs [rfc1155_796, he]
  rw [e]
  exact made_prim H (Kept.app H.base _) (Nat.le_refl _) (node_prim (get_app _ _) (plain [_]) ⟨b, hb, rfl⟩ rfl (value_lacks _))

/-- `Message(version, community, data)`. -/
theorem make_message (hl : Limits cfg) (H : Lies φ m h) {c : SeqCls} (hm : c = .message ∨ c = .message2) (n : Int) (s : Str) {r : Ref} {z : V}
    (hz : RefAt φ r z) : Comes φ h (call program cfg (.cls (cid (.seq c))) [.int n, .str s, z] h) (m.mkMessage c n s r) := by
  have hi := run_msgInit (cfg := cfg) hl (get_app h [.inst (cid (.seq c)) []]) n s z
  have hk := Kept.app H.base [.inst (cid (.seq c)) []]
  have hb := H.base.long
  have hcall : call program cfg (.cls (cid (.seq c))) [.int n, .str s, z] h =
      bindR (call program cfg (.func .rfc1157 91) [.ref h.length, .int n, .str s, z] (h ++ [.inst (cid (.seq c)) []]))
        fun _ h' => okR (.ref h.length) h' := by
    rw [call_cls]
    rcases hm with rfl | rfl
    · rfl
    · rw [show initOf (.seq .message2) = (.rfc1905, 60) from rfl]
      dsimp only
      rw [call_rfc1905_60]
      by_cases hr : (IntCls.integer).minVal ≤ n ∧ n ≤ (IntCls.integer).maxVal
      · rw [if_pos hr] at hi
        runs [rfc1905_60, hi]
      · rw [if_neg hr] at hi
        obtain ⟨args, H, hi, hk⟩ := hi
        runs [rfc1905_60, hi]
  rw [hcall, Mem.mkMessage, Mem.mkInteger]
  by_cases hr : (IntCls.integer).minVal ≤ n ∧ n ≤ (IntCls.integer).maxVal
  · rw [if_pos hr] at hi
    rw [if_pos hr]
    simp only [src] at hi
    rw [hi]
    have L := H.app [.inst (cid (.seq c)) [("value", .ref (h.length + 1)), ("version", .ref (h.length + 1 + 1)), ("community", .ref (h.length + 1 + 2)), ("data", z)],
      .list [], .inst (cid (.int .integer)) [("value", .int n)], .inst (cid (.oct .octetString)) [("value", .str s)]]
    have L1 := L.adopt (p := h.length + 1 + 1) (o := ⟨.int .integer, .num n, fun _ => none⟩) (.inr (by omega))
      (node_prim (attrs := [("value", .int n)]) (by rw [Nat.add_assoc, get_app_add]; rfl) (plain [_]) rfl rfl (value_lacks _))
    have L2 := L1.adopt (p := h.length + 1 + 2) (o := ⟨.oct .octetString, .text s, fun _ => none⟩) ⟨.inr (by omega), by omega⟩
      (node_prim (attrs := [("value", .str s)]) (by simp only [Nat.add_assoc, get_app_add]; rfl) (plain [_]) rfl rfl (value_lacks _))
    have L3 := L2.adoptList (b := h.length + 1) (rs := []) (xs := []) ⟨⟨.inr (by omega), by omega⟩, by omega⟩ (by rw [get_app_add]; rfl) .nil
    have g1 : Grown φ _ := Grown.obj φ (h.length + 1 + 1)
    have g2 := g1.trans (Grown.obj _ (h.length + 1 + 2))
    have g3 := g2.trans (Grown.list _ (h.length + 1))
    have rv : RefAt _ _ _ := (Grown.list _ (h.length + 1)).ref ((Grown.obj _ (h.length + 1 + 2)).ref (ref_new φ L (h.length + 1 + 1)))
    have rc : RefAt _ _ _ := (Grown.list _ (h.length + 1)).ref (ref_new _ L1 (h.length + 1 + 2))
    have N : NodeAt (fun q => ((((q < 9 ∨ h.length ≤ q) ∧ q ≠ h.length + 1 + 1) ∧ q ≠ h.length + 1 + 2) ∧ q ≠ h.length + 1))
        ⟨φ.objs ++ [h.length + 1 + 1] ++ [h.length + 1 + 2], φ.lists ++ [h.length + 1]⟩
        (h ++ [.inst (cid (.seq c)) [("value", .ref (h.length + 1)), ("version", .ref (h.length + 1 + 1)), ("community", .ref (h.length + 1 + 2)), ("data", z)],
          .list [], .inst (cid (.int .integer)) [("value", .int n)], .inst (cid (.oct .octetString)) [("value", .str s)]])
        ⟨.seq c, .items m.lists.length, attrsOf c [.obj m.objs.length, .obj (m.objs.length + 1), r]⟩ h.length
        [("value", .ref (h.length + 1)), ("version", .ref (h.length + 1 + 1)), ("community", .ref (h.length + 1 + 2)), ("data", z)] := by
      refine ⟨get_app _ _, plain [_, _, _, _], ⟨h.length + 1, ?_, rfl⟩, fun f r' hr' => ?_, fun f hr' => ?_, fun _ => ?_,
        fun hk => (by rcases hm with rfl | rfl <;> cases hk)⟩
      · exact (by rw [← L.lists]; simp)
      · rcases hm with rfl | rfl <;> cases f <;> cases hr'
        · exact ⟨_, rfl, rv⟩
        · refine ⟨_, rfl, ?_⟩
          have := rc; simp only [Mem.newNode, List.length_append, List.length_singleton] at this; exact this
        · exact ⟨_, rfl, g3.ref hz⟩
        · exact ⟨_, rfl, rv⟩
        · refine ⟨_, rfl, ?_⟩
          have := rc; simp only [Mem.newNode, List.length_append, List.length_singleton] at this; exact this
        · exact ⟨_, rfl, g3.ref hz⟩
      · rcases hm with rfl | rfl <;> cases f <;> first | rfl | cases hr'
      · rcases hm with rfl | rfl <;> exact ⟨⟨_, rfl⟩, ⟨_, rfl⟩, _, rfl⟩
    have L4 := L3.adopt (p := h.length) (by refine ⟨⟨⟨.inr (Nat.le_refl _), ?_⟩, ?_⟩, ?_⟩ <;> omega) N
    have H4 := L4.lies (Kept.app H.base _).base fun q hq => by refine ⟨⟨⟨⟨.inl hq, ?_⟩, ?_⟩, ?_⟩, ?_⟩ <;> omega
    refine ⟨_, _, .ref h.length, rfl, ?_, ?_, g3.trans (Grown.obj _ h.length)⟩
    · have := ref_new _ L3 h.length
      simp only [Mem.newNode, Mem.newPrim, Mem.newList, List.length_append, List.length_singleton] at this ⊢
      exact this
    · simp only [Mem.newNode, Mem.newPrim, Mem.newList, List.length_append, List.length_singleton] at H4 ⊢
      exact H4
  · rw [if_neg hr] at hi
    rw [if_neg hr]
    obtain ⟨args, h1, hi, hkk⟩ := hi
    rw [hi]
    exact made_error H (e := .valueError) (hk.trans (hkk hk.base hb))

/-! ## Lists of bindings -/

/-- What `SequenceOf.append` asks of a value: whether it is a VarBind, and the name of its class. -/
def Judged (h : Heap) (b : Bool) (x : V) : Prop :=
  isInst program h x (.cls (cid (.seq .varBind))) = some b ∧
    ∃ y s, getattr program h x "__class__" = some y ∧ getattr program h y "__name__" = some (.str s)

theorem run_vblAppend_no {h : Heap} {a b : Nat} {c : SeqCls} {x : V}
    (ha : h[a]? = some (.inst (cid (.seq c)) (vblAttrs b))) (j : Judged h false x) :
    ∃ args, call program cfg (.func .rfc1155 879) [.ref a, x] h = excR (.exc "ValueError" args) h := by
  obtain ⟨hx, y, s, hy, hs⟩ := j
  have hc : (vblAttrs b).lookup "componentType" = some (.cls (cid (.seq .varBind))) := rfl
  have hself : getattr program h (.ref a) "__class__" = some (.cls (cid (.seq c))) := by
    simp only [getattr, ha]; rfl
  have hname : ∃ t, getattr program h (.cls (cid (.seq c))) "__name__" = some (.str t) := by
    cases c <;> exact ⟨_, rfl⟩
  obtain ⟨t, ht⟩ := hname
  rw [call_rfc1155_879]
  runs [rfc1155_879, ha, hc, ↓hx, ↓hself, ↓ht, ↓hy, ↓hs]
  exact ⟨_, rfl⟩

theorem run_vblLoop_no {h : Heap} {a : Nat} {c : SeqCls} {l : List V} (ha : a < h.length)
    (hc : c = .varBindList ∨ c = .varBindList2) {f : Nat → It}
    (hf : ∀ m i, next program cfg (f i) (vblHeap h a c m) = okR (l[i]?.map fun y => (y, f (i + 1))) (vblHeap h a c m))
    {vs : List Bool} (pre rest : List V) (hr : ∀ m, List.Forall₂ (Judged (vblHeap h a c m)) vs rest)
    (hv : vs.all (·) = false)
    (hl : l = pre ++ rest) (ct v it : Option V) :
    ∃ m args env, forL program cfg .rfc1155 [("self", some (.ref a)), ("componentType", ct), ("value", v), ("item", it)] "item"
      (f pre.length) rfc1155_873 (vblHeap h a c pre) = some (vblHeap h a c m, env, .exc (.exc "ValueError" args)) := by
  induction vs generalizing pre rest it with
  | nil => cases hv
  | cons w ws ih =>
    cases hr pre with
    | @cons _ y _ ys r1 r2 =>
    have hy : l[pre.length]? = some y := by simp [hl]
    have hA := vblHeap_self (c := c) pre ha
    have hm := attr_append c hc
    have hno : (vblAttrs (h.length + 1)).lookup "append" = none := rfl
    cases hw : w with
    | false =>
      subst hw
      obtain ⟨args, hcall⟩ := run_vblAppend_no (cfg := cfg) hA r1
      rw [forL, hf, hy]
      runs [Option.map_some, rfc1155_873, hA, hm, hcall, hno]
      exact ⟨_, _, _, rfl⟩
    | true =>
      subst hw
      have hcall := run_vblAppend (cfg := cfg) hA rfl rfl (vblHeap_list pre) r1.1
      rw [vblHeap_set] at hcall
      obtain ⟨m, args, env, ih⟩ := ih (pre ++ [y]) ys (fun m => by cases hr m with | cons _ r => exact r) (by simpa using hv) (by simp [hl]) (some y)
      rw [List.length_append, List.length_singleton] at ih
      refine ⟨m, args, env, ?_⟩
      rw [forL, hf, hy]
      runs [Option.map_some, rfc1155_873, hA, hm, hcall, hno]
      exact ih

theorem run_vblInit_no {h0 h : Heap} (hk : Kept h0.length h0 h) {a : Nat} {c : SeqCls} {x : V} {l : List V}
    (hi : Items h0 x l) (ha : h[a]? = some (.inst (cid (.seq c)) [])) (h9 : 9 ≤ a) (hn : h0.length ≤ a)
    (hc : c = .varBindList ∨ c = .varBindList2) {vs : List Bool} (hr : ∀ h', Kept h0.length h0 h' → List.Forall₂ (Judged h') vs l)
    (hv : vs.all (·) = false) :
    ∃ m args, call program cfg (.func .rfc1157 80) [.ref a, x] h = excR (.exc "ValueError" args) (vblHeap h a c m) := by
  have he := isExc_cid (.seq c)
  have hk1 := fun m => vblHeap_kept hk h9 hn c m
  obtain ⟨f, hf⟩ := hi.iter
  obtain ⟨m, args, env, hl⟩ := run_vblLoop_no (cfg := cfg) (c := c) (lt_of_get ha) hc (fun m i => (hf _ (hk1 m)).2 cfg i)
    [] l (fun m => hr _ (hk1 m)) hv rfl (some (.cls (cid (.seq .varBind)))) (some x) none
  have ht := hi.truth _ (hk1 []) cfg
  have hit := (hf _ (hk1 [])).1
  have hinit := run_seqInit (cfg := cfg) ha he
  have hlt := lt_of_get ha
  have hcid : cid (.seq .varBind) = (.rfc1157, 58) := rfl
  have hemp : l.isEmpty = false := by
    cases l with
    | nil => cases hr _ hk; cases hv
    | cons _ _ => rfl
  refine ⟨m, args, ?_⟩
  rw [call_rfc1157_80]
  simp only [vblHeap, vblAttrs, hcid] at ht hit hl ⊢
  rw [hemp] at ht
  rw [List.length_nil] at hl
  runs [rfc1157_80, call_rfc1155_864, rfc1155_864, he, hinit, get_set hlt, set_set_old hlt, ↓ht, ↓hit, hl]

theorem run_newVBL_no (hcf : Limits cfg) {h0 : Heap} {c : SeqCls} {x : V} {l : List V}
    (hi : Items h0 x l) (hc : c = .varBindList ∨ c = .varBindList2) {vs : List Bool} (hr : ∀ h', Kept h0.length h0 h' → List.Forall₂ (Judged h') vs l)
    (hv : vs.all (·) = false) (h : Heap) (hk : Kept h0.length h0 h) :
    ∃ args h', call program cfg (.cls (cid (.seq c))) [x] h = excR (.exc "ValueError" args) h' ∧ Kept h.length h h' := by
  have hb := hk.base.long
  have hk1 : Kept h0.length h0 (h ++ [.inst (cid (.seq c)) []]) := hk.app' _ hk.len
  obtain ⟨m, args, hr⟩ := run_vblInit_no (cfg := cfg) hk1 (a := h.length) (c := c) hi (get_app _ _) hb hk.len hc hr hv
  have hkk : Kept h.length h (vblHeap (h ++ [.inst (cid (.seq c)) []]) h.length c m) :=
    vblHeap_kept (Kept.app hk.base [.inst (cid (.seq c)) []]) hb (Nat.le_refl _) c m
  rcases hc with rfl | rfl
  · rw [call_cls, initOf]
    runs [hr]
    exact ⟨_, _, rfl, hkk⟩
  · by_cases hl : 2147483647 < l.length
    · obtain ⟨args, h1⟩ := run_newVBL2_long (cfg := cfg) hcf hi hl
      exact ⟨_, _, h1 h hk, Kept.app hk.base _⟩
    · have hln := hi.len _ hk1 cfg
      have hcmp : ¬ ((l.length : Int) > 2147483647) := by omega
      rw [call_cls, initOf, call_rfc1905_52]
      runs [rfc1905_52, ↓hln, hcmp, hr]
      exact ⟨_, _, rfl, hkk⟩

/-- What a list of bindings can be made of. -/
theorem items_at (H : Lies φ m h) {r : Ref} {x : V} (hr : RefAt φ r x) {rs : List Ref} (hi : m.items r = some rs) :
    ∃ xs, Items h x xs ∧ List.Forall₂ (RefAt φ) rs xs := by
  have L := H.lays
  have n9 : ∀ {b}, b ∈ φ.lists → 9 ≤ b := fun hb => by have := L.free' _ hb; omega
  cases r with
  | list l =>
    obtain ⟨p, e1, rfl⟩ := hr
    obtain ⟨xs, h1, h2⟩ := L.list l rs p hi e1
    exact ⟨xs, items_list (n9 (mem_of_get e1)) h1, h2⟩
  | obj a =>
    obtain ⟨p, e1, rfl⟩ := hr
    obtain ⟨o, attrs, h1, N⟩ := L.obj e1
    have ha := N.cell
    have hs := N.value
    obtain ⟨c, v, as⟩ := o
    simp only [Mem.items, h1] at hi
    cases v with
    | items l =>
      cases c with
      | seq c =>
        obtain ⟨b, f1, f2⟩ := hs
        obtain ⟨xs, g1, g2⟩ := L.list l rs b hi f1
        have := L.free _ (mem_of_get e1)
        exact ⟨xs, items_seq (by omega) ha f2 (n9 (mem_of_get f1)) g1, g2⟩
      | _ => exact hs.elim
    | _ => cases hi
  | _ => cases hi

theorem judged_at (H : Lies φ m h) {rs : List Ref} {xs : List V} (hr : List.Forall₂ (RefAt φ) rs xs) (h' : Heap) (hk : Kept h.length h h') :
    List.Forall₂ (Judged h') (rs.map (m.isInstance · (.seq .varBind))) xs := by
  have L := H.kept hk
  induction hr with
  | nil => exact .nil
  | cons h1 _ ih => exact .cons ⟨isInst_at L h1 _, name_at L h1⟩ ih

theorem all_at (H : Lies φ m h) {rs : List Ref} {xs : List V} (hr : List.Forall₂ (RefAt φ) rs xs)
    (ha : rs.all (m.isInstance · (.seq .varBind)) = true) (h' : Heap) (hk : Kept h.length h h') :
    ∀ y ∈ xs, isInst program h' y (.cls (cid (.seq .varBind))) = some true := by
  have L := H.kept hk
  induction hr with
  | nil => simp
  | cons h1 _ ih =>
    rw [List.all_cons, Bool.and_eq_true] at ha
    intro y hy
    rcases List.mem_cons.1 hy with rfl | hy
    · rw [isInst_at L h1, ha.1]
    · exact ih ha.2 y hy

theorem vbl_fields {c : SeqCls} (hc : c = .varBindList ∨ c = .varBindList2) (rs : List Ref) (b : Nat) (f : Attr) :
    Option.Rel (RefAt φ) (attrsOf c rs f) ((vblAttrs b).lookup f.name) := by
  rcases hc with rfl | rfl <;> cases f <;> exact .none

/-- `VarBindList(x)`, where one can iterate over `x`. -/
theorem make_vbl_of (hl : Limits cfg) (H : Lies φ m h) {c : SeqCls} (hc : c = .varBindList ∨ c = .varBindList2) {x : V}
    {rs : List Ref} {xs : List V} (I : Items h x xs) (hf : List.Forall₂ (RefAt φ) rs xs) :
    Comes φ h (call program cfg (.cls (cid (.seq c))) [x] h)
      (if (Cls.seq c).isSubclass (.seq .varBindList2) && decide (2147483647 < rs.length) then (m, .error .valueError)
        else if rs.all (m.isInstance · (.seq .varBind)) then let (m1, r) := m.newSeq c rs; (m1, .ok r) else (m, .error .valueError)) := by
  have hlen := hf.length_eq
  have hb := H.base.long
  have hk0 : Kept h.length h h := by have := Kept.app H.base []; rwa [List.append_nil] at this
  have hok : Comes φ h (okR (.ref h.length) (h ++ [.inst (cid (.seq c)) (vblAttrs (h.length + 2)), .list [], .list xs]))
      (let (m1, r) := m.newSeq c rs; (m1, .ok r)) := by
    have L := H.app [.inst (cid (.seq c)) (vblAttrs (h.length + 2)), .list [], .list xs]
    have L2 := L.adoptSeq (p := h.length) (b := h.length + 2) (rs := rs) (.inr (Nat.le_refl _)) (.inr (by omega)) (get_app _ _)
      (by rw [get_app_add]; rfl) (plain [_, _]) rfl hf (vbl_fields hc rs _) (by rcases hc with rfl | rfl <;> rfl) (fun _ => rfl)
    exact ⟨_, _, _, rfl, ref_seq φ L _ _ c _, L2.lies (Kept.app H.base _).base fun q hq => ⟨⟨.inl hq, by omega⟩, by omega⟩, grown_seq φ _ _⟩
  cases hall : rs.all (m.isInstance · (.seq .varBind)) with
  | false =>
    have e : (if (Cls.seq c).isSubclass (.seq .varBindList2) && decide (2147483647 < rs.length) then (m, Except.error Exc.valueError)
        else if false = true then let (m1, r) := m.newSeq c rs; (m1, .ok r) else (m, .error .valueError)) = (m, (.error .valueError : Except Exc Ref)) := by
      split <;> simp
    rw [e]
    obtain ⟨args, h', e1, e2⟩ := run_newVBL_no (cfg := cfg) hl I hc (judged_at H hf) (by rw [List.all_map]; exact hall) h hk0
    rw [e1]
    exact made_error H e2 (e := .valueError)
  | true =>
    have hx := all_at H hf hall
    rcases hc with rfl | rfl
    · have e := run_newVBL (cfg := cfg) hk0 I hx
      rw [show ((Module.rfc1157, 76) : CId) = cid (.seq .varBindList) from rfl] at e
      rw [e]
      exact hok
    · by_cases hll : 2147483647 < rs.length
      · obtain ⟨args, h1⟩ := run_newVBL2_long (cfg := cfg) hl I (by omega)
        rw [h1 h hk0, if_pos (by simp [hll]; decide)]
        exact made_error H (Kept.app H.base _) (e := .valueError)
      · have e := run_newVBL2 (cfg := cfg) hk0 I hx (by omega)
        rw [e, if_neg (by simp [hll])]
        exact hok

/-- `VarBindList(l)`. -/
theorem make_vbl (hl : Limits cfg) (H : Lies φ m h) {c : SeqCls} (hc : c = .varBindList ∨ c = .varBindList2) {r : Ref} {x : V} (hr : RefAt φ r x)
    {rs : List Ref} (hi : m.items r = some rs) : Comes φ h (call program cfg (.cls (cid (.seq c))) [x] h) (m.mkVarBindList c r) := by
  obtain ⟨xs, I, hf⟩ := items_at H hr hi
  rw [Mem.mkVarBindList, hi]
  exact make_vbl_of hl H hc I hf

end Libsnmp.Src
