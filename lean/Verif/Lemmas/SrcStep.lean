import Verif.Lemmas.SrcMakePdu
import Verif.Props.Source15

/-!
# One operation of a program, on the source text
-/

namespace Libsnmp.Src
open Libsnmp

theorem made_ok (H : Lies φ m h) {r : Ref} {x : V} (hr : RefAt φ r x) : Comes φ h (okR x h) (m, .ok r) :=
  ⟨φ, h, x, rfl, hr, H, Grown.refl φ⟩

theorem made_exc (H : Lies φ m h) {e : Exc} {args : List V} : Comes φ h (excR (.exc (excName e) args) h) (m, .error e) :=
  ⟨φ, h, args, rfl, H, Grown.refl φ⟩

/-- The cells that the graph uses are not those of the loaded package. -/
theorem Lies.obj9 (H : Lies φ m h) {a p : Nat} (hp : φ.objs[a]? = some p) : 9 ≤ p := by
  have := H.lays.free p (mem_of_get hp); omega

theorem Lies.list9 (H : Lies φ m h) {l b : Nat} (hb : φ.lists[l]? = some b) : 9 ≤ b := by
  have := H.lays.free' b (mem_of_get hb); omega

theorem Base.set (H : Base h) {p : Nat} (hp : 9 ≤ p) (c : Cell) : Base (h.set p c) := by
  have hs : ∀ q, q < 9 → (h.set p c)[q]? = h[q]? := fun q hq => List.getElem?_set_ne (by omega)
  obtain ⟨a1, a2, a3, a4, a5, a6, a7, a8⟩ := H
  constructor <;> rw [hs _ (by omega)] <;> assumption

theorem Base.of (H : Base h) (hs : ∀ (q : Nat) (c : Cell), q < 9 → h[q]? = some c → h'[q]? = some c) : Base h' := by
  obtain ⟨a1, ⟨d, a2⟩, a3, a4, a5, a6, a7, a8⟩ := H
  exact ⟨a1.imp (hs _ _ (by omega)) (hs _ _ (by omega)), ⟨d, hs _ _ (by omega) a2⟩, hs _ _ (by omega) a3, hs _ _ (by omega) a4,
    hs _ _ (by omega) a5, hs _ _ (by omega) a6, hs _ _ (by omega) a7, hs _ _ (by omega) a8⟩

/-- `x.encode()`. -/
theorem made_encode (hl : Limits cfg) (H : Lies φ m h) {a p : Nat} (hp : φ.objs[a]? = some p) {d : Nat} (hM : Modest d m (.obj a))
    (hne : (gEncode d m (.obj a)).2 ≠ .error .recursionError) :
    Comes φ h (callMethod cfg (.ref p) "encode" [] h) (match gEncode d m (.obj a) with
      | (m, .ok s) => (m, .ok (.str s))
      | (m, .error e) => (m, .error e)) := by
  rw [callEncode (H.lays.weaken fun _ hq => hq.elim) hp]
  obtain ⟨φ', h', e1, e2, e3⟩ := encode_at hl d _ m φ h a p H.lays (fun q hq => by have := H.base.long; omega) hp hM hne
  have hb : Base h' := H.base.of fun q c hq hc => e3.same q c hc (.inr fun hi => H.lays.free q hi hq)
  rw [e1]
  generalize gEncode d m (.obj a) = w at e2
  obtain ⟨m', s | e⟩ := w
  · exact ⟨φ', h', [], rfl, ⟨hb, e2⟩, e3.grown⟩
  · exact ⟨φ', h', _, rfl, rfl, ⟨hb, e2⟩, e3.grown⟩

theorem run_setField {p : Nat} {c : CId} {attrs : List (String × V)} {name : String} {y : V} (h1 : h[p]? = some (.inst c attrs))
    (hex : name ≠ "args") : setField cfg (.ref p) name y h = okR .none (h.set p (.inst c (setAssoc attrs name y))) := by
  have hex : ¬ (name = "args" ∧ program.isExc 8 c = true) := fun hh => hex hh.1
  have e : block program cfg .v1 [("x", some (.ref p)), ("y", some y)] [.assign (.attr (.loc "x") name) (.loc "y")] h =
      some (h.set p (.inst c (setAssoc attrs name y)), [("x", some (.ref p)), ("y", some y)], .next) := by
    runs [h1, setattr]
    rw [if_neg hex]
    runs []
  rw [setField, e]

/-- `x.f = y`. -/
theorem made_setAttr (H : Lies φ m h) {a p : Nat} (hp : φ.objs[a]? = some p) (f : Attr) {r : Ref} {y : V} (hy : RefAt φ r y) :
    Comes φ h (setField cfg (.ref p) f.name y h) (m.setAttr a f r, .ok .none) := by
  obtain ⟨o, attrs, ho, N⟩ := H.lays.obj hp
  obtain ⟨attrs, h1, h2⟩ := H.lays.setAttr ho hp f hy
  exact ⟨φ, _, .none, run_setField h1 (by cases f <;> decide), rfl, ⟨H.base.set (H.obj9 hp) _, h2⟩, Grown.refl φ⟩

/-- `x.value = y`. -/
theorem made_setValue (H : Lies φ m h) {a p : Nat} {o : Node} (ho : m.objs[a]? = some o) (hp : φ.objs[a]? = some p) {v : Slot} {y : V}
    (hv : ∀ attrs, attrs.lookup "value" = some y → SlotAt (· < 9) φ (h.set p (.inst (cid o.cls) attrs)) attrs o.cls v) :
    Comes φ h (setField cfg (.ref p) "value" y h) (m.setValue a v, .ok .none) := by
  obtain ⟨attrs, N⟩ := H.lays.node a o p ho hp
  have hlt := lt_of_get N.cell
  have hother : ∀ f : Attr, (setAssoc attrs "value" y).lookup f.name = attrs.lookup f.name := fun f => lookup_setOther (attr_value f)
  have L := H.lays.put (f := fun o => { o with value := v }) (attrs' := setAssoc attrs "value" y) ho hp N.cell
    ⟨List.getElem?_set_self hlt, plain_setAssoc N.plain (by decide) y, hv _ (lookup_setAssoc _ _ _),
      fun f r hf => by rw [hother]; exact N.has f r hf, fun f hf => by rw [hother]; exact N.lacks f hf, N.message,
      fun hk => (lookup_setOther (by decide)).trans (N.component hk)⟩
  exact ⟨φ, _, .none, run_setField N.cell (by decide), rfl, ⟨H.base.set (H.obj9 hp) _, L⟩, Grown.refl φ⟩

/-- `x.value = [n, ...]` of an ObjectID. -/
theorem made_setIds (H : Lies φ m h) {a p : Nat} {o : Node} (ho : m.objs[a]? = some o) (hp : φ.objs[a]? = some p) (hc : o.cls = .oid) (ids : List Int) :
    Comes φ h (setField cfg (.ref p) "value" (.ref h.length) (h ++ [.list (ids.map V.int)])) (m.setValue a (.ids (some ids)), .ok .none) := by
  have hk := Kept.app H.base [.list (ids.map V.int)]
  have L := H.app [.list (ids.map V.int)]
  have H' : Lies φ m (h ++ [.list (ids.map V.int)]) := ⟨hk.base, L.weaken fun _ hq => .inl hq⟩
  obtain ⟨attrs, N⟩ := H.lays.node a o p ho hp
  have hlt := lt_of_get N.cell
  have hb := H.base.long
  have := made_setValue (cfg := cfg) H' ho hp (v := .ids (some ids)) (y := .ref h.length) fun attrs ha => by
    rw [hc]
    exact ⟨h.length, ha, by omega, fun hi => L.free' _ hi (.inr (Nat.le_refl _)), by
      rw [List.getElem?_set_ne (by omega)]; exact get_app _ _⟩
  obtain ⟨φ', h', x, e1, e2, e3, e4⟩ := this
  exact ⟨φ', h', x, e1, e2, e3, e4⟩

/-- `l[:] = [x, ...]`. -/
theorem made_setList (H : Lies φ m h) {l b : Nat} (hb : φ.lists[l]? = some b) {rs : List Ref} {ys : List V} (hy : List.Forall₂ (RefAt φ) rs ys) :
    Comes φ h (setAll (.ref b) ys h) (m.setList l rs, .ok .none) := by
  obtain ⟨rs, xs, h1, h2, h3⟩ := H.lays.lst hb
  exact ⟨φ, _, .none, by rw [setAll, h2], rfl, ⟨H.base.set (H.list9 hb) _, H.lays.setList hb hy⟩, Grown.refl φ⟩

/-- `l.append(y)`. -/
theorem made_appendList (H : Lies φ m h) {l b : Nat} (hb : φ.lists[l]? = some b) {r : Ref} {y : V} (hy : RefAt φ r y) :
    Comes φ h (callMethod cfg (.ref b) "append" [y] h) (m.append (.list l) r) := by
  obtain ⟨rs, xs, h1, h2, h3⟩ := H.lays.lst hb
  simp only [Mem.append, h1]
  have hf : List.Forall₂ (RefAt φ) (rs ++ [r]) (xs ++ [y]) := List.rel_append h3 (.cons hy .nil)
  refine ⟨φ, _, .none, ?_, rfl, ⟨H.base.set (H.list9 hb) _, H.lays.setList hb hf⟩, Grown.refl φ⟩
  unfold callMethod
  runs [h2]

/-- `x.append(y)`. -/
theorem made_append (H : Lies φ m h) {a p : Nat} {o : Node} {c : SeqCls} (ho : m.objs[a]? = some o) (hp : φ.objs[a]? = some p) (hc : o.cls = .seq c)
    (hn : (Cls.seq c).isSubclass (.seq .sequenceOf) = false) {r : Ref} {y : V} (hy : RefAt φ r y) :
    Comes φ h (callMethod cfg (.ref p) "append" [y] h) (m.append (.obj a) r) := by
  obtain ⟨attrs, N⟩ := H.lays.node a o p ho hp
  have ha := N.cell
  have hs := N.value
  have n1 : attrs.lookup "append" = none := N.plain.none
  obtain ⟨cls, value, attrs'⟩ := o
  dsimp only at hc
  subst hc
  dsimp only at ha hs
  cases value with
  | items l =>
    obtain ⟨b, e1, e2⟩ := hs
    obtain ⟨rs, xs, f0, f1, f2⟩ := H.lays.lst e1
    have hv : (Cls.seq c).isSubclass (.seq .varBindList) = false := by cases c <;> first | rfl | exact absurd hn (by decide)
    have hf : List.Forall₂ (RefAt φ) (rs ++ [r]) (xs ++ [y]) := List.rel_append f2 (.cons hy .nil)
    have hm : program.attr (cid (.seq c)) "append" = some (.func .rfc1155 824) := by
      cases c <;> first | rfl | exact absurd hn (by decide)
    simp only [Mem.append, ho, hv, Bool.false_and, Bool.false_eq_true, if_false, getD_some f0]
    refine ⟨φ, _, .none, ?_, rfl, ⟨H.base.set (H.list9 e1) _, H.lays.setList e1 hf⟩, Grown.refl φ⟩
    unfold callMethod
    runs [ha, n1, hm, call_rfc1155_824, rfc1155_824, e2, f1]
  | _ => exact hs.elim

theorem run_vblAppend_not {p : Nat} {c : SeqCls} {attrs : List (String × V)} {x : V} (ha : h[p]? = some (.inst (cid (.seq c)) attrs))
    (hc : attrs.lookup "componentType" = some (.cls (cid (.seq .varBind)))) (hpl : Plain attrs) (j : Judged h false x) :
    ∃ args, call program cfg (.func .rfc1155 879) [.ref p, x] h = excR (.exc "ValueError" args) h := by
  obtain ⟨hx, y, s, hy, hs⟩ := j
  have hself : getattr program h (.ref p) "__class__" = some (.cls (cid (.seq c))) := by
    have hn : attrs.lookup "__class__" = none := hpl.none
    simp only [getattr, ha, hn]; rfl
  have hname : ∃ t, getattr program h (.cls (cid (.seq c))) "__name__" = some (.str t) := by
    cases c <;> exact ⟨_, rfl⟩
  obtain ⟨t, ht⟩ := hname
  rw [call_rfc1155_879]
  runs [rfc1155_879, ha, hc, ↓hx, ↓hself, ↓ht, ↓hy, ↓hs]
  exact ⟨_, rfl⟩

/-- `x.append(y)` on a VarBindList. -/
theorem made_appendVbl (H : Lies φ m h) {a p : Nat} {o : Node} {c : SeqCls} (ho : m.objs[a]? = some o) (hp : φ.objs[a]? = some p) (hc : o.cls = .seq c)
    (hv : c = .varBindList ∨ c = .varBindList2) {r : Ref} {y : V} (hy : RefAt φ r y) :
    Comes φ h (callMethod cfg (.ref p) "append" [y] h) (m.append (.obj a) r) := by
  obtain ⟨attrs, N⟩ := H.lays.node a o p ho hp
  have ha := N.cell
  have hs := N.value
  have hk := N.component
  have hpl := N.plain
  have n1 : attrs.lookup "append" = none := hpl.none
  obtain ⟨cls, value, attrs'⟩ := o
  dsimp only at hc
  subst hc
  dsimp only at ha hs hk
  cases value with
  | items l =>
    obtain ⟨b, e1, e2⟩ := hs
    obtain ⟨rs, xs, f0, f1, f2⟩ := H.lays.lst e1
    have hvb : (Cls.seq c).isSubclass (.seq .varBindList) = true := by rcases hv with rfl | rfl <;> rfl
    have hk := hk hvb
    have hm : program.attr (cid (.seq c)) "append" = some (.func .rfc1155 879) := by rcases hv with rfl | rfl <;> rfl
    have hi := isInst_at H.lays hy (.seq .varBind)
    have hcm : callMethod cfg (.ref p) "append" [y] h = call program cfg (.func .rfc1155 879) [.ref p, y] h := by
      unfold callMethod
      runs [ha, n1, hm]
    rw [hcm]
    simp only [Mem.append, ho, hvb, Bool.true_and, getD_some f0]
    cases hb : m.isInstance r (.seq .varBind) with
    | true =>
      rw [hb] at hi
      have hf : List.Forall₂ (RefAt φ) (rs ++ [r]) (xs ++ [y]) := List.rel_append f2 (.cons hy .nil)
      simp only [Bool.not_true, Bool.false_eq_true, if_false]
      exact ⟨φ, _, .none, run_vblAppend ha hk e2 f1 hi, rfl, ⟨H.base.set (H.list9 e1) _, H.lays.setList e1 hf⟩, Grown.refl φ⟩
    | false =>
      rw [hb] at hi
      simp only [Bool.not_false, if_true]
      obtain ⟨args, e⟩ := run_vblAppend_not (cfg := cfg) ha hk hpl ⟨hi, name_at H.lays hy⟩
      rw [e]
      exact made_exc H (e := .valueError)
  | _ => exact hs.elim

theorem no_field (c : Cls) (f : Attr) : program.attr (cid c) f.name = none := by
  cases c <;> cases f <;> first | rfl | (rename_i c; cases c <;> rfl)

/-- `x.f`. -/
theorem made_attr (H : Lies φ m h) {a p : Nat} (hp : φ.objs[a]? = some p) (f : Attr) :
    Comes φ h (getField (.ref p) f.name h) (match m.attr a f with
      | some r => (m, .ok r)
      | none => (m, .error .attributeError)) := by
  obtain ⟨o, attrs, ho, N⟩ := H.lays.obj hp
  have ha := N.cell
  rw [Mem.attr, ho]
  dsimp only
  cases hf : o.attrs f with
  | some r =>
    obtain ⟨x, e1, e2⟩ := N.has f r hf
    have e : getField (.ref p) f.name h = okR x h := by simp only [getField, getattr, ha, e1, orRaise]
    rw [e]
    exact made_ok H e2
  | none =>
    have e1 := N.lacks f hf
    have e : getField (.ref p) f.name h = excR (.exc (excName .attributeError) []) h := by
      have hn : getattr program h (.ref p) f.name = none := by
        simp only [getattr, ha, e1, no_field]
        cases f <;> rfl
      rw [getField, hn]; rfl
    rw [e]
    exact made_exc H

/-- `x.value`. -/
theorem made_value (H : Lies φ m h) {a p : Nat} {o : Node} (ho : m.objs[a]? = some o) (hp : φ.objs[a]? = some p) (hc : o.cls.isSeq = true) :
    Comes φ h (getField (.ref p) "value" h) (match m.objs[a]? with
      | some ⟨_, .items l, _⟩ => (m, .ok (.list l))
      | _ => (m, .error .attributeError)) := by
  obtain ⟨attrs, N⟩ := H.lays.node a o p ho hp
  have ha := N.cell
  have hs := N.value
  rw [ho]
  obtain ⟨cls, value, attrs'⟩ := o
  dsimp only at ha hs hc
  cases cls with
  | seq c =>
    cases value with
    | items l =>
      obtain ⟨b, e1, e2⟩ := hs
      have e : getField (.ref p) "value" h = okR (.ref b) h := by simp only [getField, getattr, ha, e2, orRaise]
      rw [e]
      exact made_ok H ⟨b, e1, rfl⟩
    | _ => exact hs.elim
  | _ => cases hc

theorem itemAt_nat {α} (l : List α) (i : Nat) : itemAt l (i : Int) = l[i]? := by
  unfold itemAt position
  by_cases h : i < l.length
  · simp [h]
  · simp [h]

theorem forall₂_get {α β} {R : α → β → Prop} {l : List α} {k : List β} (hf : List.Forall₂ R l k) (i : Nat) : Option.Rel R l[i]? k[i]? := by
  induction hf generalizing i with
  | nil => exact .none
  | cons h1 _ ih => cases i with
    | zero => exact .some h1
    | succ i => simpa using ih i

/-- `x[i]`. -/
theorem made_item (H : Lies φ m h) {r : Ref} {x : V} (hr : RefAt φ r x) {rs : List Ref} (hi : m.items r = some rs) (i : Nat) :
    Comes φ h (getitem program cfg x (.int i) h) (match rs[i]? with
      | some r => (m, .ok r)
      | none => (m, .error .indexError)) := by
  have key : ∀ {b : Nat} {xs : List V}, h[b]? = some (.list xs) → List.Forall₂ (RefAt φ) rs xs →
      Comes φ h (getitem program cfg (.ref b) (.int i) h) (match rs[i]? with
        | some r => (m, .ok r)
        | none => (m, .error .indexError)) := fun {b xs} hb hf => by
    have hrel := forall₂_get hf i
    have e : getitem program cfg (.ref b) (.int i) h = orRaise xs[i]? "IndexError" h := by
      runs [hb, itemAt_nat]
    rw [e]
    generalize rs[i]? = a at hrel
    generalize xs[i]? = b at hrel
    cases hrel with
    | none => exact made_exc H (e := .indexError)
    | some h1 => exact made_ok H h1
  cases r with
  | list l =>
    obtain ⟨b, e1, rfl⟩ := hr
    obtain ⟨rs', xs, f0, f1, f2⟩ := H.lays.lst e1
    rw [Mem.items, f0] at hi
    cases hi
    exact key f1 f2
  | obj a =>
    obtain ⟨p, hp, rfl⟩ := hr
    obtain ⟨o, attrs, ho, N⟩ := H.lays.obj hp
    have ha := N.cell
    have hs := N.value
    have hpl := N.plain
    obtain ⟨cls, value, attrs'⟩ := o
    simp only [Mem.items, ho] at hi
    dsimp only at ha hs
    cases value with
    | items l =>
      cases cls with
      | seq c =>
        obtain ⟨b, e1, e2⟩ := hs
        obtain ⟨rs', xs, f0, f1, f2⟩ := H.lays.lst e1
        dsimp only at hi
        rw [f0] at hi
        cases hi
        have hm : program.attr (cid (.seq c)) "__getitem__" = some (.func .rfc1155 818) := by cases c <;> rfl
        have e : getitem program cfg (.ref p) (.int i) h = getitem program cfg (.ref b) (.int i) h := by
          runs [ha, hm, call_rfc1155_818, rfc1155_818, e2, f1]
          cases xs[i]? <;> runs [] <;> rfl
        rw [e]
        exact key f1 f2
      | _ => exact hs.elim
    | _ => cases hi
  | _ => cases hi

/-- `[x, y, ...]`. -/
theorem made_list (H : Lies φ m h) {rs : List Ref} {xs : List V} (hf : List.Forall₂ (RefAt φ) rs xs) :
    Comes φ h (okR (.ref h.length) (h ++ [.list xs])) (let (m, l) := m.newList rs; (m, .ok (.list l))) := by
  have hb := H.base.long
  have L := H.lays.newList (fun q hq => by omega) hf
  exact ⟨_, _, _, rfl, list_new φ H.lays h.length, ⟨(Kept.app H.base _).base, L⟩, Grown.list _ _⟩

end Libsnmp.Src
