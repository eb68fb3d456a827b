import Verif.Lemmas.SrcNew

/-!
# What the code can ask an object: its truth, its length, its elements, its class, its number
-/

namespace Libsnmp.Src
open Libsnmp

variable {cfg : Cfg}

@[src] theorem len_int (c : IntCls) : program.attr (cid (.int c)) "__len__" = none := by cases c <;> rfl
@[src] theorem len_oct (c : OctCls) : program.attr (cid (.oct c)) "__len__" = none := by cases c <;> rfl
@[src] theorem len_null (c : NullCls) : program.attr (cid (.null c)) "__len__" = none := by cases c <;> rfl
@[src] theorem len_oid : program.attr (cid .oid) "__len__" = some (.func .rfc1155 604) := rfl
@[src] theorem len_seq (c : SeqCls) : program.attr (cid (.seq c)) "__len__" = some (.func .rfc1155 815) := by cases c <;> rfl
@[src] theorem item_int (c : IntCls) : program.attr (cid (.int c)) "__getitem__" = none := by cases c <;> rfl
@[src] theorem item_oct (c : OctCls) : program.attr (cid (.oct c)) "__getitem__" = none := by cases c <;> rfl
@[src] theorem item_null (c : NullCls) : program.attr (cid (.null c)) "__getitem__" = none := by cases c <;> rfl
@[src] theorem item_oid : program.attr (cid .oid) "__getitem__" = some (.func .rfc1155 614) := rfl
@[src] theorem item_seq (c : SeqCls) : program.attr (cid (.seq c)) "__getitem__" = some (.func .rfc1155 818) := by
  cases c <;> rfl
@[src] theorem int_int (c : IntCls) : program.attr (cid (.int c)) "__int__" = some (.func .rfc1155 310) := by cases c <;> rfl
@[src] theorem int_oct (c : OctCls) : program.attr (cid (.oct c)) "__int__" = none := by cases c <;> rfl
@[src] theorem int_null (c : NullCls) : program.attr (cid (.null c)) "__int__" = none := by cases c <;> rfl
@[src] theorem int_oid : program.attr (cid .oid) "__int__" = none := rfl
@[src] theorem int_seq (c : SeqCls) : program.attr (cid (.seq c)) "__int__" = none := by cases c <;> rfl

/-- The attributes of an object that is a sequence. -/
theorem run_seqLen {h : Heap} {a b : Nat} {c : CId} {attrs : List (String × V)} {l : List V}
    (ha : h[a]? = some (.inst c attrs)) (hv : attrs.lookup "value" = some (.ref b)) (hb : h[b]? = some (.list l)) :
    call program cfg (.func .rfc1155 815) [.ref a] h = okR (.int l.length) h := by
  rw [call_rfc1155_815]
  runs [rfc1155_815, ha, hv, hb]

theorem run_seqItem {h : Heap} {a b : Nat} {c : CId} {attrs : List (String × V)} {l : List V}
    (ha : h[a]? = some (.inst c attrs)) (hv : attrs.lookup "value" = some (.ref b)) (hb : h[b]? = some (.list l)) (i : Nat) :
    call program cfg (.func .rfc1155 818) [.ref a, .int i] h = orRaise l[i]? "IndexError" h := by
  rw [call_rfc1155_818]
  cases hi : l[i]? <;> runs [rfc1155_818, ha, hv, hb, hi]

theorem run_oidLen {h : Heap} {a b : Nat} {c : CId} {attrs : List (String × V)} {l : List V}
    (ha : h[a]? = some (.inst c attrs)) (hv : attrs.lookup "value" = some (.ref b)) (hb : h[b]? = some (.list l)) :
    call program cfg (.func .rfc1155 604) [.ref a] h = okR (.int l.length) h := by
  rw [call_rfc1155_604]
  runs [rfc1155_604, ha, hv, hb]

theorem run_oidLen0 {h : Heap} {a : Nat} {c : CId} {attrs : List (String × V)}
    (ha : h[a]? = some (.inst c attrs)) (hv : attrs.lookup "value" = some .none) :
    call program cfg (.func .rfc1155 604) [.ref a] h = okR (.int 0) h := by
  rw [call_rfc1155_604]
  runs [rfc1155_604, ha, hv]

theorem run_oidItem {h : Heap} {a b : Nat} {c : CId} {attrs : List (String × V)} {l : List V}
    (ha : h[a]? = some (.inst c attrs)) (hv : attrs.lookup "value" = some (.ref b)) (hb : h[b]? = some (.list l)) (i : Nat) :
    call program cfg (.func .rfc1155 614) [.ref a, .int i] h = orRaise l[i]? "IndexError" h := by
  rw [call_rfc1155_614]
  cases hi : l[i]? <;> runs [rfc1155_614, ha, hv, hb, hi, isInst]

theorem run_oidItem0 {h : Heap} {a : Nat} {c : CId} {attrs : List (String × V)}
    (ha : h[a]? = some (.inst c attrs)) (hv : attrs.lookup "value" = some .none) (i : Nat) :
    call program cfg (.func .rfc1155 614) [.ref a, .int i] h = excR (.exc "AttributeError" []) h := by
  rw [call_rfc1155_614]
  runs [rfc1155_614, ha, hv, isInst]

/-- `bool(x)`. -/
theorem run_truth {lo : Nat} {h : Heap} {v : Val} {x : V} (r : Rep lo h v x) : truth program cfg x h = okR v.truthy h := by
  match v, r with
  | .none, r => rw [Rep] at r; subst r; runs [Val.truthy]
  | .int n, r => rw [Rep] at r; subst r; runs [Val.truthy]; rw [decide_not]
  | .str s, r => rw [Rep] at r; subst r; cases s <;> runs [Val.truthy] <;> rfl
  | .integer c n, r =>
    rw [Rep] at r
    obtain ⟨a, attrs, rfl, hl, ha, hp, hv⟩ := r
    runs [Val.truthy, ha]
  | .octets c n, r =>
    rw [Rep] at r
    obtain ⟨a, attrs, rfl, hl, ha, hp, hv⟩ := r
    runs [Val.truthy, ha]
  | .null c, r =>
    rw [Rep] at r
    obtain ⟨a, attrs, rfl, hl, ha, hp⟩ := r
    runs [Val.truthy, ha]
  | .oid none, r =>
    rw [Rep] at r
    obtain ⟨a, attrs, rfl, hl, ha, hp, hv⟩ := r
    runs [Val.truthy, ha, run_oidLen0 ha hv]
    rfl
  | .oid (some ids), r =>
    rw [Rep] at r
    obtain ⟨a, attrs, b, rfl, hl, ha, hp, hv, hb, hr⟩ := r
    runs [Val.truthy, ha, run_oidLen ha hv hr]
    cases ids <;> simp
  | .seq c items, r =>
    rw [Rep] at r
    obtain ⟨a, attrs, b, l, rfl, hl, ha, hp, hv, hb, hr, hf, hi⟩ := r
    runs [Val.truthy, ha, run_seqLen ha hv hr]
    rw [hi.length]
    cases items <;> simp

/-- `isinstance(x, d)`. -/
theorem run_isInst {lo : Nat} {h : Heap} {v : Val} {x : V} (r : Rep lo h v x) (d : Cls) :
    isInst program h x (.cls (cid d)) = some (v.isInstance d) := by
  have hk : ∀ c, program.sub (cid c) (cid d) = c.isSubclass d := fun c => sub_cid c d
  match v, r with
  | .none, r => rw [Rep] at r; subst r; rfl
  | .int n, r => rw [Rep] at r; subst r; rfl
  | .str s, r => rw [Rep] at r; subst r; rfl
  | .integer c n, r =>
    rw [Rep] at r
    obtain ⟨a, attrs, rfl, hl, ha, _⟩ := r
    simp only [isInst, instOf, ha, hk, Val.isInstance, Val.cls?]
  | .octets c n, r =>
    rw [Rep] at r
    obtain ⟨a, attrs, rfl, hl, ha, _⟩ := r
    simp only [isInst, instOf, ha, hk, Val.isInstance, Val.cls?]
  | .null c, r =>
    rw [Rep] at r
    obtain ⟨a, attrs, rfl, hl, ha, _⟩ := r
    simp only [isInst, instOf, ha, hk, Val.isInstance, Val.cls?]
  | .oid none, r =>
    rw [Rep] at r
    obtain ⟨a, attrs, rfl, hl, ha, _⟩ := r
    simp only [isInst, instOf, ha, hk, Val.isInstance, Val.cls?]
  | .oid (some ids), r =>
    rw [Rep] at r
    obtain ⟨a, attrs, b, rfl, hl, ha, _⟩ := r
    simp only [isInst, instOf, ha, hk, Val.isInstance, Val.cls?]
  | .seq c items, r =>
    rw [Rep] at r
    obtain ⟨a, attrs, b, l, rfl, hl, ha, _⟩ := r
    simp only [isInst, instOf, ha, hk, Val.isInstance, Val.cls?]

/-- `int(x)` on an SNMP object or a number. -/
theorem run_toInt {lo : Nat} {h : Heap} {v : Val} {x : V} (r : Rep lo h v x) (hs : ∀ s, v ≠ .str s) :
    toInt program cfg x h = outR v.toInt V.int h := by
  match v, r with
  | .none, r => rw [Rep] at r; subst r; runs [Val.toInt, outR, excName]
  | .int n, r => rw [Rep] at r; subst r; runs [Val.toInt, outR]
  | .str s, r => exact absurd rfl (hs s)
  | .integer c n, r =>
    rw [Rep] at r
    obtain ⟨a, attrs, rfl, hl, ha, hp, hv⟩ := r
    runs [Val.toInt, ha, call_rfc1155_310, rfc1155_310, hv, outR]
  | .octets c n, r =>
    rw [Rep] at r
    obtain ⟨a, attrs, rfl, hl, ha, hp, hv⟩ := r
    runs [Val.toInt, ha, outR, excName]
  | .null c, r =>
    rw [Rep] at r
    obtain ⟨a, attrs, rfl, hl, ha, hp⟩ := r
    runs [Val.toInt, ha, outR, excName]
  | .oid none, r =>
    rw [Rep] at r
    obtain ⟨a, attrs, rfl, hl, ha, hp, hv⟩ := r
    runs [Val.toInt, ha, outR, excName]
  | .oid (some ids), r =>
    rw [Rep] at r
    obtain ⟨a, attrs, b, rfl, hl, ha, hp, hv, hb, hr⟩ := r
    runs [Val.toInt, ha, outR, excName]
  | .seq c items, r =>
    rw [Rep] at r
    obtain ⟨a, attrs, b, l, rfl, hl, ha, hp, hv, hb, hr, hf, hi⟩ := r
    runs [Val.toInt, ha, outR, excName]

/-- `x[i]`: the element, or the exception. -/
theorem run_getItem {lo : Nat} {h : Heap} {v : Val} {x : V} (r : Rep lo h v x) (i : Nat) :
    match v.getItem i with
    | .ok w => ∃ y, getitem program cfg x (.int i) h = okR y h ∧ Rep lo h w y
    | .error e => getitem program cfg x (.int i) h = excR (.exc (excName e) []) h := by
  match v, r with
  | .none, r => rw [Rep] at r; subst r; runs [Val.getItem, excName]
  | .int n, r => rw [Rep] at r; subst r; runs [Val.getItem, excName]
  | .str s, r =>
    rw [Rep] at r; subst r
    cases hi : s[i]? <;> runs [Val.getItem, excName, hi]
    exact ⟨_, rfl, by rw [Rep]⟩
  | .integer c n, r =>
    rw [Rep] at r
    obtain ⟨a, attrs, rfl, hl, ha, hp, hv⟩ := r
    runs [Val.getItem, ha, excName]
  | .octets c n, r =>
    rw [Rep] at r
    obtain ⟨a, attrs, rfl, hl, ha, hp, hv⟩ := r
    runs [Val.getItem, ha, excName]
  | .null c, r =>
    rw [Rep] at r
    obtain ⟨a, attrs, rfl, hl, ha, hp⟩ := r
    runs [Val.getItem, ha, excName]
  | .oid none, r =>
    rw [Rep] at r
    obtain ⟨a, attrs, rfl, hl, ha, hp, hv⟩ := r
    runs [Val.getItem, ha, excName, run_oidItem0 ha hv]
  | .oid (some ids), r =>
    rw [Rep] at r
    obtain ⟨a, attrs, b, rfl, hl, ha, hp, hv, hb, hr⟩ := r
    cases hi : ids[i]? <;> runs [Val.getItem, ha, excName, run_oidItem ha hv hr, List.getElem?_map, hi]
    exact ⟨_, rfl, by rw [Rep]⟩
  | .seq c items, r =>
    rw [Rep] at r
    obtain ⟨a, attrs, b, l, rfl, hl, ha, hp, hv, hb, hr, hf, hi⟩ := r
    cases hj : items[i]? with
    | none =>
      have : l[i]? = none := by
        rw [List.getElem?_eq_none_iff] at hj ⊢
        rw [hi.length]; exact hj
      runs [Val.getItem, ha, excName, run_seqItem ha hv hr, hj, this]
    | some w =>
      obtain ⟨y, hy, ry⟩ := hi.get hj
      runs [Val.getItem, ha, excName, run_seqItem ha hv hr, hj, hy]
      exact ⟨y, rfl, ry⟩

end Libsnmp.Src
