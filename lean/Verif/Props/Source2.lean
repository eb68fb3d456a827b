import Verif.Lemmas.SrcOidSim
import Verif.Props.Source
import Verif.Props.Sharing

/-!
# C91-C93: comparing, computing and ObjectIDs, on the source text
-/

namespace Libsnmp
open Spec Src

variable {cfg : Cfg}

/-! ## C91: `==`, `!=` and `__hash__` -/

/-- C91. `x == y`, for any two values, objects of the package or not, whatever parts they share: the answer or the exception of
the model; and no object is changed or made. -/
theorem C91_eq {lo : Nat} {h : Heap} {v w : Val} {x y : V} (r : Rep lo h v x) (s : Rep lo h w y) (hv : Numerals cfg v)
    (hw : Numerals cfg w) : Src.compare program cfg .eq x y h = outR (pyEq v w) V.bool h := by
  rw [Src.compare]
  exact run_equal (cfg := cfg) _ v w (Nat.le_refl _) r s hv hw

/-- C91. `x != y`. -/
theorem C91_ne {lo : Nat} {h : Heap} {v w : Val} {x y : V} (r : Rep lo h v x) (s : Rep lo h w y) (hv : Numerals cfg v)
    (hw : Numerals cfg w) : Src.compare program cfg .ne x y h = outR (pyNe v w) V.bool h :=
  run_ne r s hv hw

/-- C91. `x.__hash__()` of an Integer is the hash of its number. -/
theorem C91_hash {lo : Nat} {h : Heap} {c : IntCls} {n : Int} {x : V} (r : Rep lo h (.integer c n) x) :
    callMethod cfg x "__hash__" [] h = outR (objHash (.integer c n)) V.int h := by
  rw [Rep] at r
  obtain ⟨a, attrs, rfl, hlo, ha, hp, hv⟩ := r
  have hm : program.attr (cid (.int c)) "__hash__" = some (.func .rfc1155 354) := by cases c <;> rfl
  rw [callMethod_eq ha hp hm, call_rfc1155_354]
  runs [rfc1155_354, ha, hv, objHash, outR]

/-! ## C92: the constructors and the arithmetic of Integers -/

/-- C92. The constructors of Integers, on any value: a new object with the number, or TypeError, or ValueError if the number is out
of the range. -/
theorem C92_new (hc : Limits cfg) {lo : Nat} {h : Heap} (hb : Base h) (c : IntCls) {v : Val} {y : V} (r : Rep lo h v y) :
    NewOr h.length h (call program cfg (.cls (cid (.int c))) [y] h) (newInt c v) := run_newIntV hc hb c r

/-- C92. `x + y` of an Integer and any value. -/
theorem C92_add (hc : Limits cfg) {lo : Nat} {h : Heap} (hb : Base h) (h9 : 9 ≤ lo) (hlo : lo ≤ h.length) {a : Nat} {c : IntCls}
    {n : Int} (r : Rep lo h (.integer c n) (.ref a)) {v : Val} {y : V} (s : Rep lo h v y) :
    Computes lo h a c (binop program cfg .add (.ref a) y h) (pyAdd c n v) := run_add hc hb h9 hlo r s

/-- C92. `x - y`. -/
theorem C92_sub (hc : Limits cfg) {lo : Nat} {h : Heap} (hb : Base h) (h9 : 9 ≤ lo) (hlo : lo ≤ h.length) {a : Nat} {c : IntCls}
    {n : Int} (r : Rep lo h (.integer c n) (.ref a)) {v : Val} {y : V} (s : Rep lo h v y) :
    Computes lo h a c (binop program cfg .sub (.ref a) y h) (pySub c n v) := run_sub hc hb h9 hlo r s

/-! ## C93: ObjectIDs -/

/-- C93. `ObjectID(arg)`, for a text, a number, a list or a tuple of numbers, an object of the package or `None`. -/
theorem C93_new {lo : Nat} {h : Heap} (hb : Base h) {arg : Arg} {y : V} (r : RepArg lo h arg y)
    (hn : ∀ s, arg = .str s → Short cfg s) :
    NewOr h.length h (call program cfg (.cls (cid .oid)) [y] h) ((mkOid arg).map Val.oid) := run_mkOid hb r hn

/-- C93. `len(x)`. -/
theorem C93_len {lo : Nat} {h : Heap} {v : Option (List Int)} {x : V} (r : Rep lo h (.oid v) x) :
    len program cfg x h = okR (.int (v.getD []).length) h := run_lenOid r

/-- C93. `x.isPrefixOf(y)`, with any `y`. -/
theorem C93_isPrefixOf {lo : Nat} {h : Heap} {v : Option (List Int)} {x : V} (r : Rep lo h (.oid v) x) {w : Val} {y : V}
    (s : Rep lo h w y) :
    ∃ args, callMethod cfg x "isPrefixOf" [y] h = match isPrefixOf v w with
      | .ok t => okR (.bool t) h
      | .error e => excR (.exc (excName e) args) h := by
  obtain ⟨args, h1⟩ := run_isPrefixOf (cfg := cfg) r s
  obtain ⟨a, attrs, rfl, ha, hp⟩ := r.cell
  rw [callMethod_eq ha hp (show program.attr (cid .oid) "isPrefixOf" = some (.func .rfc1155 646) from rfl)]
  exact ⟨args, h1⟩

/-- C93. Whatever a program does with ObjectIDs and lists - make them in all the ways that there are, copy them, slice them, decode
them, append, extend and delete, in any order, with any exceptions on the way - the source text ends each operation, and at every
time the program sees the objects and the lists of the model. -/
theorem C93_history (ops : List OidOp) (hf : ∀ op ∈ ops, Fits cfg op) :
    ∃ m, SrcMem.run cfg { heap := statics, objs := [], lists := [] } ops = some m ∧ SameOids (OidMem.run ops) m := by
  obtain ⟨m, cells, h1, h2⟩ := sim_start.run ops hf
  exact ⟨m, h1, h2.same⟩

/-- C93. And each operation has the exception of the model, or none. -/
theorem C93_outcome (ops : List OidOp) (op : OidOp) (hf : ∀ o ∈ ops, Fits cfg o) (hop : Fits cfg op) :
    ∃ m m' o, SrcMem.run cfg { heap := statics, objs := [], lists := [] } ops = some m ∧ m.step cfg op = some (m', o) ∧
      SameEnd ((OidMem.run ops).step op).2 o := by
  obtain ⟨m, cells, h1, h2⟩ := sim_start.run ops hf
  obtain ⟨m', o, cells', h3, -, h4⟩ := h2.step op hop
  exact ⟨m, m', o, h1, h3, h4⟩

theorem keep_objs (m : SrcMem) (op : OidOp) (v : V) (h : Heap) (k a : Nat) (hk : m.objs[k]? = some a) :
    (m.keep op v h).objs[k]? = some a := by
  have hlt : k < m.objs.length := (List.getElem?_eq_some_iff.1 hk).1
  unfold SrcMem.keep
  split
  · exact hk
  · dsimp only
    split
    · rw [List.getElem?_append_left hlt]; exact hk
    · exact hk
  · exact hk

theorem keep_lists (m : SrcMem) (op : OidOp) (v : V) (h : Heap) (k a : Nat) (hk : m.lists[k]? = some a) :
    (m.keep op v h).lists[k]? = some a := by
  have hlt : k < m.lists.length := (List.getElem?_eq_some_iff.1 hk).1
  unfold SrcMem.keep
  split
  · dsimp only
    rw [List.getElem?_append_left hlt]; exact hk
  · exact hk
  · exact hk

theorem step_keeps {m m' : SrcMem} {op : OidOp} {o : Option V} (h : m.step cfg op = some (m', o)) :
    (∀ k a : Nat, m.objs[k]? = some a → m'.objs[k]? = some a) ∧ ∀ k a : Nat, m.lists[k]? = some a → m'.lists[k]? = some a := by
  unfold SrcMem.step at h
  split at h
  · injection h with h
    injection h with h1 h2
    subst h1
    exact ⟨fun k a hk => keep_objs m op _ _ k a hk, fun k a hk => keep_lists m op _ _ k a hk⟩
  · injection h with h
    injection h with h1 h2
    subst h1
    exact ⟨fun _ _ hk => hk, fun _ _ hk => hk⟩
  · cases h

/-- C93. After any history, running one more operation on the source text leaves the value of every ObjectID that it is not applied
to, and every list of the program that the program does not change itself. -/
theorem C93_isolation (ops : List OidOp) (op : OidOp) (hf : ∀ o ∈ ops, Fits cfg o) (hop : Fits cfg op) :
    ∃ m m' o, SrcMem.run cfg { heap := statics, objs := [], lists := [] } ops = some m ∧ m.step cfg op = some (m', o) ∧
      (∀ (k a : Nat) (v : Option (List Int)), m.objs[k]? = some a → op.target ≠ .obj k → Rep 9 m.heap (.oid v) (.ref a) → Rep 9 m'.heap (.oid v) (.ref a)) ∧
      ∀ (i a : Nat) (l : List Int), m.lists[i]? = some a → op.target ≠ .list i → m.heap[a]? = some (.list (l.map V.int)) →
        m'.heap[a]? = some (.list (l.map V.int)) := by
  obtain ⟨m, cells, h1, h2⟩ := sim_start.run ops hf
  obtain ⟨m', o, cells', h3, h4, h5⟩ := h2.step op hop
  have e1 : (OidMem.run ops) = List.foldl (fun s op => (s.step op).1) {} ops := rfl
  rw [← e1] at h2 h4
  have e2 : ((OidMem.run ops).step op).1 = OidMem.run (ops ++ [op]) := by simp [OidMem.run, List.foldl_append]
  rw [e2] at h4
  obtain ⟨i1, i2⟩ := C38_isolation ops op
  obtain ⟨k1, k2⟩ := step_keeps h3
  refine ⟨m, m', o, h1, h3, fun k a v hk ht r => ?_, fun i a l hi ht r => ?_⟩
  · obtain ⟨w, q1, q2⟩ := h2.same.obj k a hk
    obtain ⟨w', q3, q4⟩ := h4.same.obj k a (k1 k a hk)
    have hlt : k < m.objs.length := (List.getElem?_eq_some_iff.1 hk).1
    rw [h2.same.objs] at hlt
    have hv : w = v := by
      have := Rep.unique _ _ q2 r
      injection this
    have e := i1 k hlt ht
    rw [q1, q3] at e
    injection e with e
    rw [← hv, ← e]; exact q4
  · obtain ⟨w, q1, q2⟩ := h2.same.list i a hi
    obtain ⟨w', q3, q4⟩ := h4.same.list i a (k2 i a hi)
    have hlt : i < m.lists.length := (List.getElem?_eq_some_iff.1 hi).1
    rw [h2.same.lists] at hlt
    have e := i2 i hlt ht
    rw [q1, q3] at e
    injection e with e
    rw [q4, e, ← q2, r]

/-! ## The hypotheses are met -/

/-- An `Integer`, a `Counter`, a binding of them, and the same binding again, with parts in common. -/
def sampleTwo : Heap := statics ++
  [.inst (cid .oid) [("value", .ref 11)], .list ([1, 3, 6].map V.int), .inst (cid (.int .counter)) [("value", .int 4294967295)],
   .inst (cid (.seq .varBind)) [("value", .ref 14), ("objectID", .ref 10), ("objectValue", .ref 12)], .list [.ref 10, .ref 12],
   .inst (cid (.seq .varBind)) [("value", .ref 16), ("objectID", .ref 10), ("objectValue", .ref 17)], .list [.ref 10, .ref 17],
   .inst (cid (.int .integer)) [("value", .int 4)]]

theorem sampleTwo_oid : Rep 9 sampleTwo (.oid (some [1, 3, 6])) (.ref 10) := by
  rw [Rep]; exact ⟨10, _, 11, rfl, by decide, rfl, plain _, rfl, by decide, rfl⟩
theorem sampleTwo_counter : Rep 9 sampleTwo (.integer .counter 4294967295) (.ref 12) := by
  rw [Rep]; exact ⟨12, [("value", .int 4294967295)], rfl, by decide, rfl, plain _, rfl⟩
theorem sampleTwo_int : Rep 9 sampleTwo (.integer .integer 4) (.ref 17) := by
  rw [Rep]; exact ⟨17, [("value", .int 4)], rfl, by decide, rfl, plain _, rfl⟩
theorem sampleTwo_vb1 : Rep 9 sampleTwo (.seq .varBind [.oid (some [1, 3, 6]), .integer .counter 4294967295]) (.ref 13) := by
  rw [Rep]
  refine ⟨13, _, 14, [.ref 10, .ref 12], rfl, by decide, rfl, plain _, rfl, by decide, rfl, rfl, ?_⟩
  rw [RepAll]; refine ⟨_, _, rfl, sampleTwo_oid, ?_⟩
  rw [RepAll]; refine ⟨_, _, rfl, sampleTwo_counter, ?_⟩
  rw [RepAll]
theorem sampleTwo_vb2 : Rep 9 sampleTwo (.seq .varBind [.oid (some [1, 3, 6]), .integer .integer 4]) (.ref 15) := by
  rw [Rep]
  refine ⟨15, _, 16, [.ref 10, .ref 17], rfl, by decide, rfl, plain _, rfl, by decide, rfl, rfl, ?_⟩
  rw [RepAll]; refine ⟨_, _, rfl, sampleTwo_oid, ?_⟩
  rw [RepAll]; refine ⟨_, _, rfl, sampleTwo_int, ?_⟩
  rw [RepAll]

/-- The two bindings differ, the first is itself; a number compares with an Integer. -/
example : Src.compare program sampleCfg .eq (.ref 13) (.ref 15) sampleTwo = okR (.bool false) sampleTwo ∧
    Src.compare program sampleCfg .eq (.ref 13) (.ref 13) sampleTwo = okR (.bool true) sampleTwo ∧
    Src.compare program sampleCfg .ne (.int 4) (.ref 17) sampleTwo = okR (.bool false) sampleTwo := by
  have n1 : Numerals sampleCfg (.seq .varBind [.oid (some [1, 3, 6]), .integer .counter 4294967295]) := by
    simp [Numerals, NumeralsAll]
  have n2 : Numerals sampleCfg (.seq .varBind [.oid (some [1, 3, 6]), .integer .integer 4]) := by simp [Numerals, NumeralsAll]
  have h1 := C91_eq sampleTwo_vb1 sampleTwo_vb2 n1 n2
  have h2 := C91_eq sampleTwo_vb1 sampleTwo_vb1 n1 n1
  have h3 := C91_ne (cfg := sampleCfg) (show Rep 9 sampleTwo (.int 4) (.int 4) by rw [Rep]) sampleTwo_int trivial trivial
  rw [show pyEq (.seq .varBind [.oid (some [1, 3, 6]), .integer .counter 4294967295])
    (.seq .varBind [.oid (some [1, 3, 6]), .integer .integer 4]) = .ok false by decide +kernel] at h1
  rw [show pyEq (.seq .varBind [.oid (some [1, 3, 6]), .integer .counter 4294967295])
    (.seq .varBind [.oid (some [1, 3, 6]), .integer .counter 4294967295]) = .ok true by decide +kernel] at h2
  rw [show pyNe (.int 4) (.integer .integer 4) = .ok false by decide +kernel] at h3
  exact ⟨h1, h2, h3⟩

/-- `counter + 2` at the largest number: the counter wraps, the expression is `None`. -/
example : ∃ h, binop program sampleCfg .add (.ref 12) (.int 2) sampleTwo = okR .none h ∧ Rep 9 h (.integer .counter 2) (.ref 12) := by
  have h1 := C92_add (cfg := sampleCfg) (.inr (by decide)) (Kept.app base_statics _).base (lo := 9) (by decide) (by decide)
    sampleTwo_counter (v := .int 2) (y := .int 2) (by rw [Rep])
  rw [show pyAdd .counter 4294967295 (.int 2) = ⟨2, .ok .none⟩ by rfl] at h1
  obtain ⟨h, -, -, h2, x, h3, h4⟩ := h1
  rw [Rep] at h4
  subst h4
  exact ⟨h, h3, h2⟩

/-- A history with a list, an ObjectID made from it, a copy, changes of both, and a failure. -/
def sampleOps : List OidOp :=
  [.newList [1, 3, 6], .fromList 0, .copy 0, .append 0 1, .setList 0 [9], .extend 1 0, .delItem 0 (-1), .appendOther 1,
   .construct (.str [46, 49, 46, 50]), .construct (.str [49, 46]), .slice 1 1 3, .decoded [43, 6, 1]]

example : (∀ op ∈ sampleOps, Fits sampleCfg op) ∧
    (OidMem.run sampleOps).objs.length = 6 ∧ (OidMem.run sampleOps).obj 0 = some (some [1, 3, 6]) ∧
    (OidMem.run sampleOps).obj 1 = some (some [1, 3, 6, 1, 3, 6, 1]) := by
  refine ⟨?_, by decide +kernel, by decide +kernel, by decide +kernel⟩
  simp only [sampleOps, List.forall_mem_cons, Fits, sampleCfg]
  refine ⟨trivial, trivial, trivial, trivial, trivial, trivial, trivial, trivial, .inr (by decide), .inr (by decide), trivial, trivial, ?_⟩
  simp

end Libsnmp
