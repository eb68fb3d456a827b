import Verif.Lemmas.SourceFacts
import Verif.Spec.Source
import Verif.Model.Ber

/-!
# Running code: numbers, texts, lists and the heap
-/

namespace Libsnmp.Src
open Libsnmp

variable {cfg : Cfg}

/-! ## Numbers -/

attribute [src] intOp intOfFloat intCmp Int.reduceLT Int.reduceLE Int.reduceToNat Int.reduceEq Int.reduceBEq Int.reduceBNe Int.reduceNeg
  decide_true decide_false Bool.not_true Bool.not_false Bool.not_not bne_self_eq_false beq_self_eq_true Option.map_some Option.map_none Option.bind_some Option.bind_none

@[src] theorem land_lit (a n : Nat) : Int.land (a : Int) (no_index (OfNat.ofNat n : Int)) = ((a &&& n : Nat) : Int) := rfl
@[src] theorem land_cast (a b : Nat) : Int.land (a : Int) (b : Int) = ((a &&& b : Nat) : Int) := rfl
@[src] theorem lor_cast (a b : Nat) : Int.lor (a : Int) (b : Int) = ((a ||| b : Nat) : Int) := rfl
@[src] theorem lor_lit (a n : Nat) : Int.lor (a : Int) (no_index (OfNat.ofNat n : Int)) = ((a ||| n : Nat) : Int) := rfl
@[src] theorem lor_lit' (a n : Nat) : Int.lor (no_index (OfNat.ofNat n : Int)) (a : Int) = ((n ||| a : Nat) : Int) := rfl
@[src] theorem shl_cast (a n : Nat) : (a : Int) <<< n = ((a <<< n : Nat) : Int) := rfl
@[src] theorem shr_cast (a n : Nat) : (a : Int) >>> n = ((a >>> n : Nat) : Int) := rfl
@[src] theorem succ_cast (a : Nat) : (a : Int) + 1 = ((a + 1 : Nat) : Int) := rfl
@[src] theorem cast_eq_lit (a n : Nat) : ((a : Int) = (no_index (OfNat.ofNat n : Int))) = (a = n) := propext Int.ofNat_inj
@[src] theorem cast_eq_cast (a n : Nat) : ((a : Int) = (n : Int)) = (a = n) := propext Int.ofNat_inj
@[src] theorem int_ne (a b : Int) : (a != b) = !decide (a = b) := rfl
@[src] theorem int_eq (a b : Int) : (a == b) = decide (a = b) := rfl
@[src] theorem cast_lt_lit (a n : Nat) : ((a : Int) < (no_index (OfNat.ofNat n : Int))) = (a < n) := by
  exact propext Int.ofNat_lt
@[src] theorem lit_lt_cast (a n : Nat) : ((no_index (OfNat.ofNat n : Int)) < (a : Int)) = (n < a) := by
  exact propext Int.ofNat_lt
@[src] theorem cast_lt_cast (a n : Nat) : ((a : Int) < (n : Int)) = (a < n) := propext Int.ofNat_lt

/-! ## Positions -/

theorem position_nat (n k : Nat) : position n (k : Int) = if k < n then some k else none := by
  simp [position]

@[src] theorem item_nat {α} (l : List α) (k : Nat) : itemAt l (k : Int) = l[k]? := by
  rw [itemAt, position_nat]
  by_cases h : k < l.length <;> simp [h]

@[src] theorem item_lit {α} (l : List α) (k : Nat) : itemAt l (no_index (OfNat.ofNat k : Int)) = l[k]? := item_nat l k

@[src] theorem slice_from {α} (l : List α) (k : Nat) : sliceL l (.int (k : Int)) .none = some (l.drop k) := by
  simp only [sliceL, bound, Int.natCast_nonneg, if_true, Int.toNat_natCast, Option.some.injEq]
  rcases Nat.le_total k l.length with h | h
  · rw [Nat.min_eq_left h]
  · rw [Nat.min_eq_right h, List.drop_eq_nil_of_le h, List.drop_eq_nil_of_le (Nat.le_refl _)]

@[src] theorem slice_from_lit {α} (l : List α) (k : Nat) :
    sliceL l (.int (no_index (OfNat.ofNat k : Int))) .none = some (l.drop k) := slice_from l k

@[src] theorem slice_to {α} (l : List α) (k : Nat) : sliceL l .none (.int (k : Int)) = some (l.take k) := by
  simp only [sliceL, bound, Int.natCast_nonneg, if_true, Int.toNat_natCast, Option.some.injEq]
  rcases Nat.le_total k l.length with h | h
  · rw [Nat.min_eq_left h]
  · rw [Nat.min_eq_right h, List.take_of_length_le h, List.take_of_length_le (Nat.le_refl _)]

@[src] theorem slice_all {α} (l : List α) : sliceL l .none .none = some l := rfl

@[src] theorem ord_one (c : Nat) (h : Heap) : pyOrd (.str [c]) h = okR (.int c) h := rfl

/-! ## The heap -/

@[src] theorem get_app (h t : Heap) : (h ++ t)[h.length]? = t[0]? := by
  rw [List.getElem?_append_right (Nat.le_refl _), Nat.sub_self]
@[src] theorem get_app_add (h t : Heap) (k : Nat) : (h ++ t)[h.length + k]? = t[k]? := by
  rw [List.getElem?_append_right (Nat.le_add_right _ _), Nat.add_sub_cancel_left]
@[src] theorem set_app (h t : Heap) (c : Cell) : (h ++ t).set h.length c = h ++ t.set 0 c := by
  rw [List.set_append_right _ _ (Nat.le_refl _), Nat.sub_self]
@[src] theorem set_app_add (h t : Heap) (k : Nat) (c : Cell) : (h ++ t).set (h.length + k) c = h ++ t.set k c := by
  rw [List.set_append_right _ _ (Nat.le_add_right _ _), Nat.add_sub_cancel_left]
theorem get_app_old {h : Heap} {a : Nat} {c : Cell} (ha : h[a]? = some c) (t : Heap) : (h ++ t)[a]? = some c := by
  rw [List.getElem?_append_left (List.getElem?_eq_some_iff.1 ha).1, ha]

section
variable (P : Program) (h : Heap) (a : String)
@[src] theorem getattr_mod (m : Module) : getattr P h (.mod m) a = P.globals m a := rfl
@[src] theorem getattr_copy : getattr P h (.builtin "copy") "copy" = some (.builtin "copy.copy") := rfl
@[src] theorem getattr_logger : getattr P h .logger a = some (.builtin "log") := rfl
@[src] theorem getattr_cls (c : CId) :
    getattr P h (.cls c) a = if a = "__name__" then (P.classes c).map fun k => .str (lit k.name) else P.attr c a := rfl
@[src] theorem getattr_ref (r : Nat) : getattr P h (.ref r) a = match h[r]? with
    | some (.inst c attrs) => match attrs.lookup a with
      | some x => some x
      | none =>
        if a = "__class__" then some (.cls c)
        else match P.attr c a with
          | some (.func m l) => some (.meth (.ref r) m l)
          | some (.ext n) => some (.bmeth (.ref r) n)
          | some x => some x
          | none => if a = "__repr__" then some (.bmeth (.ref r) a) else none
    | some (.list _) =>
      if a ∈ ["append", "insert", "extend", "reverse", "pop", "__getitem__", "__delitem__", "__repr__"] then
        some (.bmeth (.ref r) a)
      else if a = "__class__" then some (.builtin "list") else none
    | some (.queue _) => if a ∈ ["put", "get"] then some (.bmeth (.ref r) a) else none
    | _ => none := rfl
@[src] theorem getattr_ext (n : String) : getattr P h (.ext n) a = some (.ext (n ++ "." ++ a)) := rfl
@[src] theorem getattr_Queue : getattr P h (.builtin "queue") "Queue" = some (.builtin "queue.Queue") := rfl
@[src] theorem getattr_str (s : Str) :
    getattr P h (.str s) a = if a ∈ ["join", "split", "strip", "encode", "__repr__"] then some (.bmeth (.str s) a)
      else if a = "__class__" then some (.builtin "str") else none := rfl
@[src] theorem getattr_int (n : Int) :
    getattr P h (.int n) a = if a ∈ ["__hash__", "__repr__"] then some (.bmeth (.int n) a)
      else if a = "__class__" then some (.builtin "int") else none := rfl
@[src] theorem getattr_none :
    getattr P h .none a = if a = "__repr__" then some (.bmeth .none a)
      else if a = "__class__" then some (.builtin "NoneType") else none := rfl
@[src] theorem getattr_name (n : String) (hn : n ≠ "copy") (hq : n ≠ "queue") : getattr P h (.builtin n) "__name__" = some (.str (lit n)) := by
  simp [getattr, hn, hq]
@[src] theorem lookup_cons (b : String) (v : V) (l : List (String × V)) :
    List.lookup a ((b, v) :: l) = if a = b then some v else List.lookup a l := by
  rw [List.lookup_cons]
  by_cases h : a = b
  · simp [h]
  · simp [h, beq_eq_false_iff_ne.2 h]
@[src] theorem lookup_nil : List.lookup a ([] : List (String × V)) = none := rfl
end

/-- An attribute keeps its value when something is allocated. -/
theorem getattr_app {P : Program} {h : Heap} {v : V} {a : String} {x : V} (hx : getattr P h v a = some x) (t : Heap) :
    getattr P (h ++ t) v a = some x := by
  cases v with
  | ref r =>
    rw [getattr_ref] at hx ⊢
    cases hr : h[r]? with
    | none => rw [hr] at hx; cases hx
    | some c => rwa [get_app_old hr, ← hr]
  | builtin n => exact hx
  | _ => exact hx

/-- The cell at `a` has been replaced before something was allocated. -/
theorem get_set {h : Heap} {a : Nat} (ha : a < h.length) (c : Cell) (t : Heap) : (h.set a c ++ t)[a]? = some c := by
  rw [List.getElem?_append_left (by rwa [List.length_set]), List.getElem?_set_self ha]
theorem get_set_nil {h : Heap} {a : Nat} (ha : a < h.length) (c : Cell) : (h.set a c)[a]? = some c :=
  List.getElem?_set_self ha
@[src] theorem get_set_new (h : Heap) (a : Nat) (c : Cell) (t : Heap) : (h.set a c ++ t)[h.length]? = t[0]? := by
  have := get_app (h.set a c) t
  rwa [List.length_set] at this
@[src] theorem get_set_add (h : Heap) (a : Nat) (c : Cell) (t : Heap) (k : Nat) :
    (h.set a c ++ t)[h.length + k]? = t[k]? := by
  have := get_app_add (h.set a c) t k
  rwa [List.length_set] at this
theorem set_old {h : Heap} {a : Nat} (ha : a < h.length) (c : Cell) (t : Heap) : (h ++ t).set a c = h.set a c ++ t := by
  rw [List.set_append_left _ _ ha]
theorem set_set_old {h : Heap} {a : Nat} (ha : a < h.length) (c d : Cell) (t : Heap) :
    (h.set a d ++ t).set a c = h.set a c ++ t := by
  rw [List.set_append_left _ _ (by rwa [List.length_set]), List.set_set]
@[src] theorem set_set_new (h : Heap) (a : Nat) (c d : Cell) (t : Heap) :
    (h.set a d ++ t).set h.length c = h.set a d ++ t.set 0 c := by
  have := set_app (h.set a d) t c
  rwa [List.length_set] at this
theorem lt_of_get {h : Heap} {a : Nat} {c : Cell} (ha : h[a]? = some c) : a < h.length := (List.getElem?_eq_some_iff.1 ha).1

attribute [src] List.length_map false_and true_and and_true and_false ne_eq not_true_eq_false not_false_eq_true List.map_cons List.map_nil List.length_set List.set_set setAssoc alloc kind listMethod setattr setitem List.append_assoc List.cons_append List.nil_append
  List.length_append List.length_cons List.length_nil List.getElem?_cons_zero List.getElem?_cons_succ List.set_cons_zero
  List.set_cons_succ List.flatten_cons List.flatten_nil List.append_nil List.mem_cons List.not_mem_nil true_or or_true or_false false_or Nat.zero_add

@[src] theorem insert_front {α} (l : List α) (v : α) : insertAt l 0 v = v :: l := by simp [insertAt, bound]

theorem insert_nat {α} (l r : List α) (v : α) : insertAt (l ++ r) (l.length : Int) v = l ++ v :: r := by
  simp [insertAt, bound]

@[src] theorem set_nat {α} (l : List α) (k : Nat) (v : α) :
    setAt l (k : Int) v = if k < l.length then some (l.set k v) else none := by
  rw [setAt, position_nat]
  by_cases h : k < l.length <;> simp [h]

@[src] theorem set_head {α} (a : α) (l : List α) (v : α) : setAt (a :: l) 0 v = some (v :: l) := by
  simp [setAt, position]

/-! ## Texts -/

theorem pyJoin_empty (l : List Str) : pyJoin [] l = l.flatten := by
  induction l with
  | nil => rfl
  | cons w ws ih =>
    cases ws with
    | nil => simp [pyJoin]
    | cons x xs => rw [pyJoin, ih]; · simp
                   · simp

@[src] theorem join_lit (l : List Str) : pyJoin (lit "") l = l.flatten := pyJoin_empty l

theorem allStr_map (l : List Str) : allStr (l.map V.str) = some l := by
  induction l with
  | nil => rfl
  | cons w ws ih => simp [allStr, ih]

@[src] theorem allStr_chars (l : Str) : allStr (l.map fun c => V.str [c]) = some (l.map fun c => [c]) := by
  have := allStr_map (l.map fun c => [c])
  rwa [List.map_map] at this

@[src] theorem allStr_cons (s : Str) (l : List V) : allStr (.str s :: l) = (allStr l).map (s :: ·) := rfl
@[src] theorem allStr_nil : allStr [] = some [] := rfl

@[src] theorem flatten_chars (l : Str) : (l.map fun c => [c]).flatten = l := by
  induction l with
  | nil => rfl
  | cons c l ih => rw [List.map_cons, List.flatten_cons, ih]; rfl

theorem chr_small {c : Nat} (hc : c ≤ 0x10FFFF) (h : Heap) : pyChrV (.int c) h = okR (.str [c]) h := by
  have h1 : ¬ ((c : Int) < -2147483648 ∨ 2147483647 < (c : Int)) := by omega
  have h2 : 0 ≤ (c : Int) ∧ (c : Int) ≤ 0x10FFFF := by omega
  simp only [pyChrV, pyChr, h1, h2, if_false, and_self, if_true, Int.toNat_natCast]

@[src] theorem chr_and255 (n : Nat) (h : Heap) : pyChrV (.int ((n &&& 255 : Nat) : Int)) h = okR (.str [n &&& 255]) h :=
  chr_small (Nat.le_trans Nat.and_le_right (by decide)) h

@[src] theorem chr_and127 (n : Nat) (h : Heap) : pyChrV (.int ((n &&& 127 : Nat) : Int)) h = okR (.str [n &&& 127]) h :=
  chr_small (Nat.le_trans Nat.and_le_right (by decide)) h

attribute [src] convInt Nat.reduceEqDiff Option.isSome_none Option.isSome_some Bool.false_eq_true Nat.reduceAdd

/-- A record for debugging that only shows a number can be made. -/
def Shows (cfg : Cfg) (n : Int) : Prop := cfg.debug = true → tooLong cfg.digits n = false

theorem Shows.mono {m n : Int} (hn : Shows cfg n) (h : m.natAbs ≤ n.natAbs) : Shows cfg m := by
  intro hd
  have := hn hd
  simp only [tooLong, Bool.and_eq_false_iff, decide_eq_false_iff_not] at this ⊢
  rcases this with h1 | h1
  · exact .inl h1
  · exact .inr (by omega)

/-! ## Loops over what is already known -/

@[src] theorem drain_vals (P : Program) (l acc : List V) (h : Heap) : drain P cfg (.vals l) acc h = okR (acc ++ l) h := by
  induction l generalizing acc with
  | nil => rw [drain]; runs [List.append_nil]
  | cons v l ih => rw [drain]; runs [ih]

theorem drain_list (P : Program) {a : Nat} {l : List V} {h : Heap} (ha : h[a]? = some (.list l)) (i : Nat) (acc : List V) :
    drain P cfg (.list a i) acc h = okR (acc ++ l.drop i) h := by
  by_cases hi : i < l.length
  · have : l.length - (i + 1) < l.length - i := by omega
    rw [drain]
    runs [ha, List.getElem?_eq_getElem hi]
    rw [drain_list P ha (i + 1), ← List.getElem_cons_drop hi]
    simp
  · rw [drain]
    runs [ha, List.getElem?_eq_none (Nat.le_of_not_lt hi)]
    rw [List.drop_eq_nil_of_le (Nat.le_of_not_lt hi), List.append_nil]
termination_by l.length - i

@[src] theorem drain_all (P : Program) (a : Nat) (acc : List V) (h : Heap) :
    drain P cfg (.list a 0) acc h = match h[a]? with
      | some (.list l) => okR (acc ++ l) h
      | _ => stuckR h := by
  split
  · rename_i l hl; rw [drain_list P hl, List.drop_zero]
  · rename_i hl
    rw [drain, next]
    split
    · exact absurd ‹_› (hl _)
    · rfl

attribute [src] iterOf typeOf identical

/-- `map(f, l)` for a function that changes nothing. -/
theorem mapAll_vals (P : Program) {f : V} {g : V → V} {h : Heap} (l acc : List V)
    (hf : ∀ v ∈ l, call P cfg f [v] h = okR (g v) h) : mapAll P cfg f (.vals l) acc h = okR (acc ++ l.map g) h := by
  induction l generalizing acc with
  | nil => rw [mapAll]; runs [List.map_nil]
  | cons v l ih =>
    rw [mapAll]
    runs [hf v (List.mem_cons_self), ih _ fun w hw => hf w (List.mem_cons_of_mem _ hw), List.map_cons]

theorem mapAll_list (P : Program) {f : V} {g : V → V} {h : Heap} {a : Nat} {l : List V} (ha : h[a]? = some (.list l))
    (hf : ∀ v ∈ l, call P cfg f [v] h = okR (g v) h) (i : Nat) (acc : List V) :
    mapAll P cfg f (.list a i) acc h = okR (acc ++ (l.drop i).map g) h := by
  by_cases hi : i < l.length
  · have : l.length - (i + 1) < l.length - i := by omega
    rw [mapAll]
    runs [ha, List.getElem?_eq_getElem hi, hf _ (List.getElem_mem hi)]
    rw [mapAll_list P ha hf (i + 1), ← List.getElem_cons_drop hi]
    simp only [List.append_assoc, List.cons_append, List.nil_append, List.map_cons]
  · rw [mapAll]
    runs [ha, List.getElem?_eq_none (Nat.le_of_not_lt hi)]
    rw [List.drop_eq_nil_of_le (Nat.le_of_not_lt hi), List.map_nil, List.append_nil]
termination_by l.length - i

/-- `map(ord, text)`. -/
@[src] theorem map_ord (P : Program) (s : Str) (h : Heap) :
    mapAll P cfg (.builtin "ord") (.vals (s.map fun c => V.str [c])) [] h = okR (s.map fun c : Nat => V.int c) h := by
  rw [mapAll_vals (g := fun v => match v with | .str [c] => .int c | v => v)]
  · simp only [List.map_map, List.nil_append]; rfl
  · intro v hv
    obtain ⟨c, _, rfl⟩ := List.mem_map.1 hv
    runs

/-- `map(chr, numbers)`. -/
theorem map_chr (P : Program) {a : Nat} {l : List Nat} {h : Heap} (ha : h[a]? = some (.list (l.map fun c : Nat => V.int c)))
    (hl : ∀ c ∈ l, c ≤ 0x10FFFF) : mapAll P cfg (.builtin "chr") (.list a 0) [] h = okR (l.map fun c => V.str [c]) h := by
  rw [mapAll_list P (g := fun v => match v with | .int n => .str [n.toNat] | v => v) ha]
  · simp only [List.drop_zero, List.map_map, List.nil_append]; rfl
  · intro v hv
    obtain ⟨c, hc, rfl⟩ := List.mem_map.1 hv
    rw [call]
    runs
    exact chr_small (hl c hc) h

/-- The numbers from `k`, `m` of them. -/
def idx (k m : Nat) : List V := (List.range m).map fun i : Nat => V.int ((k + i : Nat) : Int)

@[src] theorem idx_zero (k : Nat) : idx k 0 = [] := rfl
@[src] theorem idx_succ (k m : Nat) : idx k (m + 1) = .int k :: idx (k + 1) m := by
  rw [idx, List.range_succ_eq_map, List.map_cons, List.map_map, idx]
  congr 1
  apply List.map_congr_left
  intro i _
  simp only [Function.comp_apply, V.int.injEq]
  omega

@[src] theorem range_one (n : Nat) :
    ((List.range ((n : Int) - 1).toNat).map fun i : Nat => V.int (1 + (i : Int))) = idx 1 (n - 1) := by
  rw [idx, show ((n : Int) - 1).toNat = n - 1 by omega]
  apply List.map_congr_left
  intro i _
  simp

@[src] theorem range_zero (n : Nat) : ((List.range (n : Int).toNat).map fun i : Nat => V.int (i : Int)) = idx 0 n := by
  rw [idx, Int.toNat_natCast]
  apply List.map_congr_left
  intro i _
  simp

@[src] theorem range_pred (n : Nat) :
    ((List.range ((n : Int) - 1).toNat).map fun i : Nat => V.int (i : Int)) = idx 0 (n - 1) := by
  rw [← range_zero, show ((n : Int) - 1).toNat = ((n - 1 : Nat) : Int).toNat by omega]

/-! ## Outcomes as in the model -/

end Libsnmp.Src
