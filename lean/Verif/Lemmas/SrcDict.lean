import Verif.Lemmas.SrcMgr
import Verif.Lemmas.Dict
import Verif.Lemmas.SrcEq

/-!
# The dictionary of callbacks
-/

namespace Libsnmp.Src
open Libsnmp

variable {cfg : Cfg} {nm : Names}

/-- The entries in the heap are those of the model. -/
def Entries (nm : Names) (h : Heap) : Dict → List (V × V) → Prop :=
  List.Forall₂ (fun p e => Rep 9 h p.1 e.1 ∧ e.2 = nm.fn p.2)

/-- No key twice. -/
def Once (d : Dict) : Prop := d.Pairwise fun p p' => sameKey p.1 p'.1 = false

/-- The place of a key. -/
def place? (d : Dict) (k : Val) : Option Nat := d.findIdx? fun p => sameKey p.1 k

theorem numeric_cons {p : Val × Nat} {d : Dict} (h : Dict.Numeric (p :: d)) : (∃ n, keyNum p.1 = some n) ∧ Dict.Numeric d :=
  ⟨Option.isSome_iff_exists.mp (h p List.mem_cons_self), fun q hq => h q (List.mem_cons_of_mem _ hq)⟩

/-- If the first key is `k`, no other is. -/
theorem once_rest {p : Val × Nat} {d : Dict} (hn : Dict.Numeric (p :: d)) (ho : Once (p :: d)) {k : Val} {n : Int}
    (hk : keyNum k = some n) (hp : sameKey p.1 k = true) : ∀ q ∈ d, sameKey q.1 k = false := by
  obtain ⟨⟨m, hm⟩, hd⟩ := numeric_cons hn
  rw [sameKey_num hm hk, decide_eq_true_eq] at hp
  subst hp
  intro q hq
  obtain ⟨l, hl⟩ := Option.isSome_iff_exists.mp (hd q hq)
  have h1 := (List.pairwise_cons.mp ho).1 q hq
  rw [sameKey_num hm hl, decide_eq_false_iff_not] at h1
  rw [sameKey_num hl hk, decide_eq_false_iff_not]
  exact fun h => h1 h.symm

theorem hash_num {k : Val} {n : Int} (hk : keyNum k = some n) : ∃ x, objHash k = .ok x := ⟨_, objHash_num hk⟩

theorem put_place {d : Dict} (hn : d.Numeric) (ho : Once d) {k : Val} {n : Int} (hk : keyNum k = some n) (v : Nat) :
    d.put k v = .ok (match place? d k with
      | some i => d.modify i fun p => (p.1, v)
      | none => d ++ [(k, v)]) := by
  obtain ⟨x, hx⟩ := hash_num hk
  unfold Dict.put place?
  rw [hx]
  dsimp only
  congr 1
  induction d with
  | nil => rfl
  | cons p d ih =>
    have hd := (numeric_cons hn).2
    have ho' := (List.pairwise_cons.mp ho).2
    rw [List.any_cons, List.findIdx?_cons]
    cases hp : sameKey p.1 k with
    | true =>
      have hr := once_rest hn ho hk hp
      have : d.map (fun p => if sameKey p.1 k then (p.1, v) else p) = d := by
        conv => rhs; rw [← List.map_id d]
        exact List.map_congr_left fun q hq => by rw [hr q hq]; rfl
      simp [hp, this]
    | false =>
      have := ih hd ho'
      rw [Bool.false_or]
      rw [← List.findIdx?_isSome] at this ⊢
      rw [List.map_cons, hp]
      cases hf : d.findIdx? fun p => sameKey p.1 k with
      | none => rfl
      | some i =>
        rw [hf] at this
        change List.map (fun p => if sameKey p.1 k = true then (p.1, v) else p) d = d.modify i fun p => (p.1, v) at this
        change p :: List.map (fun p => if sameKey p.1 k = true then (p.1, v) else p) d = p :: d.modify i fun p => (p.1, v)
        rw [this]

theorem del_place {d : Dict} (hn : d.Numeric) (ho : Once d) {k : Val} {n : Int} (hk : keyNum k = some n) :
    d.del k = match place? d k with
      | some i => .ok (d.eraseIdx i)
      | none => .error .keyError := by
  obtain ⟨x, hx⟩ := hash_num hk
  unfold Dict.del place?
  rw [hx]
  dsimp only
  induction d with
  | nil => rfl
  | cons p d ih =>
    have hd := (numeric_cons hn).2
    have ho' := (List.pairwise_cons.mp ho).2
    rw [List.any_cons, List.findIdx?_cons]
    cases hp : sameKey p.1 k with
    | true =>
      have hr := once_rest hn ho hk hp
      have : d.filter (fun p => !sameKey p.1 k) = d := by
        rw [List.filter_eq_self]
        intro q hq
        rw [hr q hq]; rfl
      simp [hp, this]
    | false =>
      have := ih hd ho'
      rw [Bool.false_or]
      rw [← List.findIdx?_isSome] at this ⊢
      rw [List.filter_cons, hp]
      cases hf : d.findIdx? fun p => sameKey p.1 k with
      | none => rfl
      | some i =>
        rw [hf] at this
        change (Except.ok (d.filter fun p => !sameKey p.1 k) : Except Exc Dict) = .ok (d.eraseIdx i) at this
        change (Except.ok (p :: d.filter fun p => !sameKey p.1 k) : Except Exc Dict) = .ok (p :: d.eraseIdx i)
        rw [Except.ok.inj this]

theorem get_place {d : Dict} {k : Val} {n : Int} (hk : keyNum k = some n) :
    d.get k = match (place? d k).bind fun i => d[i]? with
      | some p => .ok p.2
      | none => .error .keyError := by
  obtain ⟨x, hx⟩ := hash_num hk
  unfold Dict.get place?
  rw [hx]
  dsimp only
  have : (d.find? fun p => sameKey p.1 k) = (d.findIdx? fun p => sameKey p.1 k).bind fun i => d[i]? := by
    induction d with
    | nil => rfl
    | cons p d ih =>
      rw [List.find?_cons, List.findIdx?_cons]
      cases hp : sameKey p.1 k with
      | true => rfl
      | false =>
        simp only [ih]
        cases d.findIdx? fun p => sameKey p.1 k <;> simp
  rw [this]
  cases (d.findIdx? fun p => sameKey p.1 k).bind fun i => d[i]? <;> rfl

theorem Entries.get {h : Heap} {d : Dict} {es : List (V × V)} (he : Entries nm h d es) (i : Nat) :
    es[i]?.map (·.2) = d[i]?.map fun p => nm.fn p.2 := by
  induction he generalizing i with
  | nil => rfl
  | cons hp _ ih =>
    cases i with
    | zero => simp [hp.2]
    | succ i => simpa using ih i

theorem Entries.modify {h : Heap} {d : Dict} {es : List (V × V)} (he : Entries nm h d es) (i : Nat) (v : Nat) :
    Entries nm h (d.modify i fun p => (p.1, v)) (es.modify i fun e => (e.1, nm.fn v)) := by
  induction he generalizing i with
  | nil => cases i <;> exact .nil
  | cons hp hr ih =>
    cases i with
    | zero => exact .cons ⟨hp.1, rfl⟩ hr
    | succ i => rw [List.modify_succ_cons, List.modify_succ_cons]; exact List.Forall₂.cons hp (ih i)

theorem Entries.erase {h : Heap} {d : Dict} {es : List (V × V)} (he : Entries nm h d es) (i : Nat) :
    Entries nm h (d.eraseIdx i) (es.eraseIdx i) := by
  induction he generalizing i with
  | nil => exact .nil
  | cons hp hr ih =>
    cases i with
    | zero => exact hr
    | succ i => exact .cons hp (ih i)

theorem Entries.app {h : Heap} {d : Dict} {es : List (V × V)} (he : Entries nm h d es) {k : Val} {x : V} (r : Rep 9 h k x) (v : Nat) :
    Entries nm h (d ++ [(k, v)]) (es ++ [(x, nm.fn v)]) := by
  induction he with
  | nil => exact .cons ⟨r, rfl⟩ .nil
  | cons hp hr ih => exact .cons hp ih

theorem modify_keys (d : Dict) (i v : Nat) : (d.modify i fun p => (p.1, v)).map (·.1) = d.map (·.1) := by
  induction d generalizing i with
  | nil => cases i <;> rfl
  | cons p d ih =>
    cases i with
    | zero => rfl
    | succ i => simpa using ih i

theorem once_map {d d' : Dict} (h : d'.map (·.1) = d.map (·.1)) (ho : Once d) : Once d' := by
  have h1 : (d.map (·.1)).Pairwise fun x y => sameKey x y = false := List.pairwise_map.mpr ho
  rw [← h] at h1
  exact List.pairwise_map.mp h1

/-- After `d[k] = v`. -/
theorem put_once {d d' : Dict} (hn : d.Numeric) (ho : Once d) {k : Val} {n : Int} (hk : keyNum k = some n) {v : Nat}
    (h : d.put k v = .ok d') : Once d' ∧ ∀ p ∈ d', p.1 = k ∨ ∃ p' ∈ d, p.1 = p'.1 := by
  rw [put_place hn ho hk] at h
  cases hp : place? d k with
  | some i =>
    rw [hp] at h
    cases h
    refine ⟨once_map (modify_keys d i v) ho, fun p hp => .inr ?_⟩
    have : p.1 ∈ (d.modify i fun p => (p.1, v)).map (·.1) := List.mem_map_of_mem hp
    rw [modify_keys] at this
    obtain ⟨p', h1, h2⟩ := List.mem_map.mp this
    exact ⟨p', h1, h2.symm⟩
  | none =>
    rw [hp] at h
    cases h
    rw [place?, List.findIdx?_eq_none_iff] at hp
    refine ⟨List.pairwise_append.mpr ⟨ho, List.pairwise_singleton _ _, fun a ha b hb => ?_⟩, fun p hp => ?_⟩
    · rw [List.mem_singleton.mp hb]; exact hp a ha
    · rcases List.mem_append.mp hp with hp | hp
      · exact .inr ⟨p, hp, rfl⟩
      · rw [List.mem_singleton.mp hp]; exact .inl rfl

/-! ## Keys that are numbers -/

theorem keyEq_int {h : Heap} {a : Int} {x : V} (r : Rep 9 h (.int a) x) (n : Int) : keyEq x (.int n) = sameKey (.int a) (.int n) := by
  rw [Rep] at r
  subst r
  rw [sameKey_num (m := a) (n := n) rfl rfl, keyEq]
  rfl

/-- All keys are numbers. -/
def Ints (d : Dict) : Prop := ∀ p ∈ d, ∃ n, p.1 = .int n

theorem Ints.numeric {d : Dict} (h : Ints d) : d.Numeric := fun p hp => by obtain ⟨n, e⟩ := h p hp; rw [e]; rfl

theorem Entries.setKey {h : Heap} {d : Dict} {es : List (V × V)} (he : Entries nm h d es) (hi : Ints d) (n : Int) (w : V) :
    Src.setKey es (.int n) w = match place? d (.int n) with
      | some i => es.modify i fun e => (e.1, w)
      | none => es ++ [(.int n, w)] := by
  unfold place?
  induction he with
  | nil => rfl
  | @cons p e d es hp hr ih =>
    obtain ⟨x, y⟩ := e
    obtain ⟨m, hm⟩ := hi p List.mem_cons_self
    have := ih fun q hq => hi q (List.mem_cons_of_mem _ hq)
    rw [hm] at hp
    rw [Src.setKey, keyEq_int hp.1, this, List.findIdx?_cons, hm]
    cases sameKey (.int m) (.int n) with
    | true => rfl
    | false => cases d.findIdx? fun p => sameKey p.1 (.int n) <;> rfl

theorem Entries.getKey {h : Heap} {d : Dict} {es : List (V × V)} (he : Entries nm h d es) (hi : Ints d) (n : Int) :
    Src.getKey es (.int n) = ((place? d (.int n)).bind fun i => d[i]?).map fun p => nm.fn p.2 := by
  unfold place?
  induction he with
  | nil => rfl
  | @cons p e d es hp hr ih =>
    obtain ⟨m, hm⟩ := hi p List.mem_cons_self
    have := ih fun q hq => hi q (List.mem_cons_of_mem _ hq)
    unfold Src.getKey at this ⊢
    rw [List.find?_cons, List.findIdx?_cons, keyEq_int (hm ▸ hp.1), hm]
    cases sameKey (.int m) (.int n) with
    | true => simp [hp.2]
    | false =>
      dsimp only
      rw [this]
      cases d.findIdx? fun p => sameKey p.1 (.int n) <;> simp

theorem filter_none {h : Heap} {d : Dict} {es : List (V × V)} (he : Entries nm h d es) (hi : Ints d) {n : Int}
    (hr : ∀ q ∈ d, sameKey q.1 (.int n) = false) : (es.filter fun p => !keyEq p.1 (.int n)) = es := by
  induction he with
  | nil => rfl
  | @cons p e d es hp _ ih =>
    obtain ⟨m, hm⟩ := hi p List.mem_cons_self
    rw [List.filter_cons, show keyEq e.1 (.int n) = sameKey p.1 (.int n) by rw [hm]; exact keyEq_int (hm ▸ hp.1) n,
      hr p List.mem_cons_self]
    simp only [Bool.not_false, if_true]
    rw [ih (fun q hq => hi q (List.mem_cons_of_mem _ hq)) fun q hq => hr q (List.mem_cons_of_mem _ hq)]

theorem Entries.filterKey {h : Heap} {d : Dict} {es : List (V × V)} (he : Entries nm h d es) (hi : Ints d) (ho : Once d) (n : Int) {i : Nat}
    (hp : place? d (.int n) = some i) : (es.filter fun p => !keyEq p.1 (.int n)) = es.eraseIdx i := by
  unfold place? at hp
  induction he generalizing i with
  | nil => cases hp
  | @cons p e d es hp' hr ih =>
    have hi' : Ints d := fun q hq => hi q (List.mem_cons_of_mem _ hq)
    obtain ⟨m, hm⟩ := hi p List.mem_cons_self
    have hke : keyEq e.1 (.int n) = sameKey p.1 (.int n) := by rw [hm]; exact keyEq_int (hm ▸ hp'.1) n
    rw [List.findIdx?_cons] at hp
    rw [List.filter_cons, hke]
    cases hs : sameKey p.1 (.int n) with
    | true =>
      rw [hs] at hp
      cases hp
      have hr' := once_rest hi.numeric ho (k := .int n) rfl hs
      rw [List.eraseIdx_zero]
      simp only [Bool.not_true, Bool.false_eq_true, if_false]
      exact filter_none hr hi' hr'
    | false =>
      rw [hs] at hp
      simp only [Bool.not_false, if_true]
      cases hf : d.findIdx? fun p => sameKey p.1 (.int n) with
      | none => rw [hf] at hp; cases hp
      | some j =>
        rw [hf] at hp
        cases hp
        rw [List.eraseIdx_cons_succ, ih hi' (List.pairwise_cons.mp ho).2 hf]

/-! ## Keys that are Integer objects -/

/-- All keys are Integer objects. -/
def Objs (d : Dict) : Prop := ∀ p ∈ d, ∃ c n, p.1 = .integer c n

theorem Objs.numeric {d : Dict} (h : Objs d) : d.Numeric := fun p hp => by obtain ⟨c, n, e⟩ := h p hp; rw [e]; rfl

theorem run_hashOf {h : Heap} {c : IntCls} {n : Int} {x : V} (r : Rep 9 h (.integer c n) x) :
    hashOf program cfg x h = okR (intHash n) h := by
  rw [Rep] at r
  obtain ⟨a, attrs, rfl, hlo, ha, hp, hv⟩ := r
  have hm : program.attr (cid (.int c)) "__hash__" = some (.func .rfc1155 354) := by cases c <;> rfl
  rw [hashOf]
  simp only [kind, ha, hm]
  rw [call_rfc1155_354]
  runs [rfc1155_354, ha, hv]

theorem identical_int {h : Heap} {c c' : IntCls} {n n' : Int} {x x' : V} (r : Rep 9 h (.integer c n) x) (r' : Rep 9 h (.integer c' n') x')
    (hi : identical x x' = some true) : n = n' := by
  rw [Rep] at r
  rw [Rep] at r'
  obtain ⟨a, attrs, rfl, hlo, ha, hp, hv⟩ := r
  obtain ⟨a', attrs', rfl, hlo', ha', hp', hv'⟩ := r'
  simp only [identical, Option.some.injEq, beq_iff_eq] at hi
  subst hi
  rw [ha] at ha'
  rw [(Cell.inst.inj (Option.some.inj ha')).2] at hv
  rw [hv] at hv'
  cases hv'
  rfl

theorem run_findFrom {h : Heap} {d : Dict} {es : List (V × V)} (he : Entries nm h d es) (ho : Objs d) {c : IntCls} {n : Int} {x : V}
    (r : Rep 9 h (.integer c n) x) (m : Nat) :
    findFrom program cfg es m x (intHash n) h = okR ((place? d (.integer c n)).map (· + m)) h := by
  unfold place?
  induction he generalizing m with
  | nil => rw [findFrom]; rfl
  | @cons p e d es hp hr ih =>
    obtain ⟨c', n', hc⟩ := ho p List.mem_cons_self
    have ih := fun m => ih (fun q hq => ho q (List.mem_cons_of_mem _ hq)) m
    have hs : sameKey p.1 (.integer c n) = decide (n' = n) := by rw [hc]; exact sameKey_num rfl rfl
    have rp : Rep 9 h (.integer c' n') e.1 := hc ▸ hp.1
    rw [List.findIdx?_cons, hs, findFrom]
    by_cases hid : identical e.1 x = some true
    · rw [if_pos hid, identical_int rp r hid]
      simp
    · rw [if_neg hid, run_hashOf rp, bindR_ok, run_equal (cfg := cfg) _ _ _ (Nat.le_refl _) rp r trivial trivial, pyEq_num (m := n') (n := n) rfl rfl]
      by_cases hn : n' = n
      · subst hn
        simp only [if_true, outR, decide_true]
        runs
      · simp only [hn, decide_false, outR]
        have e2 : (d.findIdx? (fun p => sameKey p.1 (.integer c n))).map (· + (m + 1)) =
            ((d.findIdx? (fun p => sameKey p.1 (.integer c n))).map (· + 1)).map (· + m) := by
          cases d.findIdx? fun p => sameKey p.1 (.integer c n) with
          | none => rfl
          | some i => simp only [Option.map_some]; congr 1; omega
        split
        · runs
          rw [ih, e2]
        · rw [ih, e2]; rfl

theorem run_findKey {h : Heap} {d : Dict} {es : List (V × V)} (he : Entries nm h d es) (ho : Objs d) {c : IntCls} {n : Int} {x : V}
    (r : Rep 9 h (.integer c n) x) : findKey program cfg es x h = okR (place? d (.integer c n)) h := by
  rw [findKey, run_hashOf r, bindR_ok, run_findFrom he ho r]
  cases place? d (.integer c n) <;> rfl

end Libsnmp.Src
