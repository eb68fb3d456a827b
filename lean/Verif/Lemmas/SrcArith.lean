import Verif.Lemmas.SrcEq
import Verif.Spec.SourceOps

/-!
# Running the constructors and the arithmetic of Integers
-/

namespace Libsnmp.Src
open Libsnmp

variable {cfg : Cfg}

theorem run_intInit_bad {lo : Nat} {h : Heap} {a : Nat} {c : IntCls} {attrs : List (String × V)}
    (ha : h[a]? = some (.inst (cid (.int c)) attrs)) (hp : Plain attrs) {v : Val} {y : V} (r : Rep lo h v y) (hv : ∀ n, v ≠ .int n) :
    call program cfg (.func .rfc1155 297) [.ref a, y] h = excR (.exc "TypeError" []) h := by
  have h1 := hp.none (a := "MINVAL")
  have h2 := r.cell
  rw [call_rfc1155_297]
  cases hc : v.cls? with
  | none =>
    rw [hc] at h2
    rcases h2 with ⟨_, rfl⟩ | ⟨n, k, _⟩ | ⟨s, _, rfl⟩
    · runs [rfc1155_297, ha, h1, attr_minVal]
    · exact absurd k (hv n)
    · runs [rfc1155_297, ha, h1, attr_minVal]
  | some d =>
    rw [hc] at h2
    obtain ⟨b, attrs', rfl, hb, _⟩ := h2
    runs [rfc1155_297, ha, h1, attr_minVal, hb]

theorem run_newIntV (hc : Limits cfg) {lo : Nat} {h : Heap} (hb : Base h) (c : IntCls) {v : Val} {y : V} (r : Rep lo h v y) :
    NewOr h.length h (call program cfg (.cls (cid (.int c))) [y] h) (newInt c v) := by
  by_cases hv : ∃ n, v = .int n
  · obtain ⟨n, rfl⟩ := hv
    rw [Rep] at r
    subst r
    unfold newInt mkInteger NewOr
    by_cases hne : c = .errorStatus2
    · subst hne
      have h1 := run_newStatus hc hb n
      split at h1
      · next hr =>
        obtain ⟨h', e, hl, hk, -⟩ := h1
        simp only [if_pos hr]
        refine ⟨_, _, e, hk.app' _ (by omega), ?_⟩
        rw [Rep]
        exact ⟨h'.length, _, rfl, by omega, get_app _ _, plain _, rfl⟩
      · next hr =>
        obtain ⟨args, h', e, hk, -⟩ := h1
        simp only [if_neg hr]
        exact ⟨h', args, e, hk⟩
    · have h1 := run_newInt (cfg := cfg) hc hne n h
      split at h1
      · next hr =>
        simp only [if_pos hr]
        refine ⟨_, _, h1, Kept.app hb _, ?_⟩
        rw [Rep]
        exact ⟨h.length, _, rfl, Nat.le_refl _, get_app _ _, plain _, rfl⟩
      · next hr =>
        obtain ⟨args, h1⟩ := h1
        simp only [if_neg hr]
        exact ⟨_, args, h1, Kept.app hb _⟩
  · have hv' : ∀ n, v ≠ .int n := fun n k => hv ⟨n, k⟩
    have hn : newInt c v = .error .typeError := by
      unfold newInt
      split
      · exact absurd rfl (hv' _)
      · rfl
    rw [hn, NewOr]
    have h1 := run_intInit_bad (cfg := cfg) (get_app h [.inst (cid (.int c)) []]) (plain _)
      (r.app [.inst (cid (.int c)) []]) hv'
    refine ⟨h ++ [.inst (cid (.int c)) []], [], ?_, Kept.app hb _⟩
    rw [call_cls]
    have hcase : initOf (.int c) = (.rfc1155, 297) ∨ initOf (.int c) = (.rfc1155, 1047) ∨ initOf (.int c) = (.rfc1905, 68) := by
      cases c <;> first | exact .inl rfl | exact .inr (.inl rfl) | exact .inr (.inr rfl)
    rcases hcase with hcase | hcase | hcase <;> rw [hcase] <;> dsimp only
    · runs [h1, excName]
    · rw [call_rfc1155_1047_2]
      runs [rfc1155_1047, ↓h1, excName]
    · rw [call_rfc1905_68]
      runs [rfc1905_68, ↓h1, excName]

theorem newIntV_ok {c : IntCls} {v w : Val} (h : newInt c v = .ok w) : ∃ n, v = .int n ∧ w = .integer c n ∧ coerceOperand c v = .ok n := by
  unfold newInt at h
  split at h
  · unfold mkInteger at h
    split at h
    · next hr =>
      injection h with h
      exact ⟨_, rfl, h.symm, by simp [coerceOperand, mkInteger, hr]⟩
    · cases h
  · cases h

theorem newIntV_error {c : IntCls} {v : Val} {e : Exc} (h : newInt c v = .error e) (hv : v.isInstance (.int c) = false) :
    coerceOperand c v = .error e := by
  unfold newInt at h
  split at h
  · rw [coerceOperand, h]
  · injection h with h
    subst h
    unfold coerceOperand
    split
    · rw [Val.isInstance, Val.cls?] at hv
      simp [hv]
    · rename_i k; exact absurd rfl (k _)
    · rfl

/-- `Integer.__add__` and `Integer.__sub__`, which are the same. -/
theorem run_intAdd (hc : Limits cfg) {lo : Nat} {h : Heap} (hb : Base h) (h9 : 9 ≤ lo) (hlo : lo ≤ h.length) {a : Nat} {c : IntCls}
    {n : Int} (r : Rep lo h (.integer c n) (.ref a)) {v : Val} {y : V} (s : Rep lo h v y) (l : Nat) (hl : l = 341 ∨ l = 349) :
    Computes lo h a c (call program cfg (.func .rfc1155 l) [.ref a, y] h) (integerAdd c n v) := by
  have hi := run_isInst s (.int c)
  have r0 := r
  rw [Rep] at r
  obtain ⟨a', attrs, e, hla, ha, hp, hv⟩ := r
  injection e with e
  subst e
  have hcl := hp.none (a := "__class__")
  have last : ∀ (h' : Heap) (hk : Kept h.length h h') (w : Int), coerceOperand c v = .ok w → ∀ r,
      (∀ x h'', call program cfg (.cls (cid (.int c))) [.int (n + w)] h' = okR x h'' → r = okR x h'') →
      (∀ x h'', call program cfg (.cls (cid (.int c))) [.int (n + w)] h' = excR x h'' → r = excR x h'') →
      Computes lo h a c r (integerAdd c n v) := by
    intro h' hk w hw r hok hex
    have h1 := run_newIntV (cfg := cfg) hc hk.base c (lo := lo) (v := .int (n + w)) (y := .int (n + w)) (by rw [Rep])
    rw [integerAdd, hw]
    have hlen := hk.len
    cases hm : mkInteger c (n + w) with
    | ok u =>
      rw [newInt, hm] at h1
      obtain ⟨h'', x, e, hk', rx⟩ := h1
      refine ⟨h'', hk'.base, fun b hb9 hbl _ => ?_, ?_, ?_⟩
      · rw [hk'.same b hb9 (by omega), hk.same b hb9 hbl]
      · exact r0.kept (hk.trans (hk'.mono hlen)) (Nat.le_refl _) h9 (Nat.le_refl _)
      · simp only [hm]; exact ⟨x, hok _ _ e, Rep.congr (by omega) (fun _ _ _ k => k) _ _ rx⟩
    | error k =>
      rw [newInt, hm] at h1
      obtain ⟨h'', args, e, hk'⟩ := h1
      refine ⟨h'', hk'.base, fun b hb9 hbl _ => ?_, ?_, ?_⟩
      · rw [hk'.same b hb9 (by omega), hk.same b hb9 hbl]
      · exact r0.kept (hk.trans (hk'.mono hlen)) (Nat.le_refl _) h9 (Nat.le_refl _)
      · simp only [hm]; exact ⟨args, hex _ _ e⟩
  have hla' := lt_of_get ha
  cases hin : v.isInstance (.int c) with
  | true =>
    rw [hin] at hi
    have : ∃ d w, v = .integer d w ∧ (Cls.int d).isSubclass (.int c) = true := by
      cases v with
      | integer d w => exact ⟨d, w, rfl, hin⟩
      | _ => rw [isInstance_family (by simp) (by rintro _ ⟨⟩ <;> simp [family])] at hin; cases hin
    obtain ⟨d, w, rfl, hd⟩ := this
    rw [Rep] at s
    obtain ⟨b, attrs', rfl, hlb, hb', hp', hv'⟩ := s
    refine last h (Kept.refl hb _) w (by rw [coerceOperand, if_pos hd]) _ ?_ ?_ <;> intro x h'' e <;> rcases hl with rfl | rfl
    · rw [call_rfc1155_341]; runs [rfc1155_341, ha, hv, hcl, ↓hi, hb', hv', ↓e]
    · rw [call_rfc1155_349]; runs [rfc1155_349, ha, hv, hcl, ↓hi, hb', hv', ↓e]
    · rw [call_rfc1155_341]; runs [rfc1155_341, ha, hv, hcl, ↓hi, hb', hv', ↓e]
    · rw [call_rfc1155_349]; runs [rfc1155_349, ha, hv, hcl, ↓hi, hb', hv', ↓e]
  | false =>
    rw [hin] at hi
    have h1 := run_newIntV (cfg := cfg) hc hb c s
    cases hm : newInt c v with
    | error k =>
      rw [hm] at h1
      obtain ⟨h', args, e, hk⟩ := h1
      rw [integerAdd, newIntV_error hm hin]
      refine ⟨h', hk.base, fun b hb9 hbl _ => hk.same b hb9 hbl, r0.kept hk (Nat.le_refl _) h9 (Nat.le_refl _), args, ?_⟩
      rcases hl with rfl | rfl
      · rw [call_rfc1155_341]; runs [rfc1155_341, ha, hv, hcl, ↓hi, ↓e]
      · rw [call_rfc1155_349]; runs [rfc1155_349, ha, hv, hcl, ↓hi, ↓e]
    | ok u =>
      rw [hm] at h1
      obtain ⟨h', x, e, hk, rx⟩ := h1
      obtain ⟨w, rfl, rfl, hw⟩ := newIntV_ok hm
      rw [Rep] at rx
      obtain ⟨b, attrs', rfl, hlb, hb', hp', hv'⟩ := rx
      have ha' := hk.get ha (by omega) hla'
      refine last h' hk w hw _ ?_ ?_ <;> intro x h'' e' <;> rcases hl with rfl | rfl
      · rw [call_rfc1155_341]; runs [rfc1155_341, ha, ha', hv, hcl, ↓hi, ↓e, hb', hv', ↓e']
      · rw [call_rfc1155_349]; runs [rfc1155_349, ha, ha', hv, hcl, ↓hi, ↓e, hb', hv', ↓e']
      · rw [call_rfc1155_341]; runs [rfc1155_341, ha, ha', hv, hcl, ↓hi, ↓e, hb', hv', ↓e']
      · rw [call_rfc1155_349]; runs [rfc1155_349, ha, ha', hv, hcl, ↓hi, ↓e, hb', hv', ↓e']

/-- The object gets another number. -/
theorem Computes.set {lo : Nat} {h : Heap} (hb : Base h) (h9 : 9 ≤ lo) {a : Nat} {c : IntCls} {attrs : List (String × V)} (hla : lo ≤ a)
    (ha : h[a]? = some (.inst (cid (.int c)) attrs)) (hp : Plain attrs) {r : R V} (n : Int)
    (hr : r = okR .none (h.set a (.inst (cid (.int c)) (setAssoc attrs "value" (.int n))))) :
    Computes lo h a c r ⟨n, .ok .none⟩ := by
  have hlt := lt_of_get ha
  refine ⟨_, (Kept.set hb (by omega) (Nat.le_refl a) _).base, fun b _ _ hne => List.getElem?_set_ne (by omega), ?_, _, hr, by rw [Rep]⟩
  rw [Rep]
  exact ⟨a, _, rfl, hla, by rw [List.getElem?_set_self hlt], plain_set hp _, lookup_setAssoc _ _ _⟩

theorem Computes.bad {lo : Nat} {h : Heap} (hb : Base h) {a : Nat} {c : IntCls} {n : Int} (r0 : Rep lo h (.integer c n) (.ref a))
    {r : R V} (hr : r = excR (.exc "TypeError" []) h) : Computes lo h a c r ⟨n, .error .typeError⟩ :=
  ⟨h, hb, fun _ _ _ _ => rfl, r0, _, hr⟩

/-- A number `+` or `-` anything but a number. -/
theorem binop_bad {lo : Nat} {h : Heap} {v : Val} {y : V} (s : Rep lo h v y) (hv : ∀ n, v ≠ .int n) (n : Int) (op : BinOp) :
    binop program cfg op (.int n) y h = excR (.exc "TypeError" []) h := by
  have h2 := s.cell
  cases hc : v.cls? with
  | none =>
    rw [hc] at h2
    rcases h2 with ⟨_, rfl⟩ | ⟨n, k, _⟩ | ⟨s, _, rfl⟩
    · runs
    · exact absurd k (hv n)
    · runs
  | some d =>
    rw [hc] at h2
    obtain ⟨b, attrs', rfl, hb, _⟩ := h2
    runs [hb]

theorem run_counterAdd {lo : Nat} {h : Heap} (hb : Base h) (h9 : 9 ≤ lo) {a : Nat} {c : IntCls}
    {n : Int} (r : Rep lo h (.integer c n) (.ref a)) {v : Val} {y : V} (s : Rep lo h v y) :
    Computes lo h a c (call program cfg (.func .rfc1155 964) [.ref a, y] h) (counterAdd c n v) := by
  have r0 := r
  rw [Rep] at r
  obtain ⟨a', attrs, e, hla, ha, hp, hv⟩ := r
  injection e with e
  subst e
  have he := isExc_cid (.int c)
  have hmax := hp.none (a := "MAXVAL")
  rw [call_rfc1155_964]
  by_cases hi : ∃ k, v = .int k
  · obtain ⟨k, rfl⟩ := hi
    rw [Rep] at s
    subst s
    rw [counterAdd]
    split
    · next hgt =>
      refine Computes.set hb h9 hla ha hp _ ?_
      runs [rfc1155_964, ha, hv, hmax, attr_maxVal, he, show c.maxVal < n + k from hgt]
    · next hle =>
      refine Computes.set hb h9 hla ha hp _ ?_
      runs [rfc1155_964, ha, hv, hmax, attr_maxVal, he, show ¬ c.maxVal < n + k from hle]
  · have hi' : ∀ k, v ≠ .int k := fun k e => hi ⟨k, e⟩
    have hbad := binop_bad (cfg := cfg) s hi' n .add
    rw [show counterAdd c n v = ⟨n, .error .typeError⟩ by
      unfold counterAdd; split
      · exact absurd rfl (hi' _)
      · rfl]
    refine Computes.bad hb r0 ?_
    runs [rfc1155_964, ha, hv, ↓hbad]

theorem run_guageAdd {lo : Nat} {h : Heap} (hb : Base h) (h9 : 9 ≤ lo) {a : Nat} {c : IntCls}
    {n : Int} (r : Rep lo h (.integer c n) (.ref a)) {v : Val} {y : V} (s : Rep lo h v y) :
    Computes lo h a c (call program cfg (.func .rfc1155 1008) [.ref a, y] h) (guageAdd c n v) := by
  have r0 := r
  rw [Rep] at r
  obtain ⟨a', attrs, e, hla, ha, hp, hv⟩ := r
  injection e with e
  subst e
  have he := isExc_cid (.int c)
  have hcl := hp.none (a := "__class__")
  rw [call_rfc1155_1008]
  by_cases hi : ∃ k, v = .int k
  · obtain ⟨k, rfl⟩ := hi
    rw [Rep] at s
    subst s
    rw [guageAdd]
    split
    · next hgt =>
      refine Computes.set hb h9 hla ha hp _ ?_
      runs [rfc1155_1008, ha, hv, hcl, attr_maxVal, he, show c.maxVal < n + k from hgt]
    · next hle =>
      refine Computes.set hb h9 hla ha hp _ ?_
      runs [rfc1155_1008, ha, hv, hcl, attr_maxVal, he, show ¬ c.maxVal < n + k from hle]
  · have hi' : ∀ k, v ≠ .int k := fun k e => hi ⟨k, e⟩
    have hbad := binop_bad (cfg := cfg) s hi' n .add
    rw [show guageAdd c n v = ⟨n, .error .typeError⟩ by
      unfold guageAdd; split
      · exact absurd rfl (hi' _)
      · rfl]
    refine Computes.bad hb r0 ?_
    runs [rfc1155_1008, ha, hv, ↓hbad]

theorem run_guageSub {lo : Nat} {h : Heap} (hb : Base h) (h9 : 9 ≤ lo) {a : Nat} {c : IntCls}
    {n : Int} (r : Rep lo h (.integer c n) (.ref a)) {v : Val} {y : V} (s : Rep lo h v y) :
    Computes lo h a c (call program cfg (.func .rfc1155 1019) [.ref a, y] h) (guageSub c n v) := by
  have r0 := r
  rw [Rep] at r
  obtain ⟨a', attrs, e, hla, ha, hp, hv⟩ := r
  injection e with e
  subst e
  have he := isExc_cid (.int c)
  have hmin := hp.none (a := "MINVAL")
  rw [call_rfc1155_1019]
  by_cases hi : ∃ k, v = .int k
  · obtain ⟨k, rfl⟩ := hi
    rw [Rep] at s
    subst s
    rw [guageSub]
    split
    · next hgt =>
      refine Computes.set hb h9 hla ha hp _ ?_
      runs [rfc1155_1019, ha, hv, hmin, attr_minVal, he, hgt]
    · next hle =>
      refine Computes.set hb h9 hla ha hp _ ?_
      runs [rfc1155_1019, ha, hv, hmin, attr_minVal, he, hle]
  · have hi' : ∀ k, v ≠ .int k := fun k e => hi ⟨k, e⟩
    have hbad := binop_bad (cfg := cfg) s hi' n .sub
    rw [show guageSub c n v = ⟨n, .error .typeError⟩ by
      unfold guageSub; split
      · exact absurd rfl (hi' _)
      · rfl]
    refine Computes.bad hb r0 ?_
    runs [rfc1155_1019, ha, hv, ↓hbad]

theorem attr_add (c : IntCls) : program.attr (cid (.int c)) "__add__" = some (.func .rfc1155
    (if (Cls.int c).isSubclass (.int .counter) then 964 else if (Cls.int c).isSubclass (.int .guage) then 1008 else 341)) := by
  cases c <;> rfl
theorem attr_sub (c : IntCls) : program.attr (cid (.int c)) "__sub__" = some (.func .rfc1155
    (if (Cls.int c).isSubclass (.int .guage) then 1019 else 349)) := by
  cases c <;> rfl

/-- `x + y`. -/
theorem run_add (hc : Limits cfg) {lo : Nat} {h : Heap} (hb : Base h) (h9 : 9 ≤ lo) (hlo : lo ≤ h.length) {a : Nat} {c : IntCls}
    {n : Int} (r : Rep lo h (.integer c n) (.ref a)) {v : Val} {y : V} (s : Rep lo h v y) :
    Computes lo h a c (binop program cfg .add (.ref a) y h) (pyAdd c n v) := by
  obtain ⟨a', attrs, e, ha, hp⟩ := r.cell
  injection e with e
  subst e
  have h1 := attr_add c
  unfold pyAdd
  split
  · next hs =>
    rw [if_pos hs] at h1
    have := run_counterAdd (cfg := cfg) hb h9 r s
    runs [ha, h1]
    exact this
  · next hs =>
    rw [if_neg hs] at h1
    split
    · next hs =>
      rw [if_pos hs] at h1
      have := run_guageAdd (cfg := cfg) hb h9 r s
      runs [ha, h1]
      exact this
    · next hs =>
      rw [if_neg hs] at h1
      have := run_intAdd (cfg := cfg) hc hb h9 hlo r s 341 (.inl rfl)
      runs [ha, h1]
      exact this

/-- `x - y`. -/
theorem run_sub (hc : Limits cfg) {lo : Nat} {h : Heap} (hb : Base h) (h9 : 9 ≤ lo) (hlo : lo ≤ h.length) {a : Nat} {c : IntCls}
    {n : Int} (r : Rep lo h (.integer c n) (.ref a)) {v : Val} {y : V} (s : Rep lo h v y) :
    Computes lo h a c (binop program cfg .sub (.ref a) y h) (pySub c n v) := by
  obtain ⟨a', attrs, e, ha, hp⟩ := r.cell
  injection e with e
  subst e
  have h1 := attr_sub c
  unfold pySub
  split
  · next hs =>
    rw [if_pos hs] at h1
    have := run_guageSub (cfg := cfg) hb h9 r s
    runs [ha, h1]
    exact this
  · next hs =>
    rw [if_neg hs] at h1
    have := run_intAdd (cfg := cfg) hc hb h9 hlo r s 349 (.inr rfl)
    runs [ha, h1]
    exact this

end Libsnmp.Src
