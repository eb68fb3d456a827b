import Verif.Lemmas.SrcEnc
import Verif.Lemmas.Text
import Verif.Model.Eq

/-!
# Running `==` and `!=`
-/

namespace Libsnmp.Src
open Libsnmp

variable {cfg : Cfg}

@[src] theorem eq_int (c : IntCls) : program.attr (cid (.int c)) "__eq__" = some (.func .rfc1155 331) := by cases c <;> rfl
@[src] theorem eq_oct (c : OctCls) : program.attr (cid (.oct c)) "__eq__" = some (.func .rfc1155 262) := by cases c <;> rfl
@[src] theorem eq_null (c : NullCls) : program.attr (cid (.null c)) "__eq__" = some (.func .rfc1155 262) := by cases c <;> rfl
@[src] theorem eq_oid : program.attr (cid .oid) "__eq__" = some (.func .rfc1155 262) := rfl
@[src] theorem eq_seq (c : SeqCls) : program.attr (cid (.seq c)) "__eq__" = some (.func .rfc1155 262) := by cases c <;> rfl
@[src] theorem attr_ne (c : Cls) : program.attr (cid c) "__ne__" = some (.func .rfc1155 274) := by all_classes c
theorem value_null (c : NullCls) : program.attr (cid (.null c)) "value" = some .none := by cases c <;> rfl

/-! ## One object is one value -/

theorem Rep.cell {lo : Nat} {h : Heap} {v : Val} {x : V} (r : Rep lo h v x) :
    match v.cls? with
    | some c => ∃ a attrs, x = .ref a ∧ h[a]? = some (.inst (cid c) attrs) ∧ Plain attrs
    | none => (v = .none ∧ x = .none) ∨ (∃ n, v = .int n ∧ x = .int n) ∨ ∃ s, v = .str s ∧ x = .str s := by
  match v, r with
  | .none, r => rw [Rep] at r; exact .inl ⟨rfl, r⟩
  | .int n, r => rw [Rep] at r; exact .inr (.inl ⟨n, rfl, r⟩)
  | .str s, r => rw [Rep] at r; exact .inr (.inr ⟨s, rfl, r⟩)
  | .bytes _, r => rw [Rep] at r; exact r.elim
  | .raw _ _, r => rw [Rep] at r; exact r.elim
  | .integer c n, r =>
    rw [Rep] at r
    obtain ⟨a, attrs, rfl, hl, ha, hp, _⟩ := r
    exact ⟨_, _, rfl, ha, hp⟩
  | .octets c n, r =>
    rw [Rep] at r
    obtain ⟨a, attrs, rfl, hl, ha, hp, _⟩ := r
    exact ⟨_, _, rfl, ha, hp⟩
  | .null c, r =>
    rw [Rep] at r
    obtain ⟨a, attrs, rfl, hl, ha, hp, _⟩ := r
    exact ⟨_, _, rfl, ha, hp⟩
  | .oid none, r =>
    rw [Rep] at r
    obtain ⟨a, attrs, rfl, hl, ha, hp, _⟩ := r
    exact ⟨_, _, rfl, ha, hp⟩
  | .oid (some ids), r =>
    rw [Rep] at r
    obtain ⟨a, attrs, b, rfl, hl, ha, hp, _⟩ := r
    exact ⟨_, _, rfl, ha, hp⟩
  | .seq c items, r =>
    rw [Rep] at r
    obtain ⟨a, attrs, b, l, rfl, hl, ha, hp, _⟩ := r
    exact ⟨_, _, rfl, ha, hp⟩

theorem Rep.sameCls {lo : Nat} {h : Heap} {v w : Val} {x : V} (r : Rep lo h v x) (s : Rep lo h w x) : v.cls? = w.cls? := by
  have h1 := r.cell
  have h2 := s.cell
  cases hv : v.cls? <;> cases hw : w.cls? <;> rw [hv] at h1 <;> rw [hw] at h2 <;> dsimp only at h1 h2
  · obtain ⟨a, attrs, rfl, _⟩ := h2
    rcases h1 with ⟨_, h1⟩ | ⟨_, _, h1⟩ | ⟨_, _, h1⟩ <;> cases h1
  · obtain ⟨a, attrs, rfl, _⟩ := h1
    rcases h2 with ⟨_, h1⟩ | ⟨_, _, h1⟩ | ⟨_, _, h1⟩ <;> cases h1
  · obtain ⟨a, attrs, rfl, h1, _⟩ := h1
    obtain ⟨a', attrs', e, h2, _⟩ := h2
    injection e with e
    subst e
    rw [h1] at h2
    injection h2 with h2
    injection h2 with h2
    rw [cid_inj h2]

theorem map_int_inj {l m : List Int} (h : l.map V.int = m.map V.int) : l = m :=
  List.map_injective_iff.2 (fun _ _ h => by injection h) h

mutual
theorem Rep.unique {lo : Nat} {h : Heap} : ∀ (v w : Val) {x : V}, Rep lo h v x → Rep lo h w x → v = w
  | .seq c items, w, x, r, s => by
    have hc := r.sameCls s
    rcases w with _ | n | t | t | ⟨d, n⟩ | ⟨d, t⟩ | ⟨d, t⟩ | ids | d | ⟨d, items'⟩ <;> simp only [Val.cls?] at hc <;> cases hc
    rw [Rep] at r; rw [Rep] at s
    obtain ⟨a, attrs, b, l, rfl, hl, ha, hp, hv, hb, hr, hf, hi⟩ := r
    obtain ⟨a', attrs', b', l', e, hl', ha', hp', hv', hb', hr', hf', hi'⟩ := s
    injection e with e; subst e
    rw [ha] at ha'; injection ha' with ha'; injection ha' with _ ha'; subst ha'
    rw [hv] at hv'; injection hv' with hv'; injection hv' with hv'; subst hv'
    rw [hr] at hr'; injection hr' with hr'; injection hr' with hr'; subst hr'
    rw [RepAll.unique items items' hi hi']
  | .oid ids, w, x, r, s => by
    have hc := r.sameCls s
    rcases w with _ | n | t | t | ⟨d, n⟩ | ⟨d, t⟩ | ⟨d, t⟩ | ids' | d | ⟨d, items'⟩ <;> simp only [Val.cls?] at hc <;> cases hc
    cases ids <;> cases ids' <;> rw [Rep] at r <;> rw [Rep] at s
    · obtain ⟨a, attrs, rfl, hl, ha, hp, hv⟩ := r
      obtain ⟨a', attrs', b', e, hl', ha', hp', hv', _⟩ := s
      injection e with e; subst e
      rw [ha] at ha'; injection ha' with ha'; injection ha' with _ ha'; subst ha'
      rw [hv] at hv'; injection hv' with hv'; cases hv'
    · obtain ⟨a, attrs, b, rfl, hl, ha, hp, hv, _⟩ := r
      obtain ⟨a', attrs', e, hl', ha', hp', hv'⟩ := s
      injection e with e; subst e
      rw [ha] at ha'; injection ha' with ha'; injection ha' with _ ha'; subst ha'
      rw [hv] at hv'; injection hv' with hv'; cases hv'
    · obtain ⟨a, attrs, b, rfl, hl, ha, hp, hv, hb, hr⟩ := r
      obtain ⟨a', attrs', b', e, hl', ha', hp', hv', hb', hr'⟩ := s
      injection e with e; subst e
      rw [ha] at ha'; injection ha' with ha'; injection ha' with _ ha'; subst ha'
      rw [hv] at hv'; injection hv' with hv'; injection hv' with hv'; subst hv'
      rw [hr] at hr'; injection hr' with hr'; injection hr' with hr'
      rw [map_int_inj hr']
  | .integer c n, w, x, r, s => by
    have hc := r.sameCls s
    rcases w with _ | n' | t | t | ⟨d, n'⟩ | ⟨d, t⟩ | ⟨d, t⟩ | ids' | d | ⟨d, items'⟩ <;> simp only [Val.cls?] at hc <;> cases hc
    rw [Rep] at r; rw [Rep] at s
    obtain ⟨a, attrs, rfl, hl, ha, hp, hv⟩ := r
    obtain ⟨a', attrs', e, hl', ha', hp', hv'⟩ := s
    injection e with e; subst e
    rw [ha] at ha'; injection ha' with ha'; injection ha' with _ ha'; subst ha'
    rw [hv] at hv'; injection hv' with hv'; injection hv' with hv'; subst hv'; rfl
  | .octets c n, w, x, r, s => by
    have hc := r.sameCls s
    rcases w with _ | n' | t | t | ⟨d, n'⟩ | ⟨d, t⟩ | ⟨d, t⟩ | ids' | d | ⟨d, items'⟩ <;> simp only [Val.cls?] at hc <;> cases hc
    · rw [Rep] at r; rw [Rep] at s
      obtain ⟨a, attrs, rfl, hl, ha, hp, hv⟩ := r
      obtain ⟨a', attrs', e, hl', ha', hp', hv'⟩ := s
      injection e with e; subst e
      rw [ha] at ha'; injection ha' with ha'; injection ha' with _ ha'; subst ha'
      rw [hv] at hv'; injection hv' with hv'; injection hv' with hv'; subst hv'; rfl
    · rw [Rep] at s; exact s.elim
  | .null c, w, x, r, s => by
    have hc := r.sameCls s
    rcases w with _ | n' | t | t | ⟨d, n'⟩ | ⟨d, t⟩ | ⟨d, t⟩ | ids' | d | ⟨d, items'⟩ <;> simp only [Val.cls?] at hc <;> cases hc
    rfl
  | .none, w, x, r, s => by
    have hc := r.sameCls s
    rw [Rep] at r; subst r
    rcases w with _ | n' | t | t | ⟨d, n'⟩ | ⟨d, t⟩ | ⟨d, t⟩ | ids' | d | ⟨d, items'⟩ <;> simp only [Val.cls?] at hc <;>
      first | rfl | (cases hc; done) | (rw [Rep] at s; cases s)
  | .int n, w, x, r, s => by
    have hc := r.sameCls s
    rw [Rep] at r; subst r
    rcases w with _ | n' | t | t | ⟨d, n'⟩ | ⟨d, t⟩ | ⟨d, t⟩ | ids' | d | ⟨d, items'⟩ <;> simp only [Val.cls?] at hc <;>
      first | (cases hc; done) | (rw [Rep] at s; cases s; done) | (rw [Rep] at s; injection s with s; rw [s])
  | .str n, w, x, r, s => by
    have hc := r.sameCls s
    rw [Rep] at r; subst r
    rcases w with _ | n' | t | t | ⟨d, n'⟩ | ⟨d, t⟩ | ⟨d, t⟩ | ids' | d | ⟨d, items'⟩ <;> simp only [Val.cls?] at hc <;>
      first | (cases hc; done) | (rw [Rep] at s; cases s; done) | (rw [Rep] at s; injection s with s; rw [s])
  | .bytes _, w, x, r, s => by rw [Rep] at r; exact r.elim
  | .raw _ _, w, x, r, s => by rw [Rep] at r; exact r.elim
theorem RepAll.unique {lo : Nat} {h : Heap} : ∀ (v w : List Val) {l : List V}, RepAll lo h v l → RepAll lo h w l → v = w
  | [], [], _, _, _ => rfl
  | [], _ :: _, l, r, s => by rw [RepAll] at r; rw [RepAll] at s; obtain ⟨_, _, h1, _⟩ := s; rw [r] at h1; cases h1
  | _ :: _, [], l, r, s => by rw [RepAll] at r; rw [RepAll] at s; obtain ⟨_, _, h1, _⟩ := r; rw [s] at h1; cases h1
  | v :: vs, w :: ws, l, r, s => by
    rw [RepAll] at r; rw [RepAll] at s
    obtain ⟨x, xs, rfl, r1, r2⟩ := r
    obtain ⟨y, ys, e, s1, s2⟩ := s
    injection e with e1 e2; subst e1; subst e2
    rw [Rep.unique v w r1 s1, RepAll.unique vs ws r2 s2]
end

/-! ## Equality -/

@[src] theorem str_beq (s t : Str) : (s == t) = decide (s = t) := by
  by_cases h : s = t <;> simp [h]

/-- Numbers, octets, names, nothing, sequences. -/
def family : Cls → Nat
  | .asn1Object => 0 | .int _ => 1 | .oct _ => 2 | .oid => 3 | .null _ => 4 | .seq _ => 5

theorem sub_family {c d : Cls} (hd : d ≠ .asn1Object) (h : family c ≠ family d) : c.isSubclass d = false := by
  rcases c with _ | c | c | _ | c | c <;> rcases d with _ | d | d | _ | d | d <;>
    first
    | exact absurd rfl hd
    | exact absurd rfl h
    | rfl
    | (cases c <;> rfl)
    | (cases d <;> rfl)
    | (cases c <;> cases d <;> rfl)

theorem isInstance_family {v : Val} {d : Cls} (hd : d ≠ .asn1Object) (h : ∀ c, v.cls? = some c → family c ≠ family d) :
    v.isInstance d = false := by
  unfold Val.isInstance
  split
  · next c hc => exact sub_family hd (h c hc)
  · rfl

mutual
theorem pyEq_self {lo : Nat} {h : Heap} : ∀ (v : Val) {x : V}, Rep lo h v x → pyEq v v = .ok true
  | .seq c items, x, r => by
    rw [Rep] at r
    obtain ⟨a, attrs, b, l, rfl, hl, ha, hp, hv, hb, hr, hf, hi⟩ := r
    have hs : (Cls.seq c).isSubclass (.seq c) = true := by cases c <;> rfl
    rw [pyEq]
    simp only [Val.cls?, ne_eq, not_true, false_and, if_false]
    rw [eqMethod]
    simp only [hs, if_true]
    rw [listEq]
    simp only [ne_eq, not_true, if_false]
    exact itemsEq_self items hi
  | .oid v, x, r => by simp [pyEq, eqMethod, Val.cls?]
  | .integer c n, x, r => by simp [pyEq, eqMethod, Val.cls?, integerEq, Val.toInt]
  | .octets c n, x, r => by
    have hs : (Cls.oct c).isSubclass (.oct c) = true := by cases c <;> rfl
    simp [pyEq, eqMethod, Val.cls?, hs]
  | .null c, x, r => by
    have hs : (Cls.null c).isSubclass (.null c) = true := by cases c <;> rfl
    simp [pyEq, eqMethod, Val.cls?, hs]
  | .none, x, r => by simp [pyEq, Val.cls?, builtinEq]
  | .int n, x, r => by simp [pyEq, Val.cls?, builtinEq]
  | .str n, x, r => by simp [pyEq, Val.cls?, builtinEq]
  | .bytes _, x, r => by rw [Rep] at r; exact r.elim
  | .raw _ _, x, r => by rw [Rep] at r; exact r.elim
theorem itemsEq_self {lo : Nat} {h : Heap} : ∀ (vs : List Val) {l : List V}, RepAll lo h vs l → itemsEq vs vs = .ok true
  | [], l, _ => by rw [itemsEq]; simp
  | v :: vs, l, r => by
    rw [RepAll] at r
    obtain ⟨x, xs, rfl, r1, r2⟩ := r
    rw [itemsEq, pyEq_self v r1]
    exact itemsEq_self vs r2
end

/-- `int(x)`. -/
theorem run_toIntN {lo : Nat} {h : Heap} {v : Val} {x : V} (r : Rep lo h v x) (hn : Numerals cfg v) :
    toInt program cfg x h = outR v.toInt V.int h := by
  by_cases hs : ∃ s, v = .str s
  · obtain ⟨s, rfl⟩ := hs
    rw [Rep] at r
    subst r
    rw [Numerals] at hn
    have hd : ¬ (cfg.digits ≠ 0 ∧ cfg.digits < (s.filter isDigit).length) := by
      rcases hn with hn | hn
      · simp [hn]
      · omega
    rw [toInt]
    simp only [intOfStr, hd, if_false, Val.toInt]
    cases hp : pyInt s with
    | ok n => rfl
    | error e => rw [pyInt_error hp]; rfl
  · exact run_toInt r fun s k => hs ⟨s, k⟩

theorem run_intEq {lo : Nat} {h : Heap} {a : Nat} {c : CId} {attrs : List (String × V)} {n : Int} {v : Val} {y : V}
    (ha : h[a]? = some (.inst c attrs)) (hv : attrs.lookup "value" = some (.int n)) (r : Rep lo h v y) (hn : Numerals cfg v) :
    call program cfg (.func .rfc1155 331) [.ref a, y] h = outR (integerEq n v) V.bool h := by
  have ht := run_toIntN (cfg := cfg) r hn
  rw [call_rfc1155_331]
  unfold integerEq
  cases hi : v.toInt with
  | error e =>
    rw [hi, outR] at ht
    runs [rfc1155_331, ha, hv, ↓ht, outR, caught]
  | ok m =>
    rw [hi, outR] at ht
    by_cases hm : n = m <;> runs [rfc1155_331, ha, hv, ↓ht, outR, caught, hm]

theorem run_equalInts (h : Heap) (l m : List Int) (hl : l.length = m.length) :
    equalAll program cfg (l.map V.int) (m.map V.int) h = okR (.bool (decide (l = m))) h := by
  induction l generalizing m with
  | nil =>
    cases m with
    | nil => rw [List.map_nil, equalAll] <;> simp
    | cons _ _ => cases hl
  | cons a l ih =>
    cases m with
    | nil => cases hl
    | cons b m =>
      rw [List.map_cons, List.map_cons, equalAll]
      have := ih m (by simpa using hl)
      by_cases hab : a = b
      · runs [hab, ↓this]; simp
      · runs [hab]; simp [hab]

theorem equal_refs {h : Heap} {a b : Nat} {l m : List V} (ha : h[a]? = some (.list l)) (hb : h[b]? = some (.list m)) :
    equal program cfg (.ref a) (.ref b) h =
      if l.length = m.length then equalAll program cfg l m h else okR (.bool false) h := by
  runs [ha, hb]

/-- The loop over the elements, if `==` on elements is known. -/
theorem run_equalAll {lo : Nat} {h : Heap} : ∀ (vs ws : List Val) {l m : List V},
    (∀ v ∈ vs, ∀ w ∈ ws, ∀ x y, Rep lo h v x → Rep lo h w y → equal program cfg x y h = outR (pyEq v w) V.bool h) →
    RepAll lo h vs l → RepAll lo h ws m → equalAll program cfg l m h = outR (itemsEq vs ws) V.bool h
  | [], ws, l, m, _, r, s => by
    rw [RepAll] at r; subst r
    rw [equalAll, itemsEq] <;> simp [outR]
  | v :: vs, [], l, m, _, r, s => by
    rw [RepAll] at s; subst s
    rw [equalAll, itemsEq] <;> simp [outR]
  | v :: vs, w :: ws, l, m, ih, r, s => by
    rw [RepAll] at r; rw [RepAll] at s
    obtain ⟨x, xs, rfl, r1, r2⟩ := r
    obtain ⟨y, ys, rfl, s1, s2⟩ := s
    have h1 := ih v (by simp) w (by simp) x y r1 s1
    have h2 := run_equalAll vs ws (fun v hv w hw => ih v (by simp [hv]) w (by simp [hw])) r2 s2
    rw [equalAll, itemsEq]
    split
    · next hid =>
      have hxy : x = y := by
        unfold identical at hid
        split at hid <;> first | rfl | (injection hid with hid; simp at hid; subst hid; rfl) | cases hid
      subst hxy
      rw [Rep.unique v w r1 s1, pyEq_self w s1]
      exact h2
    · rw [h1]
      rcases hp : pyEq v w with e | _ | _
      · runs [outR]
      · runs [outR]
      · runs [outR]
        exact h2

theorem run_eqMethod {lo : Nat} {h : Heap} {v w : Val} {x y : V} (r : Rep lo h v x) (s : Rep lo h w y) (hn : Numerals cfg w)
    {c : Cls} (hc : v.cls? = some c) {m : Module} {l : Nat} (hm : program.attr (cid c) "__eq__" = some (.func m l))
    (ih : ∀ c d vs ws, v = .seq c vs → w = .seq d ws → ∀ v ∈ vs, ∀ w ∈ ws, ∀ x y, Rep lo h v x → Rep lo h w y →
      equal program cfg x y h = outR (pyEq v w) V.bool h) :
    call program cfg (.func m l) [x, y] h = outR (eqMethod v w) V.bool h := by
  match v, r with
  | .none, r => cases hc
  | .int _, r => cases hc
  | .str _, r => cases hc
  | .bytes _, r => cases hc
  | .raw _ _, r => rw [Rep] at r; exact r.elim
  | .integer c n, r =>
    cases hc
    rw [eq_int] at hm
    cases hm
    rw [Rep] at r
    obtain ⟨a, attrs, rfl, hl, ha, hp, hv⟩ := r
    rw [run_intEq ha hv s hn, eqMethod]
  | .octets c n, r =>
    cases hc
    rw [eq_oct] at hm
    cases hm
    have hi := run_isInst s (.oct c)
    rw [Rep] at r
    obtain ⟨a, attrs, rfl, hl, ha, hp, hv⟩ := r
    have hcl := hp.none (a := "__class__")
    rw [call_rfc1155_262]
    cases w with
    | octets d t =>
      simp only [Val.isInstance, Val.cls?] at hi
      rw [Rep] at s
      obtain ⟨a', attrs', rfl, hl', ha', hp', hv'⟩ := s
      cases hd : (Cls.oct d).isSubclass (.oct c) <;> rw [hd] at hi <;>
        runs [rfc1155_262, ha, hv, hcl, ↓hi, ha', hv', eqMethod, outR, hd]
      · rw [Bool.false_and]
      · rw [Bool.true_and]
    | raw d t => rw [Rep] at s; exact s.elim
    | _ =>
      rw [isInstance_family (by simp) (by rintro _ ⟨⟩ <;> simp [family])] at hi
      runs [rfc1155_262, ha, hv, hcl, ↓hi, eqMethod, outR]
  | .oid v, r =>
    cases hc
    rw [eq_oid] at hm
    cases hm
    have hi := run_isInst s .oid
    cases w with
    | oid u =>
      simp only [Val.isInstance, Val.cls?] at hi
      rw [show Cls.oid.isSubclass .oid = true by rfl] at hi
      cases v <;> cases u <;> rw [Rep] at r <;> rw [Rep] at s
      · obtain ⟨a, attrs, rfl, hl, ha, hp, hv⟩ := r
        obtain ⟨a', attrs', rfl, hl', ha', hp', hv'⟩ := s
        have hcl := hp.none (a := "__class__")
        rw [call_rfc1155_262]
        runs [rfc1155_262, ha, hv, hcl, ↓hi, ha', hv', eqMethod, outR]
      · obtain ⟨a, attrs, rfl, hl, ha, hp, hv⟩ := r
        obtain ⟨a', attrs', b', rfl, hl', ha', hp', hv', hb', hr'⟩ := s
        have hcl := hp.none (a := "__class__")
        rw [call_rfc1155_262]
        runs [rfc1155_262, ha, hv, hcl, ↓hi, ha', hv', hr', eqMethod, outR]
      · obtain ⟨a, attrs, b, rfl, hl, ha, hp, hv, hb, hr⟩ := r
        obtain ⟨a', attrs', rfl, hl', ha', hp', hv'⟩ := s
        have hcl := hp.none (a := "__class__")
        rw [call_rfc1155_262]
        runs [rfc1155_262, ha, hv, hr, hcl, ↓hi, ha', hv', eqMethod, outR]
      · rename_i l m
        obtain ⟨a, attrs, b, rfl, hl, ha, hp, hv, hb, hr⟩ := r
        obtain ⟨a', attrs', b', rfl, hl', ha', hp', hv', hb', hr'⟩ := s
        have hcl := hp.none (a := "__class__")
        have he := equal_refs (cfg := cfg) hr hr'
        rw [call_rfc1155_262]
        simp only [List.length_map] at he
        by_cases hlen : l.length = m.length
        · rw [if_pos hlen, run_equalInts h l m hlen] at he
          runs [rfc1155_262, ha, hv, hcl, ↓hi, ha', hv', ↓he, eqMethod, outR]
          simp
        · rw [if_neg hlen] at he
          have : l ≠ m := fun k => hlen (by rw [k])
          runs [rfc1155_262, ha, hv, hcl, ↓hi, ha', hv', ↓he, eqMethod, outR]
          simp [this]
    | _ =>
      rw [isInstance_family (by simp) (by rintro _ ⟨⟩ <;> simp [family])] at hi
      obtain ⟨a, attrs, rfl, ha, hp⟩ := r.cell
      have hcl := hp.none (a := "__class__")
      rw [call_rfc1155_262]
      runs [rfc1155_262, ha, hcl, ↓hi, eqMethod, outR]
  | .null c, r =>
    cases hc
    rw [eq_null] at hm
    cases hm
    have hi := run_isInst s (.null c)
    rw [Rep] at r
    obtain ⟨a, attrs, rfl, hl, ha, hp, hv⟩ := r
    have hcl := hp.none (a := "__class__")
    rw [call_rfc1155_262]
    cases w with
    | null d =>
      simp only [Val.isInstance, Val.cls?] at hi
      rw [Rep] at s
      obtain ⟨a', attrs', rfl, hl', ha', hp', hv'⟩ := s
      cases hd : (Cls.null d).isSubclass (.null c) <;> rw [hd] at hi <;>
        runs [rfc1155_262, ha, hv, hcl, ↓hi, ha', hv', value_null, eqMethod, outR, hd]
    | _ =>
      rw [isInstance_family (by simp) (by rintro _ ⟨⟩ <;> simp [family])] at hi
      runs [rfc1155_262, ha, hv, hcl, ↓hi, eqMethod, outR]
  | .seq c items, r =>
    cases hc
    rw [eq_seq] at hm
    cases hm
    have hi := run_isInst s (.seq c)
    rw [Rep] at r
    obtain ⟨a, attrs, b, l, rfl, hl, ha, hp, hv, hb, hr, hf, hall⟩ := r
    have hcl := hp.none (a := "__class__")
    rw [call_rfc1155_262]
    cases w with
    | seq d ws =>
      simp only [Val.isInstance, Val.cls?] at hi
      rw [Rep] at s
      obtain ⟨a', attrs', b', l', rfl, hl', ha', hp', hv', hb', hr', hf', hall'⟩ := s
      have he := equal_refs (cfg := cfg) hr hr'
      rw [run_equalAll items ws (ih c d items ws rfl rfl) hall hall', hall.length, hall'.length] at he
      cases hd : (Cls.seq d).isSubclass (.seq c) <;> rw [hd] at hi
      · runs [rfc1155_262, ha, hv, hcl, ↓hi, ha', hv', eqMethod, outR, hd]
      · rw [eqMethod, listEq]
        by_cases hlen : items.length = ws.length
        · rw [if_pos hlen] at he
          simp only [hd, if_true, hlen, ne_eq, not_true, if_false]
          cases hw : itemsEq items ws <;> rw [hw, outR] at he <;>
            runs [rfc1155_262, ha, hv, hcl, ↓hi, ha', hv', ↓he, outR]
        · rw [if_neg hlen] at he
          simp only [hd, if_true, hlen, ne_eq, not_false_eq_true]
          runs [rfc1155_262, ha, hv, hcl, ↓hi, ha', hv', ↓he, outR]
    | _ =>
      rw [isInstance_family (by simp) (by rintro _ ⟨⟩ <;> simp [family])] at hi
      runs [rfc1155_262, ha, hv, hcl, ↓hi, eqMethod, outR]

theorem NumeralsAll.get : ∀ {vs : List Val}, NumeralsAll cfg vs → ∀ v ∈ vs, Numerals cfg v
  | [], _, v, hv => by cases hv
  | w :: ws, h, v, hv => by
    rw [NumeralsAll] at h
    rcases List.mem_cons.1 hv with rfl | hv
    · exact h.1
    · exact h.2.get v hv

theorem attr_eq (c : Cls) (hc : c ≠ .asn1Object) : ∃ l, program.attr (cid c) "__eq__" = some (.func .rfc1155 l) := by
  rcases c with _ | c | c | _ | c | c
  · exact absurd rfl hc
  · exact ⟨_, eq_int c⟩
  · exact ⟨_, eq_oct c⟩
  · exact ⟨_, eq_oid⟩
  · exact ⟨_, eq_null c⟩
  · exact ⟨_, eq_seq c⟩

theorem cls_ne {v : Val} {c : Cls} (h : v.cls? = some c) : c ≠ .asn1Object := by
  rintro rfl
  cases v <;> cases h

theorem bne_cid (c d : Cls) : (cid d != cid c) = decide (d ≠ c) := by
  by_cases h : d = c
  · subst h; simp
  · have : cid d ≠ cid c := fun k => h (cid_inj k)
    simp [h, bne_iff_ne, this]

/-- `x == y`. -/
theorem run_equal {lo : Nat} {h : Heap} (k : Nat) : ∀ (v w : Val), sizeOf v + sizeOf w ≤ k → ∀ {x y : V}, Rep lo h v x →
    Rep lo h w y → Numerals cfg v → Numerals cfg w → equal program cfg x y h = outR (pyEq v w) V.bool h := by
  induction k with
  | zero =>
    intro v w hk
    cases v <;> simp at hk
  | succ k ih =>
    intro v w hk x y r s hv hw
    have inner : ∀ v w : Val, sizeOf v + sizeOf w ≤ k + 1 → Numerals cfg v → Numerals cfg w → ∀ c d vs ws, v = .seq c vs →
        w = .seq d ws → ∀ v ∈ vs, ∀ w ∈ ws, ∀ x y, Rep lo h v x → Rep lo h w y →
        equal program cfg x y h = outR (pyEq v w) V.bool h := by
      rintro _ _ hk hv hw c d vs ws rfl rfl v hvs w hws x y r s
      rw [Numerals] at hv hw
      have h1 := List.sizeOf_lt_of_mem hvs
      have h2 := List.sizeOf_lt_of_mem hws
      simp only [Val.seq.sizeOf_spec] at hk
      exact ih v w (by omega) r s (hv.get v hvs) (hw.get w hws)
    have c1 := r.cell
    have c2 := s.cell
    rw [pyEq]
    cases hcv : v.cls? with
    | none =>
      rw [hcv] at c1
      cases hcw : w.cls? with
      | none =>
        rw [hcw] at c2
        rcases c1 with ⟨rfl, rfl⟩ | ⟨_, rfl, rfl⟩ | ⟨_, rfl, rfl⟩ <;> rcases c2 with ⟨rfl, rfl⟩ | ⟨_, rfl, rfl⟩ | ⟨_, rfl, rfl⟩ <;>
          runs [builtinEq, outR]
      | some d =>
        rw [hcw] at c2
        obtain ⟨a, attrs, rfl, ha, hp⟩ := c2
        obtain ⟨l, hl⟩ := attr_eq d (cls_ne hcw)
        have := run_eqMethod s r hv hcw hl (inner w v (by omega) hw hv)
        rcases c1 with ⟨rfl, rfl⟩ | ⟨_, rfl, rfl⟩ | ⟨_, rfl, rfl⟩ <;> runs [ha, hl, ↓this]
    | some c =>
      rw [hcv] at c1
      obtain ⟨a, attrs, rfl, ha, hp⟩ := c1
      obtain ⟨l, hl⟩ := attr_eq c (cls_ne hcv)
      have h1 := run_eqMethod r s hw hcv hl (inner v w hk hv hw)
      cases hcw : w.cls? with
      | none =>
        rw [hcw] at c2
        rcases c2 with ⟨rfl, rfl⟩ | ⟨_, rfl, rfl⟩ | ⟨_, rfl, rfl⟩ <;> runs [ha, hl, ↓h1]
      | some d =>
        rw [hcw] at c2
        obtain ⟨a', attrs', rfl, ha', hp'⟩ := c2
        obtain ⟨l', hl'⟩ := attr_eq d (cls_ne hcw)
        have h2 := run_eqMethod s r hv hcw hl' (inner w v (by omega) hw hv)
        by_cases hd : d ≠ c ∧ d.isSubclass c = true
        · simp only [hd, ne_eq, not_false_eq_true, and_self, if_true]
          runs [ha, hl, ha', hl', ↓h2, bne_cid, sub_cid, hd]
          simp [hd.1, hd.2, h2]
        · dsimp only
          rw [if_neg hd]
          runs [ha, hl, ha', hl', ↓h1, bne_cid, sub_cid]
          rw [if_neg]
          simpa using hd

theorem pyNe_map (v w : Val) : pyNe v w = match v.cls?, w.cls? with
    | none, none => .ok (!builtinEq v w)
    | some ca, some cb => if cb ≠ ca ∧ cb.isSubclass ca then (pyEq w v).map (!·) else (pyEq v w).map (!·)
    | some _, none => (pyEq v w).map (!·)
    | none, some _ => (pyEq w v).map (!·) := by
  unfold pyNe
  cases v.cls? <;> cases w.cls? <;> dsimp only <;> cases pyEq v w <;> cases pyEq w v <;> rfl

/-- `x != y`. -/
theorem run_ne {lo : Nat} {h : Heap} {v w : Val} {x y : V} (r : Rep lo h v x) (s : Rep lo h w y) (hv : Numerals cfg v)
    (hw : Numerals cfg w) : Src.compare program cfg .ne x y h = outR (pyNe v w) V.bool h := by
  have e1 := run_equal (cfg := cfg) _ v w (Nat.le_refl _) r s hv hw
  have e2 := run_equal (cfg := cfg) _ w v (Nat.le_refl _) s r hw hv
  have c1 := r.cell
  have c2 := s.cell
  have m1 : call program cfg (.func .rfc1155 274) [x, y] h = outR ((pyEq v w).map (!·)) V.bool h := by
    rw [call_rfc1155_274]
    cases hp : pyEq v w <;> rw [hp, outR] at e1 <;> runs [rfc1155_274, ↓e1, outR, Except.map]
  have m2 : call program cfg (.func .rfc1155 274) [y, x] h = outR ((pyEq w v).map (!·)) V.bool h := by
    rw [call_rfc1155_274]
    cases hp : pyEq w v <;> rw [hp, outR] at e2 <;> runs [rfc1155_274, ↓e2, outR, Except.map]
  rw [pyNe_map]
  cases hcv : v.cls? with
  | none =>
    rw [hcv] at c1
    cases hcw : w.cls? with
    | none =>
      rw [hcw] at c2
      rcases c1 with ⟨rfl, rfl⟩ | ⟨_, rfl, rfl⟩ | ⟨_, rfl, rfl⟩ <;> rcases c2 with ⟨rfl, rfl⟩ | ⟨_, rfl, rfl⟩ | ⟨_, rfl, rfl⟩ <;>
        runs [builtinEq, outR]
    | some d =>
      rw [hcw] at c2
      obtain ⟨a, attrs, rfl, ha, hp⟩ := c2
      dsimp only
      rcases c1 with ⟨rfl, rfl⟩ | ⟨_, rfl, rfl⟩ | ⟨_, rfl, rfl⟩ <;> runs [ha, ↓m2]
  | some c =>
    rw [hcv] at c1
    obtain ⟨a, attrs, rfl, ha, hp⟩ := c1
    cases hcw : w.cls? with
    | none =>
      rw [hcw] at c2
      dsimp only
      rcases c2 with ⟨rfl, rfl⟩ | ⟨_, rfl, rfl⟩ | ⟨_, rfl, rfl⟩ <;> runs [ha, ↓m1]
    | some d =>
      rw [hcw] at c2
      obtain ⟨a', attrs', rfl, ha', hp'⟩ := c2
      dsimp only
      by_cases hd : d ≠ c ∧ d.isSubclass c = true
      · rw [if_pos hd]
        runs [ha, ha', ↓m2, bne_cid, sub_cid]
        rw [if_pos]
        simpa using hd
      · rw [if_neg hd]
        runs [ha, ha', ↓m1, bne_cid, sub_cid]
        rw [if_neg]
        simpa using hd

end Libsnmp.Src
