import Verif.Spec.SourceMgr
import Verif.Lemmas.SrcMsg
import Verif.Lemmas.SrcOidOps

/-!
# Manager objects
-/

namespace Libsnmp.Src
open Libsnmp

variable {cfg : Cfg} {nm : Names} {env : Libsnmp.Env} {k : Libsnmp.Kind}

/-! ## What representation looks at -/

/-- The cells that an object of the package's ASN.1 classes is made of. -/
def Asn : Cell → Prop
  | .inst c _ => ∃ k, c = cid k
  | .list _ => True
  | _ => False

mutual
theorem Rep.frame {lo : Nat} {h h' : Heap} (he : ∀ b c, lo ≤ b → Asn c → h[b]? = some c → h'[b]? = some c) :
    ∀ (v : Val) (x : V), Rep lo h v x → Rep lo h' v x
  | .none, _, r => by rw [Rep] at r ⊢; exact r
  | .int _, _, r => by rw [Rep] at r ⊢; exact r
  | .str _, _, r => by rw [Rep] at r ⊢; exact r
  | .bytes _, _, r => by rw [Rep] at r; exact r.elim
  | .raw _ _, _, r => by rw [Rep] at r; exact r.elim
  | .integer c n, x, r => by
    rw [Rep] at r ⊢
    obtain ⟨a, attrs, hx, hl, ha, hr⟩ := r
    exact ⟨a, attrs, hx, hl, he _ _ hl ⟨_, rfl⟩ ha, hr⟩
  | .octets c n, x, r => by
    rw [Rep] at r ⊢
    obtain ⟨a, attrs, hx, hl, ha, hr⟩ := r
    exact ⟨a, attrs, hx, hl, he _ _ hl ⟨_, rfl⟩ ha, hr⟩
  | .oid none, x, r => by
    rw [Rep] at r ⊢
    obtain ⟨a, attrs, hx, hl, ha, hr⟩ := r
    exact ⟨a, attrs, hx, hl, he _ _ hl ⟨_, rfl⟩ ha, hr⟩
  | .oid (some ids), x, r => by
    rw [Rep] at r ⊢
    obtain ⟨a, attrs, b, hx, hl, ha, hp, hv, hb, hr⟩ := r
    exact ⟨a, attrs, b, hx, hl, he _ _ hl ⟨_, rfl⟩ ha, hp, hv, hb, he _ _ hb trivial hr⟩
  | .null c, x, r => by
    rw [Rep] at r ⊢
    obtain ⟨a, attrs, hx, hl, ha, hr⟩ := r
    exact ⟨a, attrs, hx, hl, he _ _ hl ⟨_, rfl⟩ ha, hr⟩
  | .seq c items, x, r => by
    rw [Rep] at r ⊢
    obtain ⟨a, attrs, b, l, hx, hl, ha, hp, hv, hb, hr, hf, hi⟩ := r
    exact ⟨a, attrs, b, l, hx, hl, he _ _ hl ⟨_, rfl⟩ ha, hp, hv, hb, he _ _ hb trivial hr, hf, RepAll.frame he items l hi⟩
theorem RepAll.frame {lo : Nat} {h h' : Heap} (he : ∀ b c, lo ≤ b → Asn c → h[b]? = some c → h'[b]? = some c) :
    ∀ (vs : List Val) (l : List V), RepAll lo h vs l → RepAll lo h' vs l
  | [], _, r => by rw [RepAll] at r ⊢; exact r
  | v :: vs, _, r => by
    rw [RepAll] at r ⊢
    obtain ⟨x, xs, hx, r1, r2⟩ := r
    exact ⟨x, xs, hx, Rep.frame he v x r1, RepAll.frame he vs xs r2⟩
end

theorem RepMsg.frame {lo : Nat} {h h' : Heap} (he : ∀ b c, lo ≤ b → Asn c → h[b]? = some c → h'[b]? = some c) {m : Msg} {a : Nat}
    (r : RepMsg lo h m a) : RepMsg lo h' m a := by
  obtain ⟨attrs, b, l, x, y, z, h1, h2, h3, h4, h5, h6, h7, h8, h9, h10, r1, r2, r3⟩ := r
  exact ⟨attrs, b, l, x, y, z, h1, he _ _ h1 ⟨_, rfl⟩ h2, h3, h4, h5, he _ _ h5 trivial h6, h7, h8, h9, h10,
    Rep.frame he _ _ r1, Rep.frame he _ _ r2, Rep.frame he _ _ r3⟩

/-- The objects and lists in `h` are as they were. -/
def Same (h h' : Heap) : Prop := ∀ b c, 9 ≤ b → Asn c → h[b]? = some c → h'[b]? = some c

theorem Same.trans {h h' h'' : Heap} (h1 : Same h h') (h2 : Same h' h'') : Same h h'' :=
  fun b c h9 hc hb => h2 b c h9 hc (h1 b c h9 hc hb)

theorem Kept.asn {n : Nat} {h h' : Heap} (hk : Kept n h h') (hn : h.length ≤ n) : Same h h' :=
  fun b c h9 _ hb => by rw [hk.same b h9 (Nat.lt_of_lt_of_le (lt_of_get hb) hn), hb]

theorem Rep.same {h h' : Heap} (hs : Same h h') {v : Val} {x : V} (r : Rep 9 h v x) : Rep 9 h' v x := Rep.frame hs v x r

theorem RepAll.same {h h' : Heap} (hs : Same h h') {v : List Val} {x : List V} (r : RepAll 9 h v x) : RepAll 9 h' v x :=
  RepAll.frame hs v x r

theorem RepMsg.same {h h' : Heap} (hs : Same h h') {m : Msg} {a : Nat} (r : RepMsg 9 h m a) : RepMsg 9 h' m a := RepMsg.frame hs r

theorem QItem.same {h h' : Heap} (hs : Same h h') {p : Option Msg × Nat} {x : V} (r : QItem nm h p x) : QItem nm h' p x := by
  obtain ⟨m, n⟩ := p
  cases m with
  | none => exact r
  | some m =>
    obtain ⟨b, hx, r⟩ := r
    exact ⟨b, hx, r.same hs⟩

theorem mgrCid_ne (k : Libsnmp.Kind) (c : Cls) : mgrCid k ≠ cid c := by
  cases k <;> rcases c with _ | c | c | _ | c | c <;> first | decide | (cases c <;> decide)

/-- A manager object, a queue or a dictionary is not part of an ASN.1 object. -/
theorem Same.set {h : Heap} {a : Nat} {c0 : Cell} (ha : h[a]? = some c0) (hn : ¬ Asn c0) (c : Cell) : Same h (h.set a c) := by
  intro b d _ hd hb
  by_cases hab : a = b
  · subst hab
    rw [ha] at hb
    cases hb
    exact absurd hd hn
  · rw [List.getElem?_set_ne hab, hb]

theorem not_asn_mgr (k : Libsnmp.Kind) (attrs : List (String × V)) : ¬ Asn (.inst (mgrCid k) attrs) :=
  fun ⟨c, hc⟩ => mgrCid_ne k c hc

theorem names_none {attrs : List (String × V)} (hp : ∀ p ∈ attrs, p.1 ∈ mgrNames) {a : String} (ha : a ∉ mgrNames := by decide) :
    attrs.lookup a = none := by
  induction attrs with
  | nil => rfl
  | cons p ps ih =>
    rw [List.lookup_cons]
    have h1 : p.1 ∈ mgrNames := hp p List.mem_cons_self
    have : (a == p.1) = false := by
      rw [beq_eq_false_iff_ne]
      rintro rfl
      exact ha h1
    rw [this]
    exact ih fun q hq => hp q (List.mem_cons_of_mem _ hq)

theorem names_set {attrs : List (String × V)} (hp : ∀ p ∈ attrs, p.1 ∈ mgrNames) {a : String} (ha : a ∈ mgrNames) (x : V) :
    ∀ p ∈ setAssoc attrs a x, p.1 ∈ mgrNames := by
  induction attrs with
  | nil => intro p hp; rw [setAssoc, List.mem_singleton] at hp; subst hp; exact ha
  | cons p ps ih =>
    obtain ⟨y, w⟩ := p
    have h1 : y ∈ mgrNames := hp (y, w) List.mem_cons_self
    have h2 : ∀ p ∈ ps, p.1 ∈ mgrNames := fun q hq => hp q (List.mem_cons_of_mem _ hq)
    rw [setAssoc]
    split
    · intro q hq
      rcases List.mem_cons.1 hq with rfl | hq
      · exact h1
      · exact h2 q hq
    · intro q hq
      rcases List.mem_cons.1 hq with rfl | hq
      · exact h1
      · exact ih h2 q hq

section
variable {h : Heap} {a q d : Nat} {s : Mgr k} {attrs : List (String × V)}

/-- A method of the class. -/
theorem MgrAt.meth (r : MgrAt nm env h a s attrs q d) {name : String} {m : Module} {l : Nat}
    (hm : program.attr (mgrCid k) name = some (.func m l)) (hn : name ∉ mgrNames := by decide)
    (hc : name ≠ "__class__" := by decide) : getattr program h (.ref a) name = some (.meth (.ref a) m l) := by
  simp only [getattr, r.cell, names_none r.names hn, hc, hm, if_false]

theorem MgrAt.noMeth (r : MgrAt nm env h a s attrs q d) {name : String}
    (hm : program.attr (mgrCid k) name = none) (hn : name ∉ mgrNames := by decide)
    (hc : name ≠ "__class__" := by decide) (hc' : name ≠ "__repr__" := by decide) : getattr program h (.ref a) name = none := by
  simp only [getattr, r.cell, names_none r.names hn, hc, hc', hm, if_false]

theorem MgrAt.getOutbound (r : MgrAt nm env h a s attrs q d) : getattr program h (.ref a) "outbound" = some (.ref q) := by
  simp only [getattr, r.cell, r.outbound]

theorem MgrAt.getCallbacks (r : MgrAt nm env h a s attrs q d) : getattr program h (.ref a) "callbacks" = some (.ref d) := by
  simp only [getattr, r.cell, r.callbacks]

theorem MgrAt.getTrap (r : MgrAt nm env h a s attrs q d) :
    getattr program h (.ref a) "trapCallback" = some (nm.opt env.trapCallback) := by
  simp only [getattr, r.cell, r.trap]

theorem MgrAt.getEmpty (r : MgrAt nm env h a s attrs q d) :
    getattr program h (.ref a) "queueEmpty" = some (nm.opt env.queueEmpty) := by
  simp only [getattr, r.cell, r.empty]

theorem MgrAt.getNext (r : MgrAt nm env h a s attrs q d) :
    getattr program h (.ref a) "nextRequestID" = some (.int s.nextRequestID) := by
  have hc : program.attr (mgrCid k) "nextRequestID" = some (.int 0) := by cases k <;> rfl
  rcases r.next with e | ⟨e, e'⟩
  · simp only [getattr, r.cell, e]
  · simp only [getattr, r.cell, e, hc, e', String.reduceEq, if_false]
    rfl

/-- The manager is as it was if its three cells are and the ASN.1 objects are. -/
theorem MgrAt.same {h' : Heap} (r : MgrAt nm env h a s attrs q d) (hs : Same h h') (ha : h'[a]? = h[a]?) (hq : h'[q]? = h[q]?)
    (hd : h'[d]? = h[d]?) : MgrAt nm env h' a s attrs q d where
  low := r.low
  cell := ha.trans r.cell
  names := r.names
  next := r.next
  outbound := r.outbound
  qlow := r.qlow
  queue := by
    obtain ⟨l, h1, h2⟩ := r.queue
    exact ⟨l, hq.trans h1, h2.imp fun _ _ h => h.same hs⟩
  callbacks := r.callbacks
  dlow := r.dlow
  dict := by
    obtain ⟨l, h1, h2⟩ := r.dict
    exact ⟨l, hd.trans h1, h2.imp fun _ _ h => ⟨h.1.same hs, h.2⟩⟩
  keys := r.keys
  once := r.once
  trap := r.trap
  empty := r.empty

theorem MgrAt.lt (r : MgrAt nm env h a s attrs q d) : a < h.length := lt_of_get r.cell
theorem MgrAt.qlt (r : MgrAt nm env h a s attrs q d) : q < h.length := by
  obtain ⟨_, h1, _⟩ := r.queue; exact lt_of_get h1
theorem MgrAt.dlt (r : MgrAt nm env h a s attrs q d) : d < h.length := by
  obtain ⟨_, h1, _⟩ := r.dict; exact lt_of_get h1
theorem MgrAt.aq (r : MgrAt nm env h a s attrs q d) : a ≠ q := by
  rintro rfl; obtain ⟨_, h1, _⟩ := r.queue; rw [r.cell] at h1; cases h1
theorem MgrAt.ad (r : MgrAt nm env h a s attrs q d) : a ≠ d := by
  rintro rfl; obtain ⟨_, h1, _⟩ := r.dict; rw [r.cell] at h1; cases h1
theorem MgrAt.qd (r : MgrAt nm env h a s attrs q d) : q ≠ d := by
  rintro rfl; obtain ⟨_, h1, _⟩ := r.dict; obtain ⟨_, h2, _⟩ := r.queue; rw [h2] at h1; cases h1

theorem MgrAt.kept {h' : Heap} {n : Nat} (r : MgrAt nm env h a s attrs q d) (hk : Kept n h h') (hn : h.length ≤ n) :
    MgrAt nm env h' a s attrs q d :=
  r.same (hk.asn hn) (hk.same a r.low (Nat.lt_of_lt_of_le r.lt hn)) (hk.same q r.qlow (Nat.lt_of_lt_of_le r.qlt hn))
    (hk.same d r.dlow (Nat.lt_of_lt_of_le r.dlt hn))

theorem Wires.refl (a : Nat) (h : Heap) : Wires a h h := fun _ l hl => ⟨l, hl, fun _ _ => rfl⟩

theorem Wires.trans {a : Nat} {h h' h'' : Heap} (h1 : Wires a h h') (h2 : Wires a h' h'') : Wires a h h'' := fun c l hl => by
  obtain ⟨l1, e1, e2⟩ := h1 c l hl
  obtain ⟨l2, e3, e4⟩ := h2 c l1 e1
  exact ⟨l2, e3, fun n hn => (e4 n hn).trans (e2 n hn)⟩

theorem Wires.same {a : Nat} {h h' : Heap} (h1 : h'[a]? = h[a]?) : Wires a h h' := fun _ l hl => ⟨l, h1.trans hl, fun _ _ => rfl⟩

/-- Only these three cells, and what is new, have changed. -/
structure Own (a q d : Nat) (h h' : Heap) : Prop where
  base : Base h'
  len : h.length ≤ h'.length
  same : ∀ b, 9 ≤ b → b < h.length → b ≠ a → b ≠ q → b ≠ d → h'[b]? = h[b]?
  wires : 9 ≤ a → a ≠ q → a ≠ d → Wires a h h'

theorem Own.refl (hb : Base h) (a q d : Nat) : Own a q d h h := ⟨hb, Nat.le_refl _, fun _ _ _ _ _ _ => rfl, fun _ _ _ => Wires.refl _ _⟩

theorem Own.trans {h' h'' : Heap} (h1 : Own a q d h h') (h2 : Own a q d h' h'') : Own a q d h h'' :=
  ⟨h2.base, Nat.le_trans h1.len h2.len, fun b h9 hb e1 e2 e3 =>
    (h2.same b h9 (Nat.lt_of_lt_of_le hb h1.len) e1 e2 e3).trans (h1.same b h9 hb e1 e2 e3),
    fun h9 e1 e2 => (h1.wires h9 e1 e2).trans (h2.wires h9 e1 e2)⟩

theorem Own.kept {h' h'' : Heap} (h1 : Own a q d h h') {n : Nat} (h2 : Kept n h' h'') (hn : h'.length ≤ n) : Own a q d h h'' :=
  h1.trans ⟨h2.base, h2.len, fun b h9 hb _ _ _ => h2.same b h9 (Nat.lt_of_lt_of_le hb hn), fun h9 _ _ c l hl =>
    ⟨l, (h2.same a h9 (Nat.lt_of_lt_of_le (lt_of_get hl) hn)).trans hl, fun _ _ => rfl⟩⟩

theorem Own.set {h' : Heap} (h1 : Own a q d h h') {b : Nat} (hb : b = q ∨ b = d) (h9 : 9 ≤ b) (c : Cell) :
    Own a q d h (h'.set b c) :=
  ⟨h1.base.congr fun i hi => List.getElem?_set_ne (by omega), by simpa using h1.len, fun i i9 hi e1 e2 e3 => by
    rw [List.getElem?_set_ne (by rintro rfl; rcases hb with rfl | rfl <;> contradiction)]
    exact h1.same i i9 hi e1 e2 e3, fun a9 e1 e2 => (h1.wires a9 e1 e2).trans (Wires.same (List.getElem?_set_ne (by
      rintro rfl; rcases hb with rfl | rfl <;> contradiction)))⟩

theorem Own.only {h' : Heap} (r : MgrAt nm env h a s attrs q d) (h1 : Own a q d h h') : Only a h h' :=
  ⟨h1.base, h1.len, fun b h9 hb => by
    by_cases e1 : b = a
    · exact .inr (.inl e1)
    · by_cases e2 : b = q
      · subst e2; exact .inr (.inr ⟨_, _, r.cell, .inl r.outbound⟩)
      · by_cases e3 : b = d
        · subst e3; exact .inr (.inr ⟨_, _, r.cell, .inr r.callbacks⟩)
        · exact .inl (h1.same b h9 hb e1 e2 e3),
    h1.wires r.low r.aq r.ad⟩

theorem Own.asn {h' : Heap} (r : MgrAt nm env h a s attrs q d) (h1 : Own a q d h h') : Same h h' := by
  intro b c h9 hc hb
  have e1 : b ≠ a := by rintro rfl; rw [r.cell] at hb; cases hb; exact not_asn_mgr _ _ hc
  have e2 : b ≠ q := by rintro rfl; obtain ⟨_, hq, _⟩ := r.queue; rw [hq] at hb; cases hb; exact hc
  have e3 : b ≠ d := by rintro rfl; obtain ⟨_, hq, _⟩ := r.dict; rw [hq] at hb; cases hb; exact hc
  rw [h1.same b h9 (lt_of_get hb) e1 e2 e3, hb]

/-! ## The changes that a manager makes to itself -/

theorem MgrAt.setId (r : MgrAt nm env h a s attrs q d) :
    MgrAt nm env (h.set a (.inst (mgrCid k) (setAssoc attrs "nextRequestID" (.int (s.nextRequestID + 1 : Nat))))) a
      { s with nextRequestID := s.nextRequestID + 1 } (setAssoc attrs "nextRequestID" (.int (s.nextRequestID + 1 : Nat))) q d := by
  have hs := Same.set r.cell (not_asn_mgr k attrs) (.inst (mgrCid k) (setAssoc attrs "nextRequestID" (.int (s.nextRequestID + 1 : Nat))))
  have eq := List.getElem?_set_ne (l := h) (a := .inst (mgrCid k) (setAssoc attrs "nextRequestID" (.int (s.nextRequestID + 1 : Nat)))) r.aq
  have ed := List.getElem?_set_ne (l := h) (a := .inst (mgrCid k) (setAssoc attrs "nextRequestID" (.int (s.nextRequestID + 1 : Nat)))) r.ad
  refine ⟨r.low, get_set_nil r.lt _, names_set r.names (by decide) _, .inl ?_, ?_, r.qlow, ?_, ?_, r.dlow, ?_, r.keys, r.once, ?_, ?_⟩
  · rw [lookup_setAssoc]
  · rw [lookup_setOther (by decide)]; exact r.outbound
  · obtain ⟨l, h1, h2⟩ := r.queue
    exact ⟨l, eq.trans h1, h2.imp fun _ _ h => h.same hs⟩
  · rw [lookup_setOther (by decide)]; exact r.callbacks
  · obtain ⟨l, h1, h2⟩ := r.dict
    exact ⟨l, ed.trans h1, h2.imp fun _ _ h => ⟨h.1.same hs, h.2⟩⟩
  · rw [lookup_setOther (by decide)]; exact r.trap
  · rw [lookup_setOther (by decide)]; exact r.empty

/-- Another list of items in the queue. -/
theorem MgrAt.setQueue (r : MgrAt nm env h a s attrs q d) {out : List (Option Msg × Nat)} {l : List V}
    (hl : List.Forall₂ (QItem nm h) out l) : MgrAt nm env (h.set q (.queue l)) a { s with outbound := out } attrs q d := by
  obtain ⟨l0, h1, h2⟩ := r.queue
  have hs := Same.set h1 (fun h => h) (.queue l)
  refine ⟨r.low, ?_, r.names, r.next, r.outbound, r.qlow, ⟨l, get_set_nil r.qlt _, hl.imp fun _ _ h => h.same hs⟩, r.callbacks,
    r.dlow, ?_, r.keys, r.once, r.trap, r.empty⟩
  · rw [List.getElem?_set_ne r.aq.symm]; exact r.cell
  · obtain ⟨es, h3, h4⟩ := r.dict
    exact ⟨es, by rw [List.getElem?_set_ne r.qd]; exact h3, h4.imp fun _ _ h => ⟨h.1.same hs, h.2⟩⟩

/-- Other entries in the dictionary. -/
theorem MgrAt.setDict (r : MgrAt nm env h a s attrs q d) {cbs : Dict} {es : List (V × V)}
    (hl : List.Forall₂ (fun p e => Rep 9 h p.1 e.1 ∧ e.2 = nm.fn p.2) cbs es) (hk : ∀ p ∈ cbs, GoodKey k p.1)
    (ho : cbs.Pairwise fun p p' => sameKey p.1 p'.1 = false) :
    MgrAt nm env (h.set d (.dict es)) a { s with callbacks := cbs } attrs q d := by
  obtain ⟨l0, h1, h2⟩ := r.dict
  have hs := Same.set h1 (fun h => h) (.dict es)
  refine ⟨r.low, ?_, r.names, r.next, r.outbound, r.qlow, ?_, r.callbacks,
    r.dlow, ⟨es, get_set_nil r.dlt _, hl.imp fun _ _ h => ⟨h.1.same hs, h.2⟩⟩, hk, ho, r.trap, r.empty⟩
  · rw [List.getElem?_set_ne r.ad.symm]; exact r.cell
  · obtain ⟨l, h3, h4⟩ := r.queue
    exact ⟨l, by rw [List.getElem?_set_ne r.qd.symm]; exact h3, h4.imp fun _ _ h => h.same hs⟩

end

end Libsnmp.Src
