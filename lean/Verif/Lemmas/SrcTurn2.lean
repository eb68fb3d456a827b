import Verif.Lemmas.SrcTurn
import Verif.Props.Requests

/-!
# Running `run`: taking a message from the queue and sending it
-/

namespace Libsnmp.Src
open Libsnmp Spec

variable {cfg : Cfg} {nm : Names} {env : Libsnmp.Env} {k : Libsnmp.Kind}

/-! ## What may change -/

mutual
theorem Rep.mono {lo lo' : Nat} (hle : lo' ≤ lo) {h : Heap} : ∀ (v : Val) (x : V), Rep lo h v x → Rep lo' h v x
  | .none, _, r => by rw [Rep] at r ⊢; exact r
  | .int _, _, r => by rw [Rep] at r ⊢; exact r
  | .str _, _, r => by rw [Rep] at r ⊢; exact r
  | .bytes _, _, r => by rw [Rep] at r; exact r.elim
  | .raw _ _, _, r => by rw [Rep] at r; exact r.elim
  | .integer c n, x, r => by
    rw [Rep] at r ⊢
    obtain ⟨a, attrs, hx, hl, hr⟩ := r
    exact ⟨a, attrs, hx, Nat.le_trans hle hl, hr⟩
  | .octets c n, x, r => by
    rw [Rep] at r ⊢
    obtain ⟨a, attrs, hx, hl, hr⟩ := r
    exact ⟨a, attrs, hx, Nat.le_trans hle hl, hr⟩
  | .oid none, x, r => by
    rw [Rep] at r ⊢
    obtain ⟨a, attrs, hx, hl, hr⟩ := r
    exact ⟨a, attrs, hx, Nat.le_trans hle hl, hr⟩
  | .oid (some ids), x, r => by
    rw [Rep] at r ⊢
    obtain ⟨a, attrs, b, hx, hl, ha, hp, hv, hb, hr⟩ := r
    exact ⟨a, attrs, b, hx, Nat.le_trans hle hl, ha, hp, hv, Nat.le_trans hle hb, hr⟩
  | .null c, x, r => by
    rw [Rep] at r ⊢
    obtain ⟨a, attrs, hx, hl, hr⟩ := r
    exact ⟨a, attrs, hx, Nat.le_trans hle hl, hr⟩
  | .seq c items, x, r => by
    rw [Rep] at r ⊢
    obtain ⟨a, attrs, b, l, hx, hl, ha, hp, hv, hb, hr, hf, hi⟩ := r
    exact ⟨a, attrs, b, l, hx, Nat.le_trans hle hl, ha, hp, hv, Nat.le_trans hle hb, hr, hf, RepAll.mono hle items l hi⟩
theorem RepAll.mono {lo lo' : Nat} (hle : lo' ≤ lo) {h : Heap} : ∀ (vs : List Val) (l : List V), RepAll lo h vs l → RepAll lo' h vs l
  | [], _, r => by rw [RepAll] at r ⊢; exact r
  | v :: vs, _, r => by
    rw [RepAll] at r ⊢
    obtain ⟨x, xs, hx, r1, r2⟩ := r
    exact ⟨x, xs, hx, Rep.mono hle v x r1, RepAll.mono hle vs xs r2⟩
end

theorem RepMsg.mono {lo lo' : Nat} (hle : lo' ≤ lo) {h : Heap} {m : Msg} {a : Nat} (r : RepMsg lo h m a) : RepMsg lo' h m a := by
  obtain ⟨attrs, b, l, x, y, z, h1, h2, h3, h4, h5, h6, h7, h8, h9, h10, r1, r2, r3⟩ := r
  exact ⟨attrs, b, l, x, y, z, Nat.le_trans hle h1, h2, h3, h4, Nat.le_trans hle h5, h6, h7, h8, h9, h10, r1.mono hle, r2.mono hle, r3.mono hle⟩

theorem Obeys.mono {U : Nat → Prop} {n n' a : Nat} (hn : n ≤ n') {user : User k} (hu : Obeys cfg nm env U n a user) :
    Obeys cfg nm env U n' a user :=
  ⟨fun b hb => Nat.lt_of_lt_of_le (hu.1 b hb) hn, fun cb m s h x attrs q d h1 h2 h3 h4 =>
    hu.2 cb m s h x attrs q d (Nat.le_trans hn h1) h2 h3 (h4.mono hn)⟩

theorem Leaves.turned {U : Nat → Prop} {a q d : Nat} {h h' : Heap} (hl : Leaves U a q d h h') : Turned U a q d h h' :=
  ⟨hl.base, hl.len, fun b h9 hb e1 e2 e3 e4 => .inl (hl.same b h9 hb e1 e2 e3 e4), hl.wires⟩

theorem Turned.trans {U : Nat → Prop} {a q d : Nat} {h h' h'' : Heap} (h1 : Turned U a q d h h') (h2 : Turned U a q d h' h'') :
    Turned U a q d h h'' := by
  refine ⟨h2.base, Nat.le_trans h1.len h2.len, fun b h9 hb e1 e2 e3 e4 => ?_, h1.wires.trans h2.wires⟩
  rcases h1.same b h9 hb e1 e2 e3 e4 with s1 | ⟨c, l, l', hc, s1, s2, s3⟩
  · rw [← s1]; exact h2.same b h9 (Nat.lt_of_lt_of_le hb h1.len) e1 e2 e3 e4
  · rcases h2.same b h9 (Nat.lt_of_lt_of_le hb h1.len) e1 e2 e3 e4 with t1 | ⟨c', m, m', hc', t1, t2, t3⟩
    · exact .inr ⟨c, l, l', hc, s1, t1.trans s2, s3⟩
    · rw [s2] at t1
      injection t1 with t1
      injection t1 with t0 t1
      subst t1
      rw [← t0] at t2
      exact .inr ⟨c, l, m', hc, s1, t2, fun n hn => (t3 n hn).trans (s3 n hn)⟩

/-- The `role.manager` is none of the objects that may change. -/
theorem Turned.line {U : Nat → Prop} {a q d : Nat} {h h' : Heap} (ht : Turned U a q d h h') {s : Mgr k} {attrs : List (String × V)}
    (r : MgrAt nm env h a s attrs q d) {g : Nat} {w : String} {size : Int} (hU : ¬ U g) (hl : Line h g w size) : Line h' g w size := by
  obtain ⟨h9, l, hc, hr⟩ := hl
  have e1 : g ≠ a := by rintro rfl; rw [r.cell] at hc; injection hc with hc; injection hc with hc _; exact absurd hc (by cases k <;> decide)
  have e2 : g ≠ q := by rintro rfl; obtain ⟨_, h1, _⟩ := r.queue; rw [h1] at hc; cases hc
  have e3 : g ≠ d := by rintro rfl; obtain ⟨_, h1, _⟩ := r.dict; rw [h1] at hc; cases hc
  refine ⟨h9, l, ?_, hr⟩
  rcases ht.same g h9 (lt_of_get hc) e1 e2 e3 hU with h1 | ⟨c, l1, l2, hm, h1, -, -⟩
  · rw [h1, hc]
  · rw [h1] at hc
    injection hc with hc
    injection hc with hc _
    rcases hm with rfl | rfl <;> exact absurd hc (by decide)

/-- The wires are as they were. -/
theorem Wires.wired {a g : Nat} {h h' : Heap} (hs : Wires a h h') {s s' : Mgr k} {attrs attrs' : List (String × V)} {q d : Nat}
    (r : MgrAt nm env h a s attrs q d) (r' : MgrAt nm env h' a s' attrs' q d) {t : V} (hw : Wired k a g t attrs) : Wired k a g t attrs' := by
  obtain ⟨l2, c2, w2⟩ := hs _ _ r.cell
  rw [r'.cell] at c2
  injection c2 with c2
  injection c2 with _ c2
  subst c2
  exact hw.keep w2

/-! ## A message that has been encoded -/

section
variable {h h' : Heap} {b : Nat} {m0 : Msg}

theorem encoded_rest (hm : m0.cls = .message ∨ m0.cls = .message2) (r0 : RepMsg 9 h m0 b) (hold : ∀ c, c < h.length → c ≠ b → h'[c]? = h[c]?) :
    ∀ (a : Nat) (c : Cell), h[a]? = some c → NotMsg c → h'[a]? = some c := by
  intro a c ha hn
  have hne : a ≠ b := by
    rintro rfl
    obtain ⟨attrs, -, -, -, -, -, -, h2, -⟩ := r0
    rw [h2] at ha
    injection ha with ha
    subst ha
    rcases hm with hm | hm
    · exact (hn attrs).1 (by rw [hm])
    · exact (hn attrs).2 (by rw [hm])
  rw [hold a (lt_of_get ha) hne, ha]

theorem RepMsg.encoded (hm : m0.cls = .message ∨ m0.cls = .message2) (r0 : RepMsg 9 h m0 b)
    (hold : ∀ c, c < h.length → c ≠ b → h'[c]? = h[c]?) (hnv : NewValue b h h') {m : Msg} {a : Nat} (hf : Fine m)
    (r : RepMsg 9 h m a) : RepMsg 9 h' m a := by
  have hap := encoded_rest hm r0 hold
  obtain ⟨attrs, v, l, x, y, z, h1, h2, h3, h4, h5, h6, h7, h8, h9, h10, r1, r2, r3⟩ := r
  obtain ⟨-, hs, -⟩ := hf
  rw [SaneAll, SaneAll, SaneAll] at hs
  have r1 := Rep.apart hap _ _ hs.1 r1
  have r2 := Rep.apart hap _ _ hs.2.1 r2
  have r3 := Rep.apart hap _ _ hs.2.2.1 r3
  by_cases hab : a = b
  · subst hab
    obtain ⟨c, attrs0, l0, n1, n2, n3, n4⟩ := hnv
    rw [h2] at n1
    injection n1 with n1
    injection n1 with e1 e2
    subst e2
    rw [← e1] at n2
    exact ⟨_, h.length, l0, x, y, z, h1, n2, plain_set h3 _, lookup_setAssoc _ _ _, by have := lt_of_get h2; omega, n3, by omega,
      (lookup_setOther (by decide)).trans h8, (lookup_setOther (by decide)).trans h9, (lookup_setOther (by decide)).trans h10, r1, r2, r3⟩
  · exact ⟨attrs, v, l, x, y, z, h1, (hold a (lt_of_get h2) hab).trans h2, h3, h4, h5, hap _ _ h6 (notMsg_list _), h7, h8, h9, h10, r1, r2, r3⟩

theorem mgr_notMsg (k : Libsnmp.Kind) (attrs : List (String × V)) : NotMsg (.inst (mgrCid k) attrs) := fun l =>
  ⟨fun h => mgrCid_ne k _ (by injection h), fun h => mgrCid_ne k _ (by injection h)⟩

theorem MgrAt.encoded {a q d : Nat} {s : Mgr k} {attrs : List (String × V)} (r : MgrAt nm env h a s attrs q d)
    (hm : m0.cls = .message ∨ m0.cls = .message2) (r0 : RepMsg 9 h m0 b)
    (hold : ∀ c, c < h.length → c ≠ b → h'[c]? = h[c]?) (hnv : NewValue b h h') (hf : ∀ m n, (some m, n) ∈ s.outbound → Fine m) :
    MgrAt nm env h' a s attrs q d where
  low := r.low
  cell := encoded_rest hm r0 hold _ _ r.cell (mgr_notMsg _ _)
  names := r.names
  next := r.next
  outbound := r.outbound
  qlow := r.qlow
  queue := by
    obtain ⟨l, h1, h2⟩ := r.queue
    refine ⟨l, encoded_rest hm r0 hold _ _ h1 fun _ => ⟨by simp, by simp⟩, ?_⟩
    clear h1 r
    generalize s.outbound = out at h2 hf
    induction h2 with
    | nil => exact .nil
    | @cons p x ps xs h3 h4 ih =>
      refine .cons ?_ (ih fun m n hmn => hf m n (List.mem_cons_of_mem _ hmn))
      obtain ⟨m, n⟩ := p
      cases m with
      | none => exact h3
      | some m =>
        obtain ⟨c, hx, h3⟩ := h3
        exact ⟨c, hx, RepMsg.encoded hm r0 hold hnv (hf m n List.mem_cons_self) h3⟩
  callbacks := r.callbacks
  dlow := r.dlow
  dict := by
    obtain ⟨l, h1, h2⟩ := r.dict
    refine ⟨l, encoded_rest hm r0 hold _ _ h1 fun _ => ⟨by simp, by simp⟩, ?_⟩
    have hk := r.keys
    clear h1 r
    generalize s.callbacks = out at h2 hk
    induction h2 with
    | nil => exact .nil
    | @cons p x ps xs h3 h4 ih =>
      refine .cons ⟨?_, h3.2⟩ (ih fun p hp => hk p (List.mem_cons_of_mem _ hp))
      have hg := hk p List.mem_cons_self
      have h3 := h3.1
      have : (∃ n, p.1 = .int n) ∨ ∃ c n, p.1 = .integer c n := by
        cases k with
        | v1 => exact .inl hg
        | v2 => exact .inl hg
        | sm => exact .inr hg
      rcases this with ⟨n, e⟩ | ⟨c, n, e⟩
      · rw [e, Rep] at h3 ⊢; exact h3
      · rw [e, Rep] at h3 ⊢
        obtain ⟨a, attrs, hx, hl, ha, hr⟩ := h3
        exact ⟨a, attrs, hx, hl, encoded_rest hm r0 hold _ _ ha (notMsg (by simp) (by simp) _), hr⟩
  keys := r.keys
  once := r.once
  trap := r.trap
  empty := r.empty

theorem turned_encoded {U : Nat → Prop} {a q d : Nat} {s : Mgr k} {attrs : List (String × V)} (r : MgrAt nm env h a s attrs q d) (hb : Base h)
    (hm : m0.cls = .message ∨ m0.cls = .message2) (r0 : RepMsg 9 h m0 b)
    (hold : ∀ c, c < h.length → c ≠ b → h'[c]? = h[c]?) (hnv : NewValue b h h') : Turned U a q d h h' := by
  obtain ⟨c, attrs0, l0, n1, n2, n3, n4⟩ := hnv
  have hlt := lt_of_get n1
  have h9 : 9 ≤ b := by obtain ⟨_, _, _, _, _, _, h1, _⟩ := r0; exact h1
  have hcls : c = cid (.seq m0.cls) := by
    obtain ⟨_, _, _, _, _, _, _, h2, _⟩ := r0
    rw [h2] at n1
    injection n1 with n1
    injection n1 with n1 _
    exact n1.symm
  refine ⟨hb.congr fun i hi => hold i (by omega) (by omega), by have := lt_of_get n3; omega, fun c' c9 hc e1 e2 e3 _ => ?_, Wires.same ?_⟩
  · by_cases hcb : c' = b
    · subst hcb
      rw [hcls] at n1 n2
      exact .inr ⟨m0.cls, attrs0, _, hm, n1, n2, fun n hn => lookup_setOther (by simpa using hn)⟩
    · exact .inl (hold c' hc hcb)
  · rw [r.cell]
    exact encoded_rest hm r0 hold _ _ r.cell (mgr_notMsg _ _)

end

/-! ## Sending -/

/-- role.py:40-45, asynrole.py:33-35. -/
theorem run_send {h : Heap} {a q d g : Nat} {s : Mgr k} {attrs : List (String × V)} (r : MgrAt nm env h a s attrs q d) {t : V}
    (hw : Wired k a g t attrs) {w : String} {size : Int} (hl : Line h g w size) {x y : V} {o : Except Exc Unit}
    (hs : Ends h (cfg.ext (w ++ ".sendto") [x, y] h) o) :
    Ends h (call program cfg (.meth (.ref a) .asynrole 33) [x, y] h) o := by
  obtain ⟨g1, -, g2, -⟩ := hl.gets
  have g3 := r.wire hw.manager
  have h0 : call program cfg (.meth (.ref a) .asynrole 33) [x, y] h = call program cfg (.func .asynrole 33) [.ref a, x, y] h := by conv => lhs; rw [call]
  have h2 : call program cfg (.ext (w ++ "." ++ "sendto")) [x, y] h = cfg.ext (w ++ ".sendto") [x, y] h := by
    rw [call, String.append_assoc]; rfl
  have h1 : call program cfg (.meth (.ref g) .role 40) [x, y] h = bindR (cfg.ext (w ++ ".sendto") [x, y] h) fun _ h => okR .none h := by
    have h1 : call program cfg (.meth (.ref g) .role 40) [x, y] h = call program cfg (.func .role 40) [.ref g, x, y] h := by conv => lhs; rw [call]
    rw [h1, call_role_40]
    rcases o with e | ⟨⟨⟩⟩
    · obtain ⟨hne, z, hz, hr⟩ := hs
      rw [hz] at h2 ⊢
      runs [role_40, ↓g1, ↓h2]
    · obtain ⟨z, hz⟩ := hs
      rw [hz] at h2 ⊢
      runs [role_40, ↓g1, ↓h2]
  rw [h0, call_asynrole_33]
  rcases o with e | ⟨⟨⟩⟩
  · obtain ⟨hne, z, hz, hr⟩ := hs
    rw [hz] at h1
    exact ⟨hne, z, by runs [asynrole_33, ↓g3, ↓g2, ↓h1], hr⟩
  · obtain ⟨z, hz⟩ := hs
    rw [hz] at h1
    exact ⟨.none, by runs [asynrole_33, ↓g3, ↓g2, ↓h1]⟩

end Libsnmp.Src
