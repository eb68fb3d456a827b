import Verif.Model.Interp

/-!
# Loops without an exit

A `while 1:` whose body has no `return` and no `break` never comes to an end of its own: whatever the calls in it do, it goes on for ever
or ends with an exception.  The interpreter is a least fixed point; the proof is by induction on its approximations.
-/

namespace Libsnmp.Src
open Libsnmp

mutual
/-- No `return`, no `break` and no loop in the statement. -/
def noExit : Stmt → Bool
  | .ret _ => false
  | .brk => false
  | .whileS _ _ => false
  | .forS _ _ _ => false
  | .ifS _ a b => noExits a && noExits b
  | .tryS a _ b => noExits a && noExits b
  | .tryAs a _ _ b c => noExits a && noExits b && noExits c
  | _ => true
def noExits : List Stmt → Bool
  | [] => true
  | s :: ss => noExit s && noExits ss
end

/-- The statement, if it comes to an end, comes to its end or raises (or is outside the interpreter). -/
def Proceeds (x : S) : Prop := ∀ h E fl, x = some (h, E, fl) → fl = .next ∨ (∃ e, fl = .exc e) ∨ fl = .stuck

/-- It does not come to its end. -/
def Stays (x : S) : Prop := ∀ h E fl, x = some (h, E, fl) → (∃ e, fl = .exc e) ∨ fl = .stuck

theorem Proceeds.none : Proceeds none := nofun
theorem Stays.none : Stays none := nofun
theorem Stays.of_eq {x y : S} (e : x = y) (h : Stays y) : Stays x := e ▸ h
theorem Proceeds.next {h : Heap} {E : Env} : Proceeds (some (h, E, .next)) := fun _ _ _ e => by cases e; exact .inl rfl
theorem Proceeds.exc {h : Heap} {E : Env} {v : V} : Proceeds (some (h, E, .exc v)) := fun _ _ _ e => by cases e; exact .inr (.inl ⟨_, rfl⟩)
theorem Proceeds.stuck {h : Heap} {E : Env} : Proceeds (some (h, E, .stuck)) := fun _ _ _ e => by cases e; exact .inr (.inr rfl)

theorem Proceeds.bindE {α : Type} {x : R α} {E : Env} {f : α → Heap → S} (h : ∀ a h, Proceeds (f a h)) : Proceeds (bindE x E f) := by
  unfold Src.bindE
  split
  · exact .none
  · exact h _ _
  · exact .exc
  · exact .stuck

theorem Proceeds.bindS {x : S} {f : Env → Heap → S} (hx : Proceeds x) (h : ∀ E h, Proceeds (f E h)) : Proceeds (bindS x f) := by
  unfold Src.bindS
  split
  · exact .none
  · exact h _ _
  · exact hx

theorem Proceeds.bindTry {x : S} {c : V → Heap → Bool} {f : V → Env → Heap → S} (hx : Proceeds x) (h : ∀ v E h, Proceeds (f v E h)) : Proceeds (bindTry x c f) := by
  unfold Src.bindTry
  split
  · exact .none
  · split
    · exact h _ _ _
    · exact .exc
  · exact hx

theorem Proceeds.branch {b : Bool} {x y : S} (hx : Proceeds x) (hy : Proceeds y) : Proceeds (branch b x y) := by
  cases b
  · exact hy
  · exact hx

theorem Stays.bindLoop {x : S} {f : Env → Heap → S} (hx : Proceeds x) (h : ∀ E h, Stays (f E h)) : Stays (bindLoop x f) := by
  unfold Src.bindLoop
  split
  · exact .none
  · exact h _ _
  · rcases hx _ _ _ rfl with h | ⟨_, h⟩ | h <;> cases h
  · rename_i r hn hb
    obtain ⟨h', E', fl⟩ := r
    rcases hx _ _ _ rfl with rfl | h1 | h1
    · exact (hn _ _ rfl).elim
    · intro h2 E2 fl2 e
      cases e
      exact .inl h1
    · intro h2 E2 fl2 e
      cases e
      exact .inr h1

/-! ## Admissible predicates -/

theorem adm1 {α ε : Type} (P : α → Option ε → Prop) (h : ∀ a, P a none) :
    Lean.Order.admissible (fun f : α → Option ε => ∀ a, P a (f a)) := by
  apply Lean.Order.admissible_pi_apply
  intro a
  exact Lean.Order.admissible_flatOrder _ (h a)
theorem adm2 {α β ε : Type} (P : α → β → Option ε → Prop) (h : ∀ a b, P a b none) :
    Lean.Order.admissible (fun f : α → β → Option ε => ∀ a b, P a b (f a b)) :=
  Lean.Order.admissible_pi_apply (β := fun _ => β → Option ε) (fun a (f : β → Option ε) => ∀ b, P a b (f b)) fun a => adm1 _ (h a)
theorem adm3 {α β γ ε : Type} (P : α → β → γ → Option ε → Prop) (h : ∀ a b c, P a b c none) :
    Lean.Order.admissible (fun f : α → β → γ → Option ε => ∀ a b c, P a b c (f a b c)) :=
  Lean.Order.admissible_pi_apply (β := fun _ => β → γ → Option ε) (fun a (f : β → γ → Option ε) => ∀ b c, P a b c (f b c)) fun a => adm2 _ (h a)
theorem adm4 {α β γ δ ε : Type} (P : α → β → γ → δ → Option ε → Prop) (h : ∀ a b c d, P a b c d none) :
    Lean.Order.admissible (fun f : α → β → γ → δ → Option ε => ∀ a b c d, P a b c d (f a b c d)) :=
  Lean.Order.admissible_pi_apply (β := fun _ => β → γ → δ → Option ε) (fun a (f : β → γ → δ → Option ε) => ∀ b c d, P a b c d (f b c d)) fun a => adm3 _ (h a)
theorem adm5 {α β γ δ ζ ε : Type} (P : α → β → γ → δ → ζ → Option ε → Prop) (h : ∀ a b c d e, P a b c d e none) :
    Lean.Order.admissible (fun f : α → β → γ → δ → ζ → Option ε => ∀ a b c d e, P a b c d e (f a b c d e)) :=
  Lean.Order.admissible_pi_apply (β := fun _ => β → γ → δ → ζ → Option ε) (fun a (f : β → γ → δ → ζ → Option ε) => ∀ b c d e, P a b c d e (f b c d e)) fun a => adm4 _ (h a)

/-- The conditions of endless loops. -/
def Always (c : Expr) (v : V) : Prop := c = .int 1 ∧ v = .int 1 ∨ c = .bool true ∧ v = .bool true

theorem while_stays (P : Program) (cfg : Cfg) : ∀ m E c body h v, Always c v → noExits body = true → Stays (whileL P cfg m E c body h) := by
  refine whileL.fixpoint_induct P cfg
    (motive_1 := fun f => ∀ m E e h v, Always e v → f m E e h = none ∨ f m E e h = okR v h)
    (motive_2 := fun _ => True) (motive_3 := fun _ => True) (motive_4 := fun _ => True) (motive_5 := fun _ => True) (motive_6 := fun _ => True)
    (motive_7 := fun _ => True) (motive_8 := fun _ => True) (motive_9 := fun _ => True) (motive_10 := fun _ => True) (motive_11 := fun _ => True)
    (motive_12 := fun _ => True) (motive_13 := fun _ => True)
    (motive_14 := fun f => ∀ m E ss h, noExits ss = true → Proceeds (f m E ss h))
    (motive_15 := fun f => ∀ m E s h, noExit s = true → Proceeds (f m E s h))
    (motive_16 := fun _ => True) (motive_17 := fun _ => True) (motive_18 := fun _ => True)
    (motive_19 := fun f => ∀ v h, v = .int 1 ∨ v = .bool true → f v h = none ∨ f v h = okR true h)
    (motive_20 := fun _ => True) (motive_21 := fun _ => True) (motive_22 := fun _ => True) (motive_23 := fun _ => True)
    (motive_24 := fun f => ∀ m E c body h v, Always c v → noExits body = true → Stays (f m E c body h))
    (motive_25 := fun _ => True) (motive_26 := fun _ => True)
    (motive_27 := fun f => ∀ m E t v h, Proceeds (f m E t v h))
    (motive_28 := fun _ => True) (motive_29 := fun _ => True) (motive_30 := fun _ => True) (motive_31 := fun _ => True)
    ?_ ?_ ?_ ?_ ?_ ?_ ?_ ?_ ?_ ?_ ?_ ?_ ?_ ?_ ?_ ?_ ?_ ?_ ?_ ?_ ?_ ?_ ?_ ?_ ?_ ?_ ?_ ?_ ?_ ?_ ?_
    ?_ ?_ ?_ ?_ ?_ ?_ ?_ ?_ ?_ ?_ ?_ ?_ ?_ ?_ ?_ ?_ ?_ ?_ ?_ ?_ ?_ ?_ ?_ ?_ ?_ ?_ ?_ ?_ ?_ ?_ ?_
  all_goals first
    | exact fun _ _ _ => trivial
    | (intros; exact trivial)
    | skip
  · exact adm4 (fun _ _ e h x => ∀ v, Always e v → x = none ∨ x = okR v h) fun _ _ _ _ _ _ => .inl rfl
  · exact adm4 (fun _ _ ss _ x => noExits ss = true → Proceeds x) fun _ _ _ _ _ => .none
  · exact adm4 (fun _ _ s _ x => noExit s = true → Proceeds x) fun _ _ _ _ _ => .none
  · exact adm2 (fun v h x => v = V.int 1 ∨ v = V.bool true → x = none ∨ x = okR true h) fun _ _ _ => .inl rfl
  · exact adm5 (fun _ _ c body _ x => ∀ v, Always c v → noExits body = true → Stays x) fun _ _ _ _ _ _ _ _ => .none
  · exact adm5 (fun _ _ _ _ _ x => Proceeds x) fun _ _ _ _ _ => .none
  · intros
    rename_i hv
    rcases hv with ⟨rfl, rfl⟩ | ⟨rfl, rfl⟩ <;> exact .inr rfl
  · intros
    rename_i ss h hn
    cases ss with
    | nil => exact .next
    | cons s ss =>
      simp only [noExits, Bool.and_eq_true] at hn
      rename_i hb he _ _
      exact Proceeds.bindS (he _ _ _ _ hn.1) fun _ _ => hb _ _ _ _ hn.2
  · intro eval block remove truth forL whileL binop assign _ hb _ _ _ _ _ ha m E s h hn
    dsimp only
    cases s with
    | expr e => exact .bindE fun _ _ => .next
    | assign t e => exact .bindE fun _ _ => ha _ _ _ _ _
    | aug t op e =>
      cases t with
      | loc x => exact .bindE fun _ _ => .bindE fun _ _ => .bindE fun _ _ => .next
      | attr o a => exact .bindE fun _ _ => .bindE fun _ _ => .bindE fun _ _ => .bindE fun _ _ => .bindE fun _ _ => .next
      | index => exact .stuck
      | tuple => exact .stuck
    | ret e => cases hn
    | raise e =>
      refine .bindE fun v h => ?_
      split
      · exact .exc
      · exact .exc
      · split
        · exact .branch .exc .exc
        · exact .exc
      · exact .stuck
    | reraise =>
      dsimp only
      split
      · exact .exc
      · refine .bindE fun v h => ?_
        split
        · exact .exc
        · exact .stuck
    | pass => exact .next
    | brk => cases hn
    | ifS c a b =>
      simp only [noExit, Bool.and_eq_true] at hn
      exact .bindE fun _ _ => .bindE fun _ _ => .branch (hb _ _ _ _ hn.1) (hb _ _ _ _ hn.2)
    | whileS => cases hn
    | forS => cases hn
    | tryS a x b =>
      simp only [noExit, Bool.and_eq_true] at hn
      exact .bindTry (hb _ _ _ _ hn.1) fun _ _ _ => .bindS (hb _ _ _ _ hn.2) fun _ _ => .next
    | del => exact .bindE fun _ _ => .bindE fun _ _ => .bindE fun _ _ => .next
    | tryAs a n x b c =>
      simp only [noExit, Bool.and_eq_true] at hn
      exact .bindTry (hb _ _ _ _ hn.1.1) fun _ _ _ => .bindS (.branch (hb _ _ _ _ hn.1.2) (hb _ _ _ _ hn.2)) fun _ _ => .next
  · intros
    rename_i hv
    rcases hv with rfl | rfl <;> exact .inr rfl
  · intro eval block truth whileL he hb ht hw m E c body h v hc hn
    dsimp only
    rcases he m E c h v hc with e | e
    · rw [e]; exact .none
    · rw [e]
      rcases ht v h (by rcases hc with ⟨-, rfl⟩ | ⟨-, rfl⟩ <;> simp) with t | t
      · exact .of_eq (by rw [okR, bindE, t]; rfl) .none
      · refine .of_eq (by rw [okR, bindE, t]; rfl) (.bindLoop (hb _ _ _ _ hn) fun _ _ => hw _ _ _ _ _ _ hc hn)
  · intros
    dsimp only
    split
    · exact .next
    · exact .bindE fun _ _ => .bindE fun _ _ => .next
    · exact .bindE fun _ _ => .bindE fun _ _ => .bindE fun _ _ => .next
    · split
      · split
        · exact .next
        · exact .exc
      · exact .stuck

end Libsnmp.Src
