import Verif.Spec.Channels
import Mathlib.Tactic.Common

/-! # C84: opening and closing managers -/

namespace Libsnmp
open Spec

/-! ## The map -/

theorem mapGet_set (g f i : Nat) (m : List (Nat × Nat)) : mapGet g (mapSet f i m) = if g = f then some i else mapGet g m := by
  induction m with
  | nil => simp [mapSet, mapGet, eq_comm]
  | cons e m ih =>
    obtain ⟨k, j⟩ := e
    rw [mapSet]
    by_cases hk : k = f
    · subst hk
      rw [if_pos rfl, mapGet, mapGet]
      by_cases hg : k = g
      · simp [hg]
      · simp [hg, Ne.symm hg]
    · rw [if_neg hk, mapGet, mapGet, ih]
      by_cases hg : k = g
      · subst hg; simp [hk]
      · simp [hg]

theorem mapGet_del (g f : Nat) (m : List (Nat × Nat)) : mapGet g (mapDel f m) = if g = f then none else mapGet g m := by
  induction m with
  | nil => simp [mapDel, mapGet]
  | cons e m ih =>
    obtain ⟨k, j⟩ := e
    unfold mapDel at ih ⊢
    rw [List.filter_cons]
    by_cases hk : k = f
    · subst hk
      simp only [ne_eq, not_true_eq_false, decide_false, Bool.false_eq_true, if_false, ih, mapGet]
      by_cases hg : k = g
      · simp [hg]
      · simp [hg, Ne.symm hg]
    · simp only [ne_eq, hk, not_false_eq_true, decide_true, if_true, mapGet, ih]
      by_cases hg : k = g
      · subst hg; simp [hk]
      · simp [hg]

theorem mapGet_mem {m : List (Nat × Nat)} {e : Nat × Nat} (h : e ∈ m) : mapGet e.1 m ≠ none := by
  induction m with
  | nil => cases h
  | cons d m ih =>
    obtain ⟨k, j⟩ := d
    rw [mapGet]
    split
    · simp
    · rename_i hk
      rcases List.mem_cons.mp h with rfl | h
      · exact absurd rfl hk
      · exact ih h

theorem mem_mapGet {m : List (Nat × Nat)} {g i : Nat} (h : mapGet g m = some i) : (g, i) ∈ m := by
  induction m with
  | nil => cases h
  | cons d m ih =>
    obtain ⟨k, j⟩ := d
    rw [mapGet] at h
    split at h
    · rename_i hk; cases h; subst hk; simp
    · exact List.mem_cons_of_mem _ (ih h)

theorem select_ok_iff (p : Fds) : pollSelect p = .ok () ↔ ∀ g, mapGet g p.map ≠ none → p.inUse g = true := by
  have key : (p.map.all fun e => p.inUse e.1) = true ↔ ∀ g, mapGet g p.map ≠ none → p.inUse g = true := by
    rw [List.all_eq_true]
    constructor
    · intro h g hg
      obtain ⟨i, hi⟩ := Option.ne_none_iff_exists'.mp hg
      exact h _ (mem_mapGet hi)
    · intro h e he
      exact h _ (mapGet_mem he)
  unfold pollSelect
  split
  · rename_i h; simpa using key.mp h
  · rename_i h
    constructor
    · intro h'; cases h'
    · intro h'; exact absurd (key.mpr h') h

theorem select_error {p : Fds} {g : Nat} (hm : mapGet g p.map ≠ none) (hu : p.inUse g = false) :
    pollSelect p = .error .osError := by
  cases h : pollSelect p with
  | ok u =>
    have := (select_ok_iff p).mp h g hm
    rw [hu] at this; cases this
  | error e =>
    unfold pollSelect at h
    split at h
    · cases h
    · cases h; rfl

theorem inUse_iff (p : Fds) (f : Nat) : p.inUse f = true ↔ f ∈ p.foreign ∨ ∃ s : Nat, p.fds[s]? = some (some f) := by
  unfold Fds.inUse
  rw [Bool.or_eq_true, List.contains_iff_mem, List.contains_iff_mem, List.mem_iff_getElem? (a := some f)]

theorem not_inUse {p : Fds} {f : Nat} (h : p.inUse f = false) : f ∉ p.foreign ∧ ∀ s : Nat, p.fds[s]? ≠ some (some f) := by
  have := mt (inUse_iff p f).mpr (by simp [h])
  push_neg at this
  exact this

theorem closed_get (s t : Nat) (l : List (Option Nat)) (f : Nat) (h : (closeSocket s l)[t]? = some (some f)) :
    t ≠ s ∧ l[t]? = some (some f) := by
  unfold closeSocket at h
  rw [List.getElem?_set] at h
  split at h
  · split at h <;> cases h
  · rename_i hne; exact ⟨Ne.symm hne, h⟩

theorem closed_self (s : Nat) (l : List (Option Nat)) : (closeSocket s l)[s]?.join = none := by
  unfold closeSocket
  rw [List.getElem?_set, if_pos rfl]
  split <;> rfl

theorem closed_other {s t : Nat} (h : t ≠ s) (l : List (Option Nat)) : (closeSocket s l)[t]? = l[t]? := by
  unfold closeSocket; rw [List.getElem?_set, if_neg (Ne.symm h)]

/-! ## What holds in every history -/

/-- What every operation preserves. -/
structure Sane (p : Fds) : Prop where
  /-- no two sockets share a descriptor -/
  inj : ∀ s t f : Nat, p.fds[s]? = some (some f) → p.fds[t]? = some (some f) → s = t
  apart : ∀ s f : Nat, p.fds[s]? = some (some f) → f ∉ p.foreign
  registered : ∀ f i : Nat, mapGet f p.map = some i → ∃ c, p.chans[i]? = some c ∧ c.fileno = some f
  disp : ∀ (i : Nat) c, p.chans[i]? = some c → c.disp < p.fds.length ∧ ∀ s, c.role = some s → s < p.fds.length

theorem append_fds {l : List (Option Nat)} {f : Nat} {s : Nat} {g : Nat} (h : (l ++ [some f])[s]? = some (some g)) :
    (s = l.length ∧ g = f) ∨ (s < l.length ∧ l[s]? = some (some g)) := by
  rw [List.getElem?_append] at h
  split at h
  · exact .inr ⟨by assumption, h⟩
  · rw [List.getElem?_singleton] at h
    split at h
    · cases h; exact .inl ⟨by omega, rfl⟩
    · cases h

theorem sane_append {p : Fds} (h : Sane p) {f : Nat} (hf : p.inUse f = false) :
    (∀ s t g : Nat, (p.fds ++ [some f])[s]? = some (some g) → (p.fds ++ [some f])[t]? = some (some g) → s = t) ∧
    ∀ s g : Nat, (p.fds ++ [some f])[s]? = some (some g) → g ∉ p.foreign := by
  obtain ⟨h1, h2⟩ := not_inUse hf
  constructor
  · intro s t g hs ht
    rcases append_fds hs with ⟨rfl, rfl⟩ | ⟨a, b⟩ <;> rcases append_fds ht with ⟨rfl, c⟩ | ⟨c, d⟩
    · rfl
    · exact absurd d (h2 _)
    · subst c; exact absurd b (h2 _)
    · exact h.inj _ _ _ b d
  · intro s g hs
    rcases append_fds hs with ⟨rfl, rfl⟩ | ⟨a, b⟩
    · exact h1
    · exact h.apart _ _ b

theorem chans_set {l : List Chan} {i j : Nat} {c d : Chan} (h : (l.set i c)[j]? = some d) :
    (j = i ∧ d = c ∧ i < l.length) ∨ (j ≠ i ∧ l[j]? = some d) := by
  rw [List.getElem?_set] at h
  split at h
  · split at h
    · cases h; exact .inl ⟨by omega, rfl, by assumption⟩
    · cases h
  · exact .inr ⟨by omega, h⟩

theorem chans_append {l : List Chan} {j : Nat} {c d : Chan} (h : (l ++ [c])[j]? = some d) :
    (j = l.length ∧ d = c) ∨ (j < l.length ∧ l[j]? = some d) := by
  rw [List.getElem?_append] at h
  split at h
  · exact .inr ⟨by assumption, h⟩
  · rw [List.getElem?_singleton] at h
    split at h
    · cases h; exact .inl ⟨by omega, rfl⟩
    · cases h

theorem get_lt {α : Type} {l : List α} {i : Nat} {a : α} (h : l[i]? = some a) : i < l.length :=
  (List.getElem?_eq_some_iff.mp h).1

theorem sane_run {p : Fds} (h : Sane p) (o : ChanOp) (hg : Given p o) : Sane (o.run p) := by
  cases o with
  | create f =>
    obtain ⟨a, b⟩ := sane_append h hg
    refine ⟨a, b, ?_, ?_⟩
    · intro g i hi
      simp only [ChanOp.run, chanCreate, mapGet_set] at hi ⊢
      split at hi
      · cases hi
        rename_i hgf; subst hgf
        exact ⟨{ fileno := some g, disp := p.fds.length, role := some p.fds.length }, by simp, rfl⟩
      · obtain ⟨c, h1, h2⟩ := h.registered _ _ hi
        exact ⟨c, by rw [List.getElem?_append_left (get_lt h1)]; exact h1, h2⟩
    · intro i c hi
      simp only [ChanOp.run, chanCreate, List.length_append, List.length_singleton] at hi ⊢
      rcases chans_append hi with ⟨_, rfl⟩ | ⟨_, hi⟩
      · simp
      · have := h.disp i c hi
        exact ⟨by omega, fun s hs => by have := this.2 s hs; omega⟩
  | send i f =>
    simp only [ChanOp.run, chanSend]
    split
    · exact h
    · rename_i c hc
      split
      · exact h
      · obtain ⟨a, b⟩ := sane_append h hg
        refine ⟨a, b, ?_, ?_⟩
        · intro g j hj
          obtain ⟨d, h1, h2⟩ := h.registered _ _ hj
          by_cases hij : j = i
          · subst hij
            rw [hc] at h1
            cases h1
            exact ⟨{ c with role := some p.fds.length }, by simp [get_lt hc], h2⟩
          · exact ⟨d, by simp [List.getElem?_set, Ne.symm hij, h1], h2⟩
        · intro j d hj
          simp only [List.length_append, List.length_singleton] at hj ⊢
          rcases chans_set hj with ⟨_, rfl, _⟩ | ⟨_, hj⟩
          · have := h.disp i c hc
            exact ⟨by simp only; omega, fun s hs => by simp only [Option.some.injEq] at hs; omega⟩
          · have := h.disp j d hj
            exact ⟨by omega, fun s hs => by have := this.2 s hs; omega⟩
  | handleClose i =>
    simp only [ChanOp.run, chanHandleClose]
    split
    · exact h
    · rename_i c hc
      split
      · exact h
      · rename_i s hs
        refine ⟨?_, ?_, ?_, ?_⟩
        · intro t u f ht hu
          exact h.inj _ _ _ (closed_get _ _ _ _ ht).2 (closed_get _ _ _ _ hu).2
        · intro t f ht
          exact h.apart _ _ (closed_get _ _ _ _ ht).2
        · intro g j hj
          obtain ⟨d, h1, h2⟩ := h.registered _ _ hj
          by_cases hij : j = i
          · subst hij
            rw [hc] at h1
            cases h1
            exact ⟨{ c with role := none }, by simp [get_lt hc], h2⟩
          · exact ⟨d, by simp [List.getElem?_set, Ne.symm hij, h1], h2⟩
        · intro j d hj
          simp only [closeSocket, List.length_set]
          rcases chans_set hj with ⟨_, rfl, _⟩ | ⟨_, hj⟩
          · exact ⟨(h.disp i c hc).1, by simp⟩
          · exact h.disp j d hj
  | close i =>
    simp only [ChanOp.run, chanClose]
    split
    · exact h
    · rename_i c hc
      refine ⟨?_, ?_, ?_, ?_⟩
      · intro t u f ht hu
        exact h.inj _ _ _ (closed_get _ _ _ _ ht).2 (closed_get _ _ _ _ hu).2
      · intro t f ht
        exact h.apart _ _ (closed_get _ _ _ _ ht).2
      · intro g j hj
        have hj' : mapGet g p.map = some j ∧ c.fileno ≠ some g := by
          simp only at hj
          split at hj
          · rename_i hn; exact ⟨hj, by rw [hn]; simp⟩
          · rename_i f hn
            rw [mapGet_del] at hj
            split at hj
            · cases hj
            · exact ⟨hj, by rw [hn]; simp; omega⟩
        obtain ⟨d, h1, h2⟩ := h.registered _ _ hj'.1
        by_cases hij : j = i
        · subst hij
          rw [hc] at h1
          cases h1
          exact absurd h2 hj'.2
        · exact ⟨d, by simp [List.getElem?_set, Ne.symm hij, h1], h2⟩
      · intro j d hj
        simp only [closeSocket, List.length_set]
        rcases chans_set hj with ⟨_, rfl, _⟩ | ⟨_, hj⟩
        · exact h.disp i c hc
        · exact h.disp j d hj
  | otherOpen f =>
    refine ⟨h.inj, ?_, h.registered, h.disp⟩
    intro s g hs hm
    simp only [ChanOp.run, List.mem_cons] at hm
    rcases hm with rfl | hm
    · exact (not_inUse hg).2 _ hs
    · exact h.apart _ _ hs hm
  | otherClose f =>
    refine ⟨h.inj, ?_, h.registered, h.disp⟩
    intro s g hs hm
    simp only [ChanOp.run, List.mem_filter] at hm
    exact h.apart _ _ hs hm.1

theorem sane_after {p q : Fds} {h : List ChanOp} (ha : After p h q) (hp : Sane p) : Sane q := by
  induction ha with
  | nil => exact hp
  | snoc o _ hg ih => exact sane_run ih o hg

theorem sane_start : Sane {} := ⟨by simp, by simp, by simp [mapGet], by simp⟩

theorem sane_reach {p : Fds} {h : List ChanOp} (ha : After {} h p) : Sane p := sane_after ha sane_start

theorem after_trans {p q r : Fds} {h h' : List ChanOp} (h1 : After p h q) (h2 : After q h' r) : After p (h ++ h') r := by
  induction h2 with
  | nil => simpa using h1
  | snoc o _ hg ih => rw [← List.append_assoc]; exact .snoc o ih hg

theorem deaf_iff {p : Fds} (hp : Sane p) (i : Nat) : Deaf p i ↔ ∀ f, mapGet f p.map ≠ some i := by
  unfold Deaf pollRead
  constructor
  · intro h f hf
    obtain ⟨c, hc, _⟩ := hp.registered _ _ hf
    have := h f
    rw [hf] at this
    simp only [hc] at this
    cases hr : c.role with
    | none => exact this _ (by rw [hr])
    | some s => exact this _ (by rw [hr])
  · intro h f r e
    split at e
    · cases e
    · rename_i j hj
      have : j ≠ i := by rintro rfl; exact h f hj
      split at e
      · cases e
      · split at e <;> (cases e; exact this rfl)

theorem chans_grow (o : ChanOp) (p : Fds) : p.chans.length ≤ (o.run p).chans.length := by
  cases o with
  | create f => simp [ChanOp.run, chanCreate]
  | send i f =>
    simp only [ChanOp.run, chanSend]
    split
    · simp
    · split <;> simp
  | handleClose i =>
    simp only [ChanOp.run, chanHandleClose]
    split
    · simp
    · split <;> simp
  | close i =>
    simp only [ChanOp.run, chanClose]
    split <;> simp
  | otherOpen f => simp [ChanOp.run]
  | otherClose f => simp [ChanOp.run]

theorem chans_grow_after {p q : Fds} {h : List ChanOp} (ha : After p h q) : p.chans.length ≤ q.chans.length := by
  induction ha with
  | nil => simp
  | snoc o _ _ ih => exact Nat.le_trans ih (chans_grow o _)

/-- No operation puts an old manager back into the map. -/
theorem deaf_run {p : Fds} {i : Nat} (hi : i < p.chans.length) (h : ∀ f, mapGet f p.map ≠ some i) (o : ChanOp) :
    ∀ f, mapGet f (o.run p).map ≠ some i := by
  cases o with
  | create f =>
    intro g
    simp only [ChanOp.run, chanCreate, mapGet_set]
    split
    · simp; omega
    · exact h g
  | send j f =>
    simp only [ChanOp.run, chanSend]
    split
    · exact h
    · split <;> exact h
  | handleClose j =>
    simp only [ChanOp.run, chanHandleClose]
    split
    · exact h
    · split <;> exact h
  | close j =>
    simp only [ChanOp.run, chanClose]
    split
    · exact h
    · intro g
      simp only
      split
      · exact h g
      · rw [mapGet_del]
        split
        · simp
        · exact h g
  | otherOpen f => exact h
  | otherClose f => exact h

theorem deaf_after {p q : Fds} {h : List ChanOp} (ha : After p h q) {i : Nat} (hi : i < p.chans.length)
    (hd : ∀ f, mapGet f p.map ≠ some i) : ∀ f, mapGet f q.map ≠ some i := by
  induction ha with
  | nil => exact hd
  | snoc o h' _ ih => exact deaf_run (by have := chans_grow_after h'; omega) ih o

/-! ## C84 -/

/-- What holds as long as `handle_close` is not used. -/
structure Orderly (p : Fds) : Prop where
  role : ∀ (i : Nat) c, p.chans[i]? = some c → c.role = some c.disp
  distinct : ∀ (i j : Nat) c d, p.chans[i]? = some c → p.chans[j]? = some d → c.disp = d.disp → i = j
  isOpen : ∀ (i : Nat) c f, p.chans[i]? = some c → c.fileno = some f → p.fds[c.disp]? = some (some f)
  mapped : ∀ (i : Nat) c f, p.chans[i]? = some c → c.fileno = some f → mapGet f p.map = some i

theorem orderly_run {p : Fds} (hs : Sane p) (h : Orderly p) (o : ChanOp) (hg : Given p o) (ho : ∀ i, o ≠ .handleClose i) :
    Orderly (o.run p) := by
  cases o with
  | create f =>
    obtain ⟨h1, h2⟩ := not_inUse hg
    refine ⟨?_, ?_, ?_, ?_⟩
    · intro i c hi
      rcases chans_append hi with ⟨_, rfl⟩ | ⟨_, hi⟩
      · rfl
      · exact h.role i c hi
    · intro i j c d hi hj e
      rcases chans_append hi with ⟨e1, rfl⟩ | ⟨_, hi⟩ <;> rcases chans_append hj with ⟨e2, rfl⟩ | ⟨_, hj⟩
      · omega
      · have := (hs.disp j d hj).1; simp only at e; omega
      · have := (hs.disp i c hi).1; simp only at e; omega
      · exact h.distinct _ _ _ _ hi hj e
    · intro i c g hi hf
      simp only [ChanOp.run, chanCreate] at hi ⊢
      rcases chans_append hi with ⟨_, rfl⟩ | ⟨_, hi⟩
      · simp only [Option.some.injEq] at hf; subst hf; simp
      · rw [List.getElem?_append_left (hs.disp i c hi).1]; exact h.isOpen i c g hi hf
    · intro i c g hi hf
      simp only [ChanOp.run, chanCreate, mapGet_set] at hi ⊢
      rcases chans_append hi with ⟨e, rfl⟩ | ⟨_, hi⟩
      · simp only [Option.some.injEq] at hf; subst hf; simp [e]
      · rw [if_neg]
        · exact h.mapped i c g hi hf
        · rintro rfl; exact h2 _ (h.isOpen i c g ‹p.chans[i]? = some c› hf)
  | send i f =>
    have : (ChanOp.send i f).run p = p := by
      simp only [ChanOp.run, chanSend]
      split
      · rfl
      · rename_i c hc; rw [h.role i c hc]
    rw [this]; exact h
  | handleClose i => exact absurd rfl (ho i)
  | close i =>
    simp only [ChanOp.run, chanClose]
    split
    · exact h
    · rename_i c hc
      refine ⟨?_, ?_, ?_, ?_⟩
      · intro j d hj
        rcases chans_set hj with ⟨_, rfl, _⟩ | ⟨_, hj⟩
        · exact h.role i c hc
        · exact h.role j d hj
      · intro j k d e hj hk ed
        rcases chans_set hj with ⟨e1, rfl, _⟩ | ⟨_, hj'⟩ <;> rcases chans_set hk with ⟨e2, rfl, _⟩ | ⟨_, hk'⟩
        · rw [e1, e2]
        · rw [e1]; exact h.distinct _ _ _ _ hc hk' ed
        · rw [e2]; exact h.distinct _ _ _ _ hj' hc ed
        · exact h.distinct _ _ _ _ hj' hk' ed
      · intro j d g hj hf
        rcases chans_set hj with ⟨_, rfl, _⟩ | ⟨hne, hj⟩
        · cases hf
        · have : d.disp ≠ c.disp := fun e => hne (h.distinct _ _ _ _ hj hc e)
          simp only [closed_other this]
          exact h.isOpen j d g hj hf
      · intro j d g hj hf
        rcases chans_set hj with ⟨_, rfl, _⟩ | ⟨hne, hj⟩
        · cases hf
        · have hm := h.mapped j d g hj hf
          simp only
          split
          · exact hm
          · rename_i f hcf
            rw [mapGet_del, if_neg]
            · exact hm
            · rintro rfl
              have := h.mapped i c g hc hcf
              rw [hm] at this
              cases this; exact hne rfl
  | otherOpen f => exact ⟨h.role, h.distinct, h.isOpen, h.mapped⟩
  | otherClose f => exact ⟨h.role, h.distinct, h.isOpen, h.mapped⟩

theorem orderly_after {h : List ChanOp} {p : Fds} (ha : After {} h p) (ho : ∀ i, ChanOp.handleClose i ∉ h) : Orderly p := by
  induction ha with
  | nil => exact ⟨by simp, by simp, by simp, by simp⟩
  | snoc o h' hg ih =>
    refine orderly_run (sane_reach h') (ih (fun i hi => ho i (by simp [hi]))) o hg ?_
    rintro i rfl
    exact ho i (by simp)

theorem fileno_after {h : List ChanOp} {p : Fds} (ha : After {} h p) (i : Nat) (hc : ChanOp.close i ∉ h) (c : Chan)
    (hi : p.chans[i]? = some c) : c.fileno ≠ none := by
  induction ha generalizing c with
  | nil => simp at hi
  | snoc o h' hg ih =>
    have ih := fun c hi => ih (fun hi => hc (by simp [hi])) c hi
    cases o with
    | create f =>
      rcases chans_append hi with ⟨_, rfl⟩ | ⟨_, hi⟩
      · simp
      · exact ih c hi
    | send j f =>
      simp only [ChanOp.run, chanSend] at hi
      split at hi
      · exact ih c hi
      · rename_i d hd
        split at hi
        · exact ih c hi
        · rcases chans_set hi with ⟨rfl, rfl, _⟩ | ⟨_, hi⟩
          · exact ih d hd
          · exact ih c hi
    | handleClose j =>
      simp only [ChanOp.run, chanHandleClose] at hi
      split at hi
      · exact ih c hi
      · rename_i d hd
        split at hi
        · exact ih c hi
        · rcases chans_set hi with ⟨rfl, rfl, _⟩ | ⟨_, hi⟩
          · exact ih d hd
          · exact ih c hi
    | close j =>
      have hji : i ≠ j := by rintro rfl; exact hc (by simp)
      simp only [ChanOp.run, chanClose] at hi
      split at hi
      · exact ih c hi
      · rcases chans_set hi with ⟨rfl, _, _⟩ | ⟨_, hi⟩
        · exact absurd rfl hji
        · exact ih c hi
    | otherOpen f => exact ih c hi
    | otherClose f => exact ih c hi

/-- C84. As long as managers are only created, used and closed with `close()`, every manager that was not closed is served,
whatever else the process opens and closes, and whatever numbers the operating system gives out. -/
theorem C84_served {h : List ChanOp} {p : Fds} (ha : After {} h p) (ho : ∀ i, ChanOp.handleClose i ∉ h) :
    pollSelect p = .ok () ∧ ∀ i < p.chans.length, ChanOp.close i ∉ h → Served p i := by
  have hs := sane_reach ha
  have hord := orderly_after ha ho
  have hsel : pollSelect p = .ok () := by
    rw [select_ok_iff]
    intro g hg
    obtain ⟨i, hi⟩ := Option.ne_none_iff_exists'.mp hg
    obtain ⟨c, h1, h2⟩ := hs.registered _ _ hi
    exact (inUse_iff _ _).mpr (.inr ⟨_, hord.isOpen i c g h1 h2⟩)
  refine ⟨hsel, fun i hi hc => ⟨hsel, ?_⟩⟩
  obtain ⟨c, hci⟩ : ∃ c, p.chans[i]? = some c := ⟨_, List.getElem?_eq_getElem hi⟩
  obtain ⟨f, hf⟩ := Option.ne_none_iff_exists'.mp (fileno_after ha i hc c hci)
  have h1 := hord.isOpen i c f hci hf
  have h2 := hord.mapped i c f hci hf
  have h3 := hord.role i c hci
  refine ⟨f, fun g _ => ?_, ?_⟩
  · simp [chanSend, hci, h3, sendFrom, h1]
  · simp [pollRead, h2, hci, h3, sendFrom, h1]

/-- C84. In such a process every datagram is read by the manager that sends from the descriptor it arrived at. -/
theorem C84_addressee {h : List ChanOp} {p : Fds} (ha : After {} h p) (ho : ∀ i, ChanOp.handleClose i ∉ h) (f i : Nat)
    (r : Except Exc Nat) (hr : pollRead f p = some (i, r)) : r = .ok f ∧ SendsFrom p i f := by
  have hs := sane_reach ha
  have hord := orderly_after ha ho
  have hm : mapGet f p.map = some i := by
    by_contra hne
    unfold pollRead at hr
    split at hr
    · cases hr
    · rename_i j hj
      have : j ≠ i := by rintro rfl; exact hne hj
      split at hr
      · cases hr
      · split at hr <;> (cases hr; exact this rfl)
  obtain ⟨c, hci, hf⟩ := hs.registered _ _ hm
  have h1 := hord.isOpen i c f hci hf
  have h3 := hord.role i c hci
  simp [pollRead, hm, hci, h3, sendFrom, h1] at hr
  exact ⟨hr.symm, fun g _ => by simp [chanSend, hci, h3, sendFrom, h1]⟩

/-! ### `close()` -/

theorem close_deaf {p : Fds} (hs : Sane p) (i : Nat) : ∀ f, mapGet f (chanClose i p).map ≠ some i := by
  intro f
  unfold chanClose
  split
  · rename_i hn
    intro hm
    obtain ⟨c, hc, _⟩ := hs.registered _ _ hm
    rw [hc] at hn; cases hn
  · rename_i c hc
    simp only
    intro hm
    have : mapGet f p.map = some i ∧ c.fileno ≠ some f := by
      split at hm
      · rename_i hn; exact ⟨hm, by rw [hn]; simp⟩
      · rename_i g hn
        rw [mapGet_del] at hm
        split at hm
        · cases hm
        · exact ⟨hm, by rw [hn]; simp; omega⟩
    obtain ⟨d, hd, hf⟩ := hs.registered _ _ this.1
    rw [hc] at hd
    cases hd
    exact this.2 hf

/-- The sockets a manager refers to are closed, and it will not look for another. -/
def Gone (p : Fds) (i : Nat) : Prop := ∃ c s, p.chans[i]? = some c ∧ c.role = some s ∧ s < p.fds.length ∧ p.fds[s]?.join = none

theorem gone_send {p : Fds} {i : Nat} (h : Gone p i) (f : Nat) : chanSend i f p = (.error .osError, p) := by
  obtain ⟨c, s, h1, h2, _, h4⟩ := h
  simp [chanSend, h1, h2, sendFrom, h4]

theorem closed_stays (s t : Nat) (l : List (Option Nat)) (h : l[t]?.join = none) : (closeSocket s l)[t]?.join = none := by
  by_cases e : t = s
  · subst e; exact closed_self _ _
  · rw [closed_other e]; exact h

theorem gone_run {p : Fds} {i : Nat} (h : Gone p i) (o : ChanOp) (ho : o ≠ .handleClose i) : Gone (o.run p) i := by
  have h0 := h
  obtain ⟨c, s, h1, h2, h3, h4⟩ := h
  have app : ∀ f : Nat, (p.fds ++ [some f])[s]?.join = none := fun f => by rw [List.getElem?_append_left h3]; exact h4
  cases o with
  | create f =>
    exact ⟨c, s, by simp only [ChanOp.run, chanCreate]; rw [List.getElem?_append_left (get_lt h1)]; exact h1, h2,
      by simp [ChanOp.run, chanCreate]; omega, app f⟩
  | send j f =>
    simp only [ChanOp.run, chanSend]
    split
    · exact h0
    · rename_i d hd
      split
      · exact h0
      · rename_i hn
        have hij : j ≠ i := by
          rintro rfl
          rw [h1] at hd; cases hd; rw [h2] at hn; cases hn
        exact ⟨c, s, by simp [List.getElem?_set, hij, h1], h2, by simp; omega, app f⟩
  | handleClose j =>
    have hij : j ≠ i := by rintro rfl; exact ho rfl
    simp only [ChanOp.run, chanHandleClose]
    split
    · exact h0
    · split
      · exact h0
      · exact ⟨c, s, by simp [List.getElem?_set, hij, h1], h2, by simp [closeSocket]; omega, closed_stays _ _ _ h4⟩
  | close j =>
    simp only [ChanOp.run, chanClose]
    split
    · exact h0
    · rename_i d hd
      by_cases hij : j = i
      · subst hij
        rw [h1] at hd
        cases hd
        exact ⟨{ c with fileno := none }, s, by simp [get_lt h1], h2, by simp [closeSocket]; omega, closed_stays _ _ _ h4⟩
      · exact ⟨c, s, by simp [List.getElem?_set, hij, h1], h2, by simp [closeSocket]; omega, closed_stays _ _ _ h4⟩
  | otherOpen f => exact h0
  | otherClose f => exact h0

/-- Without `handle_close` of this manager its `role.manager` has the dispatcher's socket. -/
theorem role_after {h : List ChanOp} {p : Fds} (ha : After {} h p) (i : Nat) (hc : ChanOp.handleClose i ∉ h) (c : Chan)
    (hi : p.chans[i]? = some c) : c.role = some c.disp := by
  induction ha generalizing c with
  | nil => simp at hi
  | snoc o h' hg ih =>
    have ih := fun c hi => ih (fun hi => hc (by simp [hi])) c hi
    cases o with
    | create f =>
      rcases chans_append hi with ⟨_, rfl⟩ | ⟨_, hi⟩
      · rfl
      · exact ih c hi
    | send j f =>
      simp only [ChanOp.run, chanSend] at hi
      split at hi
      · exact ih c hi
      · rename_i d hd
        split at hi
        · exact ih c hi
        · rename_i hn
          rcases chans_set hi with ⟨rfl, rfl, _⟩ | ⟨_, hi⟩
          · rw [ih d hd] at hn; cases hn
          · exact ih c hi
    | handleClose j =>
      have hji : i ≠ j := by rintro rfl; exact hc (by simp)
      simp only [ChanOp.run, chanHandleClose] at hi
      split at hi
      · exact ih c hi
      · split at hi
        · exact ih c hi
        · rcases chans_set hi with ⟨rfl, _, _⟩ | ⟨_, hi⟩
          · exact absurd rfl hji
          · exact ih c hi
    | close j =>
      simp only [ChanOp.run, chanClose] at hi
      split at hi
      · exact ih c hi
      · rename_i d hd
        rcases chans_set hi with ⟨rfl, rfl, _⟩ | ⟨_, hi⟩
        · exact ih d hd
        · exact ih c hi
    | otherOpen f => exact ih c hi
    | otherClose f => exact ih c hi

/-- C84. After `close()` a manager is never read for again, and (unless its `handle_close()` is called as well) can never send
again: whatever happens then, `send()` raises OSError. -/
theorem C84_closed {h h' : List ChanOp} {p q : Fds} (ha : After {} h p) (i : Nat) (hi : i < p.chans.length)
    (hb : After (chanClose i p) h' q) :
    Deaf q i ∧ (ChanOp.handleClose i ∉ h → ChanOp.handleClose i ∉ h' → ∀ f, chanSend i f q = (.error .osError, q)) := by
  have hs := sane_reach ha
  have hr : After {} (h ++ [.close i]) (chanClose i p) := .snoc (.close i) ha trivial
  have hq := sane_reach (after_trans hr hb)
  constructor
  · rw [deaf_iff hq]
    exact deaf_after hb (Nat.lt_of_lt_of_le hi (chans_grow (.close i) p)) (close_deaf hs i)
  · intro h1 h2
    obtain ⟨c, hc⟩ : ∃ c, p.chans[i]? = some c := ⟨_, List.getElem?_eq_getElem hi⟩
    have hrole := role_after ha i h1 c hc
    have hg : Gone (chanClose i p) i := by
      unfold chanClose
      rw [hc]
      exact ⟨{ c with fileno := none }, c.disp, by simp [get_lt hc], hrole,
        by simp only [closeSocket, List.length_set]; exact (hs.disp i c hc).1, closed_self _ _⟩
    have : Gone q i := by
      clear hq hr
      induction hb with
      | nil => exact hg
      | snoc o _ _ ih => exact gone_run (ih fun hm => h2 (by simp [hm])) o (by rintro rfl; exact h2 (by simp))
    exact gone_send this

/-! ### `handle_close()` -/

/-- The operation gives out descriptor `f`. -/
def Gives (f : Nat) : ChanOp → Prop
  | .create g | .send _ g | .otherOpen g => g = f
  | _ => False

theorem served_parts {p : Fds} (hs : Sane p) {i : Nat} (h : Served p i) : ∃ f c s, SendsFrom p i f ∧ p.chans[i]? = some c ∧
    c.role = some s ∧ p.fds[s]? = some (some f) ∧ mapGet f p.map = some i ∧ c.fileno = some f ∧
    ∀ g, mapGet g p.map ≠ none → p.inUse g = true := by
  obtain ⟨h1, f, h2, h3⟩ := h
  unfold pollRead at h3
  split at h3
  · cases h3
  · rename_i j hj
    split at h3
    · cases h3
    · rename_i c hc
      split at h3
      · cases h3
      · rename_i s hr
        simp only [Option.some.injEq, Prod.mk.injEq] at h3
        obtain ⟨rfl, h3⟩ := h3
        obtain ⟨d, hd, hf⟩ := hs.registered _ _ hj
        rw [hc] at hd
        cases hd
        refine ⟨f, c, s, h2, hc, hr, ?_, hj, hf, (select_ok_iff p).mp h1⟩
        unfold sendFrom at h3
        split at h3
        · cases h3
        · rename_i g hg
          cases h3
          cases hx : p.fds[s]? with
          | none => rw [hx] at hg; cases hg
          | some y => rw [hx] at hg; simp at hg; rw [hg]

theorem broken_run {p : Fds} {f : Nat} (hm : mapGet f p.map ≠ none) (hu : p.inUse f = false) (o : ChanOp)
    (hg : ¬ Gives f o) (hc : ∀ j, o ≠ .close j) : mapGet f (o.run p).map ≠ none ∧ (o.run p).inUse f = false := by
  obtain ⟨u1, u2⟩ := not_inUse hu
  have key : ∀ q : Fds, f ∉ q.foreign → (∀ s : Nat, q.fds[s]? ≠ some (some f)) → q.inUse f = false := by
    intro q a b
    rw [Bool.eq_false_iff]
    intro h
    rcases (inUse_iff q f).mp h with h | ⟨s, h⟩
    · exact a h
    · exact b s h
  have app : ∀ g : Nat, g ≠ f → ∀ s : Nat, (p.fds ++ [some g])[s]? ≠ some (some f) := by
    intro g hne s h
    rcases append_fds h with ⟨_, rfl⟩ | ⟨_, h⟩
    · exact hne rfl
    · exact u2 s h
  cases o with
  | create g =>
    refine ⟨?_, key _ u1 (app g hg)⟩
    simp only [ChanOp.run, chanCreate, mapGet_set]
    split <;> simp_all
  | send j g =>
    simp only [ChanOp.run, chanSend]
    split
    · exact ⟨hm, hu⟩
    · split
      · exact ⟨hm, hu⟩
      · exact ⟨hm, key _ u1 (app g hg)⟩
  | handleClose j =>
    simp only [ChanOp.run, chanHandleClose]
    split
    · exact ⟨hm, hu⟩
    · split
      · exact ⟨hm, hu⟩
      · exact ⟨hm, key _ u1 fun s h => u2 s (closed_get _ _ _ _ h).2⟩
  | close j => exact absurd rfl (hc j)
  | otherOpen g =>
    refine ⟨hm, key _ ?_ u2⟩
    simp only [ChanOp.run, List.mem_cons, not_or]
    exact ⟨fun e => hg e.symm, u1⟩
  | otherClose g =>
    refine ⟨hm, key _ ?_ u2⟩
    simp only [ChanOp.run, List.mem_filter, not_and]
    intro h; exact absurd h u1

theorem handleClosed {p : Fds} (hs : Sane p) {i f : Nat} {c : Chan} {s : Nat} (hc : p.chans[i]? = some c)
    (hr : c.role = some s) (hf : p.fds[s]? = some (some f)) :
    chanHandleClose i p = { p with fds := closeSocket s p.fds, chans := p.chans.set i { c with role := none } } ∧
    (chanHandleClose i p).inUse f = false ∧ ∀ g, g ≠ f → (chanHandleClose i p).inUse g = p.inUse g := by
  have e : chanHandleClose i p = { p with fds := closeSocket s p.fds, chans := p.chans.set i { c with role := none } } := by
    simp [chanHandleClose, hc, hr]
  refine ⟨e, ?_, ?_⟩
  · rw [Bool.eq_false_iff]
    intro h
    rcases (inUse_iff _ f).mp h with h | ⟨t, h⟩
    · rw [e] at h; exact hs.apart _ _ hf h
    · rw [e] at h
      obtain ⟨h1, h2⟩ := closed_get _ _ _ _ h
      exact h1 (hs.inj _ _ _ h2 hf)
  · intro g hg
    rw [Bool.eq_iff_iff, inUse_iff, inUse_iff, e]
    refine or_congr Iff.rfl ⟨fun ⟨t, h⟩ => ⟨t, (closed_get _ _ _ _ h).2⟩, fun ⟨t, h⟩ => ⟨t, ?_⟩⟩
    simp only
    rw [closed_other]
    · exact h
    · rintro rfl
      rw [hf] at h
      cases h; exact hg rfl

/-- C84. `handle_close()` of a manager breaks the loop of every manager in the process: from then on every poll raises
OSError, until the number of its descriptor is given out again or some manager is closed with `close()`. -/
theorem C84_handle_close {h h' : List ChanOp} {p q : Fds} (ha : After {} h p) (i : Nat) (hi : Served p i)
    (hb : After (chanHandleClose i p) h' q) :
    ∃ f, SendsFrom p i f ∧ ((∀ o ∈ h', ¬ Gives f o ∧ ∀ j, o ≠ .close j) → pollSelect q = .error .osError) := by
  have hs := sane_reach ha
  obtain ⟨f, c, s, h1, h2, h3, h4, h5, h6, _⟩ := served_parts hs hi
  refine ⟨f, h1, fun hno => ?_⟩
  obtain ⟨e, hu, _⟩ := handleClosed hs h2 h3 h4
  have : mapGet f q.map ≠ none ∧ q.inUse f = false := by
    induction hb with
    | nil => exact ⟨by rw [e]; simp [h5], hu⟩
    | snoc o _ _ ih =>
      have := ih fun o' ho' => hno o' (by simp [ho'])
      exact broken_run this.1 this.2 o (hno o (by simp)).1 (hno o (by simp)).2
  exact select_error this.1 this.2

theorem sendsFrom_of {p : Fds} {i f s : Nat} {c : Chan} (hc : p.chans[i]? = some c) (hr : c.role = some s)
    (hf : p.fds[s]? = some (some f)) : SendsFrom p i f := by
  intro g _
  simp [chanSend, hc, hr, sendFrom, hf]

/-- C84. A `send()` of that manager then opens another socket.  If the operating system gives it the same number, all is well
again; if not, polls still raise, and nobody reads at the new one. -/
theorem C84_reopened {h : List ChanOp} {p : Fds} (ha : After {} h p) (i : Nat) (hi : Served p i) :
    ∃ f, SendsFrom p i f ∧ ∀ g, (chanHandleClose i p).inUse g = false →
      let q := (chanSend i g (chanHandleClose i p)).2
      (chanSend i g (chanHandleClose i p)).1 = .ok g ∧ SendsFrom q i g ∧
      (g = f → Served q i) ∧ (g ≠ f → pollSelect q = .error .osError ∧ pollRead g q = none) := by
  have hs := sane_reach ha
  obtain ⟨f, c, s, h1, h2, h3, h4, h5, h6, h7⟩ := served_parts hs hi
  obtain ⟨e, hu, hother⟩ := handleClosed hs h2 h3 h4
  refine ⟨f, h1, fun g hg => ?_⟩
  have hlt := get_lt h2
  have eq : (chanSend i g (chanHandleClose i p)).2 =
      { p with fds := closeSocket s p.fds ++ [some g],
               chans := p.chans.set i { c with role := some (closeSocket s p.fds).length } } := by
    rw [e]
    simp [chanSend, hlt]
  have hsend : SendsFrom (chanSend i g (chanHandleClose i p)).2 i g := by
    rw [eq]
    exact sendsFrom_of (c := { c with role := some (closeSocket s p.fds).length }) (by simp [hlt]) rfl (by simp)
  refine ⟨?_, hsend, ?_, ?_⟩
  · rw [e]; simp [chanSend, hlt, sendFrom]
  · rintro rfl
    refine ⟨?_, g, hsend, ?_⟩
    · rw [select_ok_iff]
      intro k hk
      rw [eq] at hk ⊢
      have := (inUse_iff _ _).mp (h7 k hk)
      rw [inUse_iff]
      rcases this with h | ⟨t, ht⟩
      · exact .inl h
      · right
        by_cases hts : t = s
        · subst hts
          rw [h4] at ht
          cases ht
          exact ⟨(closeSocket t p.fds).length, by simp⟩
        · refine ⟨t, ?_⟩
          simp only
          rw [List.getElem?_append_left (by simp only [closeSocket, List.length_set]; exact get_lt ht), closed_other hts]
          exact ht
    · rw [eq]
      simp [pollRead, h5, hlt, sendFrom]
  · intro hne
    constructor
    · refine select_error (g := f) (by rw [eq]; simp [h5]) ?_
      rw [eq, Bool.eq_false_iff]
      intro h
      have hu' := not_inUse hu
      rw [e] at hu'
      rcases (inUse_iff _ _).mp h with h | ⟨t, h⟩
      · exact hu'.1 h
      · rcases append_fds h with ⟨_, rfl⟩ | ⟨_, h⟩
        · exact hne rfl
        · exact hu'.2 t h
    · have : mapGet g p.map = none := by
        by_contra hm
        have := h7 g hm
        rw [← hother g hne, hg] at this
        cases this
      rw [eq]
      simp [pollRead, this]

/-- C84. Closing a manager twice, in the two ways, can cut off another: after `handle_close()` of manager `i`, a new manager
that is given the same number works; a `close()` of `i` then takes the new one out of the loop, for good, without any error. -/
theorem C84_cut_off {h : List ChanOp} {p : Fds} (ha : After {} h p) (i : Nat) (hi : Served p i) :
    ∃ f, SendsFrom p i f ∧ (chanHandleClose i p).inUse f = false ∧
      let j := p.chans.length
      let q := chanCreate f (chanHandleClose i p)
      let r := chanClose i q
      Served q j ∧ (∀ h' t, After r h' t → Deaf t j) ∧ SendsFrom r j f := by
  have hs := sane_reach ha
  obtain ⟨f, c, s, h1, h2, h3, h4, h5, h6, h7⟩ := served_parts hs hi
  obtain ⟨e, hu, hother⟩ := handleClosed hs h2 h3 h4
  have hlt := get_lt h2
  have hq : After {} (h ++ [.handleClose i] ++ [.create f]) (chanCreate f (chanHandleClose i p)) :=
    .snoc (.create f) (.snoc (.handleClose i) ha trivial) hu
  have hlen : (chanHandleClose i p).chans.length = p.chans.length := by rw [e]; simp
  have hflen : (chanHandleClose i p).fds.length = p.fds.length := by rw [e]; simp [closeSocket]
  have hci : (chanCreate f (chanHandleClose i p)).chans[i]? = some { c with role := none } := by
    rw [e]; simp [chanCreate, List.getElem?_append_left, hlt]
  have hdl := (hs.disp i c h2).1
  refine ⟨f, h1, hu, ?_, ?_, ?_⟩
  · refine ⟨?_, f, ?_, ?_⟩
    · rw [select_ok_iff]
      intro k hk
      by_cases hkf : k = f
      · subst hkf
        exact (inUse_iff _ _).mpr (.inr ⟨p.fds.length, by simp [chanCreate, ← hflen]⟩)
      · simp only [chanCreate, mapGet_set, if_neg hkf] at hk
        rw [e] at hk
        have := h7 k hk
        rw [← hother k hkf] at this
        rcases (inUse_iff _ _).mp this with h | ⟨t, h⟩
        · exact (inUse_iff _ _).mpr (.inl h)
        · exact (inUse_iff _ _).mpr (.inr ⟨t, by simp only [chanCreate]; rw [List.getElem?_append_left (get_lt h)]; exact h⟩)
    · exact sendsFrom_of (c := ⟨some f, p.fds.length, some p.fds.length⟩) (by simp [chanCreate, ← hlen, ← hflen])
        rfl (by simp [chanCreate, ← hflen])
    · simp only [pollRead, chanCreate, mapGet_set, if_pos, hlen]
      rw [← hlen]
      simp [sendFrom]
  · intro h' t ht
    have hr : After {} (h ++ [.handleClose i] ++ [.create f] ++ [.close i]) (chanClose i (chanCreate f (chanHandleClose i p))) :=
      .snoc (.close i) hq trivial
    rw [deaf_iff (sane_reach (after_trans hr ht))]
    refine deaf_after ht ?_ ?_
    · have := chans_grow (.close i) (chanCreate f (chanHandleClose i p))
      simp only [ChanOp.run] at this
      have h2 : (chanCreate f (chanHandleClose i p)).chans.length = p.chans.length + 1 := by simp [chanCreate, hlen]
      omega
    · intro g
      unfold chanClose
      rw [hci]
      simp only [h6, mapGet_del]
      split
      · simp
      · rename_i hgf
        simp only [chanCreate, mapGet_set, if_neg hgf]
        rw [e]
        intro hm
        obtain ⟨d, hd, _⟩ := hs.registered _ _ hm
        have := get_lt hd
        omega
  · intro t _
    unfold chanClose
    rw [hci]
    have hne : i ≠ p.chans.length := by omega
    have hx : (chanCreate f (chanHandleClose i p)).chans[p.chans.length]? =
        some ⟨some f, p.fds.length, some p.fds.length⟩ := by simp [chanCreate, ← hlen, ← hflen]
    have hfd : (closeSocket c.disp (chanCreate f (chanHandleClose i p)).fds)[p.fds.length]? = some (some f) := by
      rw [closed_other (by omega)]
      simp [chanCreate, ← hflen]
    simp [chanSend, List.getElem?_set, if_neg hne, hx, sendFrom, hfd]

/-! ### Cases that meet the hypotheses -/

/-- Two managers, a file in between, the first closed: the second is served. -/
example : ∃ p, After {} [.create 3, .otherOpen 4, .create 5, .close 0, .create 3] p ∧ p.chans.length = 3 ∧
    pollRead 3 p = some (2, .ok 3) ∧ pollRead 5 p = some (1, .ok 5) ∧ pollSelect p = .ok () :=
  ⟨_, .snoc (.create 3) (.snoc (.close 0) (.snoc (.create 5) (.snoc (.otherOpen 4) (.snoc (.create 3) (.nil {}) rfl)
    rfl) rfl) trivial) rfl, by decide⟩

/-- `handle_close` of the first of two managers breaks the loop. -/
example : ∃ p, After {} [.create 3, .create 5] p ∧ Served p 0 ∧ pollSelect (chanHandleClose 0 p) = .error .osError := by
  have ha : After {} [.create 3, .create 5] _ := .snoc (.create 5) (.snoc (.create 3) (.nil {}) rfl) rfl
  exact ⟨_, ha, (C84_served ha (by simp)).2 0 (by decide) (by simp), by decide⟩

end Libsnmp
