import Verif.Spec.SourceWaiting
import Verif.Props.Source14

/-!
# C109: what a manager promises about its requests, read off the heap
-/

namespace Libsnmp.Src
open Libsnmp Spec

variable {nm : Names} {env : Libsnmp.Env} {k : Libsnmp.Kind} {S : Site}

theorem keyNum_good {v : Val} (h : GoodKey k v) : ∃ n, keyNum v = some n := by
  cases k with
  | sm => obtain ⟨c, n, rfl⟩ := h; exact ⟨n, rfl⟩
  | v1 => obtain ⟨n, rfl⟩ := h; exact ⟨n, rfl⟩
  | v2 => obtain ⟨n, rfl⟩ := h; exact ⟨n, rfl⟩

theorem keyIs_rep {lo : Nat} {h : Heap} {v : Val} {x : V} {m : Int} (r : Rep lo h v x) (hm : keyNum v = some m) (n : Int) :
    KeyIs h x n ↔ m = n := by
  cases v <;> simp [keyNum] at hm
  · subst hm
    simp only [Rep] at r
    subst r
    refine ⟨fun e => ?_, fun e => .inl (by rw [e])⟩
    rcases e with e | ⟨b, c, attrs, e, -⟩
    · injection e
    · cases e
  · subst hm
    simp only [Rep] at r
    obtain ⟨b, attrs, rfl, -, hc, -, hv⟩ := r
    refine ⟨fun e => ?_, fun e => .inr ⟨b, _, attrs, rfl, hc, by rw [hv, e]⟩⟩
    rcases e with e | ⟨b', c, attrs', e, h1, h2⟩
    · cases e
    · cases e
      rw [hc] at h1
      cases h1
      rw [hv] at h2
      cases h2
      rfl

theorem find_unique {α : Type} {l : List α} {p : α → Bool} (hl : l.Pairwise fun x y => ¬ (p x = true ∧ p y = true)) {x : α} (hx : x ∈ l)
    (hp : p x = true) : l.find? p = some x := by
  induction l with
  | nil => cases hx
  | cons y ys ih =>
    rw [List.pairwise_cons] at hl
    rcases List.mem_cons.1 hx with rfl | hx'
    · rw [List.find?_cons_of_pos hp]
    · rw [List.find?_cons_of_neg fun hy => hl.1 x hx' ⟨hy, hp⟩]
      exact ih hl.2 hx'

theorem forall₂_left {α β : Type} {R : α → β → Prop} {l : List α} {m : List β} (h : List.Forall₂ R l m) {x : α} (hx : x ∈ l) :
    ∃ y ∈ m, R x y := by
  induction h with
  | nil => cases hx
  | cons h1 _ ih =>
    rcases List.mem_cons.1 hx with rfl | hx
    · exact ⟨_, List.mem_cons_self, h1⟩
    · obtain ⟨y, hy, r⟩ := ih hx
      exact ⟨y, List.mem_cons_of_mem _ hy, r⟩

theorem forall₂_right {α β : Type} {R : α → β → Prop} {l : List α} {m : List β} (h : List.Forall₂ R l m) {y : β} (hy : y ∈ m) :
    ∃ x ∈ l, R x y :=
  let ⟨x, hx, r⟩ := forall₂_left h.flip hy
  ⟨x, hx, r⟩

/-- The dictionary of the heap and that of the model. -/
theorem waits_iff {h : Heap} {a : Nat} {s : Mgr k} {attrs : List (String × V)} {q d : Nat} (r : MgrAt nm env h a s attrs q d) (n : Int) (g : V) :
    Waits h a n g ↔ ∃ cb, s.callbacks.at n = some cb ∧ g = nm.fn cb := by
  obtain ⟨es, he, hes⟩ := r.dict
  have ho : s.callbacks.Pairwise fun x y => ¬ ((keyNum x.1 == some n) = true ∧ (keyNum y.1 == some n) = true) := by
    refine r.once.imp fun {x y} hxy hh => ?_
    rw [beq_iff_eq, beq_iff_eq] at hh
    rw [sameKey_num hh.1 hh.2] at hxy
    simp at hxy
  constructor
  · rintro ⟨c, attrs', d', es', x, h1, h2, h3, h4, h5⟩
    rw [r.cell] at h1
    cases h1
    rw [r.callbacks] at h2
    cases h2
    rw [he] at h3
    cases h3
    obtain ⟨p, hp, r1, r2⟩ := forall₂_right hes h4
    obtain ⟨m, hm⟩ := keyNum_good (r.keys p hp)
    have hmn := (keyIs_rep r1 hm n).1 h5
    subst hmn
    refine ⟨p.2, ?_, r2⟩
    unfold Dict.at
    rw [find_unique ho hp (by rw [hm]; simp)]
    rfl
  · rintro ⟨cb, h1, rfl⟩
    unfold Dict.at at h1
    obtain ⟨p, hp, rfl⟩ := Option.map_eq_some_iff.1 h1
    have hk := List.find?_some hp
    rw [beq_iff_eq] at hk
    obtain ⟨e, he', r1, r2⟩ := forall₂_left hes (List.mem_of_find?_eq_some hp)
    exact ⟨_, attrs, d, es, e.1, r.cell, r.callbacks, he, by rw [← r2]; exact he', (keyIs_rep r1 hk n).2 rfl⟩

theorem queued_of {h : Heap} {a : Nat} {s : Mgr k} {attrs : List (String × V)} {q d : Nat} (r : MgrAt nm env h a s attrs q d) :
    ∃ xs, Queued h a xs ∧ List.Forall₂ (QItem nm h) s.outbound xs := by
  obtain ⟨l, h1, h2⟩ := r.queue
  exact ⟨l, ⟨_, attrs, q, r.cell, r.outbound, h1⟩, h2⟩

theorem queued_unique {h : Heap} {a : Nat} {xs ys : List V} (h1 : Queued h a xs) (h2 : Queued h a ys) : xs = ys := by
  obtain ⟨c, attrs, q, e1, e2, e3⟩ := h1
  obtain ⟨c', attrs', q', f1, f2, f3⟩ := h2
  rw [e1] at f1
  cases f1
  rw [e2] at f2
  cases f2
  rw [e3] at f3
  cases f3
  rfl

theorem next_iff {h : Heap} {a : Nat} {s : Mgr k} {attrs : List (String × V)} {q d : Nat} (r : MgrAt nm env h a s attrs q d) (n : Int) :
    Next h a n ↔ n = s.nextRequestID := by
  constructor
  · rintro ⟨c, attrs', h1, h2⟩
    rw [r.cell] at h1
    cases h1
    rcases r.next with e | ⟨e, e'⟩ <;> rcases h2 with f | ⟨f, f'⟩
    · rw [e] at f; cases f; rfl
    · rw [e] at f; cases f
    · rw [e] at f; cases f
    · rw [f', e']; rfl
  · rintro rfl
    refine ⟨_, attrs, r.cell, ?_⟩
    rcases r.next with e | ⟨e, e'⟩
    · exact .inl e
    · exact .inr ⟨e, by rw [e']; rfl⟩

section History
variable (hi : Imported env.reg) {h0 h : Heap} (f : JustMade nm env k S h0) {l : List (Step k × Heap × Out V)} {s : Mgr k}
  (hh : History nm env S h0 l h s) {cfg : Cfg} {name : String} {args : List V} {c : k.Call}
  (hf : (Step.ask cfg name args c).Fits nm env S h s)

include hi f hh hf

theorem ask_does : ∃ h' attrs q d attrs' q' d', Outcome (Rep 9) h' (callMethod cfg (.ref S.a) name args h) (doCall env c s).1 ∧
    MgrAt nm env h S.a s attrs q d ∧ MgrAt nm env h' S.a (doCall env c s).2 attrs' q' d' := by
  have hd := history_holds hi f hh
  obtain ⟨h', o, r⟩ := step_does hi f.own hd hf
  obtain ⟨attrs, q, d, r1, -⟩ := hd.mgr
  obtain ⟨attrs', q', d', r2, -⟩ := r.mgr
  exact ⟨h', attrs, q, d, attrs', q', d', o, r1, r2⟩

/-- C109. A request method, called at any point of the history of a manager, that raises: the same requests wait as before, with the same
callbacks, and the queue holds items of the same contents as before. -/
theorem C109_refused {x : V} {h' : Heap} (e : callMethod cfg (.ref S.a) name args h = excR x h') :
    (∀ n g, Waits h' S.a n g ↔ Waits h S.a n g) ∧
    ∃ items xs ys, Queued h S.a xs ∧ List.Forall₂ (QItem nm h) items xs ∧ Queued h' S.a ys ∧ List.Forall₂ (QItem nm h') items ys := by
  obtain ⟨h2, attrs, q, d, attrs', q', d', o, r1, r2⟩ := ask_does hi f hh hf
  rw [e] at o
  cases hm : (doCall env c s).1 with
  | ok v =>
    rw [hm] at o
    obtain ⟨y, hy, -⟩ := o
    cases hy
  | error y =>
    rw [hm] at o
    obtain ⟨y, hy, -⟩ := o
    cases hy
    obtain ⟨h3, h4⟩ := C50_failed_registers_nothing env c s _ hm
    obtain ⟨xs, q1, q2⟩ := queued_of r1
    obtain ⟨ys, q3, q4⟩ := queued_of r2
    rw [h3] at q4
    exact ⟨fun n g => by rw [waits_iff r1, waits_iff r2, h4], _, xs, ys, q1, q2, q3, q4⟩

/-- C109. A request method, not `snmpTrap`, called at any point of the history of a manager, that returns: it returns an Integer object with
the value of `nextRequestID`, a number under which no request waits and which is then taken; from now on the request waits under it with
the callback that was given, beside those that were waiting; and one item has been added to the end of the queue, for the address that was
given, a message with the community that was given and a PDU of this number. -/
theorem C109_accepted {cb : Nat} (hcb : callbackOf c = some cb) {x : V} {h' : Heap}
    (e : callMethod cfg (.ref S.a) name args h = okR x h') :
    ∃ b n, x = .ref b ∧ KeyIs h' x n ∧ Next h S.a n ∧ Next h' S.a (n + 1) ∧ (∀ g, ¬ Waits h S.a n g) ∧
      (∀ j g, Waits h' S.a j g ↔ if j = n then g = nm.fn cb else Waits h S.a j g) ∧
      ∃ items m xs ys, Queued h S.a xs ∧ List.Forall₂ (QItem nm h) items xs ∧
        Queued h' S.a ys ∧ List.Forall₂ (QItem nm h') (items ++ [(some m, remoteOf c)]) ys ∧
        m.community = .octets .octetString (communityOf c) ∧
        ∃ cls ci ce cl vbs, m.data = .seq cls [.integer ci n, .integer ce 0, .integer .integer 0, .seq cl vbs] ∧
          ∃ t, (Cls.seq cls).identifier = .ok [t] ∧ some t = if isV1Set c then some 0xa1 else askedTag c := by
  obtain ⟨hr, -⟩ := C102_reachable hi f hh
  obtain ⟨h2, attrs, q, d, attrs', q', d', o, r1, r2⟩ := ask_does hi f hh hf
  rw [e] at o
  cases hm : (doCall env c s).1 with
  | error v =>
    rw [hm] at o
    obtain ⟨y, hy, -⟩ := o
    cases hy
  | ok v =>
    rw [hm] at o
    obtain ⟨y, hy, ho⟩ := o
    cases hy
    obtain ⟨ci, id, m, rfl, h3, h4, h5⟩ := C50_succeeded_registers hr c cb hcb v hm
    obtain ⟨⟨ci', h6⟩, h7⟩ := (C43_next env c s).1 _ hm (by rw [hcb]; simp)
    have h6 : id = s.nextRequestID := by injection h6
    obtain ⟨xs, q1, q2⟩ := queued_of r1
    obtain ⟨ys, q3, q4⟩ := queued_of r2
    rw [h3] at q4
    have hk : KeyIs h' x id := (keyIs_rep ho rfl id).2 rfl
    have hx : ∃ b, x = .ref b := by
      simp only [Rep] at ho
      obtain ⟨b, _, rfl, -⟩ := ho
      exact ⟨b, rfl⟩
    obtain ⟨b, hb⟩ := hx
    obtain ⟨hc1, hc2⟩ := C51_message env c (by rw [hcb]; simp) id m h4
    refine ⟨b, id, hb, hk, (next_iff r1 id).2 h6, (next_iff r2 _).2 (by rw [h7, h6]; simp), fun g hg => ?_, fun j g => ?_,
      _, m, xs, ys, q1, q2, q3, q4, hc1, hc2⟩
    · obtain ⟨cb', h8, -⟩ := (waits_iff r1 id g).1 hg
      have h9 := ((C43_unique hr).2 _ ((C46_table hr id cb').1 h8).1).2
      simp only [h6] at h9
      omega
    · rw [waits_iff r1, waits_iff r2, h5]
      split
      · constructor
        · rintro ⟨cb', h8, h9⟩; cases h8; exact h9
        · rintro rfl; exact ⟨cb, rfl, rfl⟩
      · rfl

/-- C109. `snmpTrap` that returns: it returns None; one item has been added to the end of the queue, for the address that was given: the trap
in a message with the community that was given (`Sends`; from snmpManager, which then was given no version that exists, nothing but None); it
takes no number, and the same requests wait as before. -/
theorem C109_trap (hcb : callbackOf c = none) {x : V} {h' : Heap} (e : callMethod cfg (.ref S.a) name args h = okR x h') :
    x = .none ∧ (∀ n, Next h' S.a n ↔ Next h S.a n) ∧ (∀ n g, Waits h' S.a n g ↔ Waits h S.a n g) ∧
      ∃ items m xs ys, Queued h S.a xs ∧ List.Forall₂ (QItem nm h) items xs ∧
        Queued h' S.a ys ∧ List.Forall₂ (QItem nm h') (items ++ [(m, remoteOf c)]) ys ∧ ∀ id, Sends env c id m := by
  obtain ⟨h2, attrs, q, d, attrs', q', d', o, r1, r2⟩ := ask_does hi f hh hf
  rw [e] at o
  have he := call_effect env k c s
  unfold doCall at o r2
  generalize callBody env k c s = z at he o r2
  cases he with
  | failed y j hj =>
    obtain ⟨y, hy, -⟩ := o
    cases hy
  | request ci cb m key d' hcb' hm hk hd =>
    rw [hcb] at hcb'
    cases hcb'
  | trap m hcb' hm =>
    obtain ⟨y, hy, ho⟩ := o
    cases hy
    simp only [Rep] at ho
    obtain ⟨xs, q1, q2⟩ := queued_of r1
    obtain ⟨ys, q3, q4⟩ := queued_of r2
    exact ⟨ho, fun n => by rw [next_iff r1, next_iff r2]; rfl, fun n g => by rw [waits_iff r1, waits_iff r2]; rfl,
      _, m, xs, ys, q1, q2, q3, q4, hm⟩

/-- C109. When the numbers have run out, a request method raises; if the arguments are acceptable, it raises ValueError. -/
theorem C109_exhausted (hc : callbackOf c ≠ none) {n : Int} (hn : Next h S.a n) (hl : 2 ^ 31 < n ∨ k = .v1 ∧ 2 ^ 31 ≤ n) :
    ∃ x h', callMethod cfg (.ref S.a) name args h = excR x h' ∧ (CallOk env c → ∃ args', x = .exc "ValueError" args') ∧
      ∀ n g, Waits h' S.a n g ↔ Waits h S.a n g := by
  obtain ⟨h2, attrs, q, d, attrs', q', d', o, r1, r2⟩ := ask_does hi f hh hf
  rw [next_iff r1] at hn
  subst hn
  obtain ⟨⟨y, h3, h4⟩, h5, h6⟩ := C44_exhausted env c hc s (by
    rcases hl with hl | ⟨h1, hl⟩
    · exact .inl (by omega)
    · exact .inr ⟨h1, by omega⟩)
  rw [h3] at o
  obtain ⟨x, hx, hxx⟩ := o
  refine ⟨x, h2, hx, fun hok => ?_, fun n g => by rw [waits_iff r1, waits_iff r2, h6]⟩
  rw [h4 hok] at hxx
  exact hxx

end History

/-- A callback that calls no method of the manager: it returns, or raises. -/
def quietly {k : Libsnmp.Kind} (u : Nat → Option Msg → Except Exc Unit) (cb : Nat) (m : Option Msg) : Act k :=
  match u cb m with
  | .ok () => .ret
  | .error e => .raise e

theorem quietly_exec (u : Nat → Option Msg → Except Exc Unit) (cb : Nat) (m : Option Msg) (s : Mgr k) :
    (quietly u cb m : Act k).exec env s = (u cb m, s) := by
  unfold quietly
  split <;> rename_i e <;> rw [e] <;> rfl

/-- C109. The datagram that answers the waiting request `n`, at any point of the history of a manager, with callbacks that call no method of
the manager: if the callback returns, the request does not wait any longer; if it raises, it still waits; all the others wait as before, and
nothing is put into the queue. -/
theorem C109_answered (hi : Imported env.reg) {h0 h : Heap} (f : JustMade nm env k S h0) {l : List (Step k × Heap × Out V)} {s : Mgr k}
    (hh : History nm env S h0 l h s) {cfg : Cfg} (hc : Limits cfg) (hreg : Knows cfg env.reg)
    (hprint : k = .v2 → ∀ h, cfg.ext "traceback.print_exc" [] h = okR .none h) (u : Nat → Option Msg → Except Exc Unit)
    (hu : Obeys cfg nm env S.U h.length S.a fun cb m => (quietly u cb m : Act k).exec env) (t : Str) (ht : t.length < 10 ^ 640)
    (hd : decode311 env.reg cfg.limit t = decode env.reg (.str t)) {m : Msg} (hm : msgDecode env.reg (msgCls k) (.str t) = .ok m)
    (hv : accepts k m) {n : Int} (ha : answers k m = some n) {g : V} (hw : Waits h S.a n g) (manager ctx src : V) :
    ∃ cb, g = nm.fn cb ∧ ∃ o h',
      callMethod cfg (.ref S.a) "receiveData" [manager, ctx, .tuple [.str t, src], .tuple [.none, .none, .none]] h = some (h', o) ∧
      (∀ j g', Waits h' S.a j g' ↔ Waits h S.a j g' ∧ (j = n → u cb (some m) ≠ .ok ())) ∧
      ∃ items xs ys, Queued h S.a xs ∧ List.Forall₂ (QItem nm h) items xs ∧ Queued h' S.a ys ∧ List.Forall₂ (QItem nm h') items ys := by
  obtain ⟨hr, r⟩ := C102_reachable hi f hh
  obtain ⟨attrs0, q0, d0, r0⟩ := r
  obtain ⟨cb, hcb, rfl⟩ := (waits_iff r0 n g).1 hw
  obtain ⟨p1, p2⟩ := (C46_table hr n cb).1 hcb
  have hb := (history_holds hi f hh).base
  obtain ⟨h', attrs, attrs', q, d, -, -, -, hl, r1, e⟩ := receives (cfg := cfg) hc hreg hi hb ⟨_, _, _, r0⟩ hu hprint t ht manager ctx src
  have key : receiveData311 env cfg.limit k (fun cb m => (quietly u cb m : Act k).exec env) (.str t) s =
      receiveData env k (fun cb m => (quietly u cb m : Act k).exec env) (.str t) s := C86_manager_same env cfg.limit k _ t s hd
  rw [key] at e r1
  obtain ⟨-, g2, -, g4⟩ := C46_delivered hr (quietly u : Nat → Option Msg → Act k) (.str t) m n cb hm hv ha p1 p2
  rw [quietly_exec] at g2 g4
  refine ⟨cb, rfl, ?_⟩
  obtain ⟨xs, x1, x2⟩ := queued_of r0
  obtain ⟨ys, y1, y2⟩ := queued_of r1
  rw [g2] at y2
  have hW : ∀ j g', Waits h' S.a j g' ↔ Waits h S.a j g' ∧ (j = n → u cb (some m) ≠ .ok ()) := by
    intro j g'
    rw [waits_iff r1, waits_iff r0, g4]
    by_cases hj : u cb (some m) = .ok () ∧ j = n
    · rw [if_pos hj]
      simp [hj.1, hj.2]
    · rw [if_neg hj]
      refine ⟨fun h => ⟨h, fun h1 h2 => hj ⟨h2, h1⟩⟩, fun h => h.1⟩
  cases hz : (receiveData env k (fun cb m => (quietly u cb m : Act k).exec env) (.str t) s).1 with
  | ok v =>
    rw [hz] at e
    obtain ⟨x, e⟩ := e
    exact ⟨_, h', e, hW, _, xs, ys, x1, x2, y1, y2⟩
  | error v =>
    rw [hz] at e
    obtain ⟨-, x, e, -⟩ := e
    exact ⟨_, h', e, hW, _, xs, ys, x1, x2, y1, y2⟩

/-- C109. Likewise with callbacks that may call any method of the manager: if the callback returns, the request `n` waits no longer, whatever
the callback has done. -/
theorem C109_finished (hi : Imported env.reg) {h0 h : Heap} (f : JustMade nm env k S h0) {l : List (Step k × Heap × Out V)} {s : Mgr k}
    (hh : History nm env S h0 l h s) {cfg : Cfg} (hc : Limits cfg) (hreg : Knows cfg env.reg)
    (hprint : k = .v2 → ∀ h, cfg.ext "traceback.print_exc" [] h = okR .none h) (user : Nat → Option Msg → Act k)
    (hu : Obeys cfg nm env S.U h.length S.a fun cb m => (user cb m).exec env) (t : Str) (ht : t.length < 10 ^ 640)
    (hd : decode311 env.reg cfg.limit t = decode env.reg (.str t)) {m : Msg} (hm : msgDecode env.reg (msgCls k) (.str t) = .ok m)
    (hv : accepts k m) {n : Int} (ha : answers k m = some n) {g : V} (hw : Waits h S.a n g)
    (hret : ∀ cb s, g = nm.fn cb → ((user cb (some m)).exec env s).1 = .ok ()) (manager ctx src : V) :
    ∃ o h', callMethod cfg (.ref S.a) "receiveData" [manager, ctx, .tuple [.str t, src], .tuple [.none, .none, .none]] h = some (h', o) ∧
      ∀ g', ¬ Waits h' S.a n g' := by
  obtain ⟨hr, r⟩ := C102_reachable hi f hh
  obtain ⟨attrs0, q0, d0, r0⟩ := r
  obtain ⟨cb, hcb, rfl⟩ := (waits_iff r0 n g).1 hw
  obtain ⟨p1, p2⟩ := (C46_table hr n cb).1 hcb
  have hb := (history_holds hi f hh).base
  obtain ⟨h', attrs, attrs', q, d, -, -, -, hl, r1, e⟩ := receives (cfg := cfg) hc hreg hi hb ⟨_, _, _, r0⟩ hu hprint t ht manager ctx src
  have key : receiveData311 env cfg.limit k (fun cb m => (user cb m).exec env) (.str t) s =
      receiveData env k (fun cb m => (user cb m).exec env) (.str t) s := C86_manager_same env cfg.limit k _ t s hd
  rw [key] at e r1
  obtain ⟨-, -, -, g4⟩ := C46_delivered hr user (.str t) m n cb hm hv ha p1 p2
  have hW : ∀ g', ¬ Waits h' S.a n g' := by
    intro g'
    rw [waits_iff r1, g4, if_pos ⟨hret cb _ rfl, rfl⟩]
    simp
  cases hz : (receiveData env k (fun cb m => (user cb m).exec env) (.str t) s).1 with
  | ok v =>
    rw [hz] at e
    obtain ⟨x, e⟩ := e
    exact ⟨_, h', e, hW⟩
  | error v =>
    rw [hz] at e
    obtain ⟨-, x, e, -⟩ := e
    exact ⟨_, h', e, hW⟩

/-- C109. A turn of `run()`, at any point of the history of a manager, with something in the queue (for snmpManager, which looks for datagrams
first: and with no datagram there): the first item leaves the queue, the others stay, in their order; the same requests wait as before. -/
theorem C109_sends (hi : Imported env.reg) {h0 h : Heap} (f : JustMade nm env k S h0) {l : List (Step k × Heap × Out V)} {s : Mgr k}
    (hh : History nm env S h0 l h s) {cfg inner : Cfg} {x : Option V} {t : Option Str} {socket : Except Exc Unit}
    {user : Nat → Option Msg → Act k} (hf : (Step.turn cfg inner x t socket user).Fits nm env S h s)
    (hs : socket ≠ .error .queueEmpty) (ht : k = .sm → t = none) {y : V} {ys : List V} (hq : Queued h S.a (y :: ys)) :
    ∃ o h', (Step.turn cfg inner x t socket user).run S.a h = some (h', o) ∧ (∀ n g, Waits h' S.a n g ↔ Waits h S.a n g) ∧
      ∃ item items zs, List.Forall₂ (QItem nm h) (item :: items) (y :: ys) ∧ Queued h' S.a zs ∧ List.Forall₂ (QItem nm h') items zs := by
  have hd := history_holds hi f hh
  obtain ⟨h', o, r⟩ := step_does hi f.own hd hf
  obtain ⟨attrs, q, d, r1, -⟩ := hd.mgr
  obtain ⟨attrs', q', d', r2, -⟩ := r.mgr
  obtain ⟨xs, q1, q2⟩ := queued_of r1
  obtain rfl := queued_unique hq q1
  obtain ⟨item, items, h1, h2, h3⟩ : ∃ item items, s.outbound = item :: items ∧ QItem nm h item y ∧ List.Forall₂ (QItem nm h) items ys := by
    generalize s.outbound = z at q2
    cases q2 with
    | cons a b => exact ⟨_, _, rfl, a, b⟩
  obtain ⟨g1, g2, -⟩ := C45_turn env k (fun cb m => (user cb m).exec env) socket hs (t.map .str) (fun h => by rw [ht h]; rfl) s item items h1
  have e2 : ((Step.turn cfg inner x t socket user).model env s).2 = (iterate env k (fun cb m => (user cb m).exec env) socket (t.map .str) s).2 := rfl
  rw [e2] at r2
  obtain ⟨zs, z1, z2⟩ := queued_of r2
  rw [g1] at z2
  have hW : ∀ n g, Waits h' S.a n g ↔ Waits h S.a n g := fun n g => by rw [waits_iff r1, waits_iff r2, g2]
  cases hz : ((Step.turn cfg inner x t socket user).model env s).1 with
  | ok v =>
    rw [hz] at o
    obtain ⟨w, e, -⟩ := o
    exact ⟨_, h', e, hW, item, items, zs, .cons h2 h3, z1, z2⟩
  | error v =>
    rw [hz] at o
    obtain ⟨w, e, -⟩ := o
    exact ⟨_, h', e, hW, item, items, zs, .cons h2 h3, z1, z2⟩

/-! ## The hypotheses can be met -/

abbrev storyEnv : Libsnmp.Env := ⟨regFull, none, none⟩

def storySite (g : Nat) : Site := ⟨statics.length, g, "sock", 65536, .quot 1 4, fun _ => False⟩

theorem story_new : ∃ h0 g, JustMade againNames storyEnv .v1 (storySite g) h0 := by
  have hn : NewManager againNames storyEnv .v1 statics (call program openCfg (.cls (.v1, 19)) [] statics)
      "sock" (.tuple [.str (lit "0.0.0.0"), .int 0]) (.quot 1 4) := by
    have := C100_defaults (cfg := openCfg) .v1 statics
    exact this ▸ C100_new (nm := againNames) (env := storyEnv) (h := statics) .v1 (by decide) (openCfg_opens _ _)
  obtain ⟨h0, g, -, f⟩ := C102_fresh base_statics hn (fun _ => False) (fun _ h => h.elim)
  exact ⟨h0, g, f⟩

theorem storyAsk_fits (g : Nat) (h : Heap) (s : Mgr .v1) : storyAsk.Fits againNames storyEnv (storySite g) h s :=
  ⟨sampleCfg_limits, sampleCfg_registry, rfl, fun s hs => by injection hs with hs; subst hs; exact .inr (by decide +kernel), .str (lit ".1.3.6"),
    ⟨rfl, by simp⟩, .inr ⟨rfl, rfl⟩⟩

/-- After any number of requests, up to 2^31, the next number is that number: so the numbers do run out. -/
theorem story_long {h0 : Heap} {g : Nat} (f : JustMade againNames storyEnv .v1 (storySite g) h0) (n : Nat) (hn : n ≤ 2 ^ 31) :
    ∃ l h, ∃ s : Mgr .v1, History againNames storyEnv (storySite g) h0 l h s ∧ s.nextRequestID = n := by
  induction n with
  | zero => exact ⟨[], h0, {}, .new, rfl⟩
  | succ n ih =>
    obtain ⟨l, h, s, hh, e⟩ := ih (by omega)
    obtain ⟨h1, o1, -, -, hh1⟩ := C102_progress imported_full f hh (storyAsk_fits g h s)
    have hc : CallOk storyEnv (k := .v1) (V1Call.get (.str (lit ".1.3.6")) 161 7 (lit "public")) :=
      ((C44_exact storyEnv (k := .v1) (V1Call.get (.str (lit ".1.3.6")) 161 7 (lit "public")) (by simp [callbackOf]) {}).1.1 ⟨_, rfl⟩).1
    obtain ⟨v, hv⟩ := (C44_exact storyEnv (k := .v1) (V1Call.get (.str (lit ".1.3.6")) 161 7 (lit "public")) (by simp [callbackOf]) s).1.2
      ⟨hc, by show s.nextRequestID ≤ 2147483647; omega⟩
    refine ⟨_, h1, _, hh1, ?_⟩
    have h2 := ((C43_next storyEnv (k := .v1) (V1Call.get (.str (lit ".1.3.6")) 161 7 (lit "public")) s).1 v hv (by simp [callbackOf])).2
    show (doCall storyEnv (k := .v1) (V1Call.get (.str (lit ".1.3.6")) 161 7 (lit "public")) s).2.nextRequestID = n + 1
    rw [h2, e]

/-- The 2^31st request of a `v1.SNMP` is refused, with ValueError. -/
example : ∃ h a args h', callMethod sampleCfg (.ref a) "snmpGet"
    [.str (lit ".1.3.6"), .tuple [.str (lit "127.0.0.1"), .int (161 : Nat)], .ext "again"] h = excR (.exc "ValueError" args) h' ∧
    ∀ n g, Waits h' a n g ↔ Waits h a n g := by
  obtain ⟨h0, g, f⟩ := story_new
  obtain ⟨l, h, s, hh, e⟩ := story_long f (2 ^ 31) (Nat.le_refl _)
  obtain ⟨attrs, q, d, r, -⟩ := (history_holds imported_full f hh).mgr
  obtain ⟨x, h', e', h1, -⟩ := C109_exhausted imported_full f hh (storyAsk_fits g h s) (by simp [callbackOf]) (n := 2147483648)
    ((next_iff r _).2 (by rw [e]; rfl)) (.inr ⟨rfl, by decide⟩)
  obtain ⟨args, rfl⟩ := h1
    (((C44_exact storyEnv (k := .v1) (V1Call.get (.str (lit ".1.3.6")) 161 7 (lit "public")) (by simp [callbackOf]) {}).1.1 ⟨_, rfl⟩).1)
  exact ⟨h, _, args, h', e', (C109_refused imported_full f hh (storyAsk_fits g h s) e').1⟩

/-- The first request: it waits under the number 0; when the answer has come and the callback has returned, it does not. -/
example : ∃ h a x h' o h'', callMethod sampleCfg (.ref a) "snmpGet"
      [.str (lit ".1.3.6"), .tuple [.str (lit "127.0.0.1"), .int (161 : Nat)], .ext "again"] h = okR x h' ∧
    (∀ j g, Waits h' a j g ↔ j = 0 ∧ g = againNames.fn 7) ∧
    callMethod storyInner (.ref a) "receiveData" [.none, .none, .tuple [.str answer, .none], .tuple [.none, .none, .none]] h' = some (h'', o) ∧
    ∀ j g, ¬ Waits h'' a j g := by
  obtain ⟨h0, g, f⟩ := story_new
  have hfit := storyAsk_fits g h0 {}
  obtain ⟨h1, o1, out1, e1, hh1⟩ := C102_progress imported_full f .new hfit
  have hm : (storyAsk.model storyEnv {}).1 = .ok (.integer .integer 0) := rfl
  rw [hm] at out1
  obtain ⟨x, hx, -⟩ := out1
  rw [hx] at e1
  cases e1
  obtain ⟨attrs, q, d, r, -⟩ := (history_holds imported_full f .new).mgr
  obtain ⟨b, n, -, -, hn, -, -, hw, -⟩ := C109_accepted imported_full f .new hfit (cb := 7) rfl hx
  have hn0 : n = 0 := (next_iff r n).1 hn
  subst hn0
  have hempty : ∀ j g', ¬ Waits h0 (storySite g).a j g' := by
    intro j g' hj
    obtain ⟨cb, h2, -⟩ := (waits_iff r j g').1 hj
    cases h2
  have hw' : ∀ j g', Waits h1 (storySite g).a j g' ↔ j = 0 ∧ g' = againNames.fn 7 := by
    intro j g'
    rw [hw]
    by_cases hj : j = 0
    · simp [hj]
    · simp [hj, hempty]
  have hmsg : ∃ m, msgDecode storyEnv.reg (msgCls .v1) (.str answer) = .ok m ∧ accepts .v1 m ∧ answers .v1 m = some 0 := by
    have h1 : (match msgDecode regFull (msgCls .v1) (.str answer) with
      | .ok m => decide (accepts .v1 m) && decide (answers .v1 m = some 0)
      | .error _ => false) = true := by decide +kernel
    cases h2 : msgDecode regFull (msgCls .v1) (.str answer) with
    | error e => rw [h2] at h1; cases h1
    | ok m =>
      rw [h2] at h1
      simp only [Bool.and_eq_true, decide_eq_true_eq] at h1
      exact ⟨m, rfl, h1.1, h1.2⟩
  obtain ⟨m, m1, m2, m3⟩ := hmsg
  obtain ⟨cb, -, o, h2, e2, hw2, -⟩ := C109_answered imported_full f hh1 (cfg := storyInner) sampleCfg_limits (Registry.knows sampleCfg_registry) nofun
    (fun _ _ => .ok ()) ⟨nofun, fun cb m s h x attrs q d hn hb r _ => ⟨h, attrs, ⟨hb, Nat.le_refl _, fun _ _ _ _ _ _ _ => rfl,
      fun c l hc => ⟨l, hc, fun _ _ => rfl⟩⟩, r, .none, by
        show call program storyInner (.ext "again") _ h = _
        rw [call]
        rfl⟩⟩
    answer (smallLen (by decide)) (C86_short _ _ (by decide) (by decide)) m1 m2 m3 ((hw' 0 _).2 ⟨rfl, rfl⟩) .none .none .none
  have := C109_finished imported_full f hh1 (cfg := storyInner) sampleCfg_limits (Registry.knows sampleCfg_registry) nofun
    (fun _ _ => .ret) ⟨nofun, fun cb m s h x attrs q d hn hb r _ => ⟨h, attrs, ⟨hb, Nat.le_refl _, fun _ _ _ _ _ _ _ => rfl,
      fun c l hc => ⟨l, hc, fun _ _ => rfl⟩⟩, r, .none, by
        show call program storyInner (.ext "again") _ h = _
        rw [call]
        rfl⟩⟩
    answer (smallLen (by decide)) (C86_short _ _ (by decide) (by decide)) m1 m2 m3 ((hw' 0 _).2 ⟨rfl, rfl⟩) (fun _ _ _ => rfl) .none .none .none
  refine ⟨h0, _, x, h1, o, h2, hx, hw', e2, fun j g' hj => ?_⟩
  obtain ⟨h3, h4⟩ := (hw2 j g').1 hj
  exact h4 ((hw' j g').1 h3).1 rfl

/-- A turn of `run()` after the first request: the queue, of one item, is empty, and the request waits. -/
example : ∃ h a x o h', Queued h a [x] ∧ oneTurn storyCfg .v1 a none h = some (h', o) ∧ Queued h' a [] ∧ Waits h' a 0 (againNames.fn 7) := by
  obtain ⟨h0, g, f⟩ := story_new
  obtain ⟨h1, o1, out1, e1, hh1⟩ := C102_progress imported_full f .new (storyAsk_fits g h0 {})
  have hq : (storyAsk.model storyEnv {}).2.outbound = [(some ⟨.message, .integer .integer 0,
      .octets .octetString (lit "public"), .seq .get [.integer .integer 0, .integer .errorStatus 0, .integer .integer 0,
        .seq .varBindList [.seq .varBind [.oid (some [1, 3, 6]), .null .null]]]⟩, 161)] := rfl
  obtain ⟨attrs, q, d, r, -⟩ := (history_holds imported_full f hh1).mgr
  obtain ⟨xs, q1, q2⟩ := queued_of r
  rw [hq] at q2
  cases q2 with
  | cons a b =>
    rename_i x ys
    cases b
    have fits : storyTurn.Fits againNames storyEnv (storySite g) h1 (storyAsk.model storyEnv {}).2 :=
      { limits := sampleCfg_limits, limits' := sampleCfg_limits, registry := sampleCfg_registry, prints := nofun
        obeys := ⟨nofun, fun cb m s h x attrs q d hn hb r _ => ⟨h, attrs, ⟨hb, Nat.le_refl _, fun _ _ _ _ _ _ _ => rfl, fun c l hc => ⟨l, hc, fun _ _ => rfl⟩⟩, r, .none,
            show call program storyInner (.ext "again") _ h = _ by
            rw [call]
            rfl⟩⟩
        heeds := nofun
        around := ⟨nofun, fun _ _ => rfl, fun s hs => ⟨.none, fun h => by injection hs with hs; subst hs; rfl⟩, fun _ => rfl⟩
        short := fun x hx => by injection hx with hx; subst hx; exact smallLen (by decide)
        sends := fun m r rest o _ _ h => ⟨.none, rfl⟩
        fine := fun m n hm => by
          have hm : (some m, n) ∈ (storyAsk.model storyEnv {}).2.outbound := hm
          rw [hq, List.mem_singleton] at hm
          injection hm with hm _
          injection hm with hm
          subst hm
          refine ⟨.inl rfl, ?_, small (by decide +kernel)⟩
          simp only [SaneAll, Sane, and_true]
          exact ⟨smallLen (by decide +kernel), smallLen (by decide +kernel), by decide, by decide, small (by decide +kernel),
            smallLen (by decide +kernel), smallLen (by decide +kernel), smallLen (by decide +kernel), by decide, by decide, small (by decide +kernel),
            by decide, by decide, small (by decide +kernel), small (by decide +kernel)⟩
        digits := fun x hx => by injection hx with hx; subst hx; exact C86_short _ _ (by decide) (by decide) }
    obtain ⟨o, h2, e2, hw, item, items, zs, g1, g2, g3⟩ := C109_sends imported_full f hh1 fits nofun nofun q1
    obtain rfl : items = [] := by cases g1 with | cons _ b => cases b; rfl
    cases g3
    have hz : Waits h1 (storySite g).a 0 (againNames.fn 7) := (waits_iff r 0 _).2 ⟨7, by decide +kernel, rfl⟩
    have : ∃ o, oneTurn storyCfg .v1 (storySite g).a none h1 = some (h2, o) := by
      have e3 : (match oneTurn storyCfg .v1 (storySite g).a none h1 with
        | some (h', _, .next) => okR .none h'
        | some (h', _, .exc y) => excR y h'
        | some (h', _, _) => stuckR h'
        | none => none) = some (h2, o) := e2
      split at e3 <;> rename_i e4 <;> cases e3 <;> exact ⟨_, e4⟩
    obtain ⟨o', e3⟩ := this
    exact ⟨h1, _, x, o', h2, q1, e3, g2, (hw 0 _).2 hz⟩

/-- `manager.snmpTrap(address, 5)`: the class does not look at what it is given. -/
example : ∃ h a h' x, callMethod sampleCfg (.ref a) "snmpTrap" [.tuple [.str (lit "127.0.0.1"), .int (162 : Nat)], .int 5] h = okR .none h' ∧
    Queued h a [] ∧ Queued h' a [x] ∧ ∃ m, QItem againNames h' (some m, 162) x ∧ m.data = .int 5 := by
  obtain ⟨h0, g, f⟩ := story_new
  have hfit : (Step.ask sampleCfg "snmpTrap" [.tuple [.str (lit "127.0.0.1"), .int (162 : Nat)], .int 5]
      (V1Call.trap 162 (.int 5) (lit "public")) : Step .v1).Fits againNames storyEnv (storySite g) h0 {} :=
    ⟨sampleCfg_limits, sampleCfg_registry, rfl, .int 5, by rw [Rep], .inr ⟨rfl, rfl⟩⟩
  obtain ⟨h1, o1, out1, -, -⟩ := C102_progress imported_full f .new hfit
  obtain ⟨x, hx, -⟩ := (show ∃ x, _ = okR x h1 ∧ _ from out1)
  obtain ⟨rfl, -, -, items, m, xs, ys, q1, q2, q3, q4, q5⟩ := C109_trap imported_full f .new hfit rfl hx
  obtain ⟨attrs, q, d, r, -⟩ := (history_holds imported_full f .new).mgr
  obtain ⟨zs, q6, q7⟩ := queued_of r
  obtain rfl := queued_unique q1 q6
  cases q7
  cases q2
  cases q4 with
  | cons a b =>
    cases b
    have hm : m = some (wrap .message 0 (lit "public") (.int 5)) := q5 0
    subst hm
    exact ⟨h0, _, h1, _, hx, q1, q3, _, a, rfl⟩

end Libsnmp.Src
