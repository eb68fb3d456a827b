import Verif.Spec.SourceRecv
import Verif.Lemmas.SrcMgr6
import Verif.Lemmas.SrcForms
import Verif.Lemmas.ReceiveAll
import Verif.Props.LongInts

/-!
# Running `receiveData`: the parts
-/

namespace Libsnmp.Src
open Libsnmp

variable {cfg : Cfg} {nm : Names} {env : Libsnmp.Env} {k : Libsnmp.Kind}

/-! ## `Message().decode(data)` -/

/-- The version that `Message()` gets. -/
def version0 : SeqCls → Int
  | .message => 0
  | _ => 1

theorem run_freshMsg (hc : Limits cfg) {h : Heap} (hb : Base h) {c : SeqCls} (hm : c = .message ∨ c = .message2) :
    ∃ h' m, call program cfg (.cls (cid (.seq c))) [] h = okR (.ref h.length) h' ∧ Kept h.length h h' ∧ m.cls = c ∧
      RepMsg h.length h' m h.length := by
  have e : call program cfg (.cls (cid (.seq c))) [] h =
      call program cfg (.cls (cid (.seq c))) [.int (version0 c), .str (lit "public"), .none] h := by
    rw [call_cls, call_cls]
    rcases hm with rfl | rfl
    · rw [show initOf (.seq .message) = (.rfc1157, 91) from rfl]
      dsimp only
      rw [call_rfc1157_91_1, call_rfc1157_91]; rfl
    · rw [show initOf (.seq .message2) = (.rfc1905, 60) from rfl]
      dsimp only
      rw [call_rfc1905_60_1, call_rfc1905_60]; rfl
  have h1 := run_newMsg (cfg := cfg) hc hb hm (version0 c) (lit "public") (d := .none) (z := .none) hb.long (Nat.le_refl _) (by rw [Rep])
  obtain ⟨m, hmk⟩ : ∃ m, mkMessage c (version0 c) (lit "public") .none = .ok m := by
    rcases hm with rfl | rfl <;> exact ⟨_, rfl⟩
  rw [hmk] at h1
  obtain ⟨h', e1, e2, e3, e4⟩ := h1
  exact ⟨h', m, e.trans e1, e2, e3, e4⟩

theorem plain_lookup {attrs : List (String × V)} : Plain attrs ↔ ∀ k, attrs.lookup k ≠ none → k ∈ dataNames := by
  constructor
  · intro hp k hk
    cases hl : attrs.lookup k with
    | none => exact absurd hl hk
    | some v =>
      induction attrs with
      | nil => cases hl
      | cons p ps ih =>
        rw [List.lookup_cons] at hl
        by_cases e : k = p.1
        · rw [e]; exact hp p List.mem_cons_self
        · rw [beq_false_of_ne e] at hl
          have hl' : ps.lookup k = some v := hl
          exact ih (fun q hq => hp q (List.mem_cons_of_mem _ hq)) (by rw [hl']; simp) hl'
  · intro h p hp
    refine h p.1 ?_
    induction attrs with
    | nil => cases hp
    | cons q qs ih =>
      rw [List.lookup_cons]
      by_cases e : p.1 = q.1
      · rw [e]; simp
      · rw [beq_false_of_ne e]
        rcases List.mem_cons.1 hp with rfl | hp
        · exact absurd rfl e
        · refine ih (fun k hk => ?_) hp
          by_cases e' : k = q.1
          · subst e'; exact h _ (by rw [List.lookup_cons]; simp)
          · exact h k (by rw [List.lookup_cons, beq_false_of_ne e']; exact hk)

/-- From `h` to `h'`, nothing that existed has changed. -/
structure Keeps (h h' : Heap) : Prop where
  base : Base h'
  len : h.length ≤ h'.length
  same : ∀ b, 9 ≤ b → b < h.length → h'[b]? = h[b]?

theorem Kept.keeps {h h' : Heap} (hk : Kept h.length h h') : Keeps h h' := ⟨hk.base, hk.len, hk.same⟩

theorem run_freshDecode (hc : Limits cfg) {reg : Reg} (hreg : ∀ n : Nat, cfg.tag n = (reg n).map cid)
    (hdec : ∀ n c, reg n = some c → Decodable c = true) {h : Heap} (hb : Base h) {c : SeqCls} (hm : c = .message ∨ c = .message2)
    (s : Str) (hs : s.length < 10 ^ 640) :
    ∃ h1 attrs, call program cfg (.cls (cid (.seq c))) [] h = okR (.ref h.length) h1 ∧
      h1[h.length]? = some (.inst (cid (.seq c)) attrs) ∧ attrs.lookup "decode" = none ∧
      match msgDecode311 reg cfg.limit c (.str s) with
      | .ok m => ∃ h2, call program cfg (.func .rfc1157 110) [.ref h.length, .str s] h1 = okR (.ref h.length) h2 ∧ Keeps h h2 ∧
          RepMsg h.length h2 m h.length
      | .error e => ∃ h2 x, call program cfg (.func .rfc1157 110) [.ref h.length, .str s] h1 = excR x h2 ∧ Keeps h h2 ∧ Raised h2 e x := by
  obtain ⟨h1, m0, e1, k1, rfl, attrs, b, l, x, y, z, q1, q2, q3, q4, q5, q6, q7, q8⟩ := run_freshMsg (cfg := cfg) hc hb hm
  have hl : l.length < 10 ^ 640 :=
    Nat.lt_of_le_of_lt q7 (Nat.lt_of_lt_of_le (by decide : 3 < 10 ^ 1) (Nat.pow_le_pow_right (by decide) (by decide)))
  have hd := run_msgDecode hc hreg hdec k1.base q2 hb.long q4 (Nat.le_trans hb.long q5) q6 hl s hs
  refine ⟨h1, attrs, e1, q2, q3.none, ?_⟩
  cases hmd : msgDecode311 reg cfg.limit m0.cls (.str s) with
  | error e =>
    rw [hmd] at hd
    obtain ⟨h2, x, d1, d2, d3⟩ := hd
    exact ⟨h2, x, d1, (k1.trans (d2.mono k1.len)).keeps, d3⟩
  | ok m =>
    rw [hmd] at hd
    obtain ⟨h2, attrs2, x2, y2, z2, d1, d2, d3, d4, d5, d6, d7, d8, d9, d10, d11, d12⟩ := hd
    have hlt := lt_of_get q2
    have hbl : b < h1.length := lt_of_get q6
    have hne : b ≠ h.length := by
      rintro rfl
      rw [q2] at q6; cases q6
    have lo : ∀ {v x}, Rep h1.length h2 v x → Rep h.length h2 v x := fun r => Rep.congr k1.len (fun _ _ _ h => h) _ _ r
    have hp : ∀ k, k ≠ "version" → k ≠ "community" → k ≠ "data" → attrs2.lookup k = attrs.lookup k := fun k => d12 _ _ k q2
    refine ⟨h2, d1, ⟨d2, ?_, ?_⟩, attrs2, b, l, x2, y2, z2, Nat.le_refl _, ?_, ?_, ?_, q5, ?_, q7, d6, d7, d8, lo d9, lo d10, lo d11⟩
    · exact Nat.le_of_lt (lt_of_get d4)
    · intro b' h9 hb'
      rw [d3 b' h9 (by omega) (by omega), k1.same b' h9 hb']
    · rw [d5]; exact d4
    · rw [plain_lookup] at q3 ⊢
      intro k hk
      by_cases a1 : k = "version"
      · subst a1; decide
      · by_cases a2 : k = "community"
        · subst a2; decide
        · by_cases a3 : k = "data"
          · subst a3; decide
          · rw [hp k a1 a2 a3] at hk; exact q3 k hk
    · rw [hp _ (by decide) (by decide) (by decide)]; exact q4
    · rw [d3 b (Nat.le_trans hb.long q5) hbl hne]; exact q6

/-! ## The manager and its callbacks -/

theorem Keeps.mgr {h h' : Heap} {a q d : Nat} {s : Mgr k} {attrs : List (String × V)} (r : MgrAt nm env h a s attrs q d)
    (hk : Keeps h h') : MgrAt nm env h' a s attrs q d :=
  r.same (fun b c h9 _ hb => by rw [hk.same b h9 (lt_of_get hb), hb]) (hk.same a r.low r.lt) (hk.same q r.qlow r.qlt)
    (hk.same d r.dlow r.dlt)

theorem Keeps.leaves {h h' : Heap} (hk : Keeps h h') (U : Nat → Prop) {a : Nat} (q d : Nat) (ha : 9 ≤ a) : Leaves U a q d h h' :=
  ⟨hk.base, hk.len, fun b h9 hb _ _ _ _ => hk.same b h9 hb, fun _ l hl => ⟨l, (hk.same a ha (lt_of_get hl)).trans hl, fun _ _ => rfl⟩⟩

theorem Leaves.trans {U : Nat → Prop} {a q d : Nat} {h h' h'' : Heap} (h1 : Leaves U a q d h h') (h2 : Leaves U a q d h' h'') :
    Leaves U a q d h h'' :=
  ⟨h2.base, Nat.le_trans h1.len h2.len, fun b h9 hb e1 e2 e3 e4 =>
    (h2.same b h9 (Nat.lt_of_lt_of_le hb h1.len) e1 e2 e3 e4).trans (h1.same b h9 hb e1 e2 e3 e4), h1.wires.trans h2.wires⟩

theorem Leaves.refl {U : Nat → Prop} {a q d : Nat} {h : Heap} (hb : Base h) : Leaves U a q d h h :=
  ⟨hb, Nat.le_refl _, fun _ _ _ _ _ _ _ => rfl, Wires.refl _ _⟩

/-- The message is none of the objects that may change. -/
theorem Leaves.msg {U : Nat → Prop} {a q d n : Nat} {h h' : Heap} (h1 : Leaves U a q d h h') (hU : ∀ b, U b → b < n) (h9 : 9 ≤ n)
    (ha : a < n) (hq : q < n) (hd : d < n) {m : Msg} {b : Nat} (r : RepMsg n h m b) : RepMsg n h' m b :=
  RepMsg.frame (fun c x hc _ hx => by
    rw [h1.same c (by omega) (lt_of_get hx) (by omega) (by omega) (by omega) (fun hu => by have := hU c hu; omega), hx]) r

theorem note_mgr {h : Heap} {a q d : Nat} {s : Mgr k} {attrs : List (String × V)} {o : Obs k} :
    MgrAt nm env h a (s.note o) attrs q d ↔ MgrAt nm env h a s attrs q d :=
  ⟨fun r => ⟨r.low, r.cell, r.names, r.next, r.outbound, r.qlow, r.queue, r.callbacks, r.dlow, r.dict, r.keys, r.once, r.trap, r.empty⟩,
   fun r => ⟨r.low, r.cell, r.names, r.next, r.outbound, r.qlow, r.queue, r.callbacks, r.dlow, r.dict, r.keys, r.once, r.trap, r.empty⟩⟩

/-- `callback(self, msg)`. -/
theorem run_invoke {U : Nat → Prop} {n a : Nat} {user : User k} (hu : Obeys cfg nm env U n a user) (cb : Nat) {m : Msg} {s : Mgr k}
    {h : Heap} {x : Nat} {attrs : List (String × V)} {q d : Nat} (hn : n ≤ h.length) (hb : Base h)
    (r : MgrAt nm env h a s attrs q d) (rm : RepMsg n h m x) :
    ∃ h' attrs', Leaves U a q d h h' ∧ MgrAt nm env h' a (invoke user cb (some m) s).2 attrs' q d ∧
      Ends h' (call program cfg (nm.fn cb) [.ref a, .ref x] h) (invoke user cb (some m) s).1 := by
  obtain ⟨h', attrs', e1, e2, e3⟩ := hu.2 cb m (s.note (.entered cb (some m))) h x attrs q d hn hb (note_mgr.2 r) rm
  exact ⟨h', attrs', e1, note_mgr.2 e2, e3⟩

/-- The value of a key of `callbacks`. -/
def KeyAt (k : Libsnmp.Kind) (h : Heap) (key : Val) (y : V) : Prop :=
  match k with
  | .sm => (∃ c n, key = .integer c n) ∧ Rep 9 h key y
  | _ => ∃ n, key = .int n ∧ y = .int n

theorem KeyAt.num {h : Heap} {key : Val} {y : V} (hk : KeyAt k h key y) : ∃ n, keyNum key = some n := by
  cases k with
  | v1 => obtain ⟨n, rfl, _⟩ := hk; exact ⟨n, rfl⟩
  | v2 => obtain ⟨n, rfl, _⟩ := hk; exact ⟨n, rfl⟩
  | sm => obtain ⟨⟨c, n, rfl⟩, _⟩ := hk; exact ⟨n, rfl⟩

theorem MgrAt.numeric {h : Heap} {a q d : Nat} {s : Mgr k} {attrs : List (String × V)} (r : MgrAt nm env h a s attrs q d) :
    s.callbacks.Numeric := fun p hp => by
  have := r.keys p hp
  cases k with
  | v1 => obtain ⟨n, e⟩ := this; rw [e]; rfl
  | v2 => obtain ⟨n, e⟩ := this; rw [e]; rfl
  | sm => obtain ⟨c, n, e⟩ := this; rw [e]; rfl

theorem place_get {d : Dict} {key : Val} {i : Nat} (h : place? d key = some i) : ∃ p, d[i]? = some p := by
  have := List.findIdx?_eq_some_iff_getElem.1 h
  obtain ⟨h1, _⟩ := this
  exact ⟨_, List.getElem?_eq_getElem h1⟩

/-- `self.callbacks[key]`. -/
theorem run_getCb {h : Heap} {a q d : Nat} {s : Mgr k} {attrs : List (String × V)} (r : MgrAt nm env h a s attrs q d) {key : Val} {y : V}
    (hk : KeyAt k h key y) :
    match s.callbacks.get key with
    | .ok cb => getitem program cfg (.ref d) y h = okR (nm.fn cb) h
    | .error e => e = .keyError ∧ getitem program cfg (.ref d) y h = excR (.exc "KeyError" []) h := by
  obtain ⟨n0, hn⟩ := hk.num
  obtain ⟨es, hd, he⟩ := r.dict
  rw [get_place hn]
  cases k with
  | sm =>
    obtain ⟨⟨c, n, rfl⟩, ry⟩ := hk
    have hf := run_findKey (cfg := cfg) he (fun p hp => r.keys p hp) ry
    have hg : getitem program cfg (.ref d) y h =
        bindR (findKey program cfg es y h) fun o h => orRaise (o.bind fun n => es[n]?.map (·.2)) "KeyError" h := by
      rw [Rep] at ry
      obtain ⟨b, at', rfl, _⟩ := ry
      rw [getitem]
      simp only [kind, hd]
    rw [hg, hf, bindR_ok]
    cases hp : place? s.callbacks (.integer c n) with
    | none => exact ⟨rfl, rfl⟩
    | some i =>
      obtain ⟨p, hp'⟩ := place_get hp
      have := Entries.get he i
      simp only [Option.bind_some, hp'] at this ⊢
      rw [this]; rfl
  | v1 =>
    obtain ⟨n, rfl, rfl⟩ := hk
    have hf := Entries.getKey (n := n) he (fun p hp => r.keys p hp)
    have hg : getitem program cfg (.ref d) (.int n) h = orRaise (Src.getKey es (.int n)) "KeyError" h := by
      rw [getitem]
      simp only [kind, hd]
    rw [hg, hf]
    cases (place? s.callbacks (.int n)).bind fun i => s.callbacks[i]? with
    | none => exact ⟨rfl, rfl⟩
    | some p => rfl
  | v2 =>
    obtain ⟨n, rfl, rfl⟩ := hk
    have hf := Entries.getKey (n := n) he (fun p hp => r.keys p hp)
    have hg : getitem program cfg (.ref d) (.int n) h = orRaise (Src.getKey es (.int n)) "KeyError" h := by
      rw [getitem]
      simp only [kind, hd]
    rw [hg, hf]
    cases (place? s.callbacks (.int n)).bind fun i => s.callbacks[i]? with
    | none => exact ⟨rfl, rfl⟩
    | some p => rfl

theorem erase_sub {d : Dict} {i : Nat} {p : Val × Nat} (h : p ∈ d.eraseIdx i) : p ∈ d := List.mem_of_mem_eraseIdx h

/-- `del self.callbacks[key]`. -/
theorem run_delCb {U : Nat → Prop} {h : Heap} {a q d : Nat} {s : Mgr k} {attrs : List (String × V)} (hb : Base h)
    (r : MgrAt nm env h a s attrs q d) {key : Val} {y : V} (hk : KeyAt k h key y) :
    match s.callbacks.del key with
    | .ok cbs => ∃ h', remove program cfg (.ref d) y h = okR () h' ∧ Leaves U a q d h h' ∧
        MgrAt nm env h' a { s with callbacks := cbs } attrs q d
    | .error e => e = .keyError ∧ remove program cfg (.ref d) y h = excR (.exc "KeyError" []) h := by
  obtain ⟨n0, hn⟩ := hk.num
  obtain ⟨es, hd, he⟩ := r.dict
  rw [del_place r.numeric r.once hn]
  have fin : ∀ i, MgrAt nm env (h.set d (.dict (es.eraseIdx i))) a { s with callbacks := s.callbacks.eraseIdx i } attrs q d := fun i =>
    r.setDict (Entries.erase he i) (fun p hp => r.keys p (erase_sub hp)) (r.once.sublist (List.eraseIdx_sublist _ _))
  have lv : ∀ c, Leaves U a q d h (h.set d c) := fun c => ⟨hb.congr fun i hi => List.getElem?_set_ne (by have := r.dlow; omega),
    by simp, fun b _ _ _ _ e3 _ => by rw [List.getElem?_set_ne (Ne.symm e3)], Wires.same (List.getElem?_set_ne r.ad.symm)⟩
  have hint : ∀ n : Int, (∀ p ∈ s.callbacks, ∃ n, p.1 = .int n) → KeyAt .v1 h key (.int n) → key = .int n →
      match (match place? s.callbacks key with | some i => Except.ok (s.callbacks.eraseIdx i) | none => .error Exc.keyError) with
      | .ok cbs => ∃ h', remove program cfg (.ref d) (.int n) h = okR () h' ∧ Leaves U a q d h h' ∧
          MgrAt nm env h' a { s with callbacks := cbs } attrs q d
      | .error e => e = .keyError ∧ remove program cfg (.ref d) (.int n) h = excR (.exc "KeyError" []) h := by
    rintro n hi - rfl
    have hf := Entries.getKey (n := n) he hi
    have hg : remove program cfg (.ref d) (.int n) h = if (Src.getKey es (.int n)).isSome then
        okR () (h.set d (.dict (es.filter fun p => !keyEq p.1 (.int n)))) else raiseR "KeyError" h := by
      rw [remove]
      simp only [kind, hd]
    rw [hg, hf]
    cases hp : place? s.callbacks (.int n) with
    | none => exact ⟨rfl, rfl⟩
    | some i =>
      obtain ⟨p, hp'⟩ := place_get hp
      simp only [Option.bind_some, hp', Option.map_some, Option.isSome_some, if_true]
      rw [Entries.filterKey he hi r.once n hp]
      exact ⟨_, rfl, lv _, fin i⟩
  cases k with
  | sm =>
    obtain ⟨⟨c, n, rfl⟩, ry⟩ := hk
    have hf := run_findKey (cfg := cfg) he (fun p hp => r.keys p hp) ry
    have hg : remove program cfg (.ref d) y h = bindR (findKey program cfg es y h) fun o h => match o with
        | some n => okR () (h.set d (.dict (es.eraseIdx n)))
        | none => raiseR "KeyError" h := by
      rw [Rep] at ry
      obtain ⟨b, at', rfl, _⟩ := ry
      rw [remove]
      simp only [kind, hd]
      rfl
    rw [hg, hf, bindR_ok]
    cases place? s.callbacks (.integer c n) with
    | none => exact ⟨rfl, rfl⟩
    | some i => exact ⟨_, rfl, lv _, fin i⟩
  | v1 =>
    obtain ⟨n, rfl, rfl⟩ := hk
    exact hint n (fun p hp => r.keys p hp) ⟨n, rfl, rfl⟩ rfl
  | v2 =>
    obtain ⟨n, rfl, rfl⟩ := hk
    exact hint n (fun p hp => r.keys p hp) ⟨n, rfl, rfl⟩ rfl

/-! ## Statements -/

/-- How statements end, when they keep the local variables `E`. -/
def EndsS (E : Env) (h' : Heap) (o : S) : Except Exc Unit → Prop
  | .ok () => o = some (h', E, .next)
  | .error e => e ≠ .diverges ∧ ∃ x, o = some (h', E, .exc x) ∧ Raised h' e x

/-- What statements of the manager at `a` must do. -/
def Goes (nm : Names) (env : Libsnmp.Env) (U : Nat → Prop) (a q d : Nat) (E : Env) (h : Heap) (o : S) (m : Except Exc Unit × Mgr k) : Prop :=
  ∃ h' attrs', Leaves U a q d h h' ∧ MgrAt nm env h' a m.2 attrs' q d ∧ EndsS E h' o m.1

/-- The callback of a request is called, then forgotten. -/
def deliver (user : User k) (m : Msg) (key : Val) : M k Unit := do
  let cb ← getCallback key
  invoke user cb (some m)
  delCallback key

/-- ... in the source text; `key` is the expression of the key. -/
def deliverS (key : Expr) : List Stmt :=
  [.expr (.call (.index (.attr (.loc "self") "callbacks") key) [.loc "self", .loc "msg"]),
   .del (.attr (.loc "self") "callbacks") key]

theorem run_deliver {U : Nat → Prop} {n a : Nat} {user : User k} (hu : Obeys cfg nm env U n a user) {m : Msg} {s : Mgr k} {h : Heap} {b : Nat}
    {attrs : List (String × V)} {q d : Nat} (h9 : 9 ≤ n) (hn : n ≤ h.length) (hb : Base h) (r : MgrAt nm env h a s attrs q d)
    (ha : a < n) (hq : q < n) (hd : d < n) (rm : RepMsg n h m b) {m0 : Module} {E : Env} (e1 : E.get "self" = some (.ref a))
    (e2 : E.get "msg" = some (.ref b)) {key : Expr} {kv : Val}
    (hkey : ∀ h', RepMsg n h' m b → ∃ y, eval program cfg m0 E key h' = okR y h' ∧ KeyAt k h' kv y) :
    Goes nm env U a q d E h (block program cfg m0 E (deliverS key) h) (deliver user m kv s) := by
  obtain ⟨y, hy, ky⟩ := hkey h rm
  have hg := run_getCb (cfg := cfg) r ky
  have gd := r.getCallbacks
  unfold deliver
  cases hget : s.callbacks.get kv with
  | error e =>
    rw [hget] at hg
    obtain ⟨rfl, hg⟩ := hg
    rw [M.at_error (x := getCallback kv) (e := .keyError) (s' := s) (by unfold getCallback; rw [hget])]
    refine ⟨h, attrs, Leaves.refl hb, r, by simp, .exc "KeyError" [], ?_, _, rfl⟩
    runs [deliverS, ↓e1, ↓e2, ↓gd, ↓hy, ↓hg]
  | ok cb =>
    rw [hget] at hg
    rw [M.at_ok (x := getCallback kv) (v := cb) (s' := s) (by unfold getCallback; rw [hget])]
    obtain ⟨h1, attrs1, l1, r1, c1⟩ := run_invoke hu cb hn hb r rm
    rcases hi : invoke user cb (some m) s with ⟨res, s1⟩
    rw [hi] at r1 c1
    cases res with
    | error e =>
      obtain ⟨he, x, hx, hr⟩ := c1
      rw [M.at_error hi]
      refine ⟨h1, attrs1, l1, r1, he, x, ?_, hr⟩
      runs [deliverS, ↓e1, ↓e2, ↓gd, ↓hy, ↓hg, ↓hx]
    | ok u =>
      obtain ⟨x, hx⟩ := c1
      rw [M.at_ok hi]
      have rm1 := l1.msg hu.1 h9 ha hq hd rm
      obtain ⟨y1, hy1, ky1⟩ := hkey h1 rm1
      have gd1 := r1.getCallbacks
      have hdel := run_delCb (cfg := cfg) (U := U) l1.base r1 ky1
      unfold delCallback
      cases hde : s1.callbacks.del kv with
      | error e =>
        dsimp only at hdel
        rw [hde] at hdel
        obtain ⟨rfl, hdel⟩ := hdel
        refine ⟨h1, attrs1, l1, r1, by simp, .exc "KeyError" [], ?_, _, rfl⟩
        runs [deliverS, ↓e1, ↓e2, ↓gd, ↓hy, ↓hg, ↓hx, ↓gd1, ↓hy1, ↓hdel]
      | ok cbs =>
        dsimp only at hdel
        rw [hde] at hdel
        obtain ⟨h2, hdel, l2, r2⟩ := hdel
        refine ⟨h2, attrs1, l1.trans l2, r2, ?_⟩
        show block program cfg m0 E (deliverS key) h = some (h2, E, .next)
        runs [deliverS, ↓e1, ↓e2, ↓gd, ↓hy, ↓hg, ↓hx, ↓gd1, ↓hy1, ↓hdel]

/-- The trap callback. -/
theorem run_trap {U : Nat → Prop} {n a : Nat} {user : User k} (hu : Obeys cfg nm env U n a user) {m : Msg} {s : Mgr k} {h : Heap} {b : Nat}
    {attrs : List (String × V)} {q d : Nat} (hn : n ≤ h.length) (hb : Base h) (r : MgrAt nm env h a s attrs q d)
    (rm : RepMsg n h m b) {m0 : Module} {E : Env} (e1 : E.get "self" = some (.ref a)) (e2 : E.get "msg" = some (.ref b)) :
    Goes nm env U a q d E h
      (block program cfg m0 E [.expr (.call (.attr (.loc "self") "trapCallback") [.loc "self", .loc "msg"])] h) (invokeTrap env user m s) := by
  have gt := r.getTrap
  unfold invokeTrap
  cases ht : env.trapCallback with
  | none =>
    rw [ht] at gt
    refine ⟨h, attrs, Leaves.refl hb, r, by simp, .exc "TypeError" [], ?_, _, rfl⟩
    have hcn : call program cfg .none [.ref a, .ref b] h = excR (.exc "TypeError" []) h := by rw [call]; rfl
    runs [↓e1, ↓e2, ↓gt, Names.opt, ↓hcn]
  | some cb =>
    rw [ht] at gt
    obtain ⟨h1, attrs1, l1, r1, c1⟩ := run_invoke hu cb hn hb r rm
    refine ⟨h1, attrs1, l1, r1, ?_⟩
    dsimp only
    rcases hi : invoke user cb (some m) s with ⟨res, s1⟩
    rw [hi] at c1
    cases res with
    | error e =>
      obtain ⟨he, x, hx, hr⟩ := c1
      refine ⟨he, x, ?_, hr⟩
      runs [↓e1, ↓e2, ↓gt, Names.opt, ↓hx]
    | ok u =>
      obtain ⟨x, hx⟩ := c1
      show block program cfg m0 E _ h = some (h1, E, .next)
      runs [↓e1, ↓e2, ↓gt, Names.opt, ↓hx]

/-! ## The version -/

theorem run_version {lo : Nat} {h : Heap} {m : Msg} {x : V} (r : Rep lo h m.version x) (n : Int) :
    equal program cfg x (.int n) h = okR (.bool (decide (Spec.versionNo m = some n))) h := by
  have hv := versionIs_eq m n
  unfold versionIs at hv
  have s : Rep lo h (.int n) (.int n) := by rw [Rep]
  have c1 := r.cell
  rw [pyEq] at hv
  cases hcv : m.version.cls? with
  | none =>
    rw [hcv] at c1
    unfold Spec.versionNo
    rcases c1 with ⟨e, rfl⟩ | ⟨_, e, rfl⟩ | ⟨_, e, rfl⟩ <;> rw [e] <;> runs <;> try simp
  | some c =>
    rw [hcv] at c1
    obtain ⟨a, attrs, rfl, ha, hp⟩ := c1
    obtain ⟨l, hl⟩ := attr_eq c (cls_ne hcv)
    have h1 := run_eqMethod (cfg := cfg) r s (by simp [Numerals]) hcv hl (by intro _ _ _ _ _ e; cases e)
    have hcw : (Val.int n).cls? = none := rfl
    rw [hcv, hcw] at hv
    dsimp only at hv
    rw [hv] at h1
    runs [ha, hl, ↓h1, outR]

/-- The statements for a message of another version. -/
def unknownS : List Stmt :=
  [.expr (.call (.attr (.glob "log") "error") [.bin .mod (.str (lit "Unknown message version %d detected")) (.attr (.loc "msg") "version")]),
   .expr (.call (.attr (.glob "log") "error") [.bin .mod (.str (lit "version is a %s")) (.call (.attr (.loc "msg") "version") [])]),
   .raise (.call (.glob "ValueError") [.bin .mod (.str (lit "Unknown message version %d detected")) (.attr (.loc "msg") "version")])]

/-- The versions that decoding can find. -/
def SmallVersion (cfg : Cfg) (v : Val) : Prop := (∀ s, v ≠ .str s) ∧ ∀ n, v = .int n → tooLong cfg.digits n = false

theorem run_unknown' {lo : Nat} {h : Heap} {v : Val} {x : V} (r : Rep lo h v x) (hv : SmallVersion cfg v) {m0 : Module}
    (h0 : m0 = .v1 ∨ m0 = .v2 ∨ m0 = .snmpmanager) {b : Nat} (hx : getattr program h (.ref b) "version" = some x) {E : Env}
    (e2 : E.get "msg" = some (.ref b)) :
    ∃ y, block program cfg m0 E unknownS h = some (h, E, .exc y) ∧ Raised h (unknownVersion v) y := by
  have c1 := r.cell
  cases hcv : v.cls? with
  | none =>
    rw [hcv] at c1
    rcases c1 with ⟨rfl, rfl⟩ | ⟨n, rfl, rfl⟩ | ⟨s, rfl, rfl⟩
    · refine ⟨.exc "TypeError" [], ?_, _, rfl⟩
      rcases h0 with rfl | rfl | rfl <;> runs [unknownS, ↓e2, ↓hx]
    · refine ⟨.exc "TypeError" [], ?_, _, rfl⟩
      have ht := hv.2 n rfl
      have hcn : call program cfg (.int n) [] h = excR (.exc "TypeError" []) h := by rw [call]; rfl
      rcases h0 with rfl | rfl | rfl <;> runs [unknownS, ↓e2, ↓hx, ht, ↓hcn]
    · exact absurd rfl (hv.1 s)
  | some c =>
    rw [hcv] at c1
    obtain ⟨a, attrs, rfl, ha, hp⟩ := c1
    match v, r, hcv with
    | .integer c n, r, hcv =>
      cases hcv
      rw [Rep] at r
      obtain ⟨a', attrs', e, _, ha', hp', hval⟩ := r
      cases e
      rw [ha] at ha'; cases ha'
      have hm : program.attr (cid (.int c)) "__int__" = some (.func .rfc1155 310) := by cases c <;> rfl
      have hint : call program cfg (.func .rfc1155 310) [.ref a] h = okR (.int n) h := by
        rw [call_rfc1155_310]
        runs [rfc1155_310, ha, hval]
      have hcall := run_intCall (cfg := cfg) ha hval
      cases ht : tooLong cfg.digits n with
      | true =>
        refine ⟨.exc "ValueError" [], ?_, _, rfl⟩
        rcases h0 with rfl | rfl | rfl <;> runs [unknownS, ↓e2, ↓hx, ha, hm, hint, ht]
      | false =>
        have : ∃ args, block program cfg m0 E unknownS h = some (h, E, .exc (.exc "ValueError" args)) := by
          rcases h0 with rfl | rfl | rfl <;> runs [unknownS, ↓e2, ↓hx, ha, hm, hint, ht, ↓hcall] <;> exact ⟨_, rfl⟩
        obtain ⟨args, this⟩ := this
        exact ⟨_, this, args, rfl⟩
    | .octets c s, r, hcv =>
      cases hcv
      have hm : program.attr (cid (.oct c)) "__int__" = none := by cases c <;> rfl
      refine ⟨.exc "TypeError" [], ?_, _, rfl⟩
      rcases h0 with rfl | rfl | rfl <;> runs [unknownS, ↓e2, ↓hx, ha, hm]
    | .oid s, r, hcv =>
      cases hcv
      have hm : program.attr (cid .oid) "__int__" = none := rfl
      refine ⟨.exc "TypeError" [], ?_, _, rfl⟩
      rcases h0 with rfl | rfl | rfl <;> runs [unknownS, ↓e2, ↓hx, ha, hm]
    | .null c, r, hcv =>
      cases hcv
      have hm : program.attr (cid (.null c)) "__int__" = none := by cases c <;> rfl
      refine ⟨.exc "TypeError" [], ?_, _, rfl⟩
      rcases h0 with rfl | rfl | rfl <;> runs [unknownS, ↓e2, ↓hx, ha, hm]
    | .seq c l, r, hcv =>
      cases hcv
      have hm : program.attr (cid (.seq c)) "__int__" = none := by cases c <;> rfl
      refine ⟨.exc "TypeError" [], ?_, _, rfl⟩
      rcases h0 with rfl | rfl | rfl <;> runs [unknownS, ↓e2, ↓hx, ha, hm]

end Libsnmp.Src
