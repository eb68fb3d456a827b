import Verif.Lemmas.SrcTurn4
import Verif.Spec.SourceInit

/-!
# Running the constructors of managers
-/

namespace Libsnmp.Src
open Libsnmp Spec

variable {cfg : Cfg} {nm : Names} {env : Libsnmp.Env} {k : Libsnmp.Kind}

theorem mgr_plain : program.isExc 8 (mgrCid k) = false := by cases k <;> decide

theorem line_plain : program.isExc 8 (.role, 13) = false := by decide

/-- `self.name = e`. -/
theorem run_setSelf {m0 : Module} {E : Env} {e : Expr} {h h' : Heap} {v : V} {a : Nat} {c : CId} {attrs : List (String × V)} {name : String}
    (hx : program.isExc 8 c = false) (hE : E.get "self" = some (.ref a)) (he : eval program cfg m0 E e h = okR v h')
    (hcell : h'[a]? = some (.inst c attrs)) :
    block program cfg m0 E [.assign (.attr (.loc "self") name) e] h = some (h'.set a (.inst c (setAssoc attrs name v)), E, .next) := by
  have hs : setattr program (.ref a) name v h' = okR () (h'.set a (.inst c (setAssoc attrs name v))) := by
    simp only [setattr, hcell, hx, Bool.false_eq_true, and_false, if_false]
  runs [↓he, ↓hE, ↓hs]

/-- The attributes of a `role.manager`. -/
def lineAttrs (dst interface socket : V) : List (String × V) :=
  [("dest", dst), ("interface", interface), ("socket", socket), ("socksize", .int 65536), ("request_id", .int 1)]

/-- role.py:15-23. -/
theorem run_newLine (dst interface : V) (h : Heap) : call program cfg (.cls (.role, 13)) [dst, interface] h =
    okR (.ref h.length) (h ++ [.inst (.role, 13) (lineAttrs dst interface .none)]) := by
  have h0 : call program cfg (.cls (.role, 13)) [dst, interface] h =
      bindR (call program cfg (.func .role 15) [.ref h.length, dst, interface] (h ++ [.inst (.role, 13) []])) fun _ h' => okR (.ref h.length) h' := by
    conv => lhs; rw [call]
    rfl
  rw [h0, call_role_15_3]
  runs [role_15, setattr, line_plain, setAssoc, lineAttrs]

section
variable {h : Heap} {g : Nat} {dst interface : V}

/-- role.py:32-38. -/
theorem run_open (hg : h[g]? = some (.inst (.role, 13) (lineAttrs dst interface .none))) {w : String}
    (h1 : ∀ h, cfg.ext "socket.socket" [.ext "socket.AF_INET", .ext "socket.SOCK_DGRAM"] h = okR (.ext w) h)
    (h2 : ∀ h, cfg.ext (w ++ ".bind") [interface] h = okR .none h)
    (h3 : ∀ h, cfg.ext (w ++ ".setsockopt") [.ext "socket.SOL_SOCKET", .ext "socket.SO_RCVBUF", .int 65536] h = okR .none h) :
    call program cfg (.func .role 32) [.ref g] h = okR (.ext w) (h.set g (.inst (.role, 13) (lineAttrs dst interface (.ext w)))) := by
  have hlt := lt_of_get hg
  have c1 : call program cfg (.ext ("socket" ++ "." ++ "socket")) [.ext ("socket" ++ "." ++ "AF_INET"), .ext ("socket" ++ "." ++ "SOCK_DGRAM")] h =
    okR (.ext w) h := by rw [call]; exact h1 h
  have hs : setattr program (.ref g) "socket" (.ext w) h = okR () (h.set g (.inst (.role, 13) (lineAttrs dst interface (.ext w)))) := by
    simp only [setattr, hg, line_plain, Bool.false_eq_true, and_false, if_false]
    rfl
  have hg' : (h.set g (.inst (.role, 13) (lineAttrs dst interface (.ext w))))[g]? = some (.inst (.role, 13) (lineAttrs dst interface (.ext w))) := by
    simp [hlt]
  have g1 : getattr program (h.set g (.inst (.role, 13) (lineAttrs dst interface (.ext w)))) (.ref g) "socket" = some (.ext w) := by
    simp only [getattr, hg']; rfl
  have g2 : getattr program (h.set g (.inst (.role, 13) (lineAttrs dst interface (.ext w)))) (.ref g) "interface" = some interface := by
    simp only [getattr, hg']; rfl
  have g3 : getattr program (h.set g (.inst (.role, 13) (lineAttrs dst interface (.ext w)))) (.ref g) "socksize" = some (.int 65536) := by
    simp only [getattr, hg']; rfl
  have c2 : call program cfg (.ext (w ++ "." ++ "bind")) [interface] (h.set g (.inst (.role, 13) (lineAttrs dst interface (.ext w)))) =
      okR .none (h.set g (.inst (.role, 13) (lineAttrs dst interface (.ext w)))) := by
    rw [call, String.append_assoc]; exact h2 _
  have c3 : call program cfg (.ext (w ++ "." ++ "setsockopt")) [.ext ("socket" ++ "." ++ "SOL_SOCKET"), .ext ("socket" ++ "." ++ "SO_RCVBUF"), .int 65536]
      (h.set g (.inst (.role, 13) (lineAttrs dst interface (.ext w)))) = okR .none (h.set g (.inst (.role, 13) (lineAttrs dst interface (.ext w)))) := by
    rw [call, String.append_assoc]; exact h3 _
  rw [call_role_32]
  runs [role_32, ↓c1, ↓hs, ↓g1, ↓g2, ↓g3, ↓c2, ↓c3]

/-- role.py:32-38, when the world refuses. -/
theorem run_openFails (hg : h[g]? = some (.inst (.role, 13) (lineAttrs dst interface .none))) {a : Nat} {y : V} (hr : Refuses cfg a interface y) :
    ∃ c, call program cfg (.func .role 32) [.ref g] h = excR y (h.set g c) := by
  have hlt := lt_of_get hg
  have main : ∀ {w : String}, (∀ h, cfg.ext "socket.socket" [.ext "socket.AF_INET", .ext "socket.SOCK_DGRAM"] h = okR (.ext w) h) →
      ((∀ h, cfg.ext (w ++ ".bind") [interface] h = excR y h) ∨ (∀ h, cfg.ext (w ++ ".bind") [interface] h = okR .none h) ∧
        ∀ h, cfg.ext (w ++ ".setsockopt") [.ext "socket.SOL_SOCKET", .ext "socket.SO_RCVBUF", .int 65536] h = excR y h) →
      ∃ c, call program cfg (.func .role 32) [.ref g] h = excR y (h.set g c) := by
    intro w h1 h23
    refine ⟨.inst (.role, 13) (lineAttrs dst interface (.ext w)), ?_⟩
    have c1 : call program cfg (.ext ("socket" ++ "." ++ "socket")) [.ext ("socket" ++ "." ++ "AF_INET"), .ext ("socket" ++ "." ++ "SOCK_DGRAM")] h =
      okR (.ext w) h := by rw [call]; exact h1 h
    have hs : setattr program (.ref g) "socket" (.ext w) h = okR () (h.set g (.inst (.role, 13) (lineAttrs dst interface (.ext w)))) := by
      simp only [setattr, hg, line_plain, Bool.false_eq_true, and_false, if_false]
      rfl
    have hg' : (h.set g (.inst (.role, 13) (lineAttrs dst interface (.ext w))))[g]? = some (.inst (.role, 13) (lineAttrs dst interface (.ext w))) := by
      simp [hlt]
    have g1 : getattr program (h.set g (.inst (.role, 13) (lineAttrs dst interface (.ext w)))) (.ref g) "socket" = some (.ext w) := by
      simp only [getattr, hg']; rfl
    have g2 : getattr program (h.set g (.inst (.role, 13) (lineAttrs dst interface (.ext w)))) (.ref g) "interface" = some interface := by
      simp only [getattr, hg']; rfl
    have g3 : getattr program (h.set g (.inst (.role, 13) (lineAttrs dst interface (.ext w)))) (.ref g) "socksize" = some (.int 65536) := by
      simp only [getattr, hg']; rfl
    rw [call_role_32]
    rcases h23 with h2 | ⟨h2, h3⟩
    · have c2 : call program cfg (.ext (w ++ "." ++ "bind")) [interface] (h.set g (.inst (.role, 13) (lineAttrs dst interface (.ext w)))) =
          excR y (h.set g (.inst (.role, 13) (lineAttrs dst interface (.ext w)))) := by
        rw [call, String.append_assoc]; exact h2 _
      runs [role_32, ↓c1, ↓hs, ↓g1, ↓g2, ↓c2]
    · have c2 : call program cfg (.ext (w ++ "." ++ "bind")) [interface] (h.set g (.inst (.role, 13) (lineAttrs dst interface (.ext w)))) =
          okR .none (h.set g (.inst (.role, 13) (lineAttrs dst interface (.ext w)))) := by
        rw [call, String.append_assoc]; exact h2 _
      have c3 : call program cfg (.ext (w ++ "." ++ "setsockopt")) [.ext ("socket" ++ "." ++ "SOL_SOCKET"), .ext ("socket" ++ "." ++ "SO_RCVBUF"), .int 65536]
          (h.set g (.inst (.role, 13) (lineAttrs dst interface (.ext w)))) = excR y (h.set g (.inst (.role, 13) (lineAttrs dst interface (.ext w)))) := by
        rw [call, String.append_assoc]; exact h3 _
      runs [role_32, ↓c1, ↓hs, ↓g1, ↓g2, ↓g3, ↓c2, ↓c3]
  cases hr with
  | socket _ h1 =>
    refine ⟨.inst (.role, 13) (lineAttrs dst interface .none), ?_⟩
    have c1 : call program cfg (.ext ("socket" ++ "." ++ "socket")) [.ext ("socket" ++ "." ++ "AF_INET"), .ext ("socket" ++ "." ++ "SOCK_DGRAM")] h =
      excR y h := by rw [call]; exact h1 h
    have hs : h.set g (.inst (.role, 13) (lineAttrs dst interface .none)) = h := by
      apply List.ext_getElem?
      intro i
      by_cases hi : g = i
      · subst hi; simp [hlt]; rw [List.getElem?_eq_getElem hlt] at hg; injection hg with hg; exact hg.symm
      · rw [List.getElem?_set_ne hi]
    rw [call_role_32, hs]
    runs [role_32, ↓c1]
  | bind w _ h1 h2 => exact main h1 (.inl h2)
  | buffer w _ h1 h2 h3 => exact main h1 (.inr ⟨h2, h3⟩)

end

section
variable {h : Heap} {a : Nat} {attrs : List (String × V)} {interface timeout ctx : V} {m : Module} {l : Nat}

theorem setattr_mgr {name : String} {v : V} (hcell : h[a]? = some (.inst (mgrCid k) attrs)) :
    setattr program (.ref a) name v h = okR () (h.set a (.inst (mgrCid k) (setAssoc attrs name v))) := by
  simp only [setattr, hcell, mgr_plain, Bool.false_eq_true, and_false, if_false]

theorem setattr_again {name : String} {v : V} (hlt : a < h.length) :
    setattr program (.ref a) name v (h.set a (.inst (mgrCid k) attrs)) = okR () (h.set a (.inst (mgrCid k) (setAssoc attrs name v))) := by
  rw [setattr_mgr (k := k) (attrs := attrs) (by simp [hlt]), List.set_set]

/-- asynrole.py:15-24, up to the call of `asyncore.dispatcher.__init__`. -/
theorem run_wire (hcell : h[a]? = some (.inst (mgrCid k) attrs)) (hnames : ∀ p ∈ attrs, p.1 ∈ mgrNames)
    (ht : Tunes a (cfg.ext "asyncore.dispatcher.__init__" [.ref a])) (dst : V) :
    ∃ attrs1, call program cfg (.func .asynrole 15) [.ref a, .tuple [.meth (.ref a) m l, ctx], dst, interface, timeout] h =
        result (block program cfg .asynrole [("self", some (.ref a)), ("callback_tuple", some (.tuple [.meth (.ref a) m l, ctx])), ("dst", some dst),
          ("interface", some interface), ("timeout", some timeout), ("cb_fun", some (.meth (.ref a) m l)), ("cb_ctx", some ctx)]
          [.assign (.attr (.loc "self") "manager") (.call (.attr (.glob "role") "manager") [.loc "dst", .loc "interface"]),
           .expr (.call (.attr (.loc "self") "set_socket") [.call (.attr (.attr (.loc "self") "manager") "open") []]), .ret .none]
          (h.set a (.inst (mgrCid k) attrs1))) ∧
      (∀ p ∈ attrs1, p.1 ∈ mgrNames) ∧
      attrs1.lookup "cb_fun" = some (.meth (.ref a) m l) ∧ attrs1.lookup "cb_ctx" = some ctx ∧ attrs1.lookup "timeout" = some timeout ∧
      ∀ name, name ∉ "cb_fun" :: "cb_ctx" :: "timeout" :: chanNames → attrs1.lookup name = attrs.lookup name := by
  have hlt := lt_of_get hcell
  obtain ⟨attrs1, e1, n1, k1⟩ := ht (h.set a (.inst (mgrCid k) (setAssoc (setAssoc (setAssoc attrs "cb_fun" (.meth (.ref a) m l)) "cb_ctx" ctx) "timeout" timeout)))
    (mgrCid k) _ (by simp only [List.getElem?_set_self hlt]; rfl)
  refine ⟨attrs1, ?_, ?_, ?_, ?_, ?_, ?_⟩
  · have c1 : call program cfg (.ext ("asyncore" ++ "." ++ "dispatcher" ++ "." ++ "__init__")) [.ref a]
        (h.set a (.inst (mgrCid k) (setAssoc (setAssoc (setAssoc attrs "cb_fun" (.meth (.ref a) m l)) "cb_ctx" ctx) "timeout" timeout))) =
        okR .none (h.set a (.inst (mgrCid k) attrs1)) := by
      rw [call, List.set_set] at *; exact e1
    rw [call_asynrole_15]
    runs [asynrole_15, pyCallable, ↓setattr_mgr hcell, ↓setattr_again hlt, ↓c1]
  · have hn : ∀ p ∈ setAssoc (setAssoc (setAssoc attrs "cb_fun" (.meth (.ref a) m l)) "cb_ctx" ctx) "timeout" timeout, p.1 ∈ mgrNames := by
      exact names_set (names_set (names_set hnames (by decide) _) (by decide) _) (by decide) _
    intro p hp
    rcases n1 p hp with h1 | h1
    · obtain ⟨p', h1, h2⟩ := List.mem_map.1 h1
      exact h2 ▸ hn p' h1
    · revert h1
      generalize p.1 = x
      revert x
      decide
  · rw [k1 _ (by decide), lookup_setOther (by decide), lookup_setOther (by decide), lookup_setAssoc]
  · rw [k1 _ (by decide), lookup_setOther (by decide), lookup_setAssoc]
  · rw [k1 _ (by decide), lookup_setAssoc]
  · intro name hn
    simp only [List.mem_cons, not_or] at hn
    rw [k1 _ (by simpa using hn.2.2.2), lookup_setOther (by simpa using hn.2.2.1), lookup_setOther (by simpa using hn.2.1),
      lookup_setOther (by simpa using hn.1)]


/-- asynrole.py:15-31. -/
theorem run_asynInit (hcell : h[a]? = some (.inst (mgrCid k) attrs)) (hnames : ∀ p ∈ attrs, p.1 ∈ mgrNames) {w : String}
    (ho : Opens cfg a w interface) (dst : V) :
    ∃ h' attrs', call program cfg (.func .asynrole 15) [.ref a, .tuple [.meth (.ref a) m l, ctx], dst, interface, timeout] h = okR .none h' ∧
      h'.length = h.length + 1 ∧ (∀ b, b < h.length → b ≠ a → h'[b]? = h[b]?) ∧ h'[a]? = some (.inst (mgrCid k) attrs') ∧
      h'[h.length]? = some (.inst (.role, 13) (lineAttrs dst interface (.ext w))) ∧
      (∀ p ∈ attrs', p.1 ∈ mgrNames) ∧
      attrs'.lookup "cb_fun" = some (.meth (.ref a) m l) ∧ attrs'.lookup "cb_ctx" = some ctx ∧ attrs'.lookup "timeout" = some timeout ∧
      attrs'.lookup "manager" = some (.ref h.length) ∧
      ∀ name, name ∉ "cb_fun" :: "cb_ctx" :: "timeout" :: "manager" :: chanNames → attrs'.lookup name = attrs.lookup name := by
  have hlt := lt_of_get hcell
  obtain ⟨attrs1, e1, n1, f1, x1, t1, k1⟩ := run_wire (m := m) (l := l) (interface := interface) (timeout := timeout) (ctx := ctx) hcell hnames ho.channel dst
  obtain ⟨h1, e1h⟩ : ∃ x, x = h.set a (.inst (mgrCid k) attrs1) := ⟨_, rfl⟩
  obtain ⟨attrs2, e2a⟩ : ∃ x, x = setAssoc attrs1 "manager" (.ref h.length) := ⟨_, rfl⟩
  obtain ⟨h2, e2h⟩ : ∃ x, x = h.set a (.inst (mgrCid k) attrs2) ++ [.inst (.role, 13) (lineAttrs dst interface .none)] := ⟨_, rfl⟩
  obtain ⟨h3, e3h⟩ : ∃ x, x = h.set a (.inst (mgrCid k) attrs2) ++ [.inst (.role, 13) (lineAttrs dst interface (.ext w))] := ⟨_, rfl⟩
  rw [← e1h] at e1
  have hl1 : h1.length = h.length := by rw [e1h]; exact List.length_set
  have c1 : call program cfg (.cls (.role, 13)) [dst, interface] h1 = okR (.ref h.length) (h1 ++ [.inst (.role, 13) (lineAttrs dst interface .none)]) := by
    rw [run_newLine, hl1]
  have s1 : setattr program (.ref a) "manager" (.ref h.length) (h1 ++ [.inst (.role, 13) (lineAttrs dst interface .none)]) = okR () h2 := by
    rw [setattr_mgr (k := k) (attrs := attrs1)]
    · rw [List.set_append_left _ _ (by rw [hl1]; exact hlt)]
      rw [e1h, List.set_set, e2h, e2a]
    · rw [List.getElem?_append_left (by rw [hl1]; exact hlt), e1h]
      exact List.getElem?_set_self hlt
  have hl2 : (h.set a (.inst (mgrCid k) attrs2)).length = h.length := List.length_set
  have hg2 : h2[h.length]? = some (.inst (.role, 13) (lineAttrs dst interface .none)) := by
    rw [e2h, List.getElem?_append_right (by rw [hl2]), hl2, Nat.sub_self]; rfl
  have ha2 : h2[a]? = some (.inst (mgrCid k) attrs2) := by
    rw [e2h, List.getElem?_append_left (by rw [hl2]; exact hlt)]; exact List.getElem?_set_self hlt
  have c2 : call program cfg (.meth (.ref h.length) .role 32) [] h2 = okR (.ext w) h3 := by
    have h0 : call program cfg (.meth (.ref h.length) .role 32) [] h2 = call program cfg (.func .role 32) [.ref h.length] h2 := by conv => lhs; rw [call]
    rw [h0, run_open hg2 ho.socket ho.bind ho.buffer, e2h, List.set_append_right _ _ (by rw [hl2]), hl2, Nat.sub_self, e3h]
    rfl
  have ha3 : h3[a]? = some (.inst (mgrCid k) attrs2) := by
    rw [e3h, List.getElem?_append_left (by rw [hl2]; exact hlt)]; exact List.getElem?_set_self hlt
  have hg3 : h3[h.length]? = some (.inst (.role, 13) (lineAttrs dst interface (.ext w))) := by
    rw [e3h, List.getElem?_append_right (by rw [hl2]), hl2, Nat.sub_self]; rfl
  obtain ⟨attrs3, e3, n3, k3⟩ := ho.joins h3 (mgrCid k) attrs2 ha3
  have hn2 : attrs2.lookup "set_socket" = none := by
    rw [e2a]
    exact names_none (names_set n1 (by decide) _)
  have gm : getattr program h2 (.ref a) "manager" = some (.ref h.length) := by
    simp only [getattr, ha2, e2a, lookup_setAssoc]
  have gs : getattr program h2 (.ref a) "set_socket" = some (.bmeth (.ref a) "asyncore.dispatcher.set_socket") := by
    simp only [getattr, ha2, hn2]
    cases k <;> rfl
  have go : getattr program h2 (.ref h.length) "open" = some (.meth (.ref h.length) .role 32) := by
    simp only [getattr, hg2]; rfl
  have c3 : call program cfg (.bmeth (.ref a) "asyncore.dispatcher.set_socket") [.ext w] h3 = okR .none (h3.set a (.inst (mgrCid k) attrs3)) := by
    have hk : kind h3 (.ref a) = .inst (mgrCid k) := by simp only [kind, ha3]
    rw [← e3, call]
    rw [method]
    · simp only [hk, String.reduceEq, if_false]
    · simp
  refine ⟨h3.set a (.inst (mgrCid k) attrs3), attrs3, ?_, ?_⟩
  · rw [e1]
    runs [↓c1, ↓s1, ↓gm, ↓gs, ↓go, ↓c2, ↓c3]
  · have hl3 : h3.length = h.length + 1 := by rw [e3h, List.length_append, hl2]; rfl
    have ha : a < h3.length := by omega
    have hs3 : ∀ b, b ≠ a → (h3.set a (.inst (mgrCid k) attrs3))[b]? = h3[b]? := fun b hb => List.getElem?_set_ne (Ne.symm hb)
    have hn3 : ∀ p ∈ attrs3, p.1 ∈ mgrNames := by
      intro p hp
      rcases n3 p hp with h1 | h1
      · obtain ⟨p', h1, h2⟩ := List.mem_map.1 h1
        rw [e2a] at h1
        exact h2 ▸ names_set n1 (by decide) _ p' h1
      · revert h1
        generalize p.1 = x
        revert x
        decide
    refine ⟨by rw [List.length_set, hl3], fun b hb hba => ?_, List.getElem?_set_self ha, ?_, hn3, ?_, ?_, ?_, ?_, fun name hn => ?_⟩
    · rw [hs3 b hba, e3h, List.getElem?_append_left (by rw [hl2]; exact hb), List.getElem?_set_ne (Ne.symm hba)]
    · rw [hs3 _ (by omega), hg3]
    · rw [k3 _ (by decide), e2a, lookup_setOther (by decide), f1]
    · rw [k3 _ (by decide), e2a, lookup_setOther (by decide), x1]
    · rw [k3 _ (by decide), e2a, lookup_setOther (by decide), t1]
    · rw [k3 _ (by decide), e2a, lookup_setAssoc]
    · simp only [List.mem_cons, not_or] at hn
      rw [k3 _ (by simpa using hn.2.2.2.2), e2a, lookup_setOther (by simpa using hn.2.2.2.1), k1 _ (by simpa using ⟨hn.1, hn.2.1, hn.2.2.1, hn.2.2.2.2⟩)]


theorem Refuses.channel {y : V} (hr : Refuses cfg a interface y) : Tunes a (cfg.ext "asyncore.dispatcher.__init__" [.ref a]) := by
  cases hr <;> assumption

/-- asynrole.py:15-31, when the world refuses. -/
theorem run_asynFails (hcell : h[a]? = some (.inst (mgrCid k) attrs)) (hnames : ∀ p ∈ attrs, p.1 ∈ mgrNames) {y : V}
    (hr : Refuses cfg a interface y) (dst : V) :
    ∃ h', call program cfg (.func .asynrole 15) [.ref a, .tuple [.meth (.ref a) m l, ctx], dst, interface, timeout] h = excR y h' ∧
      ∀ b, b < h.length → b ≠ a → h'[b]? = h[b]? := by
  have hlt := lt_of_get hcell
  obtain ⟨attrs1, e1, n1, f1, x1, t1, k1⟩ := run_wire (m := m) (l := l) (interface := interface) (timeout := timeout) (ctx := ctx) hcell hnames hr.channel dst
  obtain ⟨h1, e1h⟩ : ∃ x, x = h.set a (.inst (mgrCid k) attrs1) := ⟨_, rfl⟩
  obtain ⟨attrs2, e2a⟩ : ∃ x, x = setAssoc attrs1 "manager" (.ref h.length) := ⟨_, rfl⟩
  obtain ⟨h2, e2h⟩ : ∃ x, x = h.set a (.inst (mgrCid k) attrs2) ++ [.inst (.role, 13) (lineAttrs dst interface .none)] := ⟨_, rfl⟩
  rw [← e1h] at e1
  have hl1 : h1.length = h.length := by rw [e1h]; exact List.length_set
  have c1 : call program cfg (.cls (.role, 13)) [dst, interface] h1 = okR (.ref h.length) (h1 ++ [.inst (.role, 13) (lineAttrs dst interface .none)]) := by
    rw [run_newLine, hl1]
  have s1 : setattr program (.ref a) "manager" (.ref h.length) (h1 ++ [.inst (.role, 13) (lineAttrs dst interface .none)]) = okR () h2 := by
    rw [setattr_mgr (k := k) (attrs := attrs1)]
    · rw [List.set_append_left _ _ (by rw [hl1]; exact hlt)]
      rw [e1h, List.set_set, e2h, e2a]
    · rw [List.getElem?_append_left (by rw [hl1]; exact hlt), e1h]
      exact List.getElem?_set_self hlt
  have hl2 : (h.set a (.inst (mgrCid k) attrs2)).length = h.length := List.length_set
  have hg2 : h2[h.length]? = some (.inst (.role, 13) (lineAttrs dst interface .none)) := by
    rw [e2h, List.getElem?_append_right (by rw [hl2]), hl2, Nat.sub_self]; rfl
  have ha2 : h2[a]? = some (.inst (mgrCid k) attrs2) := by
    rw [e2h, List.getElem?_append_left (by rw [hl2]; exact hlt)]; exact List.getElem?_set_self hlt
  obtain ⟨c, hc⟩ := run_openFails hg2 hr
  have c2 : call program cfg (.meth (.ref h.length) .role 32) [] h2 = excR y (h2.set h.length c) := by
    rw [← hc]; conv => lhs; rw [call]
  have hn2 : attrs2.lookup "set_socket" = none := by
    rw [e2a]
    exact names_none (names_set n1 (by decide) _)
  have gm : getattr program h2 (.ref a) "manager" = some (.ref h.length) := by
    simp only [getattr, ha2, e2a, lookup_setAssoc]
  have gs : getattr program h2 (.ref a) "set_socket" = some (.bmeth (.ref a) "asyncore.dispatcher.set_socket") := by
    simp only [getattr, ha2, hn2]
    cases k <;> rfl
  have go : getattr program h2 (.ref h.length) "open" = some (.meth (.ref h.length) .role 32) := by
    simp only [getattr, hg2]; rfl
  refine ⟨h2.set h.length c, ?_, fun b hb hba => ?_⟩
  · rw [e1]
    runs [↓c1, ↓s1, ↓gm, ↓gs, ↓go, ↓c2]
  · rw [List.getElem?_set_ne (by omega), e2h, List.getElem?_append_left (by rw [hl2]; exact hb), List.getElem?_set_ne (Ne.symm hba)]

end

/-! ## The constructors -/

/-- The attributes of a manager when `asynrole.Manager.__init__` is called. -/
def earlyAttrs (n : Nat) (onEmpty onTrap : V) : List (String × V) :=
  [("queueEmpty", onEmpty), ("outbound", .ref (n + 1)), ("callbacks", .ref (n + 2)), ("trapCallback", onTrap)]

def earlyHeap (k : Libsnmp.Kind) (h : Heap) (onEmpty onTrap : V) : Heap :=
  h ++ [.inst (mgrCid k) (earlyAttrs h.length onEmpty onTrap), .queue [], .dict []]

theorem early_cell (h : Heap) (onEmpty onTrap : V) :
    (earlyHeap k h onEmpty onTrap)[h.length]? = some (.inst (mgrCid k) (earlyAttrs h.length onEmpty onTrap)) := by
  unfold earlyHeap
  rw [List.getElem?_append_right (Nat.le_refl _), Nat.sub_self]; rfl

theorem setattr_new {h t : Heap} {attrs : List (String × V)} {name : String} {v : V} :
    setattr program (.ref h.length) name v (h ++ .inst (mgrCid k) attrs :: t) = okR () (h ++ .inst (mgrCid k) (setAssoc attrs name v) :: t) := by
  rw [setattr_mgr (k := k) (attrs := attrs) (by simp)]
  congr 1
  simp

theorem attr_asynInit : program.attr (.asynrole, 13) "__init__" = some (.func .asynrole 15) := rfl

theorem place_asynInit (x0 x1 interface timeout : V) : program.place (.func .asynrole 15) [x0, x1] (["interface", "timeout"].zip [interface, timeout]) =
    some [x0, x1, .tuple [.none, .int 0], interface, timeout] := rfl

/-- v1.py:22-45. -/
theorem run_v1_22 (hk : k ≠ .sm) (interface onEmpty onTrap timeout : V) (h : Heap) :
    call program cfg (.cls (mgrCid k)) [interface, onEmpty, onTrap, timeout] h =
      bindR (call program cfg (.func .asynrole 15) [.ref h.length, .tuple [.meth (.ref h.length) (recvFn k).1 (recvFn k).2, .none],
        .tuple [.none, .int 0], interface, timeout] (earlyHeap k h onEmpty onTrap)) fun _ h' => okR (.ref h.length) h' := by
  have h0 : call program cfg (.cls (mgrCid k)) [interface, onEmpty, onTrap, timeout] h =
      bindR (call program cfg (.func .v1 22) [.ref h.length, interface, onEmpty, onTrap, timeout] (h ++ [.inst (mgrCid k) []])) fun _ h' => okR (.ref h.length) h' := by
    conv => lhs; rw [call]
    cases k with
    | v1 => rfl
    | v2 => rfl
    | sm => exact absurd rfl hk
  rw [h0, call_v1_22]
  have gr : getattr program (earlyHeap k h onEmpty onTrap) (.ref h.length) "receiveData" = some (.meth (.ref h.length) (recvFn k).1 (recvFn k).2) := by
    simp only [getattr, early_cell]
    cases k <;> rfl
  rcases hi : call program cfg (.func .asynrole 15) [.ref h.length, .tuple [.meth (.ref h.length) (recvFn k).1 (recvFn k).2, .none],
        .tuple [.none, .int 0], interface, timeout] (earlyHeap k h onEmpty onTrap) with _ | ⟨h', o⟩
  · unfold earlyHeap earlyAttrs at gr hi
    runs [v1_22, ↓setattr_new, setAssoc, ↓gr, ↓hi, attr_asynInit, ↓place_asynInit]
  · unfold earlyHeap earlyAttrs at gr hi
    cases o with
    | ok v => change _ = okR v h' at hi; runs [v1_22, ↓setattr_new, setAssoc, ↓gr, ↓hi, attr_asynInit, ↓place_asynInit, bindTry]; rfl
    | exc y => change _ = excR y h' at hi; runs [v1_22, ↓setattr_new, setAssoc, ↓gr, ↓hi, attr_asynInit, ↓place_asynInit, bindTry]; rfl
    | stuck => change _ = stuckR h' at hi; runs [v1_22, ↓setattr_new, setAssoc, ↓gr, ↓hi, attr_asynInit, ↓place_asynInit, bindTry]; rfl

/-- snmpmanager.py:40-61. -/
theorem run_sm_40 (interface onEmpty onTrap timeout : V) (h : Heap) :
    call program cfg (.cls (mgrCid .sm)) [onEmpty, onTrap, interface, timeout] h =
      bindR (call program cfg (.func .asynrole 15) [.ref h.length, .tuple [.meth (.ref h.length) (recvFn .sm).1 (recvFn .sm).2, .none],
        .tuple [.none, .int 0], interface, timeout] (earlyHeap .sm h onEmpty onTrap)) fun _ h' => okR (.ref h.length) h' := by
  have h0 : call program cfg (.cls (mgrCid .sm)) [onEmpty, onTrap, interface, timeout] h =
      bindR (call program cfg (.func .snmpmanager 40) [.ref h.length, onEmpty, onTrap, interface, timeout] (h ++ [.inst (mgrCid .sm) []])) fun _ h' => okR (.ref h.length) h' := by
    conv => lhs; rw [call]
    rfl
  rw [h0, call_snmpmanager_40]
  have gr : getattr program (earlyHeap .sm h onEmpty onTrap) (.ref h.length) "receiveData" = some (.meth (.ref h.length) (recvFn .sm).1 (recvFn .sm).2) := by
    simp only [getattr, early_cell]
    rfl
  rcases hi : call program cfg (.func .asynrole 15) [.ref h.length, .tuple [.meth (.ref h.length) (recvFn .sm).1 (recvFn .sm).2, .none],
        .tuple [.none, .int 0], interface, timeout] (earlyHeap .sm h onEmpty onTrap) with _ | ⟨h', o⟩
  · unfold earlyHeap earlyAttrs at gr hi
    runs [snmpmanager_40, ↓setattr_new, setAssoc, ↓gr, ↓hi, attr_asynInit, ↓place_asynInit]
  · unfold earlyHeap earlyAttrs at gr hi
    cases o with
    | ok v => change _ = okR v h' at hi; runs [snmpmanager_40, ↓setattr_new, setAssoc, ↓gr, ↓hi, attr_asynInit, ↓place_asynInit, bindTry]; rfl
    | exc y => change _ = excR y h' at hi; runs [snmpmanager_40, ↓setattr_new, setAssoc, ↓gr, ↓hi, attr_asynInit, ↓place_asynInit, bindTry]; rfl
    | stuck => change _ = stuckR h' at hi; runs [snmpmanager_40, ↓setattr_new, setAssoc, ↓gr, ↓hi, attr_asynInit, ↓place_asynInit, bindTry]; rfl

end Libsnmp.Src
