import Verif.Lemmas.SrcRecv3
import Verif.Spec.SourceTurn

/-!
# Running `poll`: asynrole.py and role.py
-/

namespace Libsnmp.Src
open Libsnmp Spec

variable {cfg : Cfg} {nm : Names} {env : Libsnmp.Env} {k : Libsnmp.Kind}

theorem MgrAt.wire {h : Heap} {a q d : Nat} {s : Mgr k} {attrs : List (String × V)} (r : MgrAt nm env h a s attrs q d) {name : String} {x : V}
    (hx : attrs.lookup name = some x) : getattr program h (.ref a) name = some x := by
  simp only [getattr, r.cell, hx]

theorem Wired.keep {a g : Nat} {t : V} {attrs attrs' : List (String × V)} (hw : Wired k a g t attrs)
    (hs : ∀ name, name ≠ "nextRequestID" → attrs'.lookup name = attrs.lookup name) : Wired k a g t attrs' :=
  ⟨(hs _ (by decide)).trans hw.callback, (hs _ (by decide)).trans hw.context, (hs _ (by decide)).trans hw.timeout,
    (hs _ (by decide)).trans hw.manager⟩

theorem line_none {attrs : List (String × V)} (hp : ∀ p ∈ attrs, p.1 ∈ ["dest", "interface", "socket", "socksize", "request_id"]) {a : String}
    (ha : a ∉ ["dest", "interface", "socket", "socksize", "request_id"]) : attrs.lookup a = none := by
  induction attrs with
  | nil => rfl
  | cons p ps ih =>
    rw [List.lookup_cons]
    have h1 := hp p List.mem_cons_self
    have : (a == p.1) = false := by
      rw [beq_eq_false_iff_ne]
      rintro rfl
      exact ha h1
    rw [this]
    exact ih fun q hq => hp q (List.mem_cons_of_mem _ hq)

/-- What the code asks of a `role.manager`. -/
theorem Line.gets {h : Heap} {g : Nat} {w : String} {size : Int} (hl : Line h g w size) :
    getattr program h (.ref g) "socket" = some (.ext w) ∧ getattr program h (.ref g) "socksize" = some (.int size) ∧
    getattr program h (.ref g) "send" = some (.meth (.ref g) .role 40) ∧ getattr program h (.ref g) "read" = some (.meth (.ref g) .role 47) := by
  obtain ⟨h9, attrs, hc, hn, hs, hz⟩ := hl
  refine ⟨by simp only [getattr, hc, hs], by simp only [getattr, hc, hz], ?_, ?_⟩
  · simp only [getattr, hc, line_none hn (a := "send") (by decide)]; rfl
  · simp only [getattr, hc, line_none hn (a := "read") (by decide)]; rfl

/-! ## The exception handed to `receiveData` -/

/-- `raise exc_type(exc_value)`. -/
theorem run_recvExc {h : Heap} {a : Nat} {x1 x2 e tb : V} {n : String} (hn : n = "ValueError" ∨ n = "UnicodeDecodeError") :
    call program cfg (.func (recvFn k).1 (recvFn k).2) [.ref a, x1, x2, .tuple [.none, .none], .tuple [.builtin n, e, tb]] h =
      excR (if n = "ValueError" then .exc "ValueError" [e] else .exc "TypeError" []) h := by
  cases k with
  | v1 => show call program cfg (.func .v1 163) _ h = _; rw [call_v1_163]; rcases hn with rfl | rfl <;> runs [v1_163] <;> rfl
  | v2 => show call program cfg (.func .v2 141) _ h = _; rw [call_v2_141]; rcases hn with rfl | rfl <;> runs [v2_141] <;> rfl
  | sm =>
    show call program cfg (.func .snmpmanager 254) _ h = _; rw [call_snmpmanager_254]
    rcases hn with rfl | rfl <;> runs [snmpmanager_254] <;> rfl

/-- asynrole.py:52-61, while `x` is handled. -/
theorem run_handleError {h : Heap} {a q d g : Nat} {s : Mgr k} {attrs : List (String × V)} (r : MgrAt nm env h a s attrs q d) {t : V}
    (hw : Wired k a g t attrs) {e : Exc} {x : V} (hne : e ≠ .diverges) (hx : Raised h e x) :
    ∃ y, callMethod (handling cfg x) (.ref a) "handle_error" [] h = excR y h ∧ Raised h (if e.isValueError then reraiseAs e else e) y := by
  have hm : program.attr (mgrCid k) "handle_error" = some (.func .asynrole 52) := by cases k <;> rfl
  have hgm := r.meth hm
  have hcb := r.wire hw.callback
  have hcx := r.wire hw.context
  have hc1 : ∀ x1 x2 l n tb, n = "ValueError" ∨ n = "UnicodeDecodeError" →
      call program (handling cfg x) (.meth (.ref a) (recvFn k).1 (recvFn k).2) [x1, x2, .tuple [.none, .none], .tuple [.builtin n, l, tb]] h =
        excR (if n = "ValueError" then .exc "ValueError" [l] else .exc "TypeError" []) h := by
    intro x1 x2 l n tb hn
    rw [call]
    exact run_recvExc hn
  have main : ∀ ty, typeOf h x = some ty → call program (handling cfg x) (.ext ("sys" ++ "." ++ "exc_info")) [] h =
      okR (.tuple [ty, x, .ext "traceback"]) h := by
    intro ty ht
    rw [call]
    show (match typeOf h x with | some t => _ | none => _) = _
    rw [ht]
  unfold callMethod
  rw [hgm]
  show ∃ y, call program (handling cfg x) (.meth (.ref a) .asynrole 52) [] h = _ ∧ _
  have h0 : call program (handling cfg x) (.meth (.ref a) .asynrole 52) [] h = call program (handling cfg x) (.func .asynrole 52) [.ref a] h := by conv => lhs; rw [call]
  rw [h0, call_asynrole_52_1]
  have hval : ∀ n args, x = .exc n args → n = "ValueError" ∨ n = "UnicodeDecodeError" →
      result (block program (handling cfg x) .asynrole [("self", some (.ref a)), ("exc_type", some .none), ("exc_value", some .none), ("exc_traceback", some .none)] asynrole_52.body h) =
        excR (if n = "ValueError" then .exc "ValueError" [x] else .exc "TypeError" []) h := by
    rintro n args rfl hn
    have hs := main (.builtin n) rfl
    have hc2 := fun x1 x2 => hc1 x1 x2 (.exc n args) n (.ext "traceback") hn
    have ht : typeOf h (.builtin n) = some (.builtin "type") := by rcases hn with rfl | rfl <;> rfl
    have hsub : pySubclass (.builtin n) (.builtin "ValueError") = some true := by rcases hn with rfl | rfl <;> rfl
    runs [asynrole_52, ↓hs, ↓hcb, ↓hcx, ↓hc2, ↓ht, ↓hsub]
  have hoth : ∀ ty, typeOf h x = some ty → identical ty .none = some false → typeOf h ty = some (.builtin "type") → pySubclass ty (.builtin "ValueError") = some false →
      result (block program (handling cfg x) .asynrole [("self", some (.ref a)), ("exc_type", some .none), ("exc_value", some .none), ("exc_traceback", some .none)] asynrole_52.body h) =
        excR x h := by
    intro ty h1 h2 h3 h4
    have hs := main ty h1
    have hx : (handling cfg x).ext "sys.exc_info" [] h = okR (.tuple [ty, x, .ext "traceback"]) h := by
      show (match typeOf h x with | some t => _ | none => _) = _
      rw [h1]
    runs [asynrole_52, ↓hs, ↓h3, ↓h4, ↓hx]
    rfl
  cases e with
  | diverges => exact absurd rfl hne
  | valueError =>
    obtain ⟨args, rfl⟩ := hx
    exact ⟨_, hval _ _ rfl (.inl rfl), _, rfl⟩
  | unicodeDecodeError =>
    obtain ⟨args, rfl⟩ := hx
    exact ⟨_, hval _ _ rfl (.inr rfl), _, rfl⟩
  | pduError => obtain ⟨b, l, rfl, hc⟩ := hx; exact ⟨_, hoth (.cls (.rfc1157, 168)) (by simp only [typeOf, hc]) rfl rfl rfl, b, l, rfl, hc⟩
  | pduError2 => obtain ⟨b, l, rfl, hc⟩ := hx; exact ⟨_, hoth (.cls (.rfc1905, 227)) (by simp only [typeOf, hc]) rfl rfl rfl, b, l, rfl, hc⟩
  | messageError => obtain ⟨b, l, rfl, hc⟩ := hx; exact ⟨_, hoth (.cls (.rfc1157, 128)) (by simp only [typeOf, hc]) rfl rfl rfl, b, l, rfl, hc⟩
  | _ => obtain ⟨args, rfl⟩ := hx; exact ⟨_, hoth _ rfl rfl rfl rfl, args, rfl⟩

/-! ## Reading -/

/-- role.py:47-53. -/
theorem run_read {h : Heap} {g : Nat} {w : String} {size : Int} (hl : Line h g w size) {t : Str} {src : V}
    (hr : cfg.ext (w ++ ".recvfrom") [.int size] h = okR (.tuple [.str t, src]) h) :
    call program cfg (.meth (.ref g) .role 47) [] h = okR (.tuple [.str t, src]) h := by
  obtain ⟨g1, g2, -, -⟩ := hl.gets
  have h0 : call program cfg (.meth (.ref g) .role 47) [] h = call program cfg (.func .role 47) [.ref g] h := by conv => lhs; rw [call]
  have h1 : call program cfg (.ext (w ++ "." ++ "recvfrom")) [.int size] h = okR (.tuple [.str t, src]) h := by
    rw [call, ← hr, String.append_assoc]; rfl
  rw [h0, call_role_47]
  runs [role_47, ↓g1, ↓g2, ↓h1]

/-- The whole of `receiveData`, for all the classes. -/
theorem run_receive (hc : Limits cfg) (hreg : Knows cfg env.reg) (hi : Imported env.reg) {U : Nat → Prop} {a q d : Nat} {h : Heap} (hb : Base h)
    (hprint : k = .v2 → ∀ h, cfg.ext "traceback.print_exc" [] h = okR .none h)
    {user : User k} (hu : Obeys cfg nm env U h.length a user) {s : Mgr k} {attrs : List (String × V)} (r : MgrAt nm env h a s attrs q d)
    (t : Str) (ht : t.length < 10 ^ 640) (x1 x2 src : V) :
    ∃ h' attrs', Leaves U a q d h h' ∧ MgrAt nm env h' a (receiveData311 env cfg.limit k user (.str t) s).2 attrs' q d ∧
      Ends h' (call program cfg (.func (recvFn k).1 (recvFn k).2) [.ref a, x1, x2, .tuple [.str t, src], .tuple [.none, .none, .none]] h)
        (receiveData311 env cfg.limit k user (.str t) s).1 := by
  cases k with
  | v1 => exact run_v1_163 hc hreg hi hb hu r t ht x1 x2 src
  | v2 => exact run_v2_141 hc hreg hi hb (hprint rfl) hu r t ht x1 x2 src
  | sm => exact run_sm_254 hc hreg hi hb hu r t ht x1 x2 src

/-- asynrole.py:37-40. -/
theorem run_handleRead (hc : Limits cfg) (hreg : Knows cfg env.reg) (hi : Imported env.reg) {U : Nat → Prop} {a q d g : Nat} {h : Heap} (hb : Base h)
    (hprint : k = .v2 → ∀ h, cfg.ext "traceback.print_exc" [] h = okR .none h)
    {user : User k} (hu : Obeys cfg nm env U h.length a user) {s : Mgr k} {attrs : List (String × V)} (r : MgrAt nm env h a s attrs q d)
    {tm : V} (hw : Wired k a g tm attrs) {w : String} {size : Int} (hl : Line h g w size)
    (t : Str) (ht : t.length < 10 ^ 640) {src : V} (hr : cfg.ext (w ++ ".recvfrom") [.int size] h = okR (.tuple [.str t, src]) h) :
    ∃ h' attrs', Leaves U a q d h h' ∧ MgrAt nm env h' a (receiveData311 env cfg.limit k user (.str t) s).2 attrs' q d ∧
      Ends h' (callMethod cfg (.ref a) "handle_read" [] h) (receiveData311 env cfg.limit k user (.str t) s).1 := by
  have hm : program.attr (mgrCid k) "handle_read" = some (.func .asynrole 37) := by cases k <;> rfl
  obtain ⟨h', attrs', l, r', e⟩ := run_receive hc hreg hi hb hprint hu r t ht (.ref a) .none src
  refine ⟨h', attrs', l, r', ?_⟩
  unfold callMethod
  rw [r.meth hm]
  have h0 : call program cfg (.meth (.ref a) .asynrole 37) [] h = call program cfg (.func .asynrole 37) [.ref a] h := by conv => lhs; rw [call]
  show Ends h' (call program cfg (.meth (.ref a) .asynrole 37) [] h) _
  rw [h0, call_asynrole_37]
  have g1 := r.wire hw.manager
  have g2 := r.wire hw.callback
  have g3 := r.wire hw.context
  obtain ⟨-, -, -, g4⟩ := hl.gets
  have g5 := run_read hl hr
  have h1 : call program cfg (.meth (.ref a) (recvFn k).1 (recvFn k).2) [.ref a, .none, .tuple [.str t, src], .tuple [.none, .none, .none]] h =
      call program cfg (.func (recvFn k).1 (recvFn k).2) [.ref a, .ref a, .none, .tuple [.str t, src], .tuple [.none, .none, .none]] h := by conv => lhs; rw [call]
  rcases ho : (receiveData311 env cfg.limit k user (.str t) s).1 with e1 | ⟨⟨⟩⟩
  · rw [ho] at e
    obtain ⟨hne, x, hx, hr⟩ := e
    refine ⟨hne, x, ?_, hr⟩
    rw [hx] at h1
    runs [asynrole_37, ↓g1, ↓g2, ↓g3, ↓g4, ↓g5, ↓h1]
  · rw [ho] at e
    obtain ⟨x, hx⟩ := e
    rw [hx] at h1
    exact ⟨.none, by runs [asynrole_37, ↓g1, ↓g2, ↓g3, ↓g4, ↓g5, ↓h1]⟩

/-- asyncore.py `read(obj)`. -/
theorem run_readEvent (hc : Limits cfg) (hreg : Knows cfg env.reg) (hi : Imported env.reg) {U : Nat → Prop} {a q d g : Nat} {h : Heap} (hb : Base h)
    (hprint : k = .v2 → ∀ h, cfg.ext "traceback.print_exc" [] h = okR .none h)
    {user : User k} (hu : Obeys cfg nm env U h.length a user) {s : Mgr k} {attrs : List (String × V)} (r : MgrAt nm env h a s attrs q d)
    {tm : V} (hw : Wired k a g tm attrs) {w : String} {size : Int} (hl : Line h g w size)
    (t : Str) (ht : t.length < 10 ^ 640) {src : V} (hr : cfg.ext (w ++ ".recvfrom") [.int size] h = okR (.tuple [.str t, src]) h) :
    ∃ h' attrs', Leaves U a q d h h' ∧ MgrAt nm env h' a (poll311 env cfg.limit k user (some (.str t)) s).2 attrs' q d ∧
      Ends h' (readEvent cfg a h) (poll311 env cfg.limit k user (some (.str t)) s).1 := by
  obtain ⟨h', attrs', l, r', e⟩ := run_handleRead hc hreg hi hb hprint hu r hw hl t ht hr
  obtain ⟨l2, c2, w2⟩ := l.wires _ _ r.cell
  rw [r'.cell] at c2
  injection c2 with c2
  injection c2 with _ c2
  subst c2
  refine ⟨h', attrs', l, ?_⟩
  unfold readEvent
  rcases ho : receiveData311 env cfg.limit k user (.str t) s with ⟨e1 | ⟨⟨⟩⟩, s'⟩
  · rw [ho] at e r'
    obtain ⟨hne, x, hx, hrx⟩ := e
    obtain ⟨y, hy, hry⟩ := run_handleError (cfg := cfg) r' (hw.keep w2) hne hrx
    have hre : handleError e1 s' = (.error (if e1.isValueError then reraiseAs e1 else e1), s') := by
      unfold handleError; split <;> rfl
    have hp : poll311 env cfg.limit k user (some (.str t)) s = (.error (if e1.isValueError then reraiseAs e1 else e1), s') := by
      rw [← hre]; simp only [poll311, ho]
    rw [hp, hx]
    refine ⟨r', ?_, ?_⟩
    · split
      · cases e1 <;> first | exact hne | (intro h; cases h)
      · exact hne
    · by_cases hse : ∃ args, x = .exc "SystemExit" args
      · obtain ⟨args, rfl⟩ := hse
        refine ⟨_, rfl, ?_⟩
        cases e1 with
        | systemExit => exact hrx
        | diverges => exact absurd rfl hne
        | pduError => obtain ⟨_, _, h1, _⟩ := hrx; cases h1
        | pduError2 => obtain ⟨_, _, h1, _⟩ := hrx; cases h1
        | messageError => obtain ⟨_, _, h1, _⟩ := hrx; cases h1
        | _ => obtain ⟨_, h1⟩ := hrx; exact absurd h1 (by simp [excName])
      · refine ⟨y, ?_, hry⟩
        show (match x with | .exc "SystemExit" _ => _ | _ => _) = _
        split
        · exact absurd ⟨_, rfl⟩ hse
        · rw [hy]; rfl
  · rw [ho] at e r'
    obtain ⟨x, hx⟩ := e
    have hp : poll311 env cfg.limit k user (some (.str t)) s = (.ok (), s') := by simp only [poll311, ho]
    rw [hp, hx]
    exact ⟨r', .none, rfl⟩

end Libsnmp.Src
