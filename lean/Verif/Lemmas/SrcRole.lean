import Verif.Lemmas.SrcInit
import Verif.Spec.SourceRole

/-!
# Running role.py
-/

namespace Libsnmp.Src
open Libsnmp Spec

variable {cfg : Cfg} {sock : Nat → String} {dest interface size : V} {h : Heap} {g : Nat} {s : Role}

theorem RoleAt.get (r : RoleAt sock dest interface size h g s) :
    getattr program h (.ref g) "socket" = some (socketV sock s.current) ∧ getattr program h (.ref g) "interface" = some interface ∧
    getattr program h (.ref g) "socksize" = some size ∧ getattr program h (.ref g) "open" = some (.meth (.ref g) .role 32) ∧
    getattr program h (.ref g) "send" = some (.meth (.ref g) .role 40) ∧ getattr program h (.ref g) "read" = some (.meth (.ref g) .role 47) ∧
    getattr program h (.ref g) "close" = some (.meth (.ref g) .role 55) ∧ getattr program h (.ref g) "__del__" = some (.meth (.ref g) .role 25) ∧
    getattr program h (.ref g) "get_socket" = some (.meth (.ref g) .role 29) := by
  unfold RoleAt at r
  refine ⟨?_, ?_, ?_, ?_, ?_, ?_, ?_, ?_, ?_⟩ <;> (simp only [getattr, r]; rfl)

theorem RoleAt.put (r : RoleAt sock dest interface size h g s) (s' : Role) :
    ∃ h', setattr program (.ref g) "socket" (socketV sock s'.current) h = okR () h' ∧ RoleAt sock dest interface size h' g s' ∧
      h'.length = h.length ∧ ∀ b, b ≠ g → h'[b]? = h[b]? := by
  unfold RoleAt at r ⊢
  have hlt := lt_of_get r
  refine ⟨h.set g (.inst (.role, 13) [("dest", dest), ("interface", interface), ("socket", socketV sock s'.current), ("socksize", size), ("request_id", .int 1)]),
    ?_, List.getElem?_set_self hlt, List.length_set, fun b hb => List.getElem?_set_ne (Ne.symm hb)⟩
  simp only [setattr, r, line_plain, Bool.false_eq_true, and_false, if_false]
  rfl

theorem RoleAt.same (r : RoleAt sock dest interface size h g s) {s' : Role} (e : s'.current = s.current) : RoleAt sock dest interface size h g s' := by
  unfold RoleAt at r ⊢
  rw [e]; exact r

theorem call_meth (x : V) (m : Module) (l : Nat) (args : List V) (h : Heap) :
    call program cfg (.meth x m l) args h = call program cfg (.func m l) (x :: args) h := by
  conv => lhs; rw [call]

/-- role.py:15-23, with all the numbers of arguments. -/
theorem run_newRole (dest interface size : V) (h : Heap) :
    (call program cfg (.cls (.role, 13)) [dest] h = call program cfg (.cls (.role, 13)) [dest, .tuple [.str (lit "0.0.0.0"), .int 0], .int 65536] h) ∧
    (call program cfg (.cls (.role, 13)) [dest, interface] h = call program cfg (.cls (.role, 13)) [dest, interface, .int 65536] h) ∧
    call program cfg (.cls (.role, 13)) [dest, interface, size] h = okR (.ref h.length) (h ++ [.inst (.role, 13)
      [("dest", dest), ("interface", interface), ("socket", .none), ("socksize", size), ("request_id", .int 1)]]) := by
  have h0 : ∀ l, call program cfg (.cls (.role, 13)) l h =
      bindR (call program cfg (.func .role 15) (.ref h.length :: l) (h ++ [.inst (.role, 13) []])) fun _ h' => okR (.ref h.length) h' := by
    intro l
    conv => lhs; rw [call]
    rfl
  refine ⟨?_, ?_, ?_⟩
  · rw [h0, h0, call_role_15_2, call_role_15]
  · rw [h0, h0, call_role_15_3, call_role_15]
  · rw [h0, call_role_15]
    runs [role_15, setattr, line_plain, setAssoc]

/-- role.py:32-38. -/
theorem run_roleOpen (r : RoleAt sock dest interface size h g s) {os : OpenOS} (ho : OpenSays cfg (sock s.created) interface size os) :
    ∃ h', (h'.length = h.length ∧ ∀ b, b ≠ g → h'[b]? = h[b]?) ∧ RoleAt sock dest interface size h' g (roleOpen os s).2 ∧
      ComesTo h' (call program cfg (.func .role 32) [.ref g] h) ((roleOpen os s).1.map fun n => .ext (sock n)) := by
  obtain ⟨s1, b1, p1⟩ := os
  obtain ⟨w, hw⟩ : ∃ w, w = sock s.created := ⟨_, rfl⟩
  rw [call_role_32]
  cases s1 with
  | error e =>
    obtain ⟨hn, x, hx, hr⟩ := ho.socket h
    have c1 : call program cfg (.ext ("socket" ++ "." ++ "socket")) [.ext ("socket" ++ "." ++ "AF_INET"), .ext ("socket" ++ "." ++ "SOCK_DGRAM")] h = excR x h := by
      rw [call]; exact hx
    refine ⟨h, ⟨rfl, fun _ _ => rfl⟩, r, hn, x, ?_, hr⟩
    runs [role_32, ↓c1]
  | ok u =>
    have hx := ho.socket h
    have c1 : call program cfg (.ext ("socket" ++ "." ++ "socket")) [.ext ("socket" ++ "." ++ "AF_INET"), .ext ("socket" ++ "." ++ "SOCK_DGRAM")] h = okR (.ext w) h := by
      rw [call, hw]; exact hx
    obtain ⟨h', e1, r', hl, hk⟩ := r.put { current := some s.created, live := s.live ++ [s.created], created := s.created + 1 }
    change setattr program (.ref g) "socket" (.ext (sock s.created)) h = okR () h' at e1
    obtain ⟨g1, g2, g3, -⟩ := r'.get
    change getattr program h' (.ref g) "socket" = some (.ext (sock s.created)) at g1
    rw [← hw] at e1 g1
    have hb := ho.bind h'
    have hp := ho.option h'
    rw [← hw] at hb hp
    cases b1 with
    | error e =>
      obtain ⟨hn, x, hx, hr⟩ := hb
      have c2 : call program cfg (.ext (w ++ "." ++ "bind")) [interface] h' = excR x h' := by
        rw [call, String.append_assoc]; exact hx
      refine ⟨h', ⟨hl, hk⟩, r', hn, x, ?_, hr⟩
      runs [role_32, ↓c1, ↓e1, ↓g1, ↓g2, ↓c2]
    | ok u =>
      have c2 : call program cfg (.ext (w ++ "." ++ "bind")) [interface] h' = okR .none h' := by
        rw [call, String.append_assoc]; exact hb
      cases p1 with
      | error e =>
        obtain ⟨hn, x, hx, hr⟩ := hp
        have c3 : call program cfg (.ext (w ++ "." ++ "setsockopt")) [.ext ("socket" ++ "." ++ "SOL_SOCKET"), .ext ("socket" ++ "." ++ "SO_RCVBUF"), size] h' = excR x h' := by
          rw [call, String.append_assoc]; exact hx
        refine ⟨h', ⟨hl, hk⟩, r', hn, x, ?_, hr⟩
        runs [role_32, ↓c1, ↓e1, ↓g1, ↓g2, ↓g3, ↓c2, ↓c3]
      | ok u =>
        have c3 : call program cfg (.ext (w ++ "." ++ "setsockopt")) [.ext ("socket" ++ "." ++ "SOL_SOCKET"), .ext ("socket" ++ "." ++ "SO_RCVBUF"), size] h' = okR .none h' := by
          rw [call, String.append_assoc]; exact hp
        refine ⟨h', ⟨hl, hk⟩, r', ?_⟩
        show _ = okR (V.ext (sock s.created)) h'
        rw [← hw]
        runs [role_32, ↓c1, ↓e1, ↓g1, ↓g2, ↓g3, ↓c2, ↓c3]

/-- role.py:43-45: the end of `send`. -/
theorem run_roleSendTail {E : Env} (r : RoleAt sock dest interface size h g s) {n : Nat} (hn : s.current = some n) {v dst : V} {o : Except Exc Unit}
    (hE : E = [("self", some (.ref g)), ("request", some v), ("dst", some dst)])
    (hs : Says cfg (sock n ++ ".sendto") [v, dst] (o.map fun _ => .none)) :
    ComesTo h (result (block program cfg .role E
      [.expr (.call (.attr (.attr (.loc "self") "socket") "sendto") [.loc "request", .loc "dst"]), .ret .none] h)) (o.map fun _ => .none) := by
  obtain ⟨g1, -⟩ := r.get
  rw [hn] at g1
  change getattr program h (.ref g) "socket" = some (.ext (sock n)) at g1
  generalize sock n = w at g1 hs
  subst hE
  have hx := hs h
  cases o with
  | error e =>
    obtain ⟨hn, x, hx, hr⟩ := hx
    have c1 : call program cfg (.ext (w ++ "." ++ "sendto")) [v, dst] h = excR x h := by rw [call, String.append_assoc]; exact hx
    refine ⟨hn, x, ?_, hr⟩
    runs [↓g1, ↓c1]
  | ok u =>
    have c1 : call program cfg (.ext (w ++ "." ++ "sendto")) [v, dst] h = okR .none h := by rw [call, String.append_assoc]; exact hx
    show _ = okR V.none h
    runs [↓g1, ↓c1]

/-- role.py:40-45. -/
theorem run_roleSend (r : RoleAt sock dest interface size h g s) {v dst : V} {q : Val} {o1 : OpenOS} {o2 : Except Exc Unit}
    (ho : OpenSays cfg (sock s.created) interface size o1)
    (hs : Says cfg (sock (s.current.getD s.created) ++ ".sendto") [v, dst] ((sendto q o2).map fun _ => .none)) :
    ∃ h', (h'.length = h.length ∧ ∀ b, b ≠ g → h'[b]? = h[b]?) ∧ RoleAt sock dest interface size h' g (roleSend q o1 o2 s).2 ∧
      ComesTo h' (call program cfg (.func .role 40) [.ref g, v, dst] h) ((roleSend q o1 o2 s).1.map fun _ => .none) := by
  obtain ⟨g1, -, -, g4, -⟩ := r.get
  rw [call_role_40]
  unfold roleSend
  cases hcur : s.current with
  | some n =>
    rw [hcur] at g1 hs
    have ht := run_roleSendTail r hcur rfl hs
    refine ⟨h, ⟨rfl, fun _ _ => rfl⟩, r, ?_⟩
    change getattr program h (.ref g) "socket" = some (.ext (sock n)) at g1
    have e1 : result (block program cfg .role [("self", some (.ref g)), ("request", some v), ("dst", some dst)] role_40.body h) =
      result (block program cfg .role [("self", some (.ref g)), ("request", some v), ("dst", some dst)]
      [.expr (.call (.attr (.attr (.loc "self") "socket") "sendto") [.loc "request", .loc "dst"]), .ret .none] h) := by
      generalize sock n = w at g1
      runs [role_40, ↓g1]
    rw [e1]
    exact ht
  | none =>
    rw [hcur] at g1 hs
    change getattr program h (.ref g) "socket" = some .none at g1
    obtain ⟨h', hk, r', hc⟩ := run_roleOpen r ho
    have c1 : call program cfg (.meth (.ref g) .role 32) [] h = call program cfg (.func .role 32) [.ref g] h := call_meth ..
    revert r' hc
    generalize hop : roleOpen o1 s = p
    obtain ⟨p1, p2⟩ := p
    intro r' hc
    cases p1 with
    | error e =>
      obtain ⟨hn, x, hx, hr⟩ := hc
      refine ⟨h', hk, r', hn, x, ?_, hr⟩
      rw [← c1] at hx
      runs [role_40, ↓g1, ↓g4, ↓hx]
    | ok n =>
      have hcur' : p2.current = some s.created := by
        have : (roleOpen o1 s).2.current = some s.created := by
          have h1 : (roleOpen o1 s).1 = .ok n := by rw [hop]
          unfold roleOpen at h1 ⊢
          revert h1
          cases o1.socket with
          | error e => intro h1; cases h1
          | ok u => cases o1.bind <;> cases o1.option <;> intro _ <;> rfl
        rw [hop] at this; exact this
      refine ⟨h', hk, r', ?_⟩
      have hx : call program cfg (.func .role 32) [.ref g] h = okR (.ext (sock n)) h' := hc
      rw [← c1] at hx
      have ht := run_roleSendTail r' hcur' rfl hs
      have e1 : result (block program cfg .role [("self", some (.ref g)), ("request", some v), ("dst", some dst)] role_40.body h) =
        result (block program cfg .role [("self", some (.ref g)), ("request", some v), ("dst", some dst)]
        [.expr (.call (.attr (.attr (.loc "self") "socket") "sendto") [.loc "request", .loc "dst"]), .ret .none] h') := by
        runs [role_40, ↓g1, ↓g4, ↓hx]
      rw [e1]
      exact ht

/-- role.py:47-53. -/
theorem run_roleRead (r : RoleAt sock dest interface size h g s) {src : V} {os : Except Exc Str}
    (hs : ∀ n, s.current = some n → Says cfg (sock n ++ ".recvfrom") [size] (os.map fun b => .tuple [.str b, src])) :
    ComesTo h (call program cfg (.func .role 47) [.ref g] h)
      ((roleRead os s).1.map fun v => .tuple [match v with | .bytes b => .str b | _ => .none, src]) ∧ (roleRead os s).2 = s := by
  obtain ⟨g1, -, g3, -⟩ := r.get
  rw [call_role_47]
  unfold roleRead
  cases hcur : s.current with
  | none =>
    rw [hcur] at g1
    change getattr program h (.ref g) "socket" = some .none at g1
    refine ⟨⟨by simp, .exc "ValueError" [.str (lit "Socket not initialized")], ?_, _, rfl⟩, rfl⟩
    runs [role_47, ↓g1]
  | some n =>
    rw [hcur] at g1
    change getattr program h (.ref g) "socket" = some (.ext (sock n)) at g1
    have hx := hs n hcur h
    generalize sock n = w at g1 hx
    cases os with
    | error e =>
      obtain ⟨hn, x, hx, hr⟩ := hx
      have c1 : call program cfg (.ext (w ++ "." ++ "recvfrom")) [size] h = excR x h := by rw [call, String.append_assoc]; exact hx
      refine ⟨⟨hn, x, ?_, hr⟩, rfl⟩
      runs [role_47, ↓g1, ↓g3, ↓c1]
    | ok b =>
      have c1 : call program cfg (.ext (w ++ "." ++ "recvfrom")) [size] h = okR (.tuple [.str b, src]) h := by rw [call, String.append_assoc]; exact hx
      refine ⟨?_, rfl⟩
      show _ = okR (V.tuple [.str b, src]) h
      runs [role_47, ↓g1, ↓g3, ↓c1]

/-- role.py:55-60. -/
theorem run_roleClose (r : RoleAt sock dest interface size h g s) {os : Except Exc Unit}
    (hs : ∀ n, s.current = some n → Says cfg (sock n ++ ".close") [] (os.map fun _ => .none)) :
    ∃ h', (h'.length = h.length ∧ ∀ b, b ≠ g → h'[b]? = h[b]?) ∧ RoleAt sock dest interface size h' g (roleClose os s).2 ∧
      ComesTo h' (call program cfg (.func .role 55) [.ref g] h) ((roleClose os s).1.map fun _ => .none) := by
  obtain ⟨g1, -⟩ := r.get
  rw [call_role_55]
  unfold roleClose
  cases hcur : s.current with
  | none =>
    rw [hcur] at g1
    obtain ⟨h', e1, r', hl, hk⟩ := r.put s
    rw [hcur] at e1
    change setattr program (.ref g) "socket" .none h = okR () h' at e1
    change getattr program h (.ref g) "socket" = some .none at g1
    refine ⟨h', ⟨hl, hk⟩, r', ?_⟩
    show _ = okR V.none h'
    runs [role_55, ↓g1, ↓e1]
  | some n =>
    rw [hcur] at g1
    change getattr program h (.ref g) "socket" = some (.ext (sock n)) at g1
    have hx := hs n hcur h
    generalize sock n = w at g1 hx
    cases os with
    | error e =>
      obtain ⟨hn, x, hx, hr⟩ := hx
      have c1 : call program cfg (.ext (w ++ "." ++ "close")) [] h = excR x h := by rw [call, String.append_assoc]; exact hx
      refine ⟨h, ⟨rfl, fun _ _ => rfl⟩, r, hn, x, ?_, hr⟩
      runs [role_55, ↓g1, ↓c1]
    | ok u =>
      have c1 : call program cfg (.ext (w ++ "." ++ "close")) [] h = okR .none h := by rw [call, String.append_assoc]; exact hx
      obtain ⟨h', e1, r', hl, hk⟩ := r.put { s with current := none, live := s.live.filter (· ≠ n) }
      change setattr program (.ref g) "socket" .none h = okR () h' at e1
      refine ⟨h', ⟨hl, hk⟩, r', ?_⟩
      show _ = okR V.none h'
      runs [role_55, ↓g1, ↓c1, ↓e1]

theorem ComesTo.bind {h' : Heap} {x : R V} {o : Except Exc V} (hx : ComesTo h' x o) :
    ComesTo h' (bindR x fun _ h => okR .none h) (o.map fun _ => .none) := by
  cases o with
  | ok v => change x = okR v h' at hx; rw [hx]; rfl
  | error e => obtain ⟨hn, y, hx, hr⟩ := hx; exact ⟨hn, y, by rw [hx]; rfl, hr⟩

/-- role.py:25-27. -/
theorem run_roleDel (r : RoleAt sock dest interface size h g s) {os : Except Exc Unit}
    (hs : ∀ n, s.current = some n → Says cfg (sock n ++ ".close") [] (os.map fun _ => .none)) :
    ∃ h', (h'.length = h.length ∧ ∀ b, b ≠ g → h'[b]? = h[b]?) ∧ RoleAt sock dest interface size h' g (roleClose os s).2 ∧
      ComesTo h' (call program cfg (.func .role 25) [.ref g] h) ((roleClose os s).1.map fun _ => .none) := by
  obtain ⟨h', hk, r', hc⟩ := run_roleClose r hs
  obtain ⟨-, -, -, -, -, -, g7, -⟩ := r.get
  refine ⟨h', hk, r', ?_⟩
  rw [call_role_25]
  have c1 : call program cfg (.meth (.ref g) .role 55) [] h = call program cfg (.func .role 55) [.ref g] h := call_meth ..
  rw [← c1] at hc
  revert hc
  generalize (roleClose os s).1 = o
  intro hc
  cases o with
  | ok u =>
    change _ = okR V.none h' at hc
    show _ = okR V.none h'
    runs [role_25, ↓g7, ↓hc]
  | error e =>
    obtain ⟨hn, x, hx, hr⟩ := hc
    refine ⟨hn, x, ?_, hr⟩
    runs [role_25, ↓g7, ↓hx]

/-- role.py:29-30. -/
theorem run_getSocket (r : RoleAt sock dest interface size h g s) :
    call program cfg (.func .role 29) [.ref g] h = okR (socketV sock s.current) h := by
  obtain ⟨g1, -⟩ := r.get
  rw [call_role_29]
  runs [role_29, ↓g1]

end Libsnmp.Src
