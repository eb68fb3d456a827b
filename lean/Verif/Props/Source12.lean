import Verif.Lemmas.SrcRole
import Verif.Props.Role

/-!
# C103: `role.manager` as the source text has it

The methods of `role.manager`, executed, are the model's `roleOpen`, `roleSend`, `roleRead` and `roleClose`, whatever the operating
system answers; so C58, about histories of calls, holds of the source text.
-/

namespace Libsnmp.Src
open Libsnmp Spec

variable {cfg : Cfg} {sock : Nat → String} {dest interface size : V} {h : Heap} {g : Nat} {s : Role}

/-- C103: `role.manager(dest)`, with or without the interface and the size of the buffer, makes a new object that has no socket, and
asks the operating system for nothing. -/
theorem C103_new (dest interface size : V) (h : Heap) :
    (∃ h', call program cfg (.cls (.role, 13)) [dest, interface, size] h = okR (.ref h.length) h' ∧
      (∀ b, b < h.length → h'[b]? = h[b]?) ∧ RoleAt sock dest interface size h' h.length {}) ∧
    call program cfg (.cls (.role, 13)) [dest, interface] h = call program cfg (.cls (.role, 13)) [dest, interface, .int 65536] h ∧
    call program cfg (.cls (.role, 13)) [dest] h =
      call program cfg (.cls (.role, 13)) [dest, .tuple [.str (lit "0.0.0.0"), .int 0], .int 65536] h := by
  obtain ⟨h1, h2, h3⟩ := run_newRole (cfg := cfg) dest interface size h
  refine ⟨⟨_, h3, fun b hb => List.getElem?_append_left hb, ?_⟩, h2, h1⟩
  unfold RoleAt
  rw [List.getElem?_append_right (Nat.le_refl _), Nat.sub_self]
  rfl

/-- C103: a call of `open`, `send`, `read`, `close` or `__del__` does what the model does: the caller sees the model's result or
exception, the object is in the model's next state, and no other object is touched. -/
theorem C103_call (c : RoleCall) (r : RoleAt sock dest interface size h g s) (hf : c.Fits sock interface size s) :
    ∃ h', (h'.length = h.length ∧ ∀ b, b ≠ g → h'[b]? = h[b]?) ∧ RoleAt sock dest interface size h' g (c.op.run s) ∧
      ComesTo h' (callMethod c.cfg (.ref g) c.name c.args h) (c.expect sock s) := by
  obtain ⟨cfg, name, args, src, op⟩ := c
  obtain ⟨-, -, -, g4, g5, g6, g7, g8, -⟩ := r.get
  have hm : ∀ {n : String} {l : Nat} {as : List V}, getattr program h (.ref g) n = some (.meth (.ref g) .role l) →
      callMethod cfg (.ref g) n as h = call program cfg (.func .role l) (.ref g :: as) h := by
    intro n l as hg
    unfold callMethod
    rw [hg]
    exact call_meth ..
  cases op with
  | «open» os =>
    obtain ⟨rfl, rfl, ho⟩ := hf
    dsimp only
    rw [hm g4]
    exact run_roleOpen r ho
  | send q o1 o2 =>
    obtain ⟨rfl, v, dst, ha, ho, hs⟩ := hf
    have he : callMethod cfg (.ref g) "send" args h = call program cfg (.func .role 40) [.ref g, v, dst] h := by
      dsimp only at ha
      rcases ha with rfl | ⟨rfl, rfl⟩
      · exact hm g5
      · rw [hm g5, call_role_40_2, call_role_40]
    dsimp only
    rw [he]
    exact run_roleSend r ho hs
  | read os =>
    obtain ⟨rfl, rfl, hs⟩ := hf
    obtain ⟨h1, h2⟩ := run_roleRead r hs
    dsimp only
    rw [hm g6]
    refine ⟨h, ⟨rfl, fun _ _ => rfl⟩, ?_, h1⟩
    show RoleAt sock dest interface size h g (roleRead os s).2
    rw [h2]; exact r
  | close os =>
    obtain ⟨hn, rfl, hs⟩ := hf
    dsimp only at hn ⊢
    rcases hn with rfl | rfl
    · rw [hm g7]; exact run_roleClose r hs
    · rw [hm g8]; exact run_roleDel r hs

/-- C103: `get_socket` returns the current socket, or None, and changes nothing. -/
theorem C103_get_socket (r : RoleAt sock dest interface size h g s) :
    callMethod cfg (.ref g) "get_socket" [] h = okR (socketV sock s.current) h := by
  obtain ⟨-, -, -, -, -, -, -, -, g9⟩ := r.get
  unfold callMethod
  rw [g9]
  exact (call_meth ..).trans (run_getSocket r)

/-- C103: after any life of calls, in any worlds, the object is in the state that the model computes from the calls, and nothing else in
the heap has changed. -/
theorem C103_life {h0 h : Heap} {l : List (RoleCall × Heap × Out V)} (r : RoleAt sock dest interface size h0 g {})
    (hl : RoleLife sock interface size g h0 l h) :
    RoleAt sock dest interface size h g (roleRun (l.map fun e => e.1.op)) ∧ h.length = h0.length ∧ ∀ b, b ≠ g → h[b]? = h0[b]? := by
  induction hl with
  | new => exact ⟨r, rfl, fun _ _ => rfl⟩
  | @step l1 h1 h2 c o hl hf he ih =>
    obtain ⟨r1, l1, k1⟩ := ih
    obtain ⟨h', ⟨l2, k2⟩, r2, hc⟩ := C103_call _ r1 hf
    have e : h' = h2 := by
      revert hc
      generalize RoleCall.expect _ _ _ = o
      rw [he]
      intro hc
      cases o with
      | ok v => injection hc with hc; exact (congrArg Prod.fst hc).symm
      | error e => obtain ⟨-, x, hc, -⟩ := hc; injection hc with hc; exact (congrArg Prod.fst hc).symm
    subst e
    rw [List.map_append, List.map_cons, List.map_nil, roleRun_snoc]
    exact ⟨r2, l2.trans l1, fun b hb => (k2 b hb).trans (k1 b hb)⟩

/-- C103: every life can go on: the next call that fits returns or raises, as the model says; it is never stuck and never endless. -/
theorem C103_progress {h0 h : Heap} {l : List (RoleCall × Heap × Out V)} (r : RoleAt sock dest interface size h0 g {})
    (hl : RoleLife sock interface size g h0 l h) (c : RoleCall) (hf : c.Fits sock interface size (roleRun (l.map fun e => e.1.op))) :
    ∃ h' o, callMethod c.cfg (.ref g) c.name c.args h = some (h', o) ∧ RoleLife sock interface size g h0 (l ++ [(c, h', o)]) h' ∧
      ComesTo h' (some (h', o)) (c.expect sock (roleRun (l.map fun e => e.1.op))) := by
  obtain ⟨h', -, -, hc⟩ := C103_call c (C103_life r hl).1 hf
  revert hc
  generalize hx : c.expect sock (roleRun (l.map fun e => e.1.op)) = o
  intro hc
  cases o with
  | ok v =>
    have he : callMethod c.cfg (.ref g) c.name c.args h = some (h', .ok v) := hc
    exact ⟨h', .ok v, he, .step hl hf he, rfl⟩
  | error e =>
    obtain ⟨hn, x, hc, hr⟩ := hc
    have he : callMethod c.cfg (.ref g) c.name c.args h = some (h', .exc x) := hc
    exact ⟨h', .exc x, he, .step hl hf he, hn, x, rfl, hr⟩

/-- C103: after any life, `get_socket` returns None exactly when no call has obtained a socket since the last successful close. -/
theorem C103_open {h0 h : Heap} {l : List (RoleCall × Heap × Out V)} (r : RoleAt sock dest interface size h0 g {})
    (hl : RoleLife sock interface size g h0 l h) :
    callMethod cfg (.ref g) "get_socket" [] h = okR .none h ↔ ¬ IsOpen (l.map fun e => e.1.op) := by
  rw [← C58_current, C103_get_socket (C103_life r hl).1]
  cases (roleRun (l.map fun e => e.1.op)).current with
  | none => simp [socketV]
  | some n => simp [socketV, okR]

/-- C103: after any life in which no socket is open, `read` raises ValueError, in every world, and changes nothing. -/
theorem C103_read_closed {h0 h : Heap} {l : List (RoleCall × Heap × Out V)} (r : RoleAt sock dest interface size h0 g {})
    (hl : RoleLife sock interface size g h0 l h) (hc : ¬ IsOpen (l.map fun e => e.1.op)) :
    ∃ args, callMethod cfg (.ref g) "read" [] h = excR (.exc "ValueError" args) h := by
  rw [← C58_current, not_not] at hc
  have r' := (C103_life r hl).1
  obtain ⟨-, -, -, -, -, g6, -⟩ := r'.get
  obtain ⟨⟨-, x, hx, args, rfl⟩, -⟩ : ComesTo h _ (Except.error .valueError) ∧ _ := by
    have := run_roleRead (cfg := cfg) (os := .ok []) (src := .none) r' fun n hn => by rw [hc] at hn; cases hn
    unfold roleRead at this
    rw [hc] at this
    exact this
  refine ⟨args, ?_⟩
  unfold callMethod
  rw [g6]
  exact (call_meth ..).trans hx

/-! ## The methods that asyncore calls on a manager -/

/-- C103: `writable()` is 0 and `handle_connect()` does nothing, for the three manager classes. -/
theorem C103_idle {nm : Names} {env : Libsnmp.Env} {k : Libsnmp.Kind} {m : Mgr k} {attrs : List (String × V)} {a q d : Nat}
    (r : MgrAt nm env h a m attrs q d) :
    callMethod cfg (.ref a) "writable" [] h = okR (.int 0) h ∧ callMethod cfg (.ref a) "handle_connect" [] h = okR .none h := by
  have h1 : program.attr (mgrCid k) "writable" = some (.func .asynrole 42) := by cases k <;> rfl
  have h2 : program.attr (mgrCid k) "handle_connect" = some (.func .asynrole 45) := by cases k <;> rfl
  constructor
  · unfold callMethod
    rw [r.meth h1]
    refine (call_meth ..).trans ?_
    rw [call_asynrole_42]
    runs [asynrole_42]
  · unfold callMethod
    rw [r.meth h2]
    refine (call_meth ..).trans ?_
    rw [call_asynrole_45]
    runs [asynrole_45]

/-- C103: `handle_close()` of a manager closes the socket of its `role.manager`, as `close` does: once that has succeeded no socket is
open; if the socket's own `close` raises, the exception goes on and the socket stays.  The manager itself is not touched. -/
theorem C103_handle_close {nm : Names} {env : Libsnmp.Env} {k : Libsnmp.Kind} {m : Mgr k} {attrs : List (String × V)} {a q d : Nat} {tm : V}
    (r : MgrAt nm env h a m attrs q d) (hw : Wired k a g tm attrs) (rl : RoleAt sock dest interface size h g s) {os : Except Exc Unit}
    (hs : ∀ n, s.current = some n → Says cfg (sock n ++ ".close") [] (os.map fun _ => .none)) :
    ∃ h', (h'.length = h.length ∧ ∀ b, b ≠ g → h'[b]? = h[b]?) ∧ RoleAt sock dest interface size h' g (roleClose os s).2 ∧
      ComesTo h' (callMethod cfg (.ref a) "handle_close" [] h) ((roleClose os s).1.map fun _ => .none) := by
  have h1 : program.attr (mgrCid k) "handle_close" = some (.func .asynrole 48) := by cases k <;> rfl
  obtain ⟨h', hk, r', hc⟩ := run_roleClose rl hs
  refine ⟨h', hk, r', ?_⟩
  have gm := r.wire hw.manager
  obtain ⟨-, -, -, -, -, -, g7, -⟩ := rl.get
  have c1 : call program cfg (.meth (.ref g) .role 55) [] h = call program cfg (.func .role 55) [.ref g] h := call_meth ..
  rw [← c1] at hc
  have e0 : callMethod cfg (.ref a) "handle_close" [] h = call program cfg (.func .asynrole 48) [.ref a] h := by
    unfold callMethod
    rw [r.meth h1]
    exact call_meth ..
  rw [e0, call_asynrole_48]
  revert hc
  generalize (roleClose os s).1 = o
  intro hc
  cases o with
  | ok u =>
    change _ = okR V.none h' at hc
    show _ = okR V.none h'
    runs [asynrole_48, ↓gm, ↓g7, ↓hc]
  | error e =>
    obtain ⟨hn, x, hx, hr⟩ := hc
    refine ⟨hn, x, ?_, hr⟩
    runs [asynrole_48, ↓gm, ↓g7, ↓hx]

/-! ## A world in which all this happens -/

/-- Every call on sockets succeeds, the sockets are all called `sock`, and a datagram of two octets waits; `close` may fail. -/
def roleCfg (closes : Bool) : Cfg where
  tag := fun _ => none
  digits := 4300
  debug := false
  repr := fun _ _ => []
  ext := fun name _ h =>
    if name = "socket.socket" then okR (.ext "sock") h
    else if name = "sock.recvfrom" then okR (.tuple [.str [48, 0], .str (lit "peer")]) h
    else if name = "sock.close" ∧ !closes then excR (.exc "OSError" []) h
    else okR .none h

def roleStory : List RoleCall :=
  [⟨roleCfg true, "send", [.str [48, 0]], .none, .send (.bytes [48, 0]) {} (.ok ())⟩,
   ⟨roleCfg true, "read", [], .str (lit "peer"), .read (.ok [48, 0])⟩,
   ⟨roleCfg false, "close", [], .none, .close (.error .osError)⟩,
   ⟨roleCfg true, "__del__", [], .none, .close (.ok ())⟩,
   ⟨roleCfg true, "read", [], .none, .read (.ok [48, 0])⟩]

/-- The story fits: each call of it, in the state that the calls before have left. -/
theorem roleStory_fits : ∀ l1 c l2, roleStory = l1 ++ c :: l2 →
    c.Fits (fun _ => "sock") (.tuple [.str (lit "0.0.0.0"), .int 0]) (.int 65536) (roleRun (l1.map RoleCall.op)) := by
  intro l1 c l2 e
  have ho : ∀ b, OpenSays (roleCfg b) "sock" (.tuple [.str (lit "0.0.0.0"), .int 0]) (.int 65536) {} := fun b =>
    ⟨fun h => rfl, fun h => rfl, fun h => rfl⟩
  unfold roleStory at e
  match l1, e with
  | [], e =>
    injection e with e _; subst e
    exact ⟨rfl, .str [48, 0], .tuple [.none, .int 0], .inr ⟨rfl, rfl⟩, ho _, fun h => rfl⟩
  | [x1], e =>
    injection e with e1 e; injection e with e _; subst e
    exact ⟨rfl, rfl, fun n hn h => rfl⟩
  | [x1, x2], e =>
    injection e with e1 e; injection e with e2 e; injection e with e _; subst e
    exact ⟨.inl rfl, rfl, fun n hn h => ⟨by simp, _, rfl, [], rfl⟩⟩
  | [x1, x2, x3], e =>
    injection e with e1 e; injection e with e2 e; injection e with e3 e; injection e with e _; subst e
    exact ⟨.inr rfl, rfl, fun n hn h => rfl⟩
  | [x1, x2, x3, x4], e =>
    injection e with e1 e; injection e with e2 e; injection e with e3 e; injection e with e4 e; injection e with e _; subst e
    subst e1 e2 e3 e4
    exact ⟨rfl, rfl, fun n hn h => by cases hn⟩
  | x1 :: x2 :: x3 :: x4 :: x5 :: l, e =>
    injection e with _ e; injection e with _ e; injection e with _ e; injection e with _ e; injection e with _ e
    cases l <;> cases e

/-- Any list of calls that fit, one after the other, is a life. -/
theorem roleLife_exists (cs : List RoleCall) {h0 : Heap} (r : RoleAt sock dest interface size h0 g {})
    (hf : ∀ l1 c l2, cs = l1 ++ c :: l2 → c.Fits sock interface size (roleRun (l1.map RoleCall.op))) :
    ∃ l h, RoleLife sock interface size g h0 l h ∧ l.map Prod.fst = cs ∧
      l.Forall fun e => e.2.2 ≠ .stuck := by
  induction cs using List.reverseRecOn with
  | nil => exact ⟨[], h0, .new, rfl, trivial⟩
  | append_singleton cs c ih =>
    obtain ⟨l, h, hl, e, hn⟩ := ih fun l1 c' l2 e => hf l1 c' (l2 ++ [c]) (by rw [e]; simp)
    have em : (l.map fun e => e.1.op) = cs.map RoleCall.op := by rw [← e, List.map_map]; rfl
    obtain ⟨h', o, -, hl', ho⟩ := C103_progress r hl c (by rw [em]; exact hf cs c [] (by simp))
    refine ⟨_, h', hl', by simp [e], ?_⟩
    rw [List.forall_append]
    refine ⟨hn, ?_⟩
    simp only [List.Forall]
    rintro rfl
    revert ho
    cases RoleCall.expect _ _ _ with
    | ok v => intro ho; cases ho
    | error e => rintro ⟨-, x, ho, -⟩; cases ho

/-- It can happen: a new object; `send` opens a socket, a datagram is read, a first `close` fails, the second does not, and then `read`
raises ValueError. -/
example : ∃ h0 l h, call program (roleCfg true) (.cls (.role, 13)) [.none] [] = okR (.ref 0) h0 ∧
    RoleLife (fun _ => "sock") (.tuple [.str (lit "0.0.0.0"), .int 0]) (.int 65536) 0 h0 l h ∧ l.map Prod.fst = roleStory ∧
    ∃ args, callMethod (roleCfg true) (.ref 0) "read" [] h = excR (.exc "ValueError" args) h := by
  obtain ⟨⟨h0, e0, -, r0⟩, -, e1⟩ := C103_new (cfg := roleCfg true) (sock := fun _ => "sock") .none (.tuple [.str (lit "0.0.0.0"), .int 0]) (.int 65536) []
  obtain ⟨l, h, hl, em, -⟩ := roleLife_exists roleStory r0 roleStory_fits
  refine ⟨h0, l, h, e1.trans e0, hl, em, C103_read_closed r0 hl ?_⟩
  have em' : (l.map fun e => e.1.op) = roleStory.map RoleCall.op := by rw [← em, List.map_map]; rfl
  rw [em', ← C58_current, not_not]
  rfl

end Libsnmp.Src
