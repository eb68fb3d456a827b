import Verif.Lemmas.SrcRecv2
import Verif.Props.Responses
import Verif.Props.Source

/-!
# Running `receiveData`: the whole function
-/

namespace Libsnmp.Src
open Libsnmp Spec

variable {cfg : Cfg} {nm : Names} {env : Libsnmp.Env} {k : Libsnmp.Kind}

theorem block_step {m0 : Module} {E E' : Env} {s : Stmt} {l : List Stmt} {h h' : Heap}
    (he : block program cfg m0 E [s] h = some (h', E', .next)) :
    block program cfg m0 E (s :: l) h = block program cfg m0 E' l h' := by
  have h1 : ∀ l, block program cfg m0 E (s :: l) h = bindS (exec program cfg m0 E s h) fun env h => block program cfg m0 env l h := by
    intro l; rw [block]
  rw [h1, bindS_nil] at he
  rw [h1, he]; rfl

/-- What is caught, and its text. -/
theorem raised_caught {h : Heap} {e : Exc} {x : V} (hr : Raised h e x) (hne : e ≠ .diverges) :
    caught (some "Exception") x h = e.isException := by
  cases e with
  | diverges => exact absurd rfl hne
  | pduError => obtain ⟨a, attrs, rfl, hc⟩ := hr; rfl
  | pduError2 => obtain ⟨a, attrs, rfl, hc⟩ := hr; rfl
  | messageError => obtain ⟨a, attrs, rfl, hc⟩ := hr; rfl
  | _ => obtain ⟨args, rfl⟩ := hr; rfl

theorem raised_str {h : Heap} {e : Exc} {x : V} (hr : Raised h e x) : ∃ t, toStr program cfg x h = okR t h := by
  have main : ∀ n args, x = .exc n args → ∃ t, toStr program cfg x h = okR t h := by
    rintro n args rfl
    exact ⟨_, by rw [toStr]⟩
  cases e with
  | pduError => obtain ⟨a, attrs, rfl, hc⟩ := hr; refine ⟨cfg.repr (.ref a) h, ?_⟩; rw [toStr]; runs [Src.kind, hc]; rfl
  | pduError2 => obtain ⟨a, attrs, rfl, hc⟩ := hr; refine ⟨cfg.repr (.ref a) h, ?_⟩; rw [toStr]; runs [Src.kind, hc]; rfl
  | messageError => obtain ⟨a, attrs, rfl, hc⟩ := hr; refine ⟨cfg.repr (.ref a) h, ?_⟩; rw [toStr]; runs [Src.kind, hc]; rfl
  | _ => obtain ⟨args, hx⟩ := hr; exact main _ _ hx

/-- `log.error('Exception in receiveData: %s' % e)`. -/
theorem raised_log {h : Heap} {e : Exc} {x : V} (hr : Raised h e x) (m0 : Module) {E : Env} (he : E.get "e" = some x) (h0 : m0 = .v1 ∨ m0 = .v2) :
    block program cfg m0 E
      [.expr (.call (.attr (.glob "log") "error") [.bin .mod (.str (lit "Exception in receiveData: %s")) (.loc "e")])] h = some (h, E, .next) := by
  obtain ⟨t, ht⟩ := raised_str (cfg := cfg) hr
  have hx : ∀ l, x ≠ .tuple l := by
    intro l
    cases e with
    | pduError => obtain ⟨a, attrs, rfl, hc⟩ := hr; simp
    | pduError2 => obtain ⟨a, attrs, rfl, hc⟩ := hr; simp
    | messageError => obtain ⟨a, attrs, rfl, hc⟩ := hr; simp
    | _ => obtain ⟨args, rfl⟩ := hr; simp
  have hb : ∃ w, binop program cfg .mod (.str (lit "Exception in receiveData: %s")) x h = okR w h := by
    have hf : format program cfg [.conv 0 none 115] [x] h = okR t h := format_s (r := .ok t) ht
    rw [binop]
    · runs [↓hf]; exact ⟨_, rfl⟩
    · exact hx
  obtain ⟨w, hb⟩ := hb
  rcases h0 with rfl | rfl <;> runs [↓he, ↓hb]

theorem try_next {m0 : Module} {E E' : Env} {body hd ot : List Stmt} {n v : Option String} {h h' : Heap}
    (hb : block program cfg m0 E body h = some (h', E', .next)) :
    block program cfg m0 E [.tryAs body n v hd ot] h = some (h', E', .next) := by
  runs [↓hb, bindTry]

theorem try_exc {m0 : Module} {E E' : Env} {body hd ot : List Stmt} {n : Option String} {v : String} {h h' : Heap} {x : V}
    (hb : block program cfg m0 E body h = some (h', E', .exc x)) :
    block program cfg m0 E [.tryAs body n (some v) hd ot] h =
      bindS (branch (caught n x h') (block program cfg m0 (("$exc", some x) :: E'.set v x) hd h')
        (block program cfg m0 (("$exc", some x) :: E') ot h')) fun E'' h => some (h, E''.drop 1, .next) := by
  have : exec program cfg m0 E (.tryAs body n (some v) hd ot) h =
      bindS (branch (caught n x h') (block program cfg m0 (("$exc", some x) :: E'.set v x) hd h')
        (block program cfg m0 (("$exc", some x) :: E') ot h')) fun E'' h => some (h, E''.drop 1, .next) := by
    rw [exec, hb]; rfl
  rw [block, this, bindS_nil]


/-- What the `try` clause must do: the model's function, whichever local variables are bound at the end. -/
def Tries (nm : Names) (env : Libsnmp.Env) (U : Nat → Prop) (a q d : Nat) (E0 : Env) (h : Heap) (o : S) (m : Except Exc Unit × Mgr k) : Prop :=
  ∃ E, (E = E0 ∨ E = E0.set "msg" (.ref h.length)) ∧ Goes nm env U a q d E h o m

theorem decode311_exception {reg : Reg} (hi : Imported reg) {D : Nat} {c : SeqCls} {data : Val} {e : Exc} (h : msgDecode311 reg D c data = .error e) :
    e.isException = true := by
  rcases msgDecode311_or reg D c data with h1 | h1
  · rw [h1] at h; cases h; rfl
  · rw [h1] at h; exact msgDecode_exc hi h

/-- `msg = Message().decode(data)`, then the rest. -/
theorem run_decodeThen (hc : Limits cfg) {reg : Reg} (hreg : ∀ n : Nat, cfg.tag n = (reg n).map cid)
    (hi : Imported reg) {U : Nat → Prop} {a q d : Nat} {h : Heap} (hb : Base h) {user : User k}
    (hu : Obeys cfg nm env U h.length a user) {s : Mgr k} {attrs : List (String × V)} (r : MgrAt nm env h a s attrs q d)
    {c : SeqCls} (hm : c = .message ∨ c = .message2) (t : Str) (ht : t.length < 10 ^ 640)
    {m0 : Module} {E : Env} {ce : Expr} {rest : List Stmt} {f : Msg → M k Unit}
    (hce : ∀ h, eval program cfg m0 E ce h = okR (.cls (cid (.seq c))) h) (hdata : E.get "data" = some (.str t))
    (hself : (E.set "msg" (.ref h.length)).get "self" = some (.ref a)) (hget : (E.set "msg" (.ref h.length)).get "msg" = some (.ref h.length))
    (hrest : ∀ h1 attrs1 m, Scene cfg nm env U h.length a q d h.length h1 user m s attrs1 (E.set "msg" (.ref h.length)) →
      Goes nm env U a q d (E.set "msg" (.ref h.length)) h1 (block program cfg m0 (E.set "msg" (.ref h.length)) rest h1) (f m s)) :
    Tries nm env U a q d E h
      (block program cfg m0 E (.assign (.loc "msg") (.call (.attr (.call ce []) "decode") [.loc "data"]) :: rest) h)
      (match msgDecode311 reg cfg.limit c (.str t) with | .ok m => f m s | .error e => (.error e, s)) := by
  obtain ⟨h1, attrs1, e1, c1, c2, c3⟩ := run_freshDecode hc hreg (imported_decodable hi) hb hm t ht
  have hce0 := hce h
  have gd : getattr program h1 (.ref h.length) "decode" = some (.meth (.ref h.length) .rfc1157 110) := by
    rcases hm with rfl | rfl <;> simp only [getattr, c1, c2] <;> rfl
  cases hd : msgDecode311 reg cfg.limit c (.str t) with
  | error e =>
    rw [hd] at c3
    obtain ⟨h2, x, d1, k2, d3⟩ := c3
    refine ⟨E, .inl rfl, h2, attrs, k2.leaves U q d r.low, k2.mgr r, ?_, x, ?_, d3⟩
    · rintro rfl; exact absurd (decode311_exception hi hd) (by simp [Exc.isException])
    · runs [↓hce0, ↓e1, ↓gd, ↓hdata, ↓d1]
  | ok m =>
    rw [hd] at c3
    obtain ⟨h2, d1, k2, rm⟩ := c3
    have hmd := msgDecode311_ok hd
    obtain ⟨h', attrs', l', r', e'⟩ := hrest h2 attrs m ⟨hu, hb.long, k2.len, k2.base, k2.mgr r, r.lt, r.qlt, r.dlt, rm, hself, hget,
      decoded_version hc hmd, decoded_pdu hmd⟩
    refine ⟨E.set "msg" (.ref h.length), .inr rfl, h', attrs', (k2.leaves U q d r.low).trans l', r', ?_⟩
    have hstep : block program cfg m0 E (.assign (.loc "msg") (.call (.attr (.call ce []) "decode") [.loc "data"]) :: rest) h =
        block program cfg m0 (E.set "msg" (.ref h.length)) rest h2 :=
      block_step (by runs [↓hce0, ↓e1, ↓gd, ↓hdata, ↓d1])
    rw [hstep]
    exact e'


/-- The local variables when the `try` begins. -/
def tryEnv (a : Nat) (x1 x2 src : V) (t : Str) : Env :=
  [("self", some (.ref a)), ("manager", some x1), ("cb_ctx", some x2), ("data_src_tuple", some (.tuple [.str t, src])),
   ("exc_tuple", some (.tuple [.none, .none, .none])), ("data", some (.str t)), ("src", some src), ("exc_type", some .none),
   ("exc_value", some .none), ("exc_traceback", some .none), ("msg", none), ("e", none)]

/-- The model's functions on a decoded message. -/
def v1On (env : Libsnmp.Env) (user : User .v1) (m : Msg) : M .v1 Unit := do
  let is0 ← M.lift (versionIs m.version 0)
  if is0 then v1Dispatch env user m else M.throw (unknownVersion m.version)

def v2On (env : Libsnmp.Env) (user : User .v2) (m : Msg) : M .v2 Unit := do
  let is0 ← M.lift (versionIs m.version 0)
  if is0 then v1Dispatch env user m
  else do
    let is1 ← M.lift (versionIs m.version 1)
    if is1 then v1Dispatch env user m
    else M.throw (unknownVersion m.version)

def smOn (env : Libsnmp.Env) (user : User .sm) (m : Msg) : M .sm Unit := do
  let is0 ← M.lift (versionIs m.version 0)
  if is0 then smHandleV1Message env user m
  else do
    let is1 ← M.lift (versionIs m.version 1)
    if is1 then smHandleV2Message env user m
    else M.throw (unknownVersion m.version)

theorem receive311_v1 (D : Nat) (user : User .v1) (data : Val) (s : Mgr .v1) :
    receiveData311 env D .v1 user data s =
      match msgDecode311 env.reg D .message data with | .ok m => v1On env user m s | .error e => (.error e, s) := by
  unfold receiveData311
  rw [if_pos rfl]
  cases hd : msgDecode311 env.reg D .message data with
  | error e => rfl
  | ok m =>
    show v1ReceiveData env user data s = _
    unfold v1ReceiveData
    rw [M.at_ok (x := M.lift (msgDecode env.reg .message data)) (v := m) (s' := s) (by rw [msgDecode311_ok hd]; rfl)]
    rfl

theorem receive311_v2 (D : Nat) (user : User .v2) (data : Val) (s : Mgr .v2) :
    receiveData311 env D .v2 user data s =
      match (match msgDecode311 env.reg D .message2 data with | .ok m => v2On env user m s | .error e => (.error e, s)) with
      | (.ok (), s') => (.ok (), s')
      | (.error e, s') => if e.isException then (.ok (), s') else (.error e, s') := by
  unfold receiveData311
  rw [if_neg (by simp)]
  cases hd : msgDecode311 env.reg D .message2 data with
  | error e => simp
  | ok m =>
    show v2ReceiveData env user data s = _
    unfold v2ReceiveData
    have : v2ReceiveBody env user data s = v2On env user m s := by
      unfold v2ReceiveBody
      rw [M.at_ok (x := M.lift (msgDecode env.reg .message2 data)) (v := m) (s' := s) (by rw [msgDecode311_ok hd]; rfl)]
      rfl
    rw [this]
    rfl

theorem receive311_sm (D : Nat) (user : User .sm) (data : Val) (s : Mgr .sm) :
    receiveData311 env D .sm user data s =
      match msgDecode311 env.reg D .message2 data with | .ok m => smOn env user m s | .error e => (.error e, s) := by
  unfold receiveData311
  rw [if_neg (by simp)]
  cases hd : msgDecode311 env.reg D .message2 data with
  | error e => simp
  | ok m =>
    show smReceiveData env user data s = _
    unfold smReceiveData
    rw [M.at_ok (x := M.lift (msgDecode env.reg .message2 data)) (v := m) (s' := s) (by rw [msgDecode311_ok hd]; rfl)]
    rfl

section
variable {U : Nat → Prop} {a q d : Nat} {h : Heap} {attrs : List (String × V)}

/-- v1.py:163-208. -/
theorem run_v1_163 (hc : Limits cfg) (hreg : Knows cfg env.reg) (hi : Imported env.reg) (hb : Base h) {user : User .v1}
    (hu : Obeys cfg nm env U h.length a user) {s : Mgr .v1} (r : MgrAt nm env h a s attrs q d)
    (t : Str) (ht : t.length < 10 ^ 640) (x1 x2 src : V) :
    ∃ h' attrs', Leaves U a q d h h' ∧ MgrAt nm env h' a (receiveData311 env cfg.limit .v1 user (.str t) s).2 attrs' q d ∧
      Ends h' (call program cfg (.func .v1 163) [.ref a, x1, x2, .tuple [.str t, src], .tuple [.none, .none, .none]] h)
        (receiveData311 env cfg.limit .v1 user (.str t) s).1 := by
  rw [call_v1_163, receive311_v1]
  have htry := run_decodeThen hc hreg hi hb hu r (.inl rfl) t ht (m0 := .v1) (E := tryEnv a x1 x2 src t) (ce := .glob "Message")
    (rest := tryRest v1_163) (f := v1On env user) (by intro h; runs; rfl) rfl rfl rfl (fun h1 attrs1 m sc => run_v1Rest sc)
  have hbody : v1_163.body = [_, _, _, .tryAs (_ :: tryRest v1_163) (some "Exception") (some "e") _ _] := rfl
  rw [hbody, block_step (E' := _) (by runs; rfl), block_step (E' := _) (by runs; rfl), block_step (E' := tryEnv a x1 x2 src t) (by runs; rfl)]
  obtain ⟨E', hE, h', attrs', l, r', e⟩ := htry
  refine ⟨h', attrs', l, r', ?_⟩
  generalize (match msgDecode311 env.reg cfg.limit .message (.str t) with | .ok m => v1On env user m s | .error e => (.error e, s)) = o at e r'
  rcases o with ⟨e1 | ⟨⟨⟩⟩, s'⟩
  · obtain ⟨hne, x, hx, hr⟩ := e
    refine ⟨hne, x, ?_, hr⟩
    rw [try_exc hx]
    have he : (Env.set E' "e" x).get "e" = some x := by rcases hE with rfl | rfl <;> rfl
    cases hcx : caught (some "Exception") x h' with
    | false => runs
    | true =>
      rw [branch_true, block_first (raised_log hr .v1 (by exact he) (.inl rfl))]
      runs
  · exact ⟨.none, by rw [try_next e]; rfl⟩

/-- v2.py:141-190.  `traceback.print_exc()` returns. -/
theorem run_v2_141 (hc : Limits cfg) (hreg : Knows cfg env.reg) (hi : Imported env.reg) (hb : Base h) {user : User .v2}
    (hprint : ∀ h, cfg.ext "traceback.print_exc" [] h = okR .none h)
    (hu : Obeys cfg nm env U h.length a user) {s : Mgr .v2} (r : MgrAt nm env h a s attrs q d)
    (t : Str) (ht : t.length < 10 ^ 640) (x1 x2 src : V) :
    ∃ h' attrs', Leaves U a q d h h' ∧ MgrAt nm env h' a (receiveData311 env cfg.limit .v2 user (.str t) s).2 attrs' q d ∧
      Ends h' (call program cfg (.func .v2 141) [.ref a, x1, x2, .tuple [.str t, src], .tuple [.none, .none, .none]] h)
        (receiveData311 env cfg.limit .v2 user (.str t) s).1 := by
  rw [call_v2_141, receive311_v2]
  have htry := run_decodeThen hc hreg hi hb hu r (.inr rfl) t ht (m0 := .v2) (E := tryEnv a x1 x2 src t) (ce := .attr (.glob "rfc1905") "Message")
    (rest := tryRest v2_141) (f := v2On env user) (by intro h; runs; rfl) rfl rfl rfl (fun h1 attrs1 m sc => run_v2Rest sc)
  have hbody : v2_141.body = [_, _, _, .tryAs (_ :: tryRest v2_141) (some "Exception") (some "e") _ _] := rfl
  rw [hbody, block_step (E' := _) (by runs; rfl), block_step (E' := _) (by runs; rfl), block_step (E' := tryEnv a x1 x2 src t) (by runs; rfl)]
  obtain ⟨E', hE, h', attrs', l, r', e⟩ := htry
  generalize (match msgDecode311 env.reg cfg.limit .message2 (.str t) with | .ok m => v2On env user m s | .error e => (.error e, s)) = o at e r'
  rcases o with ⟨e1 | ⟨⟨⟩⟩, s'⟩
  · obtain ⟨hne, x, hx, hr⟩ := e
    rw [try_exc hx, raised_caught hr hne]
    have he : (Env.set E' "e" x).get "e" = some x := by rcases hE with rfl | rfl <;> rfl
    cases hex : e1.isException with
    | false =>
      dsimp only
      rw [hex, if_neg (by simp)]
      exact ⟨h', attrs', l, r', hne, x, by runs, hr⟩
    | true =>
      dsimp only
      rw [hex, if_pos rfl]
      refine ⟨h', attrs', l, r', .none, ?_⟩
      rw [branch_true, block_first (raised_log hr .v2 (by exact he) (.inr rfl))]
      have hp : call program cfg (.ext ("traceback" ++ "." ++ "print_exc")) [] h' = okR .none h' := by rw [call]; exact hprint h'
      runs [↓hp]
  · exact ⟨h', attrs', l, r', .none, by rw [try_next e]; rfl⟩

/-- snmpmanager.py:254-282: the rest after decoding. -/
theorem run_smRest {n b : Nat} {user : User .sm} {m : Msg} {s : Mgr .sm} {E : Env}
    (sc : Scene cfg nm env U n a q d b h user m s attrs E) :
    Goes nm env U a q d E h (block program cfg .snmpmanager E (snmpmanager_254.body.drop 4) h) (smOn env user m s) := by
  have hv := eval_version (cfg := cfg) sc.msg .snmpmanager sc.emsg 0
  have hv' := eval_version (cfg := cfg) sc.msg .snmpmanager sc.emsg 1
  have e1 := sc.self
  have e2 := sc.emsg
  have g1 := sc.mgr.meth (name := "handleV1Message") (m := .snmpmanager) (l := 284) rfl
  have g2 := sc.mgr.meth (name := "handleV2Message") (m := .snmpmanager) (l := 300) rfl
  unfold smOn
  rw [M.at_ok (x := M.lift (versionIs m.version 0)) (s' := s) (by rw [versionIs_eq]; rfl)]
  have hrest : snmpmanager_254.body.drop 4 = [
    .ifS (.cmp .eq (.attr (.loc "msg") "version") (.int 0))
      [.expr (.call (.attr (.loc "self") "handleV1Message") [.loc "msg"])]
      [.ifS (.cmp .eq (.attr (.loc "msg") "version") (.int 1))
         [.expr (.call (.attr (.loc "self") "handleV2Message") [.loc "msg"])]
         unknownS]] := rfl
  rw [hrest, block_if hv]
  cases h0 : decide (Spec.versionNo m = some 0) with
  | true =>
    rw [if_pos rfl, if_pos rfl]
    obtain ⟨h', attrs', l, r', e⟩ := run_sm_284 sc
    refine ⟨h', attrs', l, r', ?_⟩
    rcases hres : smHandleV1Message env user m s with ⟨e3 | ⟨⟨⟩⟩, s'⟩
    · rw [hres] at e
      obtain ⟨hne, x, hx, hr⟩ := e
      exact ⟨hne, x, by runs [↓e1, ↓e2, ↓g1, ↓hx], hr⟩
    · rw [hres] at e
      obtain ⟨x, hx⟩ := e
      show block program cfg .snmpmanager E _ h = some (h', E, .next)
      runs [↓e1, ↓e2, ↓g1, ↓hx]
  | false =>
    rw [if_neg (by simp), if_neg (by simp), M.at_ok (x := M.lift (versionIs m.version 1)) (s' := s) (by rw [versionIs_eq]; rfl), block_if hv']
    cases h1 : decide (Spec.versionNo m = some 1) with
    | true =>
      rw [if_pos rfl, if_pos rfl]
      obtain ⟨h', attrs', l, r', e⟩ := run_sm_300 sc
      refine ⟨h', attrs', l, r', ?_⟩
      rcases hres : smHandleV2Message env user m s with ⟨e3 | ⟨⟨⟩⟩, s'⟩
      · rw [hres] at e
        obtain ⟨hne, x, hx, hr⟩ := e
        exact ⟨hne, x, by runs [↓e1, ↓e2, ↓g2, ↓hx], hr⟩
      · rw [hres] at e
        obtain ⟨x, hx⟩ := e
        show block program cfg .snmpmanager E _ h = some (h', E, .next)
        runs [↓e1, ↓e2, ↓g2, ↓hx]
    | false =>
      rw [if_neg (by simp), if_neg (by simp)]
      obtain ⟨y, hy, ry⟩ := sc.unknown (m0 := .snmpmanager) (.inr (.inr rfl))
      exact ⟨h, attrs, Leaves.refl sc.base, sc.mgr, unknown_ne _, y, hy, ry⟩

/-- snmpmanager.py:254-282. -/
theorem run_sm_254 (hc : Limits cfg) (hreg : Knows cfg env.reg) (hi : Imported env.reg) (hb : Base h) {user : User .sm}
    (hu : Obeys cfg nm env U h.length a user) {s : Mgr .sm} (r : MgrAt nm env h a s attrs q d)
    (t : Str) (ht : t.length < 10 ^ 640) (x1 x2 src : V) :
    ∃ h' attrs', Leaves U a q d h h' ∧ MgrAt nm env h' a (receiveData311 env cfg.limit .sm user (.str t) s).2 attrs' q d ∧
      Ends h' (call program cfg (.func .snmpmanager 254) [.ref a, x1, x2, .tuple [.str t, src], .tuple [.none, .none, .none]] h)
        (receiveData311 env cfg.limit .sm user (.str t) s).1 := by
  rw [call_snmpmanager_254, receive311_sm]
  have htry := run_decodeThen hc hreg hi hb hu r (.inr rfl) t ht (m0 := .snmpmanager) (E := (tryEnv a x1 x2 src t).take 11)
    (ce := .attr (.glob "rfc1905") "Message") (rest := snmpmanager_254.body.drop 4) (f := smOn env user) (by intro h; runs; rfl) rfl rfl rfl
    (fun h1 attrs1 m sc => run_smRest sc)
  have hbody : snmpmanager_254.body = _ :: _ :: _ :: .assign (.loc "msg") _ :: snmpmanager_254.body.drop 4 := rfl
  rw [hbody, block_step (E' := _) (by runs; rfl), block_step (E' := _) (by runs; rfl),
    block_step (E' := (tryEnv a x1 x2 src t).take 11) (by runs; rfl)]
  obtain ⟨E', -, h', attrs', l, r', e⟩ := htry
  refine ⟨h', attrs', l, r', ?_⟩
  generalize (match msgDecode311 env.reg cfg.limit .message2 (.str t) with | .ok m => smOn env user m s | .error e => (.error e, s)) = o at e r'
  rcases o with ⟨e1 | ⟨⟨⟩⟩, s'⟩
  · obtain ⟨hne, x, hx, hr⟩ := e
    exact ⟨hne, x, by rw [hx]; rfl, hr⟩
  · have e : _ = some (h', E', Flow.next) := e
    exact ⟨.none, by rw [e]; rfl⟩

end

end Libsnmp.Src
