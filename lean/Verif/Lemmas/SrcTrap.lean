import Verif.Lemmas.SrcUptime
import Verif.Lemmas.SrcOct
import Verif.Lemmas.SrcFin
import Verif.Lemmas.SrcMgr6

/-!
# Building a trap
-/

namespace Libsnmp.Src
open Libsnmp

variable {cfg : Cfg}

/-- The local variables of the three methods. -/
def trapEnv (vs : Env) (self vb ent0 addr g s : V) (ent agent gT sT ts pdu : Option V) : Env :=
  [("self", some self), ("varbindlist", some vb)] ++ vs ++ [("enterprise", some ent0), ("agentAddr", some addr), ("genericTrap", some g),
    ("specificTrap", some s), ("ent", ent), ("agent", agent), ("gTrap", gT), ("sTrap", sT), ("ts", ts), ("pdu", pdu)]

/-- The statements from `agent = …` to `pdu = …`, with what stands for the classes. -/
def trapTail (cNet cGen cInt cTim cTrap : Expr) (rest : List Stmt) : List Stmt :=
  .assign (.loc "agent") (.call cNet [.loc "agentAddr"]) ::
  .assign (.loc "gTrap") (.call cGen [.loc "genericTrap"]) ::
  .assign (.loc "sTrap") (.call cInt [.loc "specificTrap"]) ::
  .assign (.loc "ts") (.call cTim [.call (.attr (.loc "self") "getSysUptime") []]) ::
  .assign (.loc "pdu") (.call cTrap [.loc "ent", .loc "agent", .loc "gTrap", .loc "sTrap", .loc "ts", .loc "varbindlist"]) :: rest

/-- What those statements must make. -/
def tailModel (ent : Val) (addr : Arg) (g s up : Int) (vb : Val) : Except Exc Val := do
  let agent ← mkIPAddress .networkAddress addr
  let gTrap ← mkInteger .genericTrap g
  let sTrap ← mkInteger .integer s
  let ts ← mkInteger .timeTicks up
  .ok (mkTrap ent agent gTrap sTrap ts vb)

theorem asg_ok {m : Module} {E : Env} {e : Expr} {h h' : Heap} {v : V} {x : String} {rest : List Stmt}
    (he : eval program cfg m E e h = okR v h') :
    block program cfg m E (.assign (.loc x) e :: rest) h = block program cfg m (E.set x v) rest h' := by
  conv => lhs; rw [block]
  rw [exec, he]; dsimp only [bindE, okR]; rw [assign]; rfl

theorem asg_exc {m : Module} {E : Env} {e : Expr} {h h' : Heap} {v : V} {x : String} {rest : List Stmt}
    (he : eval program cfg m E e h = excR v h') :
    block program cfg m E (.assign (.loc x) e :: rest) h = some (h', E, .exc v) := by
  rw [block, exec, he]; rfl

theorem eval_call1 {m : Module} {E : Env} {c : Expr} {f : V} {x : String} {v : V} {h : Heap}
    (hc : ∀ env h, eval program cfg m env c h = okR f h) (hx : E.get x = some v) :
    eval program cfg m E (.call c [.loc x]) h = call program cfg f [v] h := by
  runs [hc, hx]

theorem raised_mkIP {c : OctCls} {addr : Arg} {e : Exc} (h1 : mkIPAddress c addr = .error e) {args : List V} (h : Heap) :
    Raised h e (.exc (excName e) args) := by
  have : e = .valueError ∨ e = .overflowError := by
    unfold mkIPAddress at h1
    split at h1
    · dsimp only at h1
      split at h1
      · cases h1; exact .inl rfl
      · split at h1
        · rename_i h2; cases h1; exact ipParse_errs h2
        · cases h1
    · split at h1
      · cases h1; exact .inl rfl
      · cases h1
    · cases h1
  rcases this with rfl | rfl
  · exact ⟨_, rfl⟩
  · exact ⟨_, rfl⟩

theorem run_trapTail (hc : Limits cfg) {m : Module} {cNet cGen cInt cTim cTrap : Expr}
    (hNet : ∀ env h, eval program cfg m env cNet h = okR (.cls (cid (.oct .networkAddress))) h)
    (hGen : ∀ env h, eval program cfg m env cGen h = okR (.cls (cid (.int .genericTrap))) h)
    (hInt : ∀ env h, eval program cfg m env cInt h = okR (.cls (cid (.int .integer))) h)
    (hTim : ∀ env h, eval program cfg m env cTim h = okR (.cls (cid (.int .timeTicks))) h)
    (hTrap : ∀ env h, eval program cfg m env cTrap h = okR (.cls (cid (.seq .trapPDU))) h)
    {vs : Env} (hvs : vs = [] ∨ ∃ v, vs = [("version", some v)]) {fn : Module × Nat} (hf : fn = (.v1, 236) ∨ fn = (.snmpmanager, 344))
    {file : Option Str} (hw : UptimeFile cfg file) {h : Heap} (hb : Base h) {a : Nat} (h9 : 9 ≤ a) (hlt : a < h.length)
    (hm : ∀ h' : Heap, h'[a]? = h[a]? → getattr program h' (.ref a) "getSysUptime" = some (.meth (.ref a) fn.1 fn.2))
    {addr : Arg} {y ent0 xe xv : V} {ve vv : Val} (ry : RepArg 9 h addr y) (hl : ∀ l, addr ≠ .list l) (ho : ∀ v, addr ≠ .obj v)
    (hn : ∀ s, addr = .str s → Short cfg s) (re : Rep 9 h ve xe) (rv : Rep 9 h vv xv) (g s : Int) (rest : List Stmt) :
    ∃ h', Kept h.length h h' ∧ match tailModel ve addr g s (getSysUptime file) vv with
      | .ok v => ∃ x2 x3 x4 x5 x, block program cfg m (trapEnv vs (.ref a) xv ent0 y (.int g) (.int s) (some xe) none none none none none)
          (trapTail cNet cGen cInt cTim cTrap rest) h =
          block program cfg m (trapEnv vs (.ref a) xv ent0 y (.int g) (.int s) (some xe) x2 x3 x4 x5 (some x)) rest h' ∧ Rep 9 h' v x
      | .error e => ∃ E x, block program cfg m (trapEnv vs (.ref a) xv ent0 y (.int g) (.int s) (some xe) none none none none none)
          (trapTail cNet cGen cInt cTim cTrap rest) h = some (h', E, .exc x) ∧ Raised h' e x := by
  have k1 := run_mkIP (cfg := cfg) hb .networkAddress (.inr rfl) ry hl ho hn
  unfold tailModel trapTail
  cases e1 : mkIPAddress .networkAddress addr with
  | error e =>
    rw [e1] at k1
    obtain ⟨h1, args, c1, kept⟩ := k1
    refine ⟨h1, kept, _, _, asg_exc ((eval_call1 hNet (by rcases hvs with rfl | ⟨v, rfl⟩ <;> rfl)).trans c1), raised_mkIP e1 _⟩
  | ok vn =>
    rw [e1] at k1
    obtain ⟨h1, x2, c1, kept1, r2⟩ := k1
    have s1 : ∀ rest, block program cfg m (trapEnv vs (.ref a) xv ent0 y (.int g) (.int s) (some xe) none none none none none)
        (.assign (.loc "agent") (.call cNet [.loc "agentAddr"]) :: rest) h =
        block program cfg m (trapEnv vs (.ref a) xv ent0 y (.int g) (.int s) (some xe) (some x2) none none none none) rest h1 := by
      intro rest
      rw [asg_ok ((eval_call1 hNet (by rcases hvs with rfl | ⟨v, rfl⟩ <;> rfl)).trans c1)]
      rcases hvs with rfl | ⟨v, rfl⟩ <;> rfl
    rw [s1]
    have k2 := run_newInt (cfg := cfg) hc (c := .genericTrap) (by decide) g h1
    by_cases g1 : IntCls.genericTrap.minVal ≤ g ∧ g ≤ IntCls.genericTrap.maxVal
    case neg =>
      rw [if_neg g1] at k2
      obtain ⟨args, c2⟩ := k2
      simp only [bind, Except.bind, mkInteger, if_neg g1]
      exact ⟨_, kept1.app' _ kept1.len, _, _, asg_exc ((eval_call1 hGen (by rcases hvs with rfl | ⟨v, rfl⟩ <;> rfl)).trans c2), _, rfl⟩
    rw [if_pos g1] at k2
    obtain ⟨h2, e2⟩ : ∃ h2, h2 = h1 ++ [.inst (cid (.int .genericTrap)) [("value", .int g)]] := ⟨_, rfl⟩
    rw [← e2] at k2
    have kept2 : Kept h.length h h2 := e2 ▸ kept1.app' _ kept1.len
    have s2 : ∀ rest, block program cfg m (trapEnv vs (.ref a) xv ent0 y (.int g) (.int s) (some xe) (some x2) none none none none)
        (.assign (.loc "gTrap") (.call cGen [.loc "genericTrap"]) :: rest) h1 =
        block program cfg m (trapEnv vs (.ref a) xv ent0 y (.int g) (.int s) (some xe) (some x2) (some (.ref h1.length)) none none none) rest h2 := by
      intro rest
      rw [asg_ok ((eval_call1 hGen (by rcases hvs with rfl | ⟨v, rfl⟩ <;> rfl)).trans k2)]
      rcases hvs with rfl | ⟨v, rfl⟩ <;> rfl
    rw [s2]
    have k3 := run_newInt (cfg := cfg) hc (c := .integer) (by decide) s h2
    by_cases g2 : IntCls.integer.minVal ≤ s ∧ s ≤ IntCls.integer.maxVal
    case neg =>
      rw [if_neg g2] at k3
      obtain ⟨args, c3⟩ := k3
      simp only [bind, Except.bind, mkInteger, if_pos g1, if_neg g2]
      exact ⟨_, kept2.app' _ kept2.len, _, _, asg_exc ((eval_call1 hInt (by rcases hvs with rfl | ⟨v, rfl⟩ <;> rfl)).trans c3), _, rfl⟩
    rw [if_pos g2] at k3
    obtain ⟨h3, e3⟩ : ∃ h3, h3 = h2 ++ [.inst (cid (.int .integer)) [("value", .int s)]] := ⟨_, rfl⟩
    rw [← e3] at k3
    have kept3 : Kept h.length h h3 := e3 ▸ kept2.app' _ kept2.len
    have s3 : ∀ rest, block program cfg m (trapEnv vs (.ref a) xv ent0 y (.int g) (.int s) (some xe) (some x2) (some (.ref h1.length)) none none none)
        (.assign (.loc "sTrap") (.call cInt [.loc "specificTrap"]) :: rest) h2 =
        block program cfg m (trapEnv vs (.ref a) xv ent0 y (.int g) (.int s) (some xe) (some x2) (some (.ref h1.length)) (some (.ref h2.length)) none none) rest h3 := by
      intro rest
      rw [asg_ok ((eval_call1 hInt (by rcases hvs with rfl | ⟨v, rfl⟩ <;> rfl)).trans k3)]
      rcases hvs with rfl | ⟨v, rfl⟩ <;> rfl
    rw [s3]
    obtain ⟨t, k4⟩ := run_uptime hf hw (.ref a) h3
    have hg := hm h3 (kept3.same a h9 hlt)
    obtain ⟨h4, e4⟩ : ∃ h4, h4 = h3 ++ t := ⟨_, rfl⟩
    rw [← e4] at k4
    have kept4 : Kept h.length h h4 := e4 ▸ kept3.app' _ kept3.len
    have ev : ∀ E : Env, E.get "self" = some (.ref a) → eval program cfg m E (.call cTim [.call (.attr (.loc "self") "getSysUptime") []]) h3 =
        call program cfg (.cls (cid (.int .timeTicks))) [.int (getSysUptime file)] h4 := by
      intro E hE
      have hmeth : call program cfg (.meth (.ref a) fn.1 fn.2) [] h3 = okR (.int (getSysUptime file)) h4 := by
        rw [← k4]; runs
      runs [hTim, hE, hg, ↓hmeth]
    have k5 := run_newInt (cfg := cfg) hc (c := .timeTicks) (by decide) (getSysUptime file) h4
    by_cases g3 : IntCls.timeTicks.minVal ≤ getSysUptime file ∧ getSysUptime file ≤ IntCls.timeTicks.maxVal
    case neg =>
      rw [if_neg g3] at k5
      obtain ⟨args, c5⟩ := k5
      simp only [bind, Except.bind, mkInteger, if_pos g1, if_pos g2, if_neg g3]
      exact ⟨_, kept4.app' _ kept4.len, _, _, asg_exc ((ev _ (by rcases hvs with rfl | ⟨v, rfl⟩ <;> rfl)).trans c5), _, rfl⟩
    rw [if_pos g3] at k5
    obtain ⟨h5, e5⟩ : ∃ h5, h5 = h4 ++ [.inst (cid (.int .timeTicks)) [("value", .int (getSysUptime file))]] := ⟨_, rfl⟩
    rw [← e5] at k5
    have kept5 : Kept h.length h h5 := e5 ▸ kept4.app' _ kept4.len
    have s4 : ∀ rest, block program cfg m (trapEnv vs (.ref a) xv ent0 y (.int g) (.int s) (some xe) (some x2) (some (.ref h1.length)) (some (.ref h2.length)) none none)
        (.assign (.loc "ts") (.call cTim [.call (.attr (.loc "self") "getSysUptime") []]) :: rest) h3 =
        block program cfg m (trapEnv vs (.ref a) xv ent0 y (.int g) (.int s) (some xe) (some x2) (some (.ref h1.length)) (some (.ref h2.length))
          (some (.ref h4.length)) none) rest h5 := by
      intro rest
      rw [asg_ok ((ev _ (by rcases hvs with rfl | ⟨v, rfl⟩ <;> rfl)).trans k5)]
      rcases hvs with rfl | ⟨v, rfl⟩ <;> rfl
    rw [s4]
    have k6 := run_newTrap (cfg := cfg) h5 xe x2 (.ref h1.length) (.ref h2.length) (.ref h4.length) xv
    simp only [bind, Except.bind, mkInteger, if_pos g1, if_pos g2, if_pos g3]
    obtain ⟨h6, e6⟩ : ∃ h6, h6 = h5 ++ [.inst (cid (.seq .trapPDU)) [("value", .ref (h5.length + 2)), ("enterprise", xe), ("agentAddr", x2),
      ("genericTrap", .ref h1.length), ("specificTrap", .ref h2.length), ("timestamp", .ref h4.length), ("varBindList", xv)], .list [],
      .list [xe, x2, .ref h1.length, .ref h2.length, .ref h4.length, xv]] := ⟨_, rfl⟩
    rw [← e6] at k6
    have kept6 : Kept h.length h h6 := e6 ▸ kept5.app' _ kept5.len
    refine ⟨h6, kept6, some x2, some (.ref h1.length), some (.ref h2.length), some (.ref h4.length), .ref h5.length, ?_, ?_⟩
    · rw [asg_ok (v := .ref h5.length) (h' := h6) (Eq.trans ?_ k6)]
      · rcases hvs with rfl | ⟨v, rfl⟩ <;> rfl
      · rcases hvs with rfl | ⟨v, rfl⟩ <;> runs [hTrap, trapEnv, List.cons_append, List.nil_append]
    · have hlen := hb.long
      have l1 := kept1.len
      have l2 := congrArg List.length e2
      have l3 := congrArg List.length e3
      have l4 := congrArg List.length e4
      have l5 := congrArg List.length e5
      simp only [List.length_append, List.length_cons, List.length_nil] at l2 l3 l4 l5
      have up2 : ∀ b, b < h2.length → h6[b]? = h2[b]? := by
        intro b hlt
        rw [e6, List.getElem?_append_left (by omega), e5, List.getElem?_append_left (by omega), e4, List.getElem?_append_left (by omega),
          e3, List.getElem?_append_left (by omega)]
      have r1 : Rep 9 h6 ve xe := re.same (kept6.asn (Nat.le_refl _))
      have rV : Rep 9 h6 vv xv := rv.same (kept6.asn (Nat.le_refl _))
      have rA : Rep 9 h6 vn x2 := Rep.congr (lo := h.length) (by omega) (fun b c _ hbc => by
        have := lt_of_get hbc
        rw [up2 b (by omega), e2, List.getElem?_append_left (by omega), hbc]) _ _ r2
      have rG : Rep 9 h6 (.integer .genericTrap g) (.ref h1.length) := by
        rw [Rep]
        refine ⟨_, [("value", .int g)], rfl, by omega, ?_, plain _, rfl⟩
        rw [up2 _ (by omega), e2]; exact get_app _ _
      have rS : Rep 9 h6 (.integer .integer s) (.ref h2.length) := by
        rw [Rep]
        refine ⟨_, [("value", .int s)], rfl, by omega, ?_, plain _, rfl⟩
        rw [e6, List.getElem?_append_left (by omega), e5, List.getElem?_append_left (by omega), e4, List.getElem?_append_left (by omega), e3]
        exact get_app _ _
      have rT : Rep 9 h6 (.integer .timeTicks (getSysUptime file)) (.ref h4.length) := by
        rw [Rep]
        refine ⟨_, [("value", .int (getSysUptime file))], rfl, by omega, ?_, plain _, rfl⟩
        rw [e6, List.getElem?_append_left (by omega), e5]
        exact get_app _ _
      unfold mkTrap
      rw [Rep]
      refine ⟨h5.length, [("value", .ref (h5.length + 2)), ("enterprise", xe), ("agentAddr", x2), ("genericTrap", .ref h1.length),
        ("specificTrap", .ref h2.length), ("timestamp", .ref h4.length), ("varBindList", xv)], h5.length + 2, [xe, x2, .ref h1.length, .ref h2.length, .ref h4.length, xv], rfl, by omega, ?_,
        plain _, rfl, by omega, ?_, rfl, ?_⟩
      · rw [e6]; exact get_app _ _
      · rw [e6]; exact get_app_add _ _ _
      · simp only [RepAll]
        exact ⟨_, _, rfl, r1, _, _, rfl, rA, _, _, rfl, rG, _, _, rfl, rS, _, _, rfl, rT, _, _, rfl, rV, rfl⟩

end Libsnmp.Src
