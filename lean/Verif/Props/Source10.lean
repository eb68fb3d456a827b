import Verif.Lemmas.SrcTrap
import Verif.Props.Source9

/-!
# C101: the helper methods of managers, on the source text
-/

namespace Libsnmp.Src
open Libsnmp Spec

variable {cfg : Cfg} {nm : Names} {env : Libsnmp.Env}

/-- Where `getSysUptime` stands. -/
def uptimeFn : Libsnmp.Kind → Module × Nat
  | .sm => (.snmpmanager, 344)
  | _ => (.v1, 236)

theorem uptimeFn_eq (k : Libsnmp.Kind) : uptimeFn k = (.v1, 236) ∨ uptimeFn k = (.snmpmanager, 344) := by cases k <;> simp [uptimeFn]

theorem uptimeFn_attr (k : Libsnmp.Kind) : program.attr (mgrCid k) "getSysUptime" = some (.func (uptimeFn k).1 (uptimeFn k).2) := by
  cases k <;> rfl

/-- C101. `getSysUptime()` of every manager is the model's: the first word of /proc/uptime as a float, times a hundred, cut off;
0 if anything goes wrong. -/
theorem C101_uptime {k : Libsnmp.Kind} {h : Heap} {a : Nat} {s : Mgr k} (r : MgrRep nm env h a s) {file : Option Str}
    (hw : UptimeFile cfg file) :
    ∃ h', callMethod cfg (.ref a) "getSysUptime" [] h = okR (.int (getSysUptime file)) h' ∧ ∀ b, b < h.length → h'[b]? = h[b]? := by
  obtain ⟨attrs, q, d, r⟩ := r
  obtain ⟨t, e⟩ := run_uptime (uptimeFn_eq k) hw (.ref a) h
  refine ⟨h ++ t, ?_, fun b hlt => List.getElem?_append_left hlt⟩
  rw [callMgr_eq r (uptimeFn_attr k)]
  exact e

/-- C101. `enterpriseOID(text)` puts `.1.3.6.1.2.1.` before the text. -/
theorem C101_enterpriseOID {k : Libsnmp.Kind} {h : Heap} {a : Nat} {s : Mgr k} (r : MgrRep nm env h a s) (t : Str) :
    callMethod cfg (.ref a) "enterpriseOID" [.str t] h = okR (.str (enterpriseOID t)) h := by
  obtain ⟨attrs, q, d, r⟩ := r
  cases k with
  | v1 => rw [callMgr_eq r (m := .v1) (l := 210) rfl]; runs [call_v1_210, v1_210, enterpriseOID]
  | v2 => rw [callMgr_eq r (m := .v1) (l := 210) rfl]; runs [call_v1_210, v1_210, enterpriseOID]
  | sm => rw [callMgr_eq r (m := .snmpmanager) (l := 316) rfl]; runs [call_snmpmanager_316, snmpmanager_316, enterpriseOID]

/-- The table `typeValDict`. -/
def typeTable : List (V × V) :=
  [(.str (lit "i"), .int 2), (.str (lit "s"), .int 4), (.str (lit "o"), .int 6), (.str (lit "t"), .int 67), (.str (lit "a"), .int 64),
   (.str (lit "c"), .int 65), (.str (lit "C"), .int 70)]

theorem typeTable_get (t : Str) : (match typeSetter t with
    | .ok n => getKey typeTable (.str t) = some (.int n)
    | .error e => e = .keyError ∧ getKey typeTable (.str t) = none) := by
  have hl : lit "i" = [105] ∧ lit "s" = [115] ∧ lit "o" = [111] ∧ lit "t" = [116] ∧ lit "a" = [97] ∧ lit "c" = [99] ∧ lit "C" = [67] := by
    decide +kernel
  obtain ⟨l1, l2, l3, l4, l5, l6, l7⟩ := hl
  unfold typeSetter typeTable getKey
  rw [l1, l2, l3, l4, l5, l6, l7]
  by_cases h1 : t = [105]
  · subst h1; rfl
  by_cases h2 : t = [115]
  · subst h2; rfl
  by_cases h3 : t = [111]
  · subst h3; rfl
  by_cases h4 : t = [116]
  · subst h4; rfl
  by_cases h5 : t = [97]
  · subst h5; rfl
  by_cases h6 : t = [99]
  · subst h6; rfl
  by_cases h7 : t = [67]
  · subst h7; rfl
  have hk : ∀ u : Str, t ≠ u → keyEq (.str u) (.str t) = false := by
    intro u hu
    simp only [keyEq, beq_eq_false_iff_ne]
    exact fun e => hu e.symm
  simp only [if_neg h1, if_neg h2, if_neg h3, if_neg h4, if_neg h5, if_neg h6, if_neg h7, List.find?, hk _ h1, hk _ h2, hk _ h3, hk _ h4, hk _ h5,
    hk _ h6, hk _ h7]
  exact ⟨trivial, rfl⟩

/-- C101. `snmpManager.typeSetter(text)` looks the text up in the table `typeValDict`. -/
theorem C101_typeSetter {h : Heap} (h9 : h[9]? = statics[9]?) {a : Nat} {s : Mgr .sm} (r : MgrRep nm env h a s) (t : Str) :
    callMethod cfg (.ref a) "typeSetter" [.str t] h = match typeSetter t with
      | .ok n => okR (.int n) h
      | .error e => excR (.exc (excName e) []) h := by
  obtain ⟨attrs, q, d, r⟩ := r
  rw [callMgr_eq r (m := .snmpmanager) (l := 361) rfl]
  have hd : h[9]? = some (.dict typeTable) := h9
  have ht := typeTable_get t
  split at ht
  · rename_i n hn
    runs [call_snmpmanager_361, snmpmanager_361, hd, ht]
  · rename_i e he
    obtain ⟨rfl, ht⟩ := ht
    runs [call_snmpmanager_361, snmpmanager_361, hd, ht, excName]

/-! ## Traps -/

theorem getattr_absent {k : Libsnmp.Kind} {h : Heap} {a q d : Nat} {s : Mgr k} {attrs : List (String × V)} (r : MgrAt nm env h a s attrs q d)
    {h' : Heap} (hs : h'[a]? = h[a]?) : getattr program h' (.ref a) "getsockname" = none := by
  have hc : h'[a]? = some (.inst (mgrCid k) attrs) := by rw [hs, r.cell]
  have hl := names_none r.names (a := "getsockname")
  cases k <;> simp only [getattr, hc, hl] <;> rfl

theorem getattr_uptime {k : Libsnmp.Kind} {h : Heap} {a q d : Nat} {s : Mgr k} {attrs : List (String × V)} (r : MgrAt nm env h a s attrs q d)
    {h' : Heap} (hs : h'[a]? = h[a]?) :
    getattr program h' (.ref a) "getSysUptime" = some (.meth (.ref a) (uptimeFn k).1 (uptimeFn k).2) := by
  have hc : h'[a]? = some (.inst (mgrCid k) attrs) := by rw [hs, r.cell]
  have hl := names_none r.names (a := "getSysUptime")
  cases k <;> simp only [getattr, hc, hl] <;> rfl

/-- The agent address counts as given. -/
def Given (k : Libsnmp.Kind) : Arg → Bool
  | .none => false
  | .str s => k = .sm || !s.isEmpty
  | .bytes s => k = .sm || !s.isEmpty
  | .int n => k = .sm || n != 0
  | .list l => k = .sm || !l.isEmpty
  | .tuple l => k = .sm || !l.isEmpty
  | .obj v => k = .sm || v.truthy

/-- `mkOid enterprise`, then the rest. -/
def buildModel (enterprise addr : Arg) (g s up : Int) (vb : Val) : Except Exc Val :=
  match mkOid enterprise with
  | .error e => .error e
  | .ok ent => tailModel (.oid ent) addr g s up vb

theorem createTrap12 {k : Libsnmp.Kind} (hk : k ≠ .sm) (vb : Val) (version : Int) (enterprise addr : Arg) (g s up : Int) :
    createTrapPDU k vb version enterprise addr g s up = match mkOid enterprise with
      | .error e => .error e
      | .ok ent => if Given k addr then tailModel (.oid ent) addr g s up vb else .error .attributeError := by
  have hsm : ∀ b c : Bool, (if k = .sm then b else c) = c := fun b c => if_neg hk
  have key : ∀ absent : Bool, absent = !Given k addr → (do
      let ent ← mkOid enterprise
      if absent then .error .attributeError
      else do
        let agent ← mkIPAddress .networkAddress addr
        let gTrap ← mkInteger .genericTrap g
        let sTrap ← mkInteger .integer s
        let ts ← mkInteger .timeTicks up
        .ok (mkTrap (.oid ent) agent gTrap sTrap ts vb)) = match mkOid enterprise with
      | .error e => .error e
      | .ok ent => if Given k addr then tailModel (.oid ent) addr g s up vb else .error .attributeError := by
    rintro absent rfl
    cases mkOid enterprise with
    | error e => rfl
    | ok v => cases Given k addr <;> rfl
  cases k with
  | sm => exact absurd rfl hk
  | v1 | v2 =>
    refine key _ ?_
    cases addr <;> simp [Given, bne]

theorem createTrapSm (vb : Val) (version : Int) (enterprise addr : Arg) (g s up : Int) :
    createTrapPDU .sm vb version enterprise addr g s up = if Given .sm addr = false then .error .attributeError
      else if version = 1 ∨ version = 2 then buildModel enterprise addr g s up vb else .error .unboundLocalError := by
  unfold createTrapPDU buildModel
  cases addr <;> cases mkOid enterprise <;> simp [bind, Except.bind, tailModel, Given]

theorem TrapGiven.agentAt {h : Heap} {vb : Val} {enterprise addr : Arg} {xv xe xa : V} (t : TrapGiven cfg h vb enterprise addr xv xe xa)
    (h' : Heap) : RepArg 9 h' addr xa := by
  have ra := t.agent
  cases addr with
  | list l => exact absurd rfl (t.noList l)
  | obj v => exact absurd rfl (t.noObj v)
  | _ => exact ra

theorem truth_given {k : Libsnmp.Kind} (hk : k ≠ .sm) {h : Heap} {vb : Val} {enterprise addr : Arg} {xv xe xa : V}
    (t : TrapGiven cfg h vb enterprise addr xv xe xa) (h' : Heap) : truth program cfg xa h' = okR (Given k addr) h' := by
  have ra := t.agent
  cases addr with
  | none => cases ra; rw [truth]; rfl
  | str s => cases ra; rw [truth]; simp [Given, hk]
  | bytes s => cases ra
  | int n => cases ra; rw [truth]; simp [Given, hk]
  | list l => exact absurd rfl (t.noList l)
  | tuple l => cases ra; rw [truth]; simp [Given, hk]
  | obj v => exact absurd rfl (t.noObj v)

/-- The two functions. -/
theorem run_trap12 (hc : Limits cfg) {k : Libsnmp.Kind} (hk : k ≠ .sm) {h : Heap} (hb : Base h) {a q d : Nat} {st : Mgr k}
    {attrs : List (String × V)} (r : MgrAt nm env h a st attrs q d) {file : Option Str} (hw : UptimeFile cfg file) {vb : Val} {enterprise addr : Arg}
    {xv xe xa : V} (t : TrapGiven cfg h vb enterprise addr xv xe xa) (version g s : Int) {m : Module} {body : List Stmt}
    {cOid cNet cGen cInt cTim cTrap : Expr}
    (hOid : ∀ env h, eval program cfg m env cOid h = okR (.cls (cid .oid)) h)
    (hNet : ∀ env h, eval program cfg m env cNet h = okR (.cls (cid (.oct .networkAddress))) h)
    (hGen : ∀ env h, eval program cfg m env cGen h = okR (.cls (cid (.int .genericTrap))) h)
    (hInt : ∀ env h, eval program cfg m env cInt h = okR (.cls (cid (.int .integer))) h)
    (hTim : ∀ env h, eval program cfg m env cTim h = okR (.cls (cid (.int .timeTicks))) h)
    (hTrap : ∀ env h, eval program cfg m env cTrap h = okR (.cls (cid (.seq .trapPDU))) h)
    (hbody : body = .assign (.loc "ent") (.call cOid [.loc "enterprise"]) ::
      .ifS (.not (.loc "agentAddr")) [.assign (.loc "agentAddr") (.index (.call (.attr (.loc "self") "getsockname") []) (.int 0))] [] ::
      trapTail cNet cGen cInt cTim cTrap [.ret (.loc "pdu")]) :
    Builds h (result (block program cfg m (trapEnv [] (.ref a) xv xe xa (.int g) (.int s) none none none none none none) body h))
      (createTrapPDU k vb version enterprise addr g s (getSysUptime file)) := by
  subst hbody
  rw [createTrap12 hk]
  have k1 := run_mkOid (cfg := cfg) hb t.ent t.entShort
  cases e1 : mkOid enterprise with
  | error e =>
    rw [e1] at k1
    obtain ⟨h1, args, c1, kept⟩ := k1
    refine ⟨h1, kept, .exc (excName e) args, ?_, ?_⟩
    · rw [asg_exc ((eval_call1 hOid rfl).trans c1)]; rfl
    · rcases mkOid_errs e1 with rfl | rfl <;> exact ⟨_, rfl⟩
  | ok ids =>
    rw [e1] at k1
    obtain ⟨h1, x1, c1, kept, r1⟩ := k1
    have hlt : a < h.length := lt_of_get r.cell
    have hs := kept.same a r.low hlt
    rw [asg_ok ((eval_call1 hOid rfl).trans c1),
      show (trapEnv [] (.ref a) xv xe xa (.int g) (.int s) none none none none none none).set "ent" x1 =
        trapEnv [] (.ref a) xv xe xa (.int g) (.int s) (some x1) none none none none none from rfl]
    have ht := truth_given hk t h1
    cases hg : Given k addr with
    | false =>
      rw [hg] at ht
      have hab := getattr_absent r hs
      refine ⟨h1, kept, .exc "AttributeError" [], ?_, _, rfl⟩
      runs [trapEnv, List.cons_append, List.nil_append, ht, Bool.not_false, hab]
    | true =>
      rw [hg] at ht
      have hif : ∀ rest, block program cfg m (trapEnv [] (.ref a) xv xe xa (.int g) (.int s) (some x1) none none none none none)
          (.ifS (.not (.loc "agentAddr")) [.assign (.loc "agentAddr") (.index (.call (.attr (.loc "self") "getsockname") []) (.int 0))] [] :: rest) h1 =
          block program cfg m (trapEnv [] (.ref a) xv xe xa (.int g) (.int s) (some x1) none none none none none) rest h1 := by
        intro rest
        conv => lhs; rw [block]
        runs [trapEnv, List.cons_append, List.nil_append, ht, Bool.not_true]
      rw [hif]
      obtain ⟨h', kept', hx⟩ := run_trapTail (cfg := cfg) hc hNet hGen hInt hTim hTrap (vs := []) (.inl rfl) (uptimeFn_eq k) hw kept.base r.low
        (Nat.lt_of_lt_of_le hlt kept.len) (fun h' e => getattr_uptime r (e.trans hs)) (addr := addr) (y := xa) (ent0 := xe) (xe := x1) (xv := xv)
        (ve := .oid ids) (vv := vb) (t.agentAt h1) t.noList t.noObj t.agentShort
        (Rep.congr (lo := h.length) hb.long (fun _ _ _ e => e) _ _ r1) (t.binds.same (kept.asn (Nat.le_refl _))) g s [.ret (.loc "pdu")]
      refine ⟨h', kept.trans (kept'.mono kept.len), ?_⟩
      dsimp only
      rw [if_pos rfl]
      split at hx
      · rename_i v hv
        obtain ⟨x2, x3, x4, x5, x, e, rx⟩ := hx
        rw [hv, e]
        refine ⟨x, ?_, rx⟩
        runs [trapEnv, List.cons_append, List.nil_append]
      · rename_i e hv
        obtain ⟨E, x, e, rx⟩ := hx
        rw [hv, e]
        exact ⟨x, rfl, rx⟩

/-- The statements from `ent = …` to `pdu = …` in snmpManager's method. -/
theorem run_entTail (hc : Limits cfg) {h : Heap} (hb : Base h) {a q d : Nat} {st : Mgr .sm}
    {attrs : List (String × V)} (r : MgrAt nm env h a st attrs q d) {file : Option Str} (hw : UptimeFile cfg file) {vb : Val} {enterprise addr : Arg}
    {xv xe xa : V} (t : TrapGiven cfg h vb enterprise addr xv xe xa) (version g s : Int) {m : Module} {cOid cNet cGen cInt cTim cTrap : Expr}
    (hOid : ∀ env h, eval program cfg m env cOid h = okR (.cls (cid .oid)) h)
    (hNet : ∀ env h, eval program cfg m env cNet h = okR (.cls (cid (.oct .networkAddress))) h)
    (hGen : ∀ env h, eval program cfg m env cGen h = okR (.cls (cid (.int .genericTrap))) h)
    (hInt : ∀ env h, eval program cfg m env cInt h = okR (.cls (cid (.int .integer))) h)
    (hTim : ∀ env h, eval program cfg m env cTim h = okR (.cls (cid (.int .timeTicks))) h)
    (hTrap : ∀ env h, eval program cfg m env cTrap h = okR (.cls (cid (.seq .trapPDU))) h) (rest : List Stmt) :
    ∃ h', Kept h.length h h' ∧ match buildModel enterprise addr g s (getSysUptime file) vb with
      | .ok v => ∃ x1 x2 x3 x4 x5 x, block program cfg m
          (trapEnv [("version", some (.int version))] (.ref a) xv xe xa (.int g) (.int s) none none none none none none)
          (.assign (.loc "ent") (.call cOid [.loc "enterprise"]) :: trapTail cNet cGen cInt cTim cTrap rest) h =
          block program cfg m (trapEnv [("version", some (.int version))] (.ref a) xv xe xa (.int g) (.int s) x1 x2 x3 x4 x5 (some x)) rest h' ∧
          Rep 9 h' v x
      | .error e => ∃ E x, block program cfg m
          (trapEnv [("version", some (.int version))] (.ref a) xv xe xa (.int g) (.int s) none none none none none none)
          (.assign (.loc "ent") (.call cOid [.loc "enterprise"]) :: trapTail cNet cGen cInt cTim cTrap rest) h = some (h', E, .exc x) ∧
          Raised h' e x := by
  have k1 := run_mkOid (cfg := cfg) hb t.ent t.entShort
  unfold buildModel
  cases e1 : mkOid enterprise with
  | error e =>
    rw [e1] at k1
    obtain ⟨h1, args, c1, kept⟩ := k1
    refine ⟨h1, kept, _, _, asg_exc ((eval_call1 hOid rfl).trans c1), ?_⟩
    · rcases mkOid_errs e1 with rfl | rfl <;> exact ⟨_, rfl⟩
  | ok ids =>
    rw [e1] at k1
    obtain ⟨h1, x1, c1, kept, r1⟩ := k1
    have hlt : a < h.length := lt_of_get r.cell
    have hs := kept.same a r.low hlt
    rw [asg_ok ((eval_call1 hOid rfl).trans c1),
      show (trapEnv [("version", some (.int version))] (.ref a) xv xe xa (.int g) (.int s) none none none none none none).set "ent" x1 =
        trapEnv [("version", some (.int version))] (.ref a) xv xe xa (.int g) (.int s) (some x1) none none none none none from rfl]
    obtain ⟨h', kept', hx⟩ := run_trapTail (cfg := cfg) hc hNet hGen hInt hTim hTrap (vs := [("version", some (.int version))]) (.inr ⟨_, rfl⟩)
      (uptimeFn_eq .sm) hw kept.base r.low (Nat.lt_of_lt_of_le hlt kept.len) (fun h' e => getattr_uptime r (e.trans hs)) (addr := addr) (y := xa)
      (ent0 := xe) (xe := x1) (xv := xv) (ve := .oid ids) (vv := vb) (t.agentAt h1) t.noList t.noObj t.agentShort
      (Rep.congr (lo := h.length) hb.long (fun _ _ _ e => e) _ _ r1) (t.binds.same (kept.asn (Nat.le_refl _))) g s rest
    refine ⟨h', kept.trans (kept'.mono kept.len), ?_⟩
    dsimp only
    split at hx
    · rename_i v hv
      obtain ⟨x2, x3, x4, x5, x, e, rx⟩ := hx
      rw [hv]
      exact ⟨_, x2, x3, x4, x5, x, e, rx⟩
    · rename_i e hv
      obtain ⟨E, x, e, rx⟩ := hx
      rw [hv]
      exact ⟨E, x, e, rx⟩

theorem is_none_given {h : Heap} {vb : Val} {enterprise addr : Arg} {xv xe xa : V} (t : TrapGiven cfg h vb enterprise addr xv xe xa) :
    identical xa .none = some !Given .sm addr := by
  have ra := t.agent
  cases addr with
  | none => cases ra; rfl
  | str s => cases ra; rfl
  | bytes s => cases ra
  | int n => cases ra; rfl
  | list l => exact absurd rfl (t.noList l)
  | tuple l => cases ra; rfl
  | obj v => exact absurd rfl (t.noObj v)

theorem blockIf {m : Module} {E : Env} {c : Expr} {A B rest : List Stmt} {h : Heap} {b : Bool}
    (hc : eval program cfg m E c h = okR (.bool b) h) : block program cfg m E (.ifS c A B :: rest) h =
      bindS (block program cfg m E (if b then A else B) h) fun E h => block program cfg m E rest h := by
  conv => lhs; rw [block]
  rw [exec, hc]
  have ht : ∀ b, truth program cfg (.bool b) h = okR b h := fun b => by rw [truth]
  dsimp only [bindE, okR] at ht ⊢
  rw [ht]
  cases b <;> rfl

theorem run_sm_170 (hc : Limits cfg) {h : Heap} (hb : Base h) {a q d : Nat} {st : Mgr .sm}
    {attrs : List (String × V)} (r : MgrAt nm env h a st attrs q d) {file : Option Str} (hw : UptimeFile cfg file) {vb : Val} {enterprise addr : Arg}
    {xv xe xa : V} (t : TrapGiven cfg h vb enterprise addr xv xe xa) (version g s : Int) :
    Builds h (call program cfg (.func .snmpmanager 170) [.ref a, xv, .int version, xe, xa, .int g, .int s] h)
      (createTrapPDU .sm vb version enterprise addr g s (getSysUptime file)) := by
  rw [createTrapSm, call_snmpmanager_170]
  have hi := is_none_given t
  cases hg : Given .sm addr with
  | false =>
    rw [hg] at hi
    have hab := getattr_absent r (rfl : h[a]? = h[a]?)
    refine ⟨h, Kept.refl hb _, .exc "AttributeError" [], ?_, _, rfl⟩
    runs [snmpmanager_170, ↓hi, Bool.not_false, hab]
  | true =>
    rw [hg, Bool.not_true] at hi
    rw [if_neg (by simp)]
    have hE : ∀ x : Option V, [("self", some (V.ref a)), ("varbindlist", some xv), ("version", some (.int version)), ("enterprise", some xe),
        ("agentAddr", some xa), ("genericTrap", some (.int g)), ("specificTrap", some (.int s)), ("ent", none), ("agent", none), ("gTrap", none),
        ("sTrap", none), ("ts", none), ("pdu", x)] =
        trapEnv [("version", some (.int version))] (.ref a) xv xe xa (.int g) (.int s) none none none none none x := fun _ => rfl
    rw [hE]
    have i1 : eval program cfg .snmpmanager
        (trapEnv [("version", some (.int version))] (.ref a) xv xe xa (.int g) (.int s) none none none none none none)
        (.cmp .is (.loc "agentAddr") .none) h = okR (.bool false) h := by
      runs [trapEnv, List.cons_append, List.nil_append, ↓hi]
    have iv : ∀ n : Int, eval program cfg .snmpmanager
        (trapEnv [("version", some (.int version))] (.ref a) xv xe xa (.int g) (.int s) none none none none none none)
        (.cmp .eq (.loc "version") (.int n)) h = okR (.bool (version == n)) h := by
      intro n
      runs [trapEnv, List.cons_append, List.nil_append]
    unfold snmpmanager_170
    dsimp only
    rw [blockIf i1, if_neg (by simp), show ∀ E h, block program cfg .snmpmanager E [] h = some (h, E, .next) from fun E h => by rw [block]]
    dsimp only [bindS]
    rw [blockIf (iv 1)]
    have fin : ∀ (m : Except Exc Val) (h' : Heap) (blk : S), Kept h.length h h' → (match m with
        | .ok v => ∃ x1 x2 x3 x4 x5 x, blk =
            some (h', trapEnv [("version", some (.int version))] (.ref a) xv xe xa (.int g) (.int s) x1 x2 x3 x4 x5 (some x), .next) ∧ Rep 9 h' v x
        | .error e => ∃ E x, blk = some (h', E, .exc x) ∧ Raised h' e x) →
        Builds h (result (bindS blk fun E h => block program cfg .snmpmanager E [.ret (.loc "pdu")] h)) m := by
      intro m h' blk kept hx
      refine ⟨h', kept, ?_⟩
      split at hx
      · obtain ⟨x1, x2, x3, x4, x5, x, rfl, rx⟩ := hx
        refine ⟨x, ?_, rx⟩
        runs [trapEnv, List.cons_append, List.nil_append]
      · obtain ⟨E, x, rfl, rx⟩ := hx
        exact ⟨x, rfl, rx⟩
    by_cases hv1 : version = 1
    · subst hv1
      rw [if_pos (c := (1 : Int) = 1 ∨ (1 : Int) = 2) (.inl rfl), if_pos (c := ((1 : Int) == 1) = true) (by decide)]
      obtain ⟨h', kept, hx⟩ := run_entTail hc hb r hw t 1 g s (m := .snmpmanager) (cOid := .attr (.glob "rfc1157") "ObjectID")
        (cNet := .attr (.glob "rfc1157") "NetworkAddress") (cGen := .attr (.glob "rfc1157") "GenericTrap") (cInt := .attr (.glob "rfc1157") "Integer")
        (cTim := .attr (.glob "rfc1157") "TimeTicks") (cTrap := .attr (.glob "rfc1157") "TrapPDU")
        (fun env h => by runs; rfl) (fun env h => by runs; rfl) (fun env h => by runs; rfl) (fun env h => by runs; rfl) (fun env h => by runs; rfl)
        (fun env h => by runs; rfl) []
      have hp : ∀ E h, block program cfg .snmpmanager E [] h = some (h, E, .next) := fun E h => by rw [block]
      simp only [hp] at hx
      exact fin _ h' _ kept hx
    · rw [if_neg (c := (version == 1) = true) (by simpa using hv1), blockIf (iv 2)]
      by_cases hv2 : version = 2
      · subst hv2
        rw [if_pos (c := (2 : Int) = 1 ∨ (2 : Int) = 2) (.inr rfl), if_pos (c := ((2 : Int) == 2) = true) (by decide)]
        obtain ⟨h', kept, hx⟩ := run_entTail hc hb r hw t 2 g s (m := .snmpmanager) (cOid := .attr (.glob "rfc1905") "ObjectID")
          (cNet := .attr (.glob "rfc1905") "NetworkAddress") (cGen := .attr (.glob "rfc1157") "GenericTrap") (cInt := .attr (.glob "rfc1905") "Integer")
          (cTim := .attr (.glob "rfc1905") "TimeTicks") (cTrap := .attr (.glob "rfc1157") "TrapPDU")
          (fun env h => by runs; rfl) (fun env h => by runs; rfl) (fun env h => by runs; rfl) (fun env h => by runs; rfl) (fun env h => by runs; rfl)
          (fun env h => by runs; rfl) [.pass]
        have hp : ∀ E h, block program cfg .snmpmanager E [.pass] h = some (h, E, .next) := fun E h => by runs
        simp only [hp] at hx
        refine fin _ h' _ kept ?_
        split at hx
        · obtain ⟨x1, x2, x3, x4, x5, x, e, rx⟩ := hx
          refine ⟨x1, x2, x3, x4, x5, x, ?_, rx⟩
          rw [show (fun (E : Env) (h : Heap) => block program cfg .snmpmanager E [] h) = fun E h => some (h, E, .next) from
            funext fun E => funext fun h => by rw [block]]
          exact (congrArg (fun z => bindS z fun E h => some (h, E, .next)) e).trans rfl
        · obtain ⟨E, x, e, rx⟩ := hx
          refine ⟨E, x, ?_, rx⟩
          exact (congrArg (fun z => bindS z _) e).trans rfl
      · rw [if_neg (c := version = 1 ∨ version = 2) (by omega), if_neg (c := (version == 2) = true) (by simpa using hv2)]
        refine ⟨h, Kept.refl hb _, .exc "UnboundLocalError" [], ?_, _, rfl⟩
        runs [trapEnv, List.cons_append, List.nil_append]

/-- C101. `createTrapPDU` of v1 and of snmpManager and `createTrap` of v2 build the trap of the model, or raise its exception: with no
agent address they all raise AttributeError, for there is no `getsockname`; the time stamp is `getSysUptime()`. -/
theorem C101_trap (hc : Limits cfg) {h : Heap} (hb : Base h) {a : Nat} {k : Libsnmp.Kind} {st : Mgr k} (r : MgrRep nm env h a st)
    {file : Option Str} (hw : UptimeFile cfg file) {vb : Val} {enterprise addr : Arg} {xv xe xa : V}
    (t : TrapGiven cfg h vb enterprise addr xv xe xa) (version g s : Int) :
    Builds h (callMethod cfg (.ref a) (trapMethod k) (trapArgs k xv (.int version) xe xa (.int g) (.int s)) h)
      (createTrapPDU k vb version enterprise addr g s (getSysUptime file)) := by
  obtain ⟨attrs, q, d, r⟩ := r
  cases k with
  | v1 =>
    rw [show trapMethod .v1 = "createTrapPDU" from rfl, callMgr_eq r (m := .v1) (l := 87) rfl]
    refine (call_v1_87 (cfg := cfg) _ _ _ _ _ _ h) ▸ run_trap12 hc (by decide) hb r hw t version g s (m := .v1) (cOid := .glob "ObjectID")
      (cNet := .glob "NetworkAddress") (cGen := .glob "GenericTrap") (cInt := .glob "Integer") (cTim := .glob "TimeTicks") (cTrap := .glob "TrapPDU")
      (fun env h => by runs; rfl) (fun env h => by runs; rfl) (fun env h => by runs; rfl) (fun env h => by runs; rfl) (fun env h => by runs; rfl)
      (fun env h => by runs; rfl) rfl
  | v2 =>
    rw [show trapMethod .v2 = "createTrap" from rfl, callMgr_eq r (m := .v2) (l := 65) rfl]
    refine (call_v2_65 (cfg := cfg) _ _ _ _ _ _ h) ▸ run_trap12 hc (by decide) hb r hw t version g s (m := .v2)
      (cOid := .attr (.glob "rfc1155") "ObjectID") (cNet := .attr (.glob "rfc1155") "NetworkAddress") (cGen := .attr (.glob "rfc1157") "GenericTrap")
      (cInt := .attr (.glob "rfc1155") "Integer") (cTim := .attr (.glob "rfc1155") "TimeTicks") (cTrap := .attr (.glob "rfc1157") "TrapPDU")
      (fun env h => by runs; rfl) (fun env h => by runs; rfl) (fun env h => by runs; rfl) (fun env h => by runs; rfl) (fun env h => by runs; rfl)
      (fun env h => by runs; rfl) rfl
  | sm =>
    rw [show trapMethod .sm = "createTrapPDU" from rfl, callMgr_eq r (m := .snmpmanager) (l := 170) rfl]
    exact run_sm_170 hc hb r hw t version g s

/-- C101. The defaults: version 2, enterprise .1.3.6.1.4, no agent address, generic trap 6, specific trap 0. -/
theorem C101_trap_defaults {h : Heap} {a : Nat} {k : Libsnmp.Kind} {st : Mgr k} (r : MgrRep nm env h a st) (xv : V) :
    callMethod cfg (.ref a) (trapMethod k) [xv] h =
      callMethod cfg (.ref a) (trapMethod k) (trapArgs k xv (.int 2) (.str (lit ".1.3.6.1.4")) .none (.int 6) (.int 0)) h := by
  obtain ⟨attrs, q, d, r⟩ := r
  cases k with
  | v1 =>
    simp only [show trapMethod .v1 = "createTrapPDU" from rfl, callMgr_eq r (m := .v1) (l := 87) (name := "createTrapPDU") rfl, trapArgs]
    rw [call_v1_87_2, call_v1_87]
  | v2 =>
    simp only [show trapMethod .v2 = "createTrap" from rfl, callMgr_eq r (m := .v2) (l := 65) (name := "createTrap") rfl, trapArgs]
    rw [call_v2_65_2, call_v2_65]
  | sm =>
    simp only [show trapMethod .sm = "createTrapPDU" from rfl, callMgr_eq r (m := .snmpmanager) (l := 170) (name := "createTrapPDU") rfl, trapArgs]
    rw [call_snmpmanager_170_2, call_snmpmanager_170]

/-! ## The hypotheses can be met -/

/-- A world in which `/proc/uptime` reads `12.34 5.6` and a newline. -/
def uptimeCfg : Cfg := { sampleCfg with ext := fun n _ h => if n = "open" then okR (.ext "f") h else okR (.str (lit "12.34 5.6\n")) h }

theorem uptimeCfg_limits : Limits uptimeCfg := .inr (by decide)

theorem uptimeCfg_file : UptimeFile uptimeCfg (some (lit "12.34 5.6\n")) :=
  .text "f" _ (fun _ => rfl) (fun _ => rfl) (by decide +kernel)

/-- 12.34 seconds are 1234 hundredths. -/
example : ∃ h', callMethod uptimeCfg (.ref 10) "getSysUptime" [] (sampleMgr .v2) = okR (.int 1234) h' ∧
    ∀ b, b < (sampleMgr .v2).length → h'[b]? = (sampleMgr .v2)[b]? := by
  have h := C101_uptime (sampleMgr_rep .v2) uptimeCfg_file
  rw [show getSysUptime (some (lit "12.34 5.6\n")) = 1234 by decide +kernel] at h
  exact h

/-- No such file. -/
example : UptimeFile { sampleCfg with ext := fun _ _ h => excR (.exc "OSError" []) h } none := .closed _ (fun _ => rfl)

example : callMethod sampleCfg (.ref 10) "typeSetter" [.str (lit "t")] (sampleMgr .sm) = okR (.int 67) (sampleMgr .sm) :=
  C101_typeSetter (cfg := sampleCfg) (h := sampleMgr .sm) rfl (sampleMgr_rep .sm) (lit "t")

/-- `createTrapPDU(None, 1, '.1.3.6', '10.0.0.1', 6, 3)`. -/
example : Builds (sampleMgr .sm) (callMethod uptimeCfg (.ref 10) "createTrapPDU"
      [.none, .int 1, .str (lit ".1.3.6"), .str (lit "10.0.0.1"), .int 6, .int 3] (sampleMgr .sm))
    (.ok (.seq .trapPDU [.oid (some [1, 3, 6]), .octets .networkAddress [10, 0, 0, 1], .integer .genericTrap 6, .integer .integer 3,
      .integer .timeTicks 1234, .none])) := by
  have h := C101_trap uptimeCfg_limits (sampleMgr_base .sm) (sampleMgr_rep .sm) uptimeCfg_file (vb := .none) (enterprise := .str (lit ".1.3.6"))
    (addr := .str (lit "10.0.0.1")) (xv := .none) (xe := .str (lit ".1.3.6")) (xa := .str (lit "10.0.0.1"))
    ⟨rfl, rfl, fun s hs => by injection hs with hs; subst hs; exact .inr (by decide +kernel), rfl,
      fun s hs => by injection hs with hs; subst hs; exact .inr (by decide +kernel), by simp, by simp⟩ 1 6 3
  rw [show getSysUptime (some (lit "12.34 5.6\n")) = 1234 by decide +kernel] at h
  exact h

end Libsnmp.Src
