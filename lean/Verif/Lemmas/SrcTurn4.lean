import Verif.Lemmas.SrcTurn3

/-!
# Running `run`: the two loops
-/

namespace Libsnmp.Src
open Libsnmp Spec

variable {cfg inner : Cfg} {nm : Names} {env : Libsnmp.Env} {k : Libsnmp.Kind}

theorem tryS_next {m0 : Module} {E E' : Env} {body hd : List Stmt} {n : Option String} {h h' : Heap}
    (hb : block program cfg m0 E body h = some (h', E', .next)) :
    block program cfg m0 E [.tryS body n hd] h = some (h', E', .next) := by
  runs [↓hb, bindTry]

theorem tryS_exc {m0 : Module} {E E' : Env} {body hd : List Stmt} {n : Option String} {h h' : Heap} {x : V}
    (hb : block program cfg m0 E body h = some (h', E', .exc x)) :
    block program cfg m0 E [.tryS body n hd] h = if caught n x h' then
      bindS (block program cfg m0 (("$exc", some x) :: E') hd h') fun E'' h => some (h, E''.drop 1, .next)
      else some (h', E', .exc x) := by
  have : exec program cfg m0 E (.tryS body n hd) h = if caught n x h' then
      bindS (block program cfg m0 (("$exc", some x) :: E') hd h') fun E'' h => some (h, E''.drop 1, .next)
      else some (h', E', .exc x) := by
    rw [exec, hb]; rfl
  rw [block, this, bindS_nil]

theorem tryAs_exc {m0 : Module} {E E' : Env} {body hd ot : List Stmt} {n : Option String} {h h' : Heap} {x : V}
    (hb : block program cfg m0 E body h = some (h', E', .exc x)) :
    block program cfg m0 E [.tryAs body n none hd ot] h =
      bindS (branch (caught n x h') (block program cfg m0 (("$exc", some x) :: E') hd h')
        (block program cfg m0 (("$exc", some x) :: E') ot h')) fun E'' h => some (h, E''.drop 1, .next) := by
  have : exec program cfg m0 E (.tryAs body n none hd ot) h =
      bindS (branch (caught n x h') (block program cfg m0 (("$exc", some x) :: E') hd h')
        (block program cfg m0 (("$exc", some x) :: E') ot h')) fun E'' h => some (h, E''.drop 1, .next) := by
    rw [exec, hb]; rfl
  rw [block, this, bindS_nil]

section
variable {U : Nat → Prop} {h : Heap} {a q d g : Nat} {s : Mgr k} {attrs : List (String × V)} {t : V} {w : String} {size : Int}

/-- v1.py:220-234. -/
theorem run_v1Turn (hk : k ≠ .sm) (hc : Limits cfg) (hci : Limits inner) (hreg : Knows inner env.reg) (hi : Imported env.reg) (hb : Base h)
    (hprint : k = .v2 → ∀ h, inner.ext "traceback.print_exc" [] h = okR .none h)
    {user : User k} (hu : Obeys inner nm env U h.length a user) (hh : Heeds cfg nm env U h.length a user) (r : MgrAt nm env h a s attrs q d)
    (hw : Wired k a g t attrs) (hl : Line h g w size) (hU : ¬ U g) {datagram : Option Str} (ar : Around cfg inner a w size t datagram)
    (hlen : ∀ x, datagram = some x → x.length < 10 ^ 640) {socket : Except Exc Unit} (hs : SendsTo cfg nm w socket s.outbound)
    (hf : ∀ m n, (some m, n) ∈ s.outbound → Fine m) (x : Option V) :
    Turns cfg nm env U h a q d x (v1Iterate311 env inner.limit k user socket (datagram.map .str) s) := by
  have ht : oneTurn cfg k a x h = block program cfg .v1 (runEnv a x) v1_220 h := by
    cases k with
    | v1 => rfl
    | v2 => rfl
    | sm => exact absurd rfl hk
  unfold Turns
  rw [ht]
  obtain ⟨h1, attrs1, x1, t1, r1, e1⟩ := run_take hc hb r hw hl hU hs hf .v1 x
  have w1 := t1.wires.wired r r1 hw
  have l1 := t1.line r hU hl
  have hbody : v1_220 = [.tryS takeStmts (some "queue.Empty")
    [.ifS (.cmp .isNot (.attr (.loc "self") "queueEmpty") .none) [.expr (.call (.attr (.loc "self") "queueEmpty") [.loc "self"])] [],
     .pass, .expr (.call (.attr (.loc "self") "poll") []),
     .expr (.call (.attr (.glob "time") "sleep") [.float 3602879701896397 36028797018963968])]] := rfl
  rw [hbody]
  rcases hts : takeAndSend socket s with ⟨e | ⟨⟨⟩⟩, s1⟩
  · rw [hts] at e1 r1
    obtain ⟨hne, y, hy, hr⟩ := e1
    rw [tryS_exc hy, hr.empty hne]
    by_cases hq : e = .queueEmpty
    · subst hq
      have hv : v1Iterate311 env inner.limit k user socket (datagram.map .str) s =
          (do callQueueEmpty env user; poll311 env inner.limit k user (datagram.map .str) : M k Unit) s1 := by
        simp only [v1Iterate311, hts]
      rw [hv, if_pos (by rfl)]
      have hE : Env.get (("$exc", some y) :: runEnv a x1) "self" = some (.ref a) := rfl
      obtain ⟨h2, attrs2, l2, r2, e2⟩ := run_idle (m0 := .v1) t1.base r1 hh t1.len hE (.inl rfl)
      rcases hq : callQueueEmpty env user s1 with ⟨e | ⟨⟨⟩⟩, s2⟩
      · rw [hq] at r2 e2
        rw [M.at_error hq]
        obtain ⟨hne2, y2, hy2, hr2⟩ := e2
        exact ⟨h2, attrs2, none, t1.trans l2.turned, r2, hne2, y2, _, by rw [block_stop hy2]; rfl, hr2⟩
      · rw [hq] at r2 e2
        rw [M.at_ok hq]
        have t2 := t1.trans l2.turned
        have w2 := l2.wires.wired r1 r2 w1
        have l2' := l2.turned.line r1 hU l1
        obtain ⟨h3, attrs3, l3, r3, e3⟩ := run_poll (m0 := .v1) hci hreg hi l2.base hprint (hu.mono t2.len) r2 w2 l2' ar hlen hE
        have hp : block program cfg .v1 (("$exc", some y) :: runEnv a x1) [.pass] h2 = some (h2, ("$exc", some y) :: runEnv a x1, .next) := by runs
        rw [block_first e2, block_first hp]
        rcases hp3 : poll311 env inner.limit k user (datagram.map .str) s2 with ⟨e | ⟨⟨⟩⟩, s3⟩
        · rw [hp3] at r3 e3
          obtain ⟨hne3, y3, hy3, hr3⟩ := e3
          exact ⟨h3, attrs3, none, t2.trans l3.turned, r3, hne3, y3, _, by rw [block_stop hy3]; rfl, hr3⟩
        · rw [hp3] at r3 e3
          refine ⟨h3, attrs3, x1, t2.trans l3.turned, r3, ?_⟩
          have hsl : call program cfg (.ext ("time" ++ "." ++ "sleep")) [.quot 3602879701896397 36028797018963968] h3 = okR .none h3 := by
            rw [call]; exact ar.sleep h3
          show bindS _ _ = _
          rw [block_first e3]
          runs [↓hsl]
          rfl
    · have hm : (match ((Except.error e, s1) : Except Exc Unit × Mgr k) with
          | (.error .queueEmpty, s') => (do callQueueEmpty env user; poll311 env inner.limit k user (datagram.map .str) : M k Unit) s'
          | r => r) = (.error e, s1) := by
        cases e <;> first | rfl | exact absurd rfl hq
      have hv : v1Iterate311 env inner.limit k user socket (datagram.map .str) s = (.error e, s1) := by
        simp only [v1Iterate311, hts]
        exact hm
      rw [hv, if_neg (by simpa using hq)]
      exact ⟨h1, attrs1, none, t1, r1, hne, y, _, rfl, hr⟩
  · rw [hts] at e1 r1
    have hv : v1Iterate311 env inner.limit k user socket (datagram.map .str) s = (.ok (), s1) := by
      simp only [v1Iterate311, hts]
    rw [hv]
    exact ⟨h1, attrs1, x1, t1, r1, tryS_next e1⟩

end

theorem tryAs_next {m0 : Module} {E E' : Env} {body hd ot : List Stmt} {n : Option String} {h h' : Heap}
    (hb : block program cfg m0 E body h = some (h', E', .next)) :
    block program cfg m0 E [.tryAs body n none hd ot] h = some (h', E', .next) := by
  have : exec program cfg m0 E (.tryAs body n none hd ot) h = some (h', E', .next) := by
    rw [exec, hb]; rfl
  rw [block, this]; runs

/-- snmpmanager.py:330-334, the guarded statements. -/
theorem run_smBody {user : User .sm} {U : Nat → Prop} {h : Heap} {a q d g : Nat} {s : Mgr .sm} {attrs : List (String × V)} {t : V}
    {w : String} {size : Int} (hc : Limits cfg) (hci : Limits inner) (hreg : Knows inner env.reg) (hi : Imported env.reg) (hb : Base h)
    (hu : Obeys inner nm env U h.length a user) (r : MgrAt nm env h a s attrs q d)
    (hw : Wired .sm a g t attrs) (hl : Line h g w size) (hU : ¬ U g) {datagram : Option Str} (ar : Around cfg inner a w size t datagram)
    (hlen : ∀ x, datagram = some x → x.length < 10 ^ 640) {socket : Except Exc Unit}
    (hs : SendsTo cfg nm w socket (poll311 env inner.limit .sm user (datagram.map .str) s).2.outbound)
    (hf : ∀ m n, (some m, n) ∈ (poll311 env inner.limit .sm user (datagram.map .str) s).2.outbound → Fine m) (x : Option V) :
    Did nm env U h a q d (runEnv a)
      (block program cfg .snmpmanager (runEnv a x) (.expr (.call (.attr (.loc "self") "poll") []) :: takeStmts) h)
      ((do poll311 env inner.limit .sm user (datagram.map .str); takeAndSend socket : M .sm Unit) s) := by
  obtain ⟨h1, attrs1, l1, r1, e1⟩ := run_poll (m0 := .snmpmanager) (E := runEnv a x) hci hreg hi hb (fun hk => by cases hk) hu r hw hl ar hlen rfl
  rcases hp : poll311 env inner.limit .sm user (datagram.map .str) s with ⟨e | ⟨⟨⟩⟩, s1⟩
  · rw [hp] at r1 e1
    rw [M.at_error hp]
    obtain ⟨hne, y, hy, hr⟩ := e1
    exact ⟨h1, attrs1, x, l1.turned, r1, hne, y, block_stop hy, hr⟩
  · rw [hp] at r1 e1 hs hf
    rw [M.at_ok hp]
    obtain ⟨h2, attrs2, x2, t2, r2, e2⟩ := run_take hc l1.base r1 (l1.wires.wired r r1 hw) (l1.turned.line r hU hl) hU hs hf .snmpmanager x
    rw [block_first e1]
    exact ⟨h2, attrs2, x2, l1.turned.trans t2, r2, e2⟩

/-- snmpmanager.py:327-342. -/
theorem run_smTurn {user : User .sm} {U : Nat → Prop} {h : Heap} {a q d g : Nat} {s : Mgr .sm} {attrs : List (String × V)} {t : V}
    {w : String} {size : Int} (hc : Limits cfg) (hci : Limits inner) (hreg : Knows inner env.reg) (hi : Imported env.reg) (hb : Base h)
    (hu : Obeys inner nm env U h.length a user) (hh : Heeds cfg nm env U h.length a user) (r : MgrAt nm env h a s attrs q d)
    (hw : Wired .sm a g t attrs) (hl : Line h g w size) (hU : ¬ U g) {datagram : Option Str} (ar : Around cfg inner a w size t datagram)
    (hlen : ∀ x, datagram = some x → x.length < 10 ^ 640) {socket : Except Exc Unit}
    (hs : SendsTo cfg nm w socket (poll311 env inner.limit .sm user (datagram.map .str) s).2.outbound)
    (hf : ∀ m n, (some m, n) ∈ (poll311 env inner.limit .sm user (datagram.map .str) s).2.outbound → Fine m) (x : Option V) :
    Turns cfg nm env U h a q d x (smIterate311 env inner.limit user socket (datagram.map .str) s) := by
  unfold Turns
  have ht : oneTurn cfg .sm a x h = block program cfg .snmpmanager (runEnv a x)
    [.tryAs (.expr (.call (.attr (.loc "self") "poll") []) :: takeStmts) (some "queue.Empty") none
      [.ifS (.attr (.loc "self") "queueEmpty") [.expr (.call (.attr (.loc "self") "queueEmpty") [.loc "self"])] [], .pass] [.reraise]] h := rfl
  rw [ht]
  obtain ⟨h1, attrs1, x1, t1, r1, e1⟩ := run_smBody hc hci hreg hi hb hu r hw hl hU ar hlen hs hf x
  rcases hts : (do poll311 env inner.limit .sm user (datagram.map .str); takeAndSend socket : M .sm Unit) s with ⟨e | ⟨⟨⟩⟩, s1⟩
  · rw [hts] at e1 r1
    obtain ⟨hne, y, hy, hr⟩ := e1
    rw [tryAs_exc hy, hr.empty hne]
    by_cases hq : e = .queueEmpty
    · subst hq
      have hv : smIterate311 env inner.limit user socket (datagram.map .str) s = callQueueEmpty env user s1 := by
        simp only [smIterate311, hts]
      rw [hv]
      have hE : Env.get (("$exc", some y) :: runEnv a x1) "self" = some (.ref a) := rfl
      obtain ⟨h2, attrs2, l2, r2, e2⟩ := run_idle (m0 := .snmpmanager) t1.base r1 hh t1.len hE (.inr rfl)
      refine ⟨h2, attrs2, x1, t1.trans l2.turned, r2, ?_⟩
      rcases hq2 : callQueueEmpty env user s1 with ⟨e | ⟨⟨⟩⟩, s2⟩
      · rw [hq2] at e2
        obtain ⟨hne2, y2, hy2, hr2⟩ := e2
        exact ⟨hne2, y2, _, by rw [block_stop hy2]; rfl, hr2⟩
      · rw [hq2] at e2
        have hp : block program cfg .snmpmanager (("$exc", some y) :: runEnv a x1) [.pass] h2 = some (h2, ("$exc", some y) :: runEnv a x1, .next) := by runs
        rw [block_first e2, hp]
        rfl
    · have hv : smIterate311 env inner.limit user socket (datagram.map .str) s = (.error e, s1) := by
        simp only [smIterate311, hts]
        cases e <;> first | rfl | exact absurd rfl hq
      rw [hv]
      have hx : block program cfg .snmpmanager (("$exc", some y) :: runEnv a x1) [.reraise] h1 =
          some (h1, ("$exc", some y) :: runEnv a x1, .exc y) := by runs
      refine ⟨h1, attrs1, none, t1, r1, hne, y, ("$exc", some y) :: runEnv a x1, ?_, hr⟩
      rw [hx, show decide (e = .queueEmpty) = false from by simpa using hq]
      rfl
  · rw [hts] at e1 r1
    have hv : smIterate311 env inner.limit user socket (datagram.map .str) s = (.ok (), s1) := by
      simp only [smIterate311, hts]
    rw [hv]
    exact ⟨h1, attrs1, x1, t1, r1, tryAs_next e1⟩

end Libsnmp.Src
