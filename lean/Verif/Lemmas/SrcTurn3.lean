import Verif.Lemmas.SrcTurn2

/-!
# Running `run`: one turn of the loop
-/

namespace Libsnmp.Src
open Libsnmp Spec

variable {cfg : Cfg} {nm : Names} {env : Libsnmp.Env} {k : Libsnmp.Kind}

/-- v1.py:223-224, snmpmanager.py:333-334. -/
def takeStmts : List Stmt :=
  [.assign (.loc "request") (.call (.attr (.attr (.loc "self") "outbound") "get") [.int 0]),
   .expr (.call (.attr (.loc "self") "send") [.call (.attr (.index (.loc "request") (.int 0)) "encode") [], .index (.loc "request") (.int 1)])]

section
variable {U : Nat → Prop} {h : Heap} {a q d g : Nat} {s : Mgr k} {attrs : List (String × V)} {t : V} {w : String} {size : Int}

/-- What a block of `run` did: it comes to its end, or raises. -/
def Did (nm : Names) (env : Libsnmp.Env) (U : Nat → Prop) (h : Heap) (a q d : Nat) (E : Option V → Env) (o : S) (m : Except Exc Unit × Mgr k) : Prop :=
  ∃ h' attrs' x', Turned U a q d h h' ∧ MgrAt nm env h' a m.2 attrs' q d ∧
    match m.1 with
    | .ok () => o = some (h', E x', .next)
    | .error e => e ≠ .diverges ∧ ∃ y, o = some (h', E x', .exc y) ∧ Raised h' e y

theorem turned_queue (hb : Base h) (r : MgrAt nm env h a s attrs q d) (c : Cell) : Turned U a q d h (h.set q c) :=
  ⟨hb.congr fun i hi => List.getElem?_set_ne (by have := r.qlow; omega), by simp,
    fun b _ _ _ e2 _ _ => .inl (List.getElem?_set_ne (Ne.symm e2)), Wires.same (List.getElem?_set_ne r.aq.symm)⟩

theorem run_take (hc : Limits cfg) (hb : Base h) (r : MgrAt nm env h a s attrs q d) (hw : Wired k a g t attrs) (hl : Line h g w size)
    (hU : ¬ U g) {socket : Except Exc Unit} (hs : SendsTo cfg nm w socket s.outbound) (hf : ∀ m n, (some m, n) ∈ s.outbound → Fine m)
    (m0 : Module) (x : Option V) :
    Did nm env U h a q d (runEnv a) (block program cfg m0 (runEnv a x) takeStmts h) (takeAndSend socket s) := by
  obtain ⟨l, hq, hl2⟩ := r.queue
  have go := r.getOutbound
  have gg : getattr program h (.ref q) "get" = some (.bmeth (.ref q) "get") := by simp only [getattr, hq]; rfl
  cases ho : s.outbound with
  | nil =>
    rw [ho] at hl2
    cases hl2
    have hcall : call program cfg (.bmeth (.ref q) "get") [.int 0] h = raiseR "queue.Empty" h := by
      runs [hq, queueMethod]
    have ht : takeAndSend socket s = (.error .queueEmpty, s) := by unfold takeAndSend; rw [ho]
    rw [ht]
    refine ⟨h, attrs, x, (Leaves.refl hb).turned, r, by simp, .exc "queue.Empty" [], ?_, _, rfl⟩
    runs [takeStmts, runEnv, ↓go, ↓gg, ↓hcall]
  | cons p rest =>
    rw [ho] at hl2
    obtain ⟨m, n⟩ := p
    cases hl2 with
    | @cons _ v _ l' hv hl' =>
    have hcall : call program cfg (.bmeth (.ref q) "get") [.int 0] h = okR v (h.set q (.queue l')) := by
      runs [hq, queueMethod]
    have r1 : MgrAt nm env (h.set q (.queue l')) a { s with outbound := rest } attrs q d := r.setQueue hl'
    have t1 : Turned U a q d h (h.set q (.queue l')) := turned_queue hb r _
    have l1 := t1.line r hU hl
    have gs := r1.meth (name := "send") (m := .asynrole) (l := 33) (by cases k <;> rfl)
    have hsame : Same h (h.set q (.queue l')) := Same.set hq (fun h => h) _
    cases m with
    | none =>
      obtain rfl := hv
      have ht : takeAndSend socket s = (.error .attributeError, ({ s with outbound := rest } : Mgr k).note (.took (none, n))) := by
        unfold takeAndSend; rw [ho]
      rw [ht]
      refine ⟨_, attrs, some (.tuple [.none, nm.addr n]), t1, note_mgr.2 r1, by simp, .exc "AttributeError" [], ?_, _, rfl⟩
      runs [takeStmts, runEnv, ↓go, ↓gg, ↓hcall, ↓gs]
    | some m =>
      obtain ⟨b, rfl, rm⟩ := hv
      have fm := hf m n (by rw [ho]; exact List.mem_cons_self)
      have frest : ∀ m n, (some m, n) ∈ rest → Fine m := fun m n hmn => hf m n (by rw [ho]; exact List.mem_cons_of_mem _ hmn)
      have rm1 := rm.same hsame
      obtain ⟨h2, e1, e2, e3, e4⟩ := run_msgEncode' hc fm.1 rm1 t1.base.long fm.2.1 fm.2.2
      have r2 := r1.encoded fm.1 rm1 e2 e4 frest
      have t2 : Turned U a q d (h.set q (.queue l')) h2 := turned_encoded r1 t1.base fm.1 rm1 e2 e4
      have l2 := t2.line r1 hU l1
      have ge : getattr program (h.set q (.queue l')) (.ref b) "encode" = some (.meth (.ref b) .rfc1155 82) := by
        obtain ⟨al, _, _, _, _, _, _, c1, c2, _⟩ := rm1
        have hn := c2.none (by decide : "encode" ∉ dataNames)
        simp only [getattr, c1, hn, attr_encode, String.reduceEq, if_false]
      have hcm : call program cfg (.meth (.ref b) .rfc1155 82) [] (h.set q (.queue l')) = outR m.encode V.str h2 := by
        rw [← e1]; conv => lhs; rw [call]
      cases he : m.encode with
      | error e =>
        have ht : takeAndSend socket s = (.error e, ({ s with outbound := rest } : Mgr k).note (.took (some m, n))) := by
          unfold takeAndSend; rw [ho]; simp only [he]
        rw [ht]
        rw [he] at hcm
        have hx := msgEncode_exc he
        refine ⟨h2, attrs, some (.tuple [.ref b, nm.addr n]), t1.trans t2, note_mgr.2 r2, ?_, .exc (excName e) [], ?_, ?_⟩
        · rcases hx with rfl | rfl | rfl <;> simp
        · have hcm : call program cfg (.meth (.ref b) .rfc1155 82) [] (h.set q (.queue l')) = excR (.exc (excName e) []) h2 := hcm
          runs [takeStmts, runEnv, ↓go, ↓gg, ↓hcall, ↓gs, ↓ge, ↓hcm]
        · rcases hx with rfl | rfl | rfl <;> exact ⟨_, rfl⟩
      | ok octets =>
        have ht : takeAndSend socket s = (socket, (({ s with outbound := rest } : Mgr k).note (.took (some m, n))).note (.sent octets n)) := by
          unfold takeAndSend; rw [ho]; simp only [he]
        rw [ht]
        rw [he] at hcm
        have hcm : call program cfg (.meth (.ref b) .rfc1155 82) [] (h.set q (.queue l')) = okR (.str octets) h2 := hcm
        have hsend := run_send r2 hw l2 (hs m n rest octets ho he h2)
        refine ⟨h2, attrs, some (.tuple [.ref b, nm.addr n]), t1.trans t2, note_mgr.2 (note_mgr.2 r2), ?_⟩
        rcases socket with e | ⟨⟨⟩⟩
        · obtain ⟨hne, y, hy, hr⟩ := hsend
          refine ⟨hne, y, ?_, hr⟩
          runs [takeStmts, runEnv, ↓go, ↓gg, ↓hcall, ↓gs, ↓ge, ↓hcm, ↓hy]
        · obtain ⟨y, hy⟩ := hsend
          show block program cfg m0 (runEnv a x) takeStmts h = _
          runs [takeStmts, runEnv, ↓go, ↓gg, ↓hcall, ↓gs, ↓ge, ↓hcm, ↓hy]

/-! ## The callback for an empty queue, and `poll` -/

theorem Raised.empty {h : Heap} {e : Exc} {y : V} (hr : Raised h e y) (hne : e ≠ .diverges) :
    caught (some "queue.Empty") y h = decide (e = .queueEmpty) := by
  cases e with
  | diverges => exact absurd rfl hne
  | pduError => obtain ⟨a, attrs, rfl, hc⟩ := hr; rfl
  | pduError2 => obtain ⟨a, attrs, rfl, hc⟩ := hr; rfl
  | messageError => obtain ⟨a, attrs, rfl, hc⟩ := hr; rfl
  | _ => obtain ⟨args, rfl⟩ := hr; simp [caught, excName] <;> decide

/-- `self.queueEmpty(self)`. -/
theorem run_idle {n : Nat} (hb : Base h) (r : MgrAt nm env h a s attrs q d) {user : User k} (hh : Heeds cfg nm env U n a user)
    (hn : n ≤ h.length) {m0 : Module} {E : Env} (e1 : E.get "self" = some (.ref a)) {c : Expr}
    (hc : (c = .cmp .isNot (.attr (.loc "self") "queueEmpty") .none) ∨ c = .attr (.loc "self") "queueEmpty") :
    Goes nm env U a q d E h
      (block program cfg m0 E [.ifS c [.expr (.call (.attr (.loc "self") "queueEmpty") [.loc "self"])] []] h) (callQueueEmpty env user s) := by
  have gE := r.getEmpty
  unfold callQueueEmpty
  cases he : env.queueEmpty with
  | none =>
    rw [he] at gE
    have gE : getattr program h (.ref a) "queueEmpty" = some .none := gE
    refine ⟨h, attrs, Leaves.refl hb, r, ?_⟩
    show block program cfg m0 E _ h = _
    rcases hc with rfl | rfl <;> runs [↓e1, ↓gE]
  | some cb =>
    rw [he] at gE
    have gE : getattr program h (.ref a) "queueEmpty" = some (nm.fn cb) := gE
    obtain ⟨hf, hcall⟩ := hh cb he
    obtain ⟨h', attrs', l, r', e⟩ := hcall (s.note (.entered cb none)) h attrs q d hn hb (note_mgr.2 r)
    refine ⟨h', attrs', l, note_mgr.2 r', ?_⟩
    have hid : identical (nm.fn cb) .none = some false := by
      obtain ⟨f, hf | ⟨m, l, hf⟩⟩ := hf <;> rw [hf] <;> rfl
    have htr : truth program cfg (nm.fn cb) h = okR true h := by
      obtain ⟨f, hf | ⟨m, l, hf⟩⟩ := hf <;> rw [hf, truth]
    show EndsS E h' _ (user cb none (s.note (.entered cb none))).1
    rcases ho : (user cb none (s.note (.entered cb none))).1 with e0 | ⟨⟨⟩⟩
    · rw [ho] at e
      obtain ⟨hne, y, hy, hr⟩ := e
      refine ⟨hne, y, ?_, hr⟩
      rcases hc with rfl | rfl <;> runs [↓e1, ↓gE, ↓hid, ↓htr, ↓hy]
    · rw [ho] at e
      obtain ⟨y, hy⟩ := e
      show block program cfg m0 E _ h = _
      rcases hc with rfl | rfl <;> runs [↓e1, ↓gE, ↓hid, ↓htr, ↓hy]

/-- asynrole.py:65-66. -/
theorem run_poll {inner : Cfg} (hc : Limits inner) (hreg : Knows inner env.reg) (hi : Imported env.reg) (hb : Base h)
    (hprint : k = .v2 → ∀ h, inner.ext "traceback.print_exc" [] h = okR .none h)
    {user : User k} (hu : Obeys inner nm env U h.length a user) (r : MgrAt nm env h a s attrs q d)
    (hw : Wired k a g t attrs) (hl : Line h g w size) {datagram : Option Str} (ar : Around cfg inner a w size t datagram)
    (hlen : ∀ x, datagram = some x → x.length < 10 ^ 640) {m0 : Module} {E : Env} (e1 : E.get "self" = some (.ref a)) :
    Goes nm env U a q d E h (block program cfg m0 E [.expr (.call (.attr (.loc "self") "poll") [])] h)
      (poll311 env inner.limit k user (datagram.map .str) s) := by
  have gp := r.meth (name := "poll") (m := .asynrole) (l := 65) (by cases k <;> rfl)
  have gt := r.wire hw.timeout
  have h0 : call program cfg (.meth (.ref a) .asynrole 65) [] h = call program cfg (.func .asynrole 65) [.ref a] h := by conv => lhs; rw [call]
  have hx : call program cfg (.ext ("asyncore" ++ "." ++ "poll")) [t] h = cfg.ext "asyncore.poll" [t] h := by rw [call]; rfl
  have main : ∀ {o : Except Exc Unit} {h' : Heap}, Ends h' (cfg.ext "asyncore.poll" [t] h) o →
      EndsS E h' (block program cfg m0 E [.expr (.call (.attr (.loc "self") "poll") [])] h) o := by
    intro o h' ho
    rcases o with e | ⟨⟨⟩⟩
    · obtain ⟨hne, y, hy, hr⟩ := ho
      rw [hy] at hx
      refine ⟨hne, y, ?_, hr⟩
      have h1 : call program cfg (.meth (.ref a) .asynrole 65) [] h = excR y h' := by
        rw [h0, call_asynrole_65]
        runs [asynrole_65, ↓gt, ↓hx]
      runs [↓e1, ↓gp, ↓h1]
    · obtain ⟨y, hy⟩ := ho
      rw [hy] at hx
      have h1 : call program cfg (.meth (.ref a) .asynrole 65) [] h = okR .none h' := by
        rw [h0, call_asynrole_65]
        runs [asynrole_65, ↓gt, ↓hx]
      show block program cfg m0 E _ h = _
      runs [↓e1, ↓gp, ↓h1]
  cases datagram with
  | none => exact ⟨h, attrs, Leaves.refl hb, r, main ⟨.none, ar.quiet rfl h⟩⟩
  | some x =>
    obtain ⟨src, hsrc⟩ := ar.read x rfl
    obtain ⟨h', attrs', l, r', e⟩ := run_readEvent hc hreg hi hb hprint hu r hw hl x (hlen x rfl) (hsrc h)
    refine ⟨h', attrs', l, r', main ?_⟩
    rw [ar.event (by simp) h]
    exact e

end

end Libsnmp.Src
