import Verif.Props.Source7
import Verif.Lemmas.SrcLoop
import Verif.Props.Source10
import Verif.Props.Source3

/-!
# C104: the rest of the source text

The functions that nothing else in the package calls.
-/

namespace Libsnmp.Src
open Libsnmp Spec

variable {cfg : Cfg}

/-! ## `rfc1902.OctetString` cannot be made

In `rfc1902.py` the name `OctetString` is the class itself, so that its `__init__` calls itself. -/

/-- It never returns. -/
def NoValue (x : R V) : Prop := ∀ h v, x ≠ okR v h

/-- It does not end the function with `return` or by coming to its end. -/
def NoReturn (x : S) : Prop := ∀ h E v, x ≠ some (h, E, .ret v)

def NoEnd (x : S) : Prop := NoReturn x ∧ (∀ h E, x ≠ some (h, E, .next))

theorem NoReturn.bindE {α : Type} {x : R α} {E : Env} {f : α → Heap → S} (hf : ∀ a h, NoReturn (f a h)) : NoReturn (bindE x E f) := by
  match x with
  | none => intro _ _ _ h; cases h
  | some (h, .ok a) => exact hf a h
  | some (h, .exc e) => intro _ _ _ h; cases h
  | some (h, .stuck) => intro _ _ _ h; cases h

theorem NoReturn.bindS {x : S} {f : Env → Heap → S} (hx : NoReturn x) (hf : ∀ E h, NoReturn (f E h)) : NoReturn (bindS x f) := by
  match x with
  | none => intro _ _ _ h; cases h
  | some (h, E, .next) => exact hf E h
  | some (h, E, .ret v) => exact absurd rfl (hx h E v)
  | some (h, E, .brk) => intro _ _ _ h; cases h
  | some (h, E, .exc e) => intro _ _ _ h; cases h
  | some (h, E, .stuck) => intro _ _ _ h; cases h

theorem NoEnd.bindS_first {x : S} {f : Env → Heap → S} (hx : NoEnd x) : NoEnd (bindS x f) := by
  match x with
  | none => exact ⟨fun _ _ _ h => (by cases h), fun _ _ h => (by cases h)⟩
  | some (h, E, .next) => exact absurd rfl (hx.2 h E)
  | some (h, E, .ret v) => exact absurd rfl (hx.1 h E v)
  | some (h, E, .brk) => exact ⟨fun _ _ _ h => (by cases h), fun _ _ h => (by cases h)⟩
  | some (h, E, .exc e) => exact ⟨fun _ _ _ h => (by cases h), fun _ _ h => (by cases h)⟩
  | some (h, E, .stuck) => exact ⟨fun _ _ _ h => (by cases h), fun _ _ h => (by cases h)⟩

theorem NoEnd.bindS_then {x : S} {f : Env → Heap → S} (hx : NoReturn x) (hf : ∀ E h, NoEnd (f E h)) : NoEnd (bindS x f) := by
  match x with
  | none => exact ⟨fun _ _ _ h => (by cases h), fun _ _ h => (by cases h)⟩
  | some (h, E, .next) => exact hf E h
  | some (h, E, .ret v) => exact absurd rfl (hx h E v)
  | some (h, E, .brk) => exact ⟨fun _ _ _ h => (by cases h), fun _ _ h => (by cases h)⟩
  | some (h, E, .exc e) => exact ⟨fun _ _ _ h => (by cases h), fun _ _ h => (by cases h)⟩
  | some (h, E, .stuck) => exact ⟨fun _ _ _ h => (by cases h), fun _ _ h => (by cases h)⟩

/-- `OctetString.__init__(self, value)` in rfc1902.py:64. -/
def selfCall : Expr := .call (.attr (.glob "OctetString") "__init__") [.loc "self", .loc "value"]

/-- rfc1902.py:62. -/
def longError : Expr := .call (.glob "ValueError") [.str (lit "OctetString must be shorter than 65535 bytes")]

theorem octet2_never : ∀ f args h, f = V.func .rfc1902 60 → NoValue (call program cfg f args h) := by
  have key : (fun f : V → List V → Heap → R V => ∀ v args h, v = V.func .rfc1902 60 → NoValue (f v args h)) (call program cfg) := by
    refine call.fixpoint_induct program cfg
      (motive_1 := fun f => ∀ m E e h, m = Module.rfc1902 →
        (e = .glob "OctetString" → f m E e h = none ∨ f m E e h = okR (.cls (.rfc1902, 55)) h) ∧
        (e = .attr (.glob "OctetString") "__init__" → f m E e h = none ∨ f m E e h = okR (.func .rfc1902 60) h) ∧
        (e = selfCall → NoValue (f m E e h)))
      (motive_2 := fun _ => True) (motive_3 := fun _ => True) (motive_4 := fun _ => True)
      (motive_5 := fun f => ∀ v args h, v = V.func .rfc1902 60 → NoValue (f v args h))
      (motive_6 := fun _ => True)
      (motive_7 := fun _ => True) (motive_8 := fun _ => True) (motive_9 := fun _ => True) (motive_10 := fun _ => True) (motive_11 := fun _ => True)
      (motive_12 := fun _ => True) (motive_13 := fun _ => True)
      (motive_14 := fun f => ∀ m E ss h, m = Module.rfc1902 →
        (ss = [] ∨ ss = [.raise longError] → NoReturn (f m E ss h)) ∧
        (ss = [.expr selfCall] → NoEnd (f m E ss h)) ∧
        (ss = rfc1902_60.body → NoEnd (f m E ss h)))
      (motive_15 := fun f => ∀ m E s h, m = Module.rfc1902 →
        (s = .raise longError → NoReturn (f m E s h)) ∧
        (∀ c, s = .ifS c [.raise longError] [] → NoReturn (f m E s h)) ∧
        (s = .expr selfCall → NoEnd (f m E s h)))
      (motive_16 := fun _ => True) (motive_17 := fun _ => True) (motive_18 := fun _ => True)
      (motive_19 := fun _ => True)
      (motive_20 := fun _ => True) (motive_21 := fun _ => True) (motive_22 := fun _ => True) (motive_23 := fun _ => True)
      (motive_24 := fun _ => True)
      (motive_25 := fun _ => True) (motive_26 := fun _ => True)
      (motive_27 := fun _ => True)
      (motive_28 := fun _ => True) (motive_29 := fun _ => True) (motive_30 := fun _ => True) (motive_31 := fun _ => True)
      ?_ ?_ ?_ ?_ ?_ ?_ ?_ ?_ ?_ ?_ ?_ ?_ ?_ ?_ ?_ ?_ ?_ ?_ ?_ ?_ ?_ ?_ ?_ ?_ ?_ ?_ ?_ ?_ ?_ ?_ ?_
      ?_ ?_ ?_ ?_ ?_ ?_ ?_ ?_ ?_ ?_ ?_ ?_ ?_ ?_ ?_ ?_ ?_ ?_ ?_ ?_ ?_ ?_ ?_ ?_ ?_ ?_ ?_ ?_ ?_ ?_ ?_
    all_goals first
      | exact fun _ _ _ => trivial
      | (intros; exact trivial)
      | skip
    · exact adm4 (fun m E e h x => m = Module.rfc1902 → (e = .glob "OctetString" → x = none ∨ x = okR (.cls (.rfc1902, 55)) h) ∧
        (e = .attr (.glob "OctetString") "__init__" → x = none ∨ x = okR (.func .rfc1902 60) h) ∧ (e = selfCall → NoValue x))
        fun _ _ _ _ _ => ⟨fun _ => .inl rfl, fun _ => .inl rfl, fun _ _ _ h => by cases h⟩
    · exact adm3 (fun v _ _ x => v = V.func .rfc1902 60 → NoValue x) fun _ _ _ _ _ _ h => by cases h
    · exact adm4 (fun m E (ss : List Stmt) h x => m = Module.rfc1902 → (ss = [] ∨ ss = [.raise longError] → NoReturn x) ∧
        (ss = [.expr selfCall] → NoEnd x) ∧ (ss = rfc1902_60.body → NoEnd x))
        fun _ _ _ _ _ => ⟨fun _ _ _ _ h => (by cases h), fun _ => ⟨fun _ _ _ h => (by cases h), fun _ _ h => (by cases h)⟩,
          fun _ => ⟨fun _ _ _ h => (by cases h), fun _ _ h => (by cases h)⟩⟩
    · exact adm4 (fun m E (s : Stmt) h x => m = Module.rfc1902 → (s = .raise longError → NoReturn x) ∧
        (∀ c, s = .ifS c [.raise longError] [] → NoReturn x) ∧ (s = .expr selfCall → NoEnd x))
        fun _ _ _ _ _ => ⟨fun _ _ _ _ h => (by cases h), fun _ _ _ _ _ h => (by cases h),
          fun _ => ⟨fun _ _ _ h => (by cases h), fun _ _ h => (by cases h)⟩⟩
    · intro eval comp getitem call truth binop compare evals slice he _ _ hc _ _ _ _ _ m E e h hm
      subst hm
      refine ⟨?_, ?_, ?_⟩
      · rintro rfl; exact .inr rfl
      · rintro rfl
        rcases (he .rfc1902 E _ h rfl).1 rfl with e | e
        · left; dsimp only; rw [e]; rfl
        · right; dsimp only; rw [e]; rfl
      · rintro rfl
        dsimp only [selfCall]
        rcases (he .rfc1902 E _ h rfl).2.1 rfl with e | e
        · rw [e]; intro _ _ h; cases h
        · rw [e]
          show NoValue (bindR (evals .rfc1902 E [.loc "self", .loc "value"] h) fun vs h => call (.func .rfc1902 60) vs h)
          match evals .rfc1902 E [.loc "self", .loc "value"] h with
          | none => intro _ _ h; cases h
          | some (h, .ok vs) => exact hc _ _ _ rfl
          | some (h, .exc e) => intro _ _ h; cases h
          | some (h, .stuck) => intro _ _ h; cases h
    · intro eval call method builtin block _ _ _ _ hb v args h hv
      subst hv
      show NoValue (match Fn.enter rfc1902_60 args with
        | some env => result (block .rfc1902 env rfc1902_60.body h)
        | none => raiseR "TypeError" h)
      cases Fn.enter rfc1902_60 args with
      | none => intro _ _ h; cases h
      | some env =>
        obtain ⟨n1, n2⟩ := (hb .rfc1902 env _ h rfl).2.2 rfl
        show NoValue (result (block .rfc1902 env rfc1902_60.body h))
        revert n1 n2
        match block .rfc1902 env rfc1902_60.body h with
        | none => intro _ _ _ _ h; cases h
        | some (h, E, .next) => intro _ n2; exact absurd rfl (n2 _ _)
        | some (h, E, .ret v) => intro n1; exact absurd rfl (n1 _ _ _)
        | some (h, E, .exc e) => intro _ _ _ _ h; cases h
        | some (h, E, .brk) => intro _ _ _ _ h; cases h
        | some (h, E, .stuck) => intro _ _ _ _ h; cases h
    · intro block exec hb he m E ss h hm
      subst hm
      refine ⟨?_, ?_, ?_⟩
      · rintro (rfl | rfl)
        · intro _ _ _ h; cases h
        · exact .bindS ((he _ _ _ _ rfl).1 rfl) fun E h => (hb _ _ _ _ rfl).1 (.inl rfl)
      · rintro rfl
        exact .bindS_first ((he _ _ _ _ rfl).2.2 rfl)
      · rintro rfl
        exact .bindS_then ((he _ _ _ _ rfl).2.1 _ rfl) fun E h => (hb _ _ _ _ rfl).2.1 rfl
    · intro eval block remove truth forL whileL binop assign he hb _ _ _ _ _ _ m E s h hm
      subst hm
      refine ⟨?_, ?_, ?_⟩
      · rintro rfl
        refine .bindE fun v h => ?_
        split
        · intro _ _ _ h; cases h
        · intro _ _ _ h; cases h
        · split
          · rw [branch.eq_def]; split <;> (intro _ _ _ h; cases h)
          · intro _ _ _ h; cases h
        · intro _ _ _ h; cases h
      · rintro c rfl
        refine .bindE fun v h => .bindE fun t h => ?_
        rw [branch.eq_def]
        split
        · exact (hb _ _ _ _ rfl).1 (.inr rfl)
        · exact (hb _ _ _ _ rfl).1 (.inl rfl)
      · rintro rfl
        have := (he .rfc1902 E _ h rfl).2.2 rfl
        dsimp only
        revert this
        match eval .rfc1902 E selfCall h with
        | none => intro _; exact ⟨fun _ _ _ h => (by cases h), fun _ _ h => (by cases h)⟩
        | some (h, .ok v) => intro hn; exact absurd rfl (hn _ _)
        | some (h, .exc e) => intro _; exact ⟨fun _ _ _ h => (by cases h), fun _ _ h => (by cases h)⟩
        | some (h, .stuck) => intro _; exact ⟨fun _ _ _ h => (by cases h), fun _ _ h => (by cases h)⟩
  exact key

/-- C104: no object of `rfc1902.OctetString` can be made: `OctetString(...)`, with any arguments, in any world, never returns. -/
theorem C104_octet2 (args : List V) (h h' : Heap) (v : V) : call program cfg (.cls (.rfc1902, 55)) args h ≠ okR v h' := by
  have h0 : call program cfg (.cls (.rfc1902, 55)) args h =
      bindR (call program cfg (.func .rfc1902 60) (.ref h.length :: args) (h ++ [.inst (.rfc1902, 55) []])) fun _ h' => okR (.ref h.length) h' := by
    conv => lhs; rw [call]
    rfl
  rw [h0]
  have hn := octet2_never (cfg := cfg) _ (.ref h.length :: args) (h ++ [.inst (.rfc1902, 55) []]) rfl
  revert hn
  generalize call program cfg (.func .rfc1902 60) (.ref h.length :: args) (h ++ [.inst (.rfc1902, 55) []]) = x
  match x with
  | none => intro _ h; cases h
  | some (h, .ok v) => intro hn; exact absurd rfl (hn _ _)
  | some (h, .exc e) => intro _ h; cases h
  | some (h, .stuck) => intro _ h; cases h

/-- C104: a text that is too long is refused with ValueError. -/
theorem C104_octet2_long (s : Str) (hs : 65535 < s.length) (h : Heap) :
    ∃ h' args, call program cfg (.cls (.rfc1902, 55)) [.str s] h = excR (.exc "ValueError" args) h' := by
  have h0 : call program cfg (.cls (.rfc1902, 55)) [.str s] h =
      bindR (call program cfg (.func .rfc1902 60) [.ref h.length, .str s] (h ++ [.inst (.rfc1902, 55) []])) fun _ h' => okR (.ref h.length) h' := by
    conv => lhs; rw [call]
    rfl
  have hd : decide (65535 < s.length) = true := by simpa using hs
  refine ⟨h ++ [.inst (.rfc1902, 55) []], [.str (lit "OctetString must be shorter than 65535 bytes")], ?_⟩
  rw [h0, call_rfc1902_60]
  runs [rfc1902_60, hd, intCmp]

/-! ## The other functions -/

/-- C104: `float(x)` of an Integer (or Counter, Gauge, TimeTicks, ...): the float nearest to the number, or OverflowError. -/
theorem C104_float {lo : Nat} {h : Heap} {c : IntCls} {n : Int} {x : V} (r : Rep lo h (.integer c n) x) :
    callMethod cfg x "__float__" [] h =
      outR (valFloat (.integer c n)) (fun q => .quot q.num q.den) h := by
  rw [Rep] at r
  obtain ⟨a, attrs, rfl, hlo, ha, hp, hv⟩ := r
  rw [callMethod_eq ha hp (show program.attr (cid (.int c)) "__float__" = some (.func .rfc1155 313) by cases c <;> rfl)]
  have hg : getattr program h (.ref a) "value" = some (.int n) := by simp only [getattr, ha, hv]
  have hf : floatOfInt n h = outR (valFloat (.integer c n)) (fun q => .quot q.num q.den) h := by
    show floatOfInt n h = outR (pyFloatInt n) _ h
    unfold pyFloatInt floatOfInt
    generalize toDouble (n.natAbs : ℚ) = d
    cases d with
    | none => rfl
    | some q => by_cases hn : n < 0 <;> simp [hn, outR, ofFloat]
  rw [call_rfc1155_313]
  revert hf
  generalize valFloat (.integer c n) = d
  intro hf
  cases d with
  | ok q =>
    rw [outR] at hf ⊢
    runs [rfc1155_313, ↓hg, ↓hf]
  | error e =>
    rw [outR] at hf ⊢
    runs [rfc1155_313, ↓hg, ↓hf]

/-- C104: `x.__long__()` of an Integer is its number. -/
theorem C104_long {lo : Nat} {h : Heap} {c : IntCls} {n : Int} {x : V} (r : Rep lo h (.integer c n) x) :
    callMethod cfg x "__long__" [] h = okR (.int n) h := by
  rw [Rep] at r
  obtain ⟨a, attrs, rfl, hlo, ha, hp, hv⟩ := r
  rw [callMethod_eq ha hp (show program.attr (cid (.int c)) "__long__" = some (.func .rfc1155 316) by cases c <;> rfl)]
  have hg : getattr program h (.ref a) "value" = some (.int n) := by simp only [getattr, ha, hv]
  rw [call_rfc1155_316]
  runs [rfc1155_316, ↓hg]

/-- C104: `encodeContents` of the base class is not implemented, and the marker of the end of contents of unknown length is two zero
octets; neither looks at the object. -/
theorem C104_base (x : V) (h : Heap) :
    call program cfg (.func .rfc1155 182) [x] h = excR (.exc "NotImplementedError" []) h ∧
    call program cfg (.func .rfc1155 257) [x] h = okR (.str [0, 0]) h ∧
    program.attr (.rfc1155, 64) "encodeContents" = some (.func .rfc1155 182) ∧
    ∀ c : Cls, program.attr (cid c) "encodeEndOfContents" = some (.func .rfc1155 257) := by
  refine ⟨?_, ?_, rfl, ?_⟩
  · rw [call_rfc1155_182]
    runs [rfc1155_182]
  · rw [call_rfc1155_257]
    runs [rfc1155_257]
    rfl
  · intro c
    cases c <;> first | rfl | (rename_i c; cases c <;> rfl)

/-- C104: `DecodeError(args)` with a tuple or a text holds the tuple or the text's characters; `DecodeError()` raises TypeError, for
the default argument None is no sequence. -/
theorem C104_DecodeError (h : Heap) :
    (∀ l, call program cfg (.cls (.rfc1155, 1075)) [.tuple l] h = okR (.ref h.length) (h ++ [.inst (.rfc1155, 1075) [("args", .tuple l)]])) ∧
    (∀ s, call program cfg (.cls (.rfc1155, 1075)) [.str s] h =
      okR (.ref h.length) (h ++ [.inst (.rfc1155, 1075) [("args", .tuple (s.map fun c => .str [c]))]])) ∧
    ∃ h', call program cfg (.cls (.rfc1155, 1075)) [] h = excR (.exc "TypeError" []) h' := by
  have he : program.isExc 8 (.rfc1155, 1075) = true := rfl
  have h0 : ∀ l, call program cfg (.cls (.rfc1155, 1075)) l h =
      bindR (call program cfg (.func .rfc1155 1076) (.ref h.length :: l) (h ++ [.inst (.rfc1155, 1075) [("args", .tuple l)]])) fun _ h' => okR (.ref h.length) h' := by
    intro l
    conv => lhs; rw [call]
    rfl
  refine ⟨fun l => ?_, fun s => ?_, ?_⟩
  · rw [h0, call_rfc1155_1076]
    runs [rfc1155_1076, setattr, he, setAssoc]
  · rw [h0, call_rfc1155_1076]
    runs [rfc1155_1076, setattr, he, setAssoc]
  · rw [h0, call_rfc1155_1076_1]
    refine ⟨h ++ [.inst (.rfc1155, 1075) [("args", .tuple [])]], ?_⟩
    runs [rfc1155_1076, setattr, he, setAssoc]

/-- C104: the unfinished text of TimeTicks is empty. -/
theorem C104_todo (x : V) (h : Heap) : call program cfg (.func .rfc1155 1056) [x] h = okR (.str []) h := by
  rw [call_rfc1155_1056]
  runs [rfc1155_1056]
  rfl

section
variable {nm : Names} {env : Libsnmp.Env}

/-- C104: `createSetRequestMessage` of the managers of v1 and v2 does nothing and returns None: there is no message, and no request
number is used. -/
theorem C104_setMessage {k : Libsnmp.Kind} (hk : k ≠ .sm) {h : Heap} {a q d : Nat} {s : Mgr k} {attrs : List (String × V)}
    (r : MgrAt nm env h a s attrs q d) (x y : V) :
    callMethod cfg (.ref a) "createSetRequestMessage" [x] h = okR .none h ∧
    callMethod cfg (.ref a) "createSetRequestMessage" [x, y] h = okR .none h := by
  cases k with
  | sm => exact absurd rfl hk
  | v1 =>
    have hm := r.meth (name := "createSetRequestMessage") (m := .v1) (l := 158) rfl
    constructor
    · unfold callMethod; rw [hm]
      show call program cfg (.meth (.ref a) .v1 158) [x] h = _
      conv => lhs; rw [call]
      rw [call_v1_158_2]; runs [v1_158]
    · unfold callMethod; rw [hm]
      show call program cfg (.meth (.ref a) .v1 158) [x, y] h = _
      conv => lhs; rw [call]
      rw [call_v1_158]; runs [v1_158]
  | v2 =>
    have hm := r.meth (name := "createSetRequestMessage") (m := .v2) (l := 136) rfl
    constructor
    · unfold callMethod; rw [hm]
      show call program cfg (.meth (.ref a) .v2 136) [x] h = _
      conv => lhs; rw [call]
      rw [call_v2_136_2]; runs [v2_136]
    · unfold callMethod; rw [hm]
      show call program cfg (.meth (.ref a) .v2 136) [x, y] h = _
      conv => lhs; rw [call]
      rw [call_v2_136]; runs [v2_136]

/-- C104: `createGetNextRequestPDU` of the manager of v2 takes the next request number and makes a GetNext of rfc1905 with it, no error
and the given variable bindings. -/
theorem C104_v2_getNextPDU (hc : Limits cfg) {h : Heap} {a q d : Nat} {s : Mgr .v2} {attrs : List (String × V)} (hb : Base h)
    (r : MgrAt nm env h a s attrs q d) {vs : List Val} {x : V} (hv : RepVbs h vs x) :
    Runs nm env a q d (Rep 9) h (callMethod cfg (.ref a) "createGetNextRequestPDU" [x] h)
      (mkPDU .getNext2 s.nextRequestID 0 0 vs, { s with nextRequestID := s.nextRequestID + 1 }) := by
  have hmm := r.meth (name := "createGetNextRequestPDU") (m := .v2) (l := 31) rfl
  have h0 : callMethod cfg (.ref a) "createGetNextRequestPDU" [x] h = call program cfg (.func .v2 31) [.ref a, x] h := by
    unfold callMethod; rw [hmm]
    show call program cfg (.meth (.ref a) .v2 31) [x] h = _
    conv => lhs; rw [call]
  rw [h0]
  have hid := run_assign (cfg := cfg) r (m := .v1) (l := 47) (.inl rfl)
  have ho := Own.asn' (h' := h) hb r
  have hm := r.meth (name := "assignRequestID") (m := .v1) (l := 47) rfl
  have r1 := r.setId
  obtain ⟨h', attrs', o1, r2, hk, out⟩ := run_requestAt (cfg := cfg) hc ho.base r1 (c := .getNext2) rfl (hv.same (ho.asn r)) s.nextRequestID
  have hpl := place_pdu (c := .getNext2) (.inr rfl) (.int s.nextRequestID) x
  refine ⟨h', attrs', ho.trans o1, r2, ?_⟩
  change Outcome (Rep 9) h' _ (mkPDU .getNext2 s.nextRequestID 0 0 vs)
  rw [call_v2_31]
  dsimp only [cid] at hpl out
  cases hmk : mkPDU .getNext2 s.nextRequestID 0 0 vs with
  | ok v =>
    rw [hmk] at out
    obtain ⟨y, out, ry⟩ := out
    refine ⟨y, ?_, ry⟩
    runs [v2_31, ↓hm, ↓hid, ↓hpl, ↓out]
  | error e =>
    rw [hmk] at out
    obtain ⟨y, out, ry⟩ := out
    refine ⟨y, ?_, ry⟩
    runs [v2_31, ↓hm, ↓hid, ↓hpl, ↓out]

end

/-! ## The hypotheses are met -/

/-- `float(Integer(0))` and `Integer(0).__long__()`. -/
example : callMethod sampleCfg (.ref 10) "__float__" [] sampleHeap = okR (.quot 0 1) sampleHeap ∧
    callMethod sampleCfg (.ref 10) "__long__" [] sampleHeap = okR (.int 0) sampleHeap := by
  have r : Rep 9 sampleHeap (.integer .integer 0) (.ref 10) := by
    rw [Rep]; exact ⟨10, [("value", .int 0)], rfl, by decide, rfl, plain _, rfl⟩
  exact ⟨(C104_float r).trans rfl, C104_long r⟩

/-- A `v2.SNMP` with the number 5, and the list of bindings of a request. -/
def idleV2 : Heap := statics ++
  [.inst (mgrCid .v2) [("queueEmpty", .none), ("trapCallback", .none), ("outbound", .ref 11), ("callbacks", .ref 12), ("nextRequestID", .int 5)],
   .queue [], .dict [], .list []]

theorem idleV2_at : MgrAt againNames ⟨regFull, none, none⟩ idleV2 10 ({ nextRequestID := 5 } : Mgr .v2)
    [("queueEmpty", .none), ("trapCallback", .none), ("outbound", .ref 11), ("callbacks", .ref 12), ("nextRequestID", .int 5)] 11 12 :=
  ⟨by decide, rfl, by simp [mgrNames], .inl rfl, rfl, by decide, ⟨_, rfl, .nil⟩, rfl, by decide, ⟨_, rfl, .nil⟩,
    by simp [GoodKey], by simp, rfl, rfl⟩

example (x y : V) : callMethod sampleCfg (.ref 10) "createSetRequestMessage" [x, y] idleV2 = okR .none idleV2 :=
  (C104_setMessage (by decide) idleV2_at x y).2

example : Runs againNames ⟨regFull, none, none⟩ 10 11 12 (Rep 9) idleV2 (callMethod sampleCfg (.ref 10) "createGetNextRequestPDU" [.ref 13] idleV2)
    (.ok (.seq .getNext2 [.integer .integer32 5, .integer .errorStatus2 0, .integer .integer 0, .seq .varBindList2 []]), ({ nextRequestID := 6 } : Mgr .v2)) :=
  C104_v2_getNextPDU (cfg := sampleCfg) (h := idleV2) (vs := []) (.inr (by decide)) ((Kept.app base_statics _).base) idleV2_at
    (.inl ⟨13, [], rfl, by decide, rfl, by rw [RepAll]⟩)

end Libsnmp.Src
