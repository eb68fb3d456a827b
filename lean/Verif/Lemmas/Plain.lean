import Verif.Lemmas.Manager
import Verif.Model.Manager

/-!
# The request methods raise only instances of `Exception`
-/

namespace Libsnmp

/-- An outcome that, if it is an exception, is an instance of `Exception`. -/
def EOk {α : Type} (x : Except Exc α) : Prop := ∀ e, x = .error e → e.isException = true

def MOk {k : Kind} {α : Type} (x : M k α) : Prop := ∀ s, EOk (x s).1

theorem EOk.ok {α : Type} (v : α) : EOk (.ok v : Except Exc α) := fun _ h => by cases h
theorem EOk.err {α : Type} {e : Exc} (h : e.isException = true) : EOk (.error e : Except Exc α) := fun _ h' => by cases h'; exact h
theorem EOk.bind {α β : Type} {x : Except Exc α} {f : α → Except Exc β} (hx : EOk x) (hf : ∀ v, EOk (f v)) : EOk (x >>= f) := by
  cases x with
  | ok v => exact hf v
  | error e => exact EOk.err (hx e rfl)

theorem MOk.lift {k : Kind} {α : Type} {x : Except Exc α} (h : EOk x) : MOk (M.lift x : M k α) := fun _ => h
theorem MOk.pure {k : Kind} {α : Type} (v : α) : MOk (Pure.pure v : M k α) := fun _ => EOk.ok v
theorem MOk.throw {k : Kind} {α : Type} {e : Exc} (h : e.isException = true) : MOk (M.throw e : M k α) := fun _ => EOk.err h
theorem MOk.bind {k : Kind} {α β : Type} {x : M k α} {f : α → M k β} (hx : MOk x) (hf : ∀ v, MOk (f v)) : MOk (x >>= f) := by
  intro s
  rw [M.bind_def]
  have := hx s
  rcases hxs : x s with ⟨e | v, s'⟩
  · exact EOk.err (this e (by rw [hxs]))
  · exact hf v s'

theorem pyInt_exok (s : Str) : EOk (pyInt s) := by
  unfold pyInt
  split <;> split <;> first | exact EOk.ok _ | exact EOk.err rfl

theorem oidParse_exok : ∀ l, EOk (oidParse l)
  | [] => EOk.ok _
  | s :: rest => by
    have h1 := pyInt_exok s
    have h2 := oidParse_exok rest
    unfold oidParse
    split
    · exact EOk.err (h1 _ ‹_›)
    · split
      · exact EOk.err rfl
      · split
        · exact EOk.err (h2 _ ‹_›)
        · exact EOk.ok _

theorem pyChr_exok (n : Int) : EOk (pyChr n) := by
  unfold pyChr
  repeat' split
  all_goals first | exact EOk.ok _ | exact EOk.err rfl

theorem ipParse_exok : ∀ l, EOk (ipParse l)
  | [] => EOk.ok _
  | s :: rest => by
    have h1 := pyInt_exok s
    have h2 := ipParse_exok rest
    unfold ipParse
    split
    · exact EOk.err (h1 _ ‹_›)
    · split
      · exact EOk.err (pyChr_exok _ _ ‹_›)
      · split
        · exact EOk.err (h2 _ ‹_›)
        · exact EOk.ok _

theorem mkOid_exok (a : Arg) : EOk (mkOid a) := by
  unfold mkOid
  split
  · split
    · exact EOk.err (oidParse_exok _ _ ‹_›)
    · exact EOk.ok _
  all_goals first | exact EOk.ok _ | exact EOk.err rfl

theorem mkInteger_exok (c : IntCls) (v : Int) : EOk (mkInteger c v) := by
  unfold mkInteger; split <;> first | exact EOk.ok _ | exact EOk.err rfl

theorem mkVarBind_exok (c : SeqCls) (x y : Val) : EOk (mkVarBind c x y) := by
  unfold mkVarBind; split <;> (try split) <;> first | exact EOk.ok _ | exact EOk.err rfl

theorem mkVarBindList_exok (c : SeqCls) (l : List Val) : EOk (mkVarBindList c l) := by
  unfold mkVarBindList; split <;> (try split) <;> first | exact EOk.ok _ | exact EOk.err rfl

theorem iter_exok (v : Val) : EOk v.iter := by
  unfold Val.iter; split <;> first | exact EOk.ok _ | exact EOk.err rfl

theorem valInt_exok (v : Val) : EOk v.toInt := by
  unfold Val.toInt; split <;> first | exact EOk.ok _ | exact EOk.err rfl | exact pyInt_exok _

theorem valLen_exok (v : Val) : EOk v.len := by
  unfold Val.len; split <;> first | exact EOk.ok _ | exact EOk.err rfl

theorem argLen_exok (v : Arg) : EOk v.len := by
  unfold Arg.len; split <;> first | exact EOk.ok _ | exact EOk.err rfl | exact valLen_exok _

theorem pduRequestID_exok (v : Val) : EOk (pduRequestID v) := by
  unfold pduRequestID; split <;> first | exact EOk.ok _ | exact EOk.err rfl

theorem mkMessage_exok (c : SeqCls) (v : Int) (t : Str) (d : Val) : EOk (mkMessage c v t d) := by
  unfold mkMessage; split
  · exact EOk.err (mkInteger_exok _ _ _ ‹_›)
  · exact EOk.ok _

theorem mkPDU_exok (c : SeqCls) (a b d : Int) (l : List Val) : EOk (mkPDU c a b d l) := by
  have hi := mkInteger_exok
  have hl := mkVarBindList_exok
  unfold mkPDU mkPDU1 mkPDU2 mkBulk
  repeat' first
    | exact EOk.ok _
    | exact EOk.err rfl
    | apply hi
    | apply hl
    | (refine EOk.bind ?_ fun _ => ?_)
    | split

theorem objHash_exok (v : Val) : EOk (objHash v) := by
  unfold objHash; split <;> first | exact EOk.ok _ | exact EOk.err rfl

theorem mkOctets_exok (c : OctCls) (v : Arg) : EOk (mkOctetStringArg c v) := by
  unfold mkOctetStringArg
  split
  · split
    · exact EOk.err (argLen_exok _ _ ‹_›)
    · split <;> exact EOk.err rfl
  · split <;> first | exact EOk.ok _ | exact EOk.err rfl

theorem mkIP_exok (c : OctCls) (v : Arg) : EOk (mkIPAddress c v) := by
  unfold mkIPAddress
  split
  · dsimp only
    split
    · exact EOk.err rfl
    · split
      · exact EOk.err (ipParse_exok _ _ ‹_›)
      · exact EOk.ok _
  · split <;> first | exact EOk.ok _ | exact EOk.err rfl
  · exact EOk.ok _

theorem construct_exok (c : Cls) (v : Arg) : EOk (construct c v) := by
  unfold construct
  split
  · exact EOk.err rfl
  · unfold mkIntegerArg; split
    · exact mkInteger_exok _ _
    · exact EOk.err rfl
  · split
    · exact mkIP_exok _ _
    · exact mkOctets_exok _ _
  · split
    · exact EOk.err (mkOid_exok _ _ ‹_›)
    · exact EOk.ok _
  · exact EOk.err rfl
  · split
    · split
      · exact mkPDU_exok _ _ _ _ _
      · exact EOk.err rfl
    · split
      · split <;> first | exact EOk.ok _ | exact EOk.err rfl
      · split <;> first | exact EOk.ok _ | exact EOk.err rfl

theorem constructTag_exok (reg : Reg) (t : Int) (v : Arg) : EOk (constructTag reg t v) := by
  unfold constructTag
  split
  · exact EOk.err rfl
  · split
    · exact EOk.err rfl
    · exact construct_exok _ _

theorem v2Varbinds_exok : ∀ l, EOk (v2Varbinds l)
  | [] => EOk.ok _
  | a :: rest => by
    unfold v2Varbinds
    exact EOk.bind (mkOid_exok a) fun _ => EOk.bind (mkVarBind_exok _ _ _) fun _ => EOk.bind (v2Varbinds_exok rest) fun _ => EOk.ok _

theorem assign_exok {k : Kind} : MOk (assignRequestID : M k Nat) := fun _ => EOk.ok _
theorem put_exok {k : Kind} (m : Option Msg) (r : Nat) : MOk (putOutbound m r : M k Unit) := fun _ => EOk.ok _
theorem setCallback_exok {k : Kind} (v : Val) (cb : Nat) : MOk (setCallback v cb : M k Unit) := by
  intro s e h
  unfold setCallback Dict.put at h
  have := objHash_exok v
  cases hh : objHash v with
  | error e' => rw [hh] at h; cases h; exact this _ hh
  | ok _ => rw [hh] at h; cases h

theorem throwA {k : Kind} {α : Type} : MOk (M.throw .attributeError : M k α) := MOk.throw rfl
theorem throwV {k : Kind} {α : Type} : MOk (M.throw .valueError : M k α) := MOk.throw rfl
theorem throwU {k : Kind} {α : Type} : MOk (M.throw .unboundLocalError : M k α) := MOk.throw rfl

/-- The request methods raise only instances of `Exception`. -/
theorem callBody_exok (env : Env) (k : Kind) (c : k.Call) : MOk (callBody env k c) := by
  cases k <;> cases c <;>
    simp only [callBody, v1SnmpGet, v1SnmpGetNext, v1SnmpSet, v1SnmpTrap, v1CreateGetRequestMessage, v1CreateGetNextRequestMessage,
      v1CreateGetRequestPDU, v1CreateGetNextRequestPDU, v1Enqueue, v2SnmpGet, v2SnmpGetNext, v2SnmpSet, v2SnmpTrap,
      v2CreateGetRequestMessage, v2CreateGetNextRequestMessage, v2CreateGetRequestPDU, smSnmpGet, smSnmpGetNext, smSnmpSet, smSnmpTrap,
      smCreateGetRequestMessage, smCreateGetNextRequestMessage, smCreateSetRequestMessage, smCreateTrapMessage, smCreatePDU, smEnqueue] <;>
    repeat' with_reducible first
      | (refine MOk.bind ?_ fun _ => ?_)
      | exact MOk.pure _
      | exact throwA | exact throwV | exact throwU
      | exact assign_exok
      | exact put_exok _ _
      | exact setCallback_exok _ _
      | exact MOk.lift (mkOid_exok _)
      | exact MOk.lift (mkVarBind_exok _ _ _)
      | exact MOk.lift (mkVarBindList_exok _ _)
      | exact MOk.lift (iter_exok _)
      | exact MOk.lift (mkPDU_exok _ _ _ _ _)
      | exact MOk.lift (mkMessage_exok _ _ _ _)
      | exact MOk.lift (pduRequestID_exok _)
      | exact MOk.lift (valInt_exok _)
      | exact MOk.lift (v2Varbinds_exok _)
      | exact MOk.lift (constructTag_exok _ _ _)
      | split

end Libsnmp
