import Verif.Lemmas.SrcMgr4
import Verif.Spec.SourceAsk
import Verif.Props.Source4

/-!
# C96: the request methods of v1.SNMP and v2.SNMP, on the source text
-/

namespace Libsnmp
open Spec Src

variable {cfg : Cfg} {nm : Names} {env : Env}

theorem callMgr_eq {k : Kind} {h : Heap} {a q d : Nat} {s : Mgr k} {attrs : List (String × V)} (r : MgrAt nm env h a s attrs q d)
    {name : String} {m : Module} {l : Nat} (hm : program.attr (mgrCid k) name = some (.func m l)) (args : List V)
    (hn : name ∉ mgrNames := by decide) (hc : name ≠ "__class__" := by decide) :
    callMethod cfg (.ref a) name args h = call program cfg (.func m l) (.ref a :: args) h := by
  unfold callMethod
  rw [r.meth hm hn hc]
  runs

/-! ## C96 -/

/-- C96. A call of a request method of a v1.SNMP object, with any arguments: what the source text does is what the model's method
does.  It returns the model's result or raises the model's exception, the object is then the model's manager after the call, and no
other object has changed. -/
theorem C96_v1 (hc : Limits cfg) {h : Heap} (hb : Base h) {a : Nat} {s : Mgr .v1} (r : MgrRep nm env h a s) (c : V1Call)
    {name : String} {args : List V} (hk : AskV1 nm cfg h name args c) :
    Does nm env h a (callMethod cfg (.ref a) name args h) (callBody env .v1 c s) := by
  obtain ⟨attrs, q, d, r⟩ := r
  cases c with
  | get oid remote cb t =>
    obtain ⟨rfl, hs, x, hx, rfl | ⟨rfl, rfl⟩⟩ := hk
    all_goals rw [callMgr_eq r (m := .v1) (l := 103) rfl]
    · exact (run_v1_103 hc hb r hx.1 hs t remote cb).does r
    · rw [call_v1_103_4, ← call_v1_103]; exact (run_v1_103 hc hb r hx.1 hs _ remote cb).does r
  | getNext vbs remote cb t =>
    obtain ⟨rfl, x, hx, rfl | ⟨rfl, rfl⟩⟩ := hk
    all_goals rw [callMgr_eq r (m := .v1) (l := 118) rfl]
    · exact (run_v1_118 hc hb r hx t remote cb).does r
    · rw [call_v1_118_4, ← call_v1_118]; exact (run_v1_118 hc hb r hx _ remote cb).does r
  | set vbs remote cb t =>
    obtain ⟨rfl, x, hx, rfl | ⟨rfl, rfl⟩⟩ := hk
    all_goals rw [callMgr_eq r (m := .v1) (l := 133) rfl]
    · exact (run_v1_133 hc hb r hx t remote cb).does r
    · rw [call_v1_133_4, ← call_v1_133]; exact (run_v1_133 hc hb r hx _ remote cb).does r
  | trap remote pdu t =>
    obtain ⟨rfl, x, hx, rfl | ⟨rfl, rfl⟩⟩ := hk
    all_goals rw [callMgr_eq r (m := .v1) (l := 151) rfl]
    · exact (run_v1_151 hc hb r hx t remote).does r
    · rw [call_v1_151_3, ← call_v1_151]; exact (run_v1_151 hc hb r hx _ remote).does r

/-- C96. A call of a request method of a v2.SNMP object, with any arguments, likewise. -/
theorem C96_v2 (hc : Limits cfg) {h : Heap} (hb : Base h) {a : Nat} {s : Mgr .v2} (r : MgrRep nm env h a s) (c : V2Call)
    {name : String} {args : List V} (hk : AskV2 nm cfg h name args c) :
    Does nm env h a (callMethod cfg (.ref a) name args h) (callBody env .v2 c s) := by
  obtain ⟨attrs, q, d, r⟩ := r
  cases c with
  | get oids remote cb t =>
    obtain ⟨rfl, hs, x, hx, rfl | ⟨rfl, rfl⟩⟩ := hk
    all_goals rw [callMgr_eq r (m := .v2) (l := 80) rfl]
    · exact (run_v2_80 hc hb r hx hs t remote cb).does r
    · rw [call_v2_80_4, ← call_v2_80]; exact (run_v2_80 hc hb r hx hs _ remote cb).does r
  | getNext vbs remote cb t =>
    obtain ⟨rfl, x, rfl | ⟨rfl, rfl⟩⟩ := hk
    all_goals rw [callMgr_eq r (m := .v2) (l := 96) rfl]
    · exact (run_v2_96 hb r vbs x t remote cb).does r
    · rw [call_v2_96_4, ← call_v2_96]; exact (run_v2_96 hb r vbs x _ remote cb).does r
  | set vbs remote cb t =>
    obtain ⟨rfl, x, rfl | ⟨rfl, rfl⟩⟩ := hk
    all_goals rw [callMgr_eq r (m := .v2) (l := 111) rfl]
    · exact (run_v2_111 hb r vbs x t remote cb).does r
    · rw [call_v2_111_4, ← call_v2_111]; exact (run_v2_111 hb r vbs x _ remote cb).does r
  | trap remote pdu t =>
    obtain ⟨rfl, x, hx, rfl | ⟨rfl, rfl⟩⟩ := hk
    all_goals rw [callMgr_eq r (m := .v2) (l := 129) rfl]
    · exact (run_v2_129 hc hb r hx t remote).does r
    · rw [call_v2_129_3, ← call_v2_129]; exact (run_v2_129 hc hb r hx _ remote).does r

/-! ## The hypotheses are met -/

/-- Addresses are pairs of a host and a port, callbacks are functions. -/
def sampleNames : Names := ⟨fun n => .tuple [.str (lit "127.0.0.1"), .int n], fun n => .func .util n⟩

/-- A manager of each kind with an empty queue and no callbacks, its argument list `['.1.3.6', 5]` for `v2.snmpGet`, and a binding. -/
def sampleMgr (k : Kind) : Heap := statics ++
  [.inst (mgrCid k) [("queueEmpty", .none), ("trapCallback", .none), ("outbound", .ref 11), ("callbacks", .ref 12)],
   .queue [], .dict [], .list [.str (lit ".1.3.6"), .int 5]]

theorem sampleMgr_base (k : Kind) : Base (sampleMgr k) := base_statics.congr fun b hb => List.getElem?_append_left (Nat.lt_of_lt_of_le hb (by decide))

theorem sampleMgr_rep (k : Kind) : MgrRep sampleNames ⟨regFull, none, none⟩ (sampleMgr k) 10 ({} : Mgr k) :=
  ⟨[("queueEmpty", .none), ("trapCallback", .none), ("outbound", .ref 11), ("callbacks", .ref 12)], 11, 12,
    ⟨by decide, rfl, by simp [mgrNames], .inr ⟨rfl, rfl⟩, rfl, by decide, ⟨_, rfl, .nil⟩, rfl, by decide, ⟨_, rfl, .nil⟩, by simp, .nil, rfl, rfl⟩⟩

theorem sampleCfg_limits : Limits sampleCfg := .inr (by decide)

/-- `manager.snmpGet('.1.3.6', ('127.0.0.1', 161), callback)`: the manager then has the message in its queue and the callback under
the number 0. -/
example : Does (k := .v1) sampleNames ⟨regFull, none, none⟩ (sampleMgr .v1) 10
    (callMethod sampleCfg (.ref 10) "snmpGet" [.str (lit ".1.3.6"), .tuple [.str (lit "127.0.0.1"), .int (161 : Nat)], .func .util 7] (sampleMgr .v1))
    (.ok (.integer .integer 0), { nextRequestID := 1, callbacks := [(.int 0, 7)], outbound := [(some ⟨.message, .integer .integer 0,
      .octets .octetString (lit "public"), .seq .get [.integer .integer 0, .integer .errorStatus 0, .integer .integer 0,
        .seq .varBindList [.seq .varBind [.oid (some [1, 3, 6]), .null .null]]]⟩, 161)] }) := by
  have h1 := C96_v1 (cfg := sampleCfg) sampleCfg_limits (sampleMgr_base .v1) (sampleMgr_rep .v1) (.get (.str (lit ".1.3.6")) 161 7 (lit "public"))
    ⟨rfl, fun s hs => by injection hs with hs; subst hs; exact .inr (by decide +kernel), .str (lit ".1.3.6"), ⟨rfl, by simp⟩, .inr ⟨rfl, rfl⟩⟩
  rw [show callBody ⟨regFull, none, none⟩ Kind.v1 (.get (.str (lit ".1.3.6")) 161 7 (lit "public")) {} = (_, _) from rfl] at h1
  exact h1

/-- `manager.snmpGet(['.1.3.6', 5], ('127.0.0.1', 161), callback, 'private')` of a v2.SNMP object. -/
example : Does (k := .v2) sampleNames ⟨regFull, none, none⟩ (sampleMgr .v2) 10
    (callMethod sampleCfg (.ref 10) "snmpGet" [.ref 13, .tuple [.str (lit "127.0.0.1"), .int (161 : Nat)], .func .util 7, .str (lit "private")]
      (sampleMgr .v2))
    (.ok (.integer .integer32 0), { nextRequestID := 1, callbacks := [(.int 0, 7)], outbound := [(some ⟨.message2, .integer .integer 1,
      .octets .octetString (lit "private"), .seq .get2 [.integer .integer32 0, .integer .errorStatus2 0, .integer .integer 0,
        .seq .varBindList2 [.seq .varBind [.oid (some [1, 3, 6]), .null .null], .seq .varBind [.oid (some [5]), .null .null]]]⟩, 161)] }) := by
  have h1 := C96_v2 (cfg := sampleCfg) sampleCfg_limits (sampleMgr_base .v2) (sampleMgr_rep .v2)
    (.get [.str (lit ".1.3.6"), .int 5] 161 7 (lit "private"))
    ⟨rfl, fun arg ha s hs => by
        subst hs
        simp only [List.mem_cons, reduceCtorEq, List.not_mem_nil, or_false, Arg.str.injEq] at ha
        subst ha; exact .inr (by decide +kernel),
      .ref 13, .inl ⟨13, _, rfl, by decide, rfl, .cons ⟨rfl, by simp⟩ (.cons ⟨rfl, by simp⟩ .nil)⟩, .inl rfl⟩
  rw [show callBody ⟨regFull, none, none⟩ Kind.v2 (.get [.str (lit ".1.3.6"), .int 5] 161 7 (lit "private")) {} = (_, _) from rfl] at h1
  exact h1

end Libsnmp
