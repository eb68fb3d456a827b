import Verif.Lemmas.SrcMgr
import Verif.Lemmas.SrcBad

/-!
# Running the request methods of `v1.SNMP`
-/

namespace Libsnmp.Src
open Libsnmp

variable {cfg : Cfg} {nm : Names} {env : Libsnmp.Env} {k : Libsnmp.Kind}

/-- What code of the manager at `a` must do; `T` relates results. -/
def Runs (nm : Names) (env : Libsnmp.Env) (a q d : Nat) {α : Type} (T : Heap → α → V → Prop) (h : Heap) (r : R V)
    (m : Except Exc α × Mgr k) : Prop :=
  ∃ h' attrs, Own a q d h h' ∧ MgrAt nm env h' a m.2 attrs q d ∧
    Outcome T h' r m.1

/-- A message. -/
def IsMsg (h : Heap) (m : Msg) (x : V) : Prop := ∃ b, x = .ref b ∧ RepMsg 9 h m b

theorem Runs.does {h : Heap} {a q d : Nat} {s : Mgr k} {attrs : List (String × V)} (r : MgrAt nm env h a s attrs q d) {o : R V}
    {m : Except Exc Val × Mgr k} (h1 : Runs nm env a q d (Rep 9) h o m) : Does nm env h a o m := by
  obtain ⟨h', attrs', h2, h3, h4⟩ := h1
  exact ⟨h', h2.only r, ⟨_, _, _, h3⟩, h4⟩

section
variable {h : Heap} {a q d : Nat} {s : Mgr k} {attrs : List (String × V)}

/-- v1.py:47-52, snmpmanager.py:63-68. -/
theorem run_assign (r : MgrAt nm env h a s attrs q d) {m : Module} {l : Nat} (hm : (m, l) = (.v1, 47) ∨ (m, l) = (.snmpmanager, 63)) :
    call program cfg (.func m l) [.ref a] h = okR (.int s.nextRequestID)
      (h.set a (.inst (mgrCid k) (setAssoc attrs "nextRequestID" (.int (s.nextRequestID + 1 : Nat))))) := by
  have hx : program.isExc 8 (mgrCid k) = false := by cases k <;> rfl
  have hg := r.getNext
  have hs : ∀ v, setattr program (.ref a) "nextRequestID" v h =
      okR () (h.set a (.inst (mgrCid k) (setAssoc attrs "nextRequestID" v))) := by
    intro v
    simp only [setattr, r.cell, hx]
    rfl
  rcases hm with hm | hm <;> cases hm
  · rw [call_v1_47]
    runs [v1_47, ↓hg, ↓hs]
  · rw [call_snmpmanager_63]
    runs [snmpmanager_63, ↓hg, ↓hs]

theorem place_pdu {c : SeqCls} (hi : initOf (.seq c) = (.rfc1157, 138) ∨ initOf (.seq c) = (.rfc1905, 105)) (x y : V) :
    program.place (.cls (cid (.seq c))) [x] [("varBindList", y)] = some [x, .int 0, .int 0, y] := by
  cases c <;> first
    | rfl
    | (rcases hi with hi | hi <;> cases hi)

theorem place_msg {c : SeqCls} (hi : c = .message ∨ c = .message2) (x y : V) :
    program.place (.cls (cid (.seq c))) [] [("community", x), ("data", y)] =
      some [.int (if c = .message then 0 else 1), x, y] := by
  rcases hi with rfl | rfl <;> rfl

theorem RepVbs.same {h' : Heap} (hs : Same h h') {vs : List Val} {x : V} (r : RepVbs h vs x) : RepVbs h' vs x := by
  rcases r with ⟨b, l, h1, h2, h3, h4⟩ | ⟨c, r⟩
  · exact .inl ⟨b, l, h1, h2, hs _ _ h2 trivial h3, h4.same hs⟩
  · exact .inr ⟨c, r.same hs⟩

theorem RepVbs.items {vs : List Val} {x : V} (r : RepVbs h vs x) : ∃ l, Items h x l ∧ RepAll 9 h vs l := by
  rcases r with ⟨b, l, rfl, h2, h3, h4⟩ | ⟨c, r⟩
  · exact ⟨l, items_list h2 h3, h4⟩
  · rw [Rep] at r
    obtain ⟨a, attrs, b, l, rfl, h2, h3, h4, h5, h6, h7, h8, h9⟩ := r
    exact ⟨l, items_seq h2 h3 h5 h6 h7, h9⟩

/-- `Get(reqID, varBindList=x)` after `reqID` was assigned. -/
theorem run_requestAt (hc : Limits cfg) (hb : Base h) (r : MgrAt nm env h a s attrs q d) {c : SeqCls}
    (hp : (Cls.seq c).isSubclass (.seq .pdu) = true) {vs : List Val} {x : V} (hv : RepVbs h vs x) (n : Int) :
    ∃ h' attrs', Own a q d h h' ∧ MgrAt nm env h' a s attrs' q d ∧ Kept h.length h h' ∧
      Outcome (Rep 9) h' (call program cfg (.cls (cid (.seq c))) [.int n, .int 0, .int 0, x] h) (mkPDU c n 0 0 vs) := by
  obtain ⟨l, hi, hr⟩ := hv.items
  have hm := run_request (cfg := cfg) hc hb hp hi hr (Nat.le_refl _) hb.long n
  cases hmk : mkPDU c n 0 0 vs with
  | ok v =>
    rw [hmk] at hm
    obtain ⟨h', h1, h2, h3⟩ := hm
    exact ⟨h', attrs, (Own.refl hb _ _ _).kept h2 (Nat.le_refl _), r.kept h2 (Nat.le_refl _), h2, _, h1, h3⟩
  | error e =>
    rw [hmk] at hm
    obtain ⟨args, h', h1, h2, rfl⟩ := hm
    exact ⟨h', attrs, (Own.refl hb _ _ _).kept h2 (Nat.le_refl _), r.kept h2 (Nat.le_refl _), h2, _, h1, ⟨_, rfl⟩⟩

theorem Own.asn' {h' : Heap} (hb : Base h) (r : MgrAt nm env h a s attrs q d) :
    Own a q d h (h.set a (.inst (mgrCid k) (setAssoc attrs "nextRequestID" (.int (s.nextRequestID + 1 : Nat))))) :=
  ⟨hb.congr fun i hi => List.getElem?_set_ne (by have := r.low; omega), by simp, fun i _ _ e1 _ _ => List.getElem?_set_ne (Ne.symm e1),
    fun _ _ _ c l hl => by
      rw [r.cell] at hl; cases hl
      exact ⟨_, get_set_nil r.lt _, fun n hn => lookup_setOther (by simpa using hn)⟩⟩

end

/-- v1.py:54-57. -/
theorem run_v1_54 (hc : Limits cfg) {h : Heap} {a q d : Nat} {s : Mgr .v1} {attrs : List (String × V)} (hb : Base h)
    (r : MgrAt nm env h a s attrs q d) {vs : List Val} {x : V} (hv : RepVbs h vs x) :
    Runs nm env a q d (Rep 9) h (call program cfg (.func .v1 54) [.ref a, x] h) ((v1CreateGetRequestPDU vs : M .v1 Val) s) := by
  have hid := run_assign (cfg := cfg) r (m := .v1) (l := 47) (.inl rfl)
  have ho := Own.asn' (h' := h) hb r
  have hm := r.meth (name := "assignRequestID") (m := .v1) (l := 47) rfl
  have r1 := r.setId
  obtain ⟨h', attrs', o1, r2, hk, out⟩ := run_requestAt (cfg := cfg) hc ho.base r1 (c := .get) rfl (hv.same (ho.asn r)) s.nextRequestID
  have hpl := place_pdu (c := .get) (.inl rfl) (.int s.nextRequestID) x
  refine ⟨h', attrs', ho.trans o1, r2, ?_⟩
  change Outcome (Rep 9) h' _ (mkPDU .get s.nextRequestID 0 0 vs)
  rw [call_v1_54]
  rw [show cid (.seq .get) = (.rfc1157, 173) from rfl] at hpl out
  cases hmk : mkPDU .get s.nextRequestID 0 0 vs with
  | ok v =>
    rw [hmk] at out
    obtain ⟨y, out, ry⟩ := out
    refine ⟨y, ?_, ry⟩
    runs [v1_54, ↓hm, ↓hid, ↓hpl, ↓out]
  | error e =>
    rw [hmk] at out
    obtain ⟨y, out, ry⟩ := out
    refine ⟨y, ?_, ry⟩
    runs [v1_54, ↓hm, ↓hid, ↓hpl, ↓out]

/-- v1.py:59-62. -/
theorem run_v1_59 (hc : Limits cfg) {h : Heap} {a q d : Nat} {s : Mgr .v1} {attrs : List (String × V)} (hb : Base h)
    (r : MgrAt nm env h a s attrs q d) {vs : List Val} {x : V} (hv : RepVbs h vs x) :
    Runs nm env a q d (Rep 9) h (call program cfg (.func .v1 59) [.ref a, x] h) ((v1CreateGetNextRequestPDU vs : M .v1 Val) s) := by
  have hid := run_assign (cfg := cfg) r (m := .v1) (l := 47) (.inl rfl)
  have ho := Own.asn' (h' := h) hb r
  have hm := r.meth (name := "assignRequestID") (m := .v1) (l := 47) rfl
  have r1 := r.setId
  obtain ⟨h', attrs', o1, r2, hk, out⟩ := run_requestAt (cfg := cfg) hc ho.base r1 (c := .getNext) rfl (hv.same (ho.asn r)) s.nextRequestID
  have hpl := place_pdu (c := .getNext) (.inl rfl) (.int s.nextRequestID) x
  refine ⟨h', attrs', ho.trans o1, r2, ?_⟩
  change Outcome (Rep 9) h' _ (mkPDU .getNext s.nextRequestID 0 0 vs)
  rw [call_v1_59]
  rw [show cid (.seq .getNext) = (.rfc1157, 179) from rfl] at hpl out
  cases hmk : mkPDU .getNext s.nextRequestID 0 0 vs with
  | ok v =>
    rw [hmk] at out
    obtain ⟨y, out, ry⟩ := out
    refine ⟨y, ?_, ry⟩
    runs [v1_59, ↓hm, ↓hid, ↓hpl, ↓out]
  | error e =>
    rw [hmk] at out
    obtain ⟨y, out, ry⟩ := out
    refine ⟨y, ?_, ry⟩
    runs [v1_59, ↓hm, ↓hid, ↓hpl, ↓out]

/-- v2.py:26-29. -/
theorem run_v2_26 (hc : Limits cfg) {h : Heap} {a q d : Nat} {s : Mgr .v2} {attrs : List (String × V)} (hb : Base h)
    (r : MgrAt nm env h a s attrs q d) {vs : List Val} {x : V} (hv : RepVbs h vs x) :
    Runs nm env a q d (Rep 9) h (call program cfg (.func .v2 26) [.ref a, x] h) ((v2CreateGetRequestPDU vs : M .v2 Val) s) := by
  have hid := run_assign (cfg := cfg) r (m := .v1) (l := 47) (.inl rfl)
  have ho := Own.asn' (h' := h) hb r
  have hm := r.meth (name := "assignRequestID") (m := .v1) (l := 47) rfl
  have r1 := r.setId
  obtain ⟨h', attrs', o1, r2, hk, out⟩ := run_requestAt (cfg := cfg) hc ho.base r1 (c := .get2) rfl (hv.same (ho.asn r)) s.nextRequestID
  have hpl := place_pdu (c := .get2) (.inr rfl) (.int s.nextRequestID) x
  refine ⟨h', attrs', ho.trans o1, r2, ?_⟩
  change Outcome (Rep 9) h' _ (mkPDU .get2 s.nextRequestID 0 0 vs)
  rw [call_v2_26]
  rw [show cid (.seq .get2) = (.rfc1905, 179) from rfl] at hpl out
  cases hmk : mkPDU .get2 s.nextRequestID 0 0 vs with
  | ok v =>
    rw [hmk] at out
    obtain ⟨y, out, ry⟩ := out
    refine ⟨y, ?_, ry⟩
    runs [v2_26, ↓hm, ↓hid, ↓hpl, ↓out]
  | error e =>
    rw [hmk] at out
    obtain ⟨y, out, ry⟩ := out
    refine ⟨y, ?_, ry⟩
    runs [v2_26, ↓hm, ↓hid, ↓hpl, ↓out]

end Libsnmp.Src
