import Verif.Lemmas.SrcStep
import Verif.Lemmas.SrcMakePduAny
import Verif.Lemmas.SrcOct

/-!
# C107: a program that makes, shares, changes and encodes objects, on the source text
-/

namespace Libsnmp.Src
open Libsnmp

theorem make_opaque (H : Lies φ m h) (s : Str) :
    Comes φ h (call program cfg (.cls (cid (.oct .opaque))) [.str s] h) (let (m, r) := m.newPrim (.oct .opaque) (.text s); (m, .ok r)) := by
  have he := isExc_cid (.oct .opaque)
  have e : call program cfg (.cls (cid (.oct .opaque))) [.str s] h = okR (.ref h.length) (h ++ [.inst (cid (.oct .opaque)) [("value", .str s)]]) := by
    rw [call_cls, show initOf (.oct .opaque) = (.rfc1155, 519) from rfl]
    dsimp only
    rw [call_rfc1155_519]
    runs [rfc1155_519, he]
  rw [e]
  exact made_prim H (Kept.app H.base _) (Nat.le_refl _) (node_prim (get_app _ _) (plain [_]) rfl rfl (value_lacks _))

/-- `IPAddress(text)`, with the objects that it leaves. -/
theorem run_newIP (h : Heap) (c : OctCls) (hc : c = .ipAddress ∨ c = .networkAddress) {s : Str} (hs : Short cfg s) :
    match (if (pySplit 46 s).length ≠ 4 then .error .valueError else ipParse (pySplit 46 s) : Except Exc Str) with
    | .ok t => ∃ l, call program cfg (.cls (cid (.oct c))) [.str s] h =
        okR (.ref h.length) (h ++ [.inst (cid (.oct c)) [("value", .str t)], .list l])
    | .error e => ∃ t args, call program cfg (.cls (cid (.oct c))) [.str s] h = excR (.exc (excName e) args) (h ++ t) := by
  have he := isExc_cid (.oct c)
  have hi : initOf (.oct c) = (.rfc1155, 898) := by rcases hc with rfl | rfl <;> rfl
  have h46 : lit "." = [46] := by decide +kernel
  have h0 : lit "" = [] := by decide +kernel
  rw [call_cls, hi]
  have hl := run_ipInit (cfg := cfg) h c (pySplit 46 s) [] _ rfl (fun p hp => hs.split hp) [] (some (.str s))
    (some (.ref (h.length + 1))) none
  unfold ipHeap at hl
  by_cases h4 : (pySplit 46 s).length = 4
  · simp only [h4, ne_eq, not_true_eq_false, if_false]
    have h4' : ((((pySplit 46 s).map V.str).length : Nat) : Int) = 4 := by rw [List.length_map, h4]; rfl
    cases hp : ipParse (pySplit 46 s) with
    | ok cs =>
      rw [hp] at hl
      obtain ⟨it, hl⟩ := hl
      rw [List.nil_append, List.length_nil] at hl
      refine ⟨(pySplit 46 s).map V.str, ?_⟩
      runs [call_rfc1155_898, rfc1155_898, call_rfc1155_519, rfc1155_519, he, h0, h46, strMethod, h4, hl]
    | error e =>
      rw [hp] at hl
      obtain ⟨acc, env, args, hl⟩ := hl
      rw [List.length_nil] at hl
      refine ⟨[.inst (cid (.oct c)) [("value", .str acc)], .list ((pySplit 46 s).map V.str)], args, ?_⟩
      runs [call_rfc1155_898, rfc1155_898, call_rfc1155_519, rfc1155_519, he, h0, h46, strMethod, h4, hl]
  · simp only [h4, ne_eq, not_false_eq_true, if_true]
    have h4' : ¬ ((((pySplit 46 s).map V.str).length : Nat) : Int) = 4 := by rw [List.length_map]; omega
    refine ⟨[.inst (cid (.oct c)) [("value", .str [])], .list ((pySplit 46 s).map V.str)], [.str (lit "IPAddress must be of length 4")], ?_⟩
    runs [call_rfc1155_898, rfc1155_898, call_rfc1155_519, rfc1155_519, he, h0, h46, strMethod, h4, excName]

/-- `IPAddress("a.b.c.d")`, `NetworkAddress("a.b.c.d")`. -/
theorem make_ip (H : Lies φ m h) {c : OctCls} (hc : c = .ipAddress ∨ c = .networkAddress) {s : Str} (hs : Short cfg s) :
    Comes φ h (call program cfg (.cls (cid (.oct c))) [.str s] h)
      (match octText c s with
        | .error e => (m, .error e)
        | .ok t => (let (m, r) := m.newPrim (.oct c) (.text t); (m, .ok r))) := by
  have hi : octText c s = if (pySplit 46 s).length ≠ 4 then .error .valueError else ipParse (pySplit 46 s) := by
    have h1 : (Cls.oct c).isSubclass (.oct .ipAddress) = true := by rcases hc with rfl | rfl <;> rfl
    rw [octText, if_pos h1, mkIPAddress]
    by_cases h4 : (pySplit 46 s).length ≠ 4
    · rw [if_pos h4, if_pos h4]
    · rw [if_neg h4, if_neg h4]; cases ipParse (pySplit 46 s) <;> rfl
  have hr := run_newIP (cfg := cfg) h c hc hs
  rw [← hi] at hr
  cases e : octText c s with
  | error e =>
    simp only [e] at hr ⊢
    obtain ⟨t, args, hr⟩ := hr
    rw [hr]
    exact made_error H (Kept.app H.base _)
  | ok t =>
    simp only [e] at hr ⊢
    obtain ⟨l, hr⟩ := hr
    rw [hr]
    exact made_prim H (Kept.app H.base _) (Nat.le_refl _) (node_prim (get_app _ _) (plain [_]) rfl (by rcases hc with rfl | rfl <;> rfl) (value_lacks _))

theorem var_at {φ : Layout} : ∀ {rs : List Ref} {vals : List V}, List.Forall₂ (RefAt φ) rs vals → ∀ {v : Nat} {r : Ref}, rs[v]? = some r →
    ∃ x, vals[v]? = some x ∧ RefAt φ r x
  | _, _, .cons hr hf, 0, r, e => by cases e; exact ⟨_, rfl, hr⟩
  | _, _, .cons _ hf, v + 1, r, e => by
    obtain ⟨x, h1, h2⟩ := var_at hf (v := v) (r := r) (by simpa using e)
    exact ⟨x, by simpa using h1, h2⟩

theorem vars_at {φ : Layout} {p : Prog} {vals : List V} (hf : List.Forall₂ (RefAt φ) p.vars vals) : ∀ {vs : List Nat} {rs : List Ref}, p.refs vs = some rs →
    ∃ xs, valsOf vals vs = some xs ∧ List.Forall₂ (RefAt φ) rs xs
  | [], rs, e => by cases e; exact ⟨[], rfl, .nil⟩
  | v :: vs, rs, e => by
    rw [Prog.refs] at e
    split at e
    · rename_i r rs' h1 h2
      cases e
      obtain ⟨x, e1, e2⟩ := var_at hf h1
      obtain ⟨xs, e3, e4⟩ := vars_at hf h2
      exact ⟨x :: xs, by rw [valsOf, e1, e3], .cons e2 e4⟩
    · cases e

theorem refs_length {p : Prog} : ∀ {vs : List Nat} {rs : List Ref}, p.refs vs = some rs → rs.length = vs.length
  | [], _, e => by cases e; rfl
  | v :: vs, rs, e => by
    rw [Prog.refs] at e
    split at e
    · rename_i r rs' h1 h2
      cases e
      simp [refs_length h2]
    · cases e

/-- An operation of the model ends in `w`, and so does the operation on the source text. -/
theorem step_made (hl : Limits cfg) {p : Prog} {vals : List V} {h : Heap} {φ : Layout} (H : Lies φ p.mem h)
    (hv : List.Forall₂ (RefAt φ) p.vars vals) {op : POp} (hf : Spoken cfg p op) :
    ∃ w, p.step op = p.finish w ∧ Comes φ h (perform cfg vals op h) w := by
  cases op with
  | constNone => exact ⟨_, rfl, made_ok H (r := .none) rfl⟩
  | constInt n => exact ⟨_, rfl, made_ok H (r := .int n) rfl⟩
  | constStr s => exact ⟨_, rfl, made_ok H (r := .str s) rfl⟩
  | list vs =>
    obtain ⟨rs, hrs⟩ := hf
    obtain ⟨xs, e1, e2⟩ := vars_at hv hrs
    exact ⟨_, by rw [Prog.step, hrs], by rw [perform, e1]; exact made_list H e2⟩
  | integer c n => exact ⟨_, rfl, make_int hl H c n⟩
  | octets c s =>
    rcases hf with rfl | rfl | ⟨hc, hs⟩
    · exact ⟨_, rfl, make_oct H s⟩
    · exact ⟨_, rfl, make_opaque H s⟩
    · refine ⟨_, ?_, by rw [perform]; exact make_ip H hc hs⟩
      rw [Prog.step]
      split <;> rename_i e <;> simp only [e] <;> rfl
  | oid arg =>
    obtain ⟨⟨y, hy⟩, hn⟩ := hf
    refine ⟨_, ?_, by rw [perform, hy]; exact make_oid H hy hn⟩
    rw [Prog.step]
    split <;> rename_i e <;> simp only [e] <;> rfl
  | null c => exact ⟨_, rfl, make_null H c⟩
  | sequence v =>
    obtain ⟨l, hl'⟩ := hf
    obtain ⟨x, e1, b, e2, rfl⟩ := var_at hv hl'
    exact ⟨_, by rw [Prog.step, hl'], by rw [perform, e1]; exact make_seq H e2⟩
  | varBind c v w =>
    obtain ⟨hc, ⟨r, hr⟩, s, hs⟩ := hf
    obtain ⟨x, e1, e2⟩ := var_at hv hr
    obtain ⟨y, f1, f2⟩ := var_at hv hs
    have hc' : c = .varBind ∨ c = .varBind2 := by cases c <;> first | exact .inl rfl | exact .inr rfl | exact absurd hc (by decide)
    exact ⟨_, by rw [Prog.step, if_pos hc, hr, hs], by rw [perform, e1, f1]; exact make_varBind H hc' e2 f2⟩
  | varBindList c v =>
    obtain ⟨hc, r, hr⟩ := hf
    obtain ⟨x, e1, e2⟩ := var_at hv hr
    have hc' : c = .varBindList ∨ c = .varBindList2 := by cases c <;> first | exact .inl rfl | exact .inr rfl | exact absurd hc (by decide)
    exact ⟨_, by rw [Prog.step, if_pos hc, hr], by rw [perform, e1]; exact make_vbl_any hl H hc' e2⟩
  | pdu c a b d v =>
    obtain ⟨hc, r, hr⟩ := hf
    obtain ⟨x, e1, e2⟩ := var_at hv hr
    exact ⟨_, by rw [Prog.step, if_pos hc, hr], by rw [perform, e1]; exact make_pdu_any hl H hc a b d e2⟩
  | trap e a g s t v =>
    obtain ⟨rs, hrs⟩ := hf
    obtain ⟨xs, e1, e2⟩ := vars_at hv hrs
    have h6 : rs.length = 6 := refs_length hrs
    match rs, h6, e2, hrs with
    | [r1, r2, r3, r4, r5, r6], _, .cons a1 (.cons a2 (.cons a3 (.cons a4 (.cons a5 (.cons a6 .nil))))), hrs =>
      exact ⟨_, by rw [Prog.step, hrs], by rw [perform, e1]; exact make_trap H a1 a2 a3 a4 a5 a6⟩
  | message c n s v =>
    obtain ⟨hc, r, hr⟩ := hf
    obtain ⟨x, e1, e2⟩ := var_at hv hr
    exact ⟨_, by rw [Prog.step, if_pos hc, hr], by rw [perform, e1]; exact make_message hl H (isMsg.1 hc) n s e2⟩
  | attr v f =>
    obtain ⟨a, o, h1, h2, -⟩ := hf
    obtain ⟨x, e1, q, e2, rfl⟩ := var_at hv h1
    refine ⟨_, ?_, by rw [perform, e1]; exact made_attr H e2 f⟩
    rw [Prog.step, h1]
    dsimp only
    split <;> rename_i e <;> rw [e] <;> rfl
  | item v i =>
    obtain ⟨r, l, h1, h2⟩ := hf
    obtain ⟨x, e1, e2⟩ := var_at hv h1
    refine ⟨_, ?_, by rw [perform, e1]; exact made_item H e2 h2 i⟩
    rw [Prog.step, h1]
    dsimp only
    rw [h2]
    dsimp only
    split <;> rename_i e <;> rw [e] <;> rfl
  | value v =>
    obtain ⟨a, o, h1, h2, h3⟩ := hf
    obtain ⟨x, e1, q, e2, rfl⟩ := var_at hv h1
    refine ⟨_, ?_, by rw [perform, e1]; exact made_value H h2 e2 h3⟩
    rw [Prog.step, h1]
    dsimp only
    rw [h2]
    obtain ⟨c, s, at'⟩ := o
    cases s <;> rfl
  | setAttr v f w =>
    obtain ⟨⟨a, o, h1, h2, -⟩, r, hr⟩ := hf
    obtain ⟨x, e1, q, e2, rfl⟩ := var_at hv h1
    obtain ⟨y, f1, f2⟩ := var_at hv hr
    exact ⟨_, by rw [Prog.step, h1, hr], by rw [perform, e1, f1]; exact made_setAttr H e2 f f2⟩
  | setNum v n =>
    obtain ⟨a, o, h1, h2, h3⟩ := hf
    obtain ⟨x, e1, q, e2, rfl⟩ := var_at hv h1
    refine ⟨_, by rw [Prog.step, h1], ?_⟩
    rw [perform, e1]
    simp only [Mem.assign, h2, h3, if_true]
    refine made_setValue H h2 e2 (v := .num n) fun attrs ha => ?_
    obtain ⟨c, s, at'⟩ := o
    cases c <;> first | exact ha | cases h3
  | setText v s =>
    obtain ⟨a, o, h1, h2, h3⟩ := hf
    obtain ⟨x, e1, q, e2, rfl⟩ := var_at hv h1
    refine ⟨_, by rw [Prog.step, h1], ?_⟩
    rw [perform, e1]
    simp only [Mem.assign, h2, h3, if_true]
    refine made_setValue H h2 e2 (v := .text s) fun attrs ha => ?_
    obtain ⟨c, s, at'⟩ := o
    cases c <;> first | exact ha | cases h3
  | setIds v ids =>
    obtain ⟨a, o, h1, h2, h3⟩ := hf
    obtain ⟨x, e1, q, e2, rfl⟩ := var_at hv h1
    refine ⟨_, by rw [Prog.step, h1], ?_⟩
    rw [perform, e1]
    simp only [Mem.assign, h2, h3, if_true]
    refine made_setIds H h2 e2 ?_ ids
    obtain ⟨c, s, at'⟩ := o
    cases c <;> first | rfl | cases h3
  | setList v vs =>
    obtain ⟨⟨l, hl'⟩, rs, hrs⟩ := hf
    obtain ⟨x, e1, b, e2, rfl⟩ := var_at hv hl'
    obtain ⟨xs, f1, f2⟩ := vars_at hv hrs
    exact ⟨_, by rw [Prog.step, hl', hrs], by rw [perform, e1, f1]; exact made_setList H e2 f2⟩
  | setItems v w =>
    obtain ⟨⟨a, o, h1, h2, h3⟩, l, hl'⟩ := hf
    obtain ⟨x, e1, q, e2, rfl⟩ := var_at hv h1
    obtain ⟨y, f1, b, f2, rfl⟩ := var_at hv hl'
    refine ⟨_, by rw [Prog.step, h1, hl'], ?_⟩
    rw [perform, e1, f1]
    simp only [Mem.assign, h2, h3, if_true]
    refine made_setValue H h2 e2 (v := .items l) fun attrs ha => ?_
    obtain ⟨c, s, at'⟩ := o
    cases c <;> first | exact ⟨b, f2, ha⟩ | cases h3
  | append v w =>
    obtain ⟨h1, r, hr⟩ := hf
    obtain ⟨y, f1, f2⟩ := var_at hv hr
    rcases h1 with ⟨l, h1⟩ | ⟨a, o, h1, h2, h3⟩
    · obtain ⟨x, e1, b, e2, rfl⟩ := var_at hv h1
      exact ⟨_, by rw [Prog.step, h1, hr], by rw [perform, e1, f1]; exact made_appendList H e2 f2⟩
    · obtain ⟨x, e1, b, e2, rfl⟩ := var_at hv h1
      refine ⟨_, by rw [Prog.step, h1, hr], ?_⟩
      rw [perform, e1, f1]
      cases hc : o.cls with
      | seq c =>
        rw [hc] at h3
        cases hn : (Cls.seq c).isSubclass (.seq .sequenceOf) with
        | false => exact made_append H h2 e2 hc hn f2
        | true =>
          exact made_appendVbl H h2 e2 hc (by cases c <;> first | exact .inl rfl | exact .inr rfl | exact absurd h3 (by decide) | exact absurd hn (by decide)) f2
      | _ => rw [hc] at h3; cases h3
  | encode d v =>
    obtain ⟨a, h1, h2, h3⟩ := hf
    obtain ⟨x, e1, b, e2, rfl⟩ := var_at hv h1
    refine ⟨_, ?_, by rw [perform, e1]; exact made_encode hl H e2 h3 h2⟩
    rw [Prog.step, h1]
    dsimp only
    split <;> rename_i e <;> rw [e]
  | _ => exact hf.elim

theorem seen_of {φ : Layout} {r : Ref} {x : V} (hr : RefAt φ r x) (h : Heap) : Seen (okR x h) (.ok r) := by
  refine ⟨x, h, rfl, ?_⟩
  cases r with
  | bytes => cases hr
  | _ => simp_all [RefAt] <;> obtain ⟨p, -, e⟩ := hr <;> exact ⟨p, e⟩

/-- C107: one operation.  What the source text does is what the model says, and the states agree again. -/
theorem C107_step (hl : Limits cfg) {p : Prog} {vals : List V} {h : Heap} (hs : Sim p vals h) {op : POp} (hf : Spoken cfg p op) :
    Seen (perform cfg vals op h) (p.step op).2 ∧
      (∀ r, (p.step op).2 = .ok r → ∃ x h', perform cfg vals op h = okR x h' ∧ Sim (p.step op).1 (vals ++ [x]) h') ∧
      (∀ e, (p.step op).2 = .error e → ∃ args h', perform cfg vals op h = excR (.exc (excName e) args) h' ∧ Sim (p.step op).1 vals h') := by
  obtain ⟨φ, H, hv⟩ := hs
  obtain ⟨⟨m', r | r⟩, e1, e2⟩ := step_made hl H hv hf
  · obtain ⟨φ', h', args, e3, H', g⟩ := e2
    rw [e1]
    refine ⟨⟨args, h', e3⟩, fun _ h => (by cases h), fun e he => ?_⟩
    cases he
    exact ⟨args, h', e3, φ', H', hv.imp fun _ _ => g.ref⟩
  · obtain ⟨φ', h', x, e3, e4, H', g⟩ := e2
    rw [e1]
    refine ⟨by rw [e3]; exact seen_of e4 h', fun r' he => ?_, fun _ h => (by cases h)⟩
    cases he
    exact ⟨x, h', e3, φ', H', List.rel_append (hv.imp fun _ _ => g.ref) (.cons e4 .nil)⟩

/-- C107: a history of any length, from the loaded package. -/
theorem C107_history (hl : Limits cfg) : ∀ (ops : List POp) (p : Prog) (vals : List V) (h : Heap), Sim p vals h → SpokenAll cfg p ops →
    List.Forall₂ Seen (performAll cfg vals h ops) (p.trace ops)
  | [], _, _, _, _, _ => .nil
  | op :: ops, p, vals, h, hs, hf => by
    obtain ⟨hf1, hf2⟩ := hf
    obtain ⟨h1, h2, h3⟩ := C107_step hl hs hf1
    refine .cons h1 ?_
    cases hr : (p.step op).2 with
    | ok r =>
      obtain ⟨x, h', e1, e2⟩ := h2 r hr
      rw [e1]
      exact C107_history hl ops _ _ _ e2 hf2
    | error e =>
      obtain ⟨args, h', e1, e2⟩ := h3 e hr
      rw [e1]
      exact C107_history hl ops _ _ _ e2 hf2

theorem program_start {h : Heap} (hb : Base h) : Sim {} [] h :=
  ⟨⟨[], []⟩, ⟨hb, rfl, rfl, by simp, by simp, by simp, by simp, fun _ _ _ h1 _ => by simp at h1, fun _ _ _ h1 _ => by simp at h1⟩, .nil⟩

/-- C107: the programs that run in the loaded package. -/
theorem C107_run (hl : Limits cfg) {h : Heap} (hb : Base h) (ops : List POp) (hf : SpokenAll cfg {} ops) :
    List.Forall₂ Seen (performAll cfg [] h ops) (Prog.trace {} ops) := C107_history hl ops _ _ _ (program_start hb) hf

/-- The program

    n = Integer(5); s = OctetString('p'); o = ObjectID((1, 3)); l = [n, n]; q = Sequence(l); w = VarBind(o, q)
    w.encode(); n.value = 7; w.encode(); q.append(s); w.encode(); w.objectValue = n; w.encode(); n.requestID; q.value = [None]; q.encode()

A number that two places share, a list that is a value and a variable, a field that is not sent, a missing attribute and an element that
cannot be encoded. -/
def sharing : List POp :=
  [.integer .integer 5, .octets .octetString [112], .oid (.tuple [1, 3]), .list [0, 0], .sequence 3, .varBind .varBind 2 4,
    .encode 5 5, .setNum 0 7, .encode 5 5, .append 4 1, .encode 5 5, .setAttr 5 .objectValue 0, .encode 5 5, .attr 0 .requestID,
    .constNone, .list [13], .setItems 4 14, .encode 5 4]

def sharingTrace : List (Except Exc Ref) :=
  [.ok (.obj 0), .ok (.obj 1), .ok (.obj 2), .ok (.list 0), .ok (.obj 3), .ok (.obj 4),
    .ok (.str [48, 11, 6, 1, 43, 48, 6, 2, 1, 5, 2, 1, 5]), .ok .none, .ok (.str [48, 11, 6, 1, 43, 48, 6, 2, 1, 7, 2, 1, 7]), .ok .none,
    .ok (.str [48, 14, 6, 1, 43, 48, 9, 2, 1, 7, 2, 1, 7, 4, 1, 112]), .ok .none,
    .ok (.str [48, 14, 6, 1, 43, 48, 9, 2, 1, 7, 2, 1, 7, 4, 1, 112]), .error .attributeError, .ok .none, .ok (.list 2), .ok .none, .error .attributeError]

theorem holds_of {p : Prog} {v a : Nat} {c : Cls} {ok : Cls → Bool} (h1 : p.vars[v]? = some (.obj a)) (h2 : (p.mem.objs[a]?).map Node.cls = some c)
    (h3 : ok c = true) : p.holds v ok := by
  obtain ⟨o, e1, e2⟩ := Option.map_eq_some_iff.1 h2
  exact ⟨a, o, h1, e1, by rw [e2]; exact h3⟩

theorem modest_none {d : Nat} {m : Mem} {a l : Nat} (h1 : (m.objs[a]?).map Node.cls = some (.seq .sequence))
    (h2 : (m.objs[a]?).map Node.value = some (.items l)) (h3 : m.lists.getD l [] = [.none]) : Modest (d + 1) m (.obj a) := by
  obtain ⟨o, e1, e2⟩ := Option.map_eq_some_iff.1 h1
  rw [e1] at h2
  obtain ⟨c, v, at'⟩ := o
  cases e2
  cases h2
  have hm : (Cls.seq .sequence).isSubclass (.seq .message) = false := rfl
  rw [Modest, e1]
  simp only [hm, Bool.false_eq_true, if_false, h3]
  refine ⟨by rw [ModestRefs, ModestRefs]; exact ⟨by rw [Modest] <;> simp, trivial⟩, fun s hs => ?_⟩
  cases d <;> simp [encodeRefs, gEncode] at hs

theorem sharing_fine : SpokenAll cfg {} sharing := by
  have ok : ∀ {p : Prog} {v a : Nat} {s : Str}, p.vars[v]? = some (.obj a) → (gEncode 5 p.mem (.obj a)).2 = .ok s → s.length < 100 →
      Spoken cfg p (.encode 5 v) := fun {p v a s} h1 h2 h3 => ⟨a, h1, by rw [h2]; simp, modest_of_ok _ _ _ _ h2 (small h3)⟩
  refine ⟨trivial, .inl rfl, ⟨⟨_, rfl⟩, fun _ h => by cases h⟩, ⟨_, rfl⟩, ⟨_, rfl⟩, ⟨rfl, ⟨_, rfl⟩, _, rfl⟩,
    ok (a := 4) (s := [48, 11, 6, 1, 43, 48, 6, 2, 1, 5, 2, 1, 5]) ?_ ?_ (by decide),
    holds_of (a := 0) (c := .int .integer) ?_ ?_ rfl,
    ok (a := 4) (s := [48, 11, 6, 1, 43, 48, 6, 2, 1, 7, 2, 1, 7]) ?_ ?_ (by decide),
    ⟨.inr (holds_of (a := 3) (c := .seq .sequence) ?_ ?_ (by decide)), .obj 1, ?_⟩,
    ok (a := 4) (s := [48, 14, 6, 1, 43, 48, 9, 2, 1, 7, 2, 1, 7, 4, 1, 112]) ?_ ?_ (by decide),
    ⟨holds_of (a := 4) (c := .seq .varBind) ?_ ?_ rfl, .obj 0, ?_⟩,
    ok (a := 4) (s := [48, 14, 6, 1, 43, 48, 9, 2, 1, 7, 2, 1, 7, 4, 1, 112]) ?_ ?_ (by decide),
    holds_of (a := 0) (c := .int .integer) (ok := fun _ => true) ?_ ?_ rfl, trivial, ⟨[.none], ?_⟩,
    ⟨holds_of (a := 3) (c := .seq .sequence) ?_ ?_ rfl, 2, ?_⟩, ⟨3, ?_, ?_, modest_none (l := 2) ?_ ?_ ?_⟩, trivial⟩
  all_goals decide +kernel

theorem sharing_trace : Prog.trace {} sharing = sharingTrace := by decide +kernel

/-- What the program does on the source text, in the loaded package. -/
example (hl : Limits cfg) {h : Heap} (hb : Base h) : List.Forall₂ Seen (performAll cfg [] h sharing) sharingTrace := by
  rw [← sharing_trace]
  exact C107_run hl hb sharing sharing_fine

end Libsnmp.Src
