import Verif.Lemmas.SrcGraph
import Verif.Props.Graph

/-!
# C106: objects that a program has linked, shared and changed, on the source text

`Spec/SourceGraph.lean` says how a graph of objects lies in the heap.
-/

namespace Libsnmp
open Src

variable {cfg : Cfg} {φ : Layout} {m : Mem} {h : Heap}

/-- The graph lies in the heap. -/
abbrev InHeap (φ : Layout) (m : Mem) (h : Heap) : Prop := Lays (fun _ => False) φ m h

theorem callEncode {h : Heap} {a p : Nat} (L : InHeap φ m h) (hp : φ.objs[a]? = some p) :
    callMethod cfg (.ref p) "encode" [] h = call program cfg (.func .rfc1155 82) [.ref p] h := by
  have hlt : a < m.objs.length := by rw [← L.objs]; exact (List.getElem?_eq_some_iff.1 hp).1
  obtain ⟨attrs, N⟩ := L.node a _ p (List.getElem?_eq_getElem hlt) hp
  have ha := N.cell
  have n1 : attrs.lookup "encode" = none := N.plain.none
  unfold callMethod
  runs [ha, n1]

/-- C106: `encode()` on any object of any graph of objects, shared and linked at will, does what the model of objects with identities
says, and the graph it leaves behind is the one the model leaves behind. -/
theorem C106_encode (hl : Limits cfg) (L : InHeap φ m h) {a p : Nat} (hp : φ.objs[a]? = some p) {d : Nat} {m' : Mem} {s : Str}
    (hg : gEncode d m (.obj a) = (m', .ok s)) (hs : s.length < 10 ^ 640) :
    ∃ φ' h', callMethod cfg (.ref p) "encode" [] h = okR (.str s) h' ∧ InHeap φ' m' h' ∧ Later φ φ' h h' := by
  obtain ⟨φ', h', e1, e2, e3⟩ := encode_at hl d _ m φ h a p L (fun _ hq => hq.elim) hp (modest_of_ok d m a s (by rw [hg]) hs) (by rw [hg]; simp)
  rw [hg] at e1 e2
  exact ⟨φ', h', by rw [callEncode L hp, e1]; rfl, e2, e3⟩

/-- C106: the exceptions too. -/
theorem C106_encode_error (hl : Limits cfg) (L : InHeap φ m h) {a p : Nat} (hp : φ.objs[a]? = some p) {d : Nat} {m' : Mem} {e : Exc}
    (hg : gEncode d m (.obj a) = (m', .error e)) (he : e ≠ .recursionError) (hM : Modest d m (.obj a)) :
    ∃ φ' h', callMethod cfg (.ref p) "encode" [] h = excR (.exc (excName e) []) h' ∧ InHeap φ' m' h' ∧ Later φ φ' h h' := by
  obtain ⟨φ', h', e1, e2, e3⟩ := encode_at hl d _ m φ h a p L (fun _ hq => hq.elim) hp hM (by rw [hg]; simpa using he)
  rw [hg] at e1 e2
  exact ⟨φ', h', by rw [callEncode L hp, e1]; rfl, e2, e3⟩

/-- The variables of a program. -/
def userEnv (x y : V) : Src.Env := [("x", some x), ("y", some y)]

/-- C106: `x.f = y`. -/
theorem C106_assign (L : InHeap φ m h) {a p : Nat} {o : Node} (ho : m.objs[a]? = some o) (hp : φ.objs[a]? = some p) (f : Attr) {r : Ref}
    {y : V} (hy : RefAt φ r y) (k : Module) :
    ∃ h', block program cfg k (userEnv (.ref p) y) [.assign (.attr (.loc "x") f.name) (.loc "y")] h = some (h', userEnv (.ref p) y, .next) ∧
      InHeap φ (m.setAttr a f r) h' ∧ getattr program h' (.ref p) f.name = some y := by
  obtain ⟨attrs, h1, h2⟩ := L.setAttr ho hp f hy
  have hlt := lt_of_get h1
  refine ⟨_, ?_, h2, ?_⟩
  · have hex : ¬ (f.name = "args" ∧ program.isExc 8 (cid o.cls) = true) := by cases f <;> simp [Attr.name]
    unfold userEnv
    runs [h1, setattr]
    rw [if_neg hex]
    runs []
  · have := lookup_setAssoc attrs f.name y
    have hg := List.getElem?_set_self (a := Cell.inst (cid o.cls) (setAssoc attrs f.name y)) hlt
    simp only [getattr, hg, this]

/-- C106: `x.value.append(y)` on a Sequence. -/
theorem C106_append (L : InHeap φ m h) {a p : Nat} {o : Node} {c : SeqCls} {l : Nat} {rs : List Ref} (ho : m.objs[a]? = some o)
    (hp : φ.objs[a]? = some p) (hc : o.cls = .seq c) (hv : o.value = .items l) (hrs : m.lists[l]? = some rs) {r : Ref} {y : V} (hy : RefAt φ r y)
    (k : Module) :
    ∃ h', block program cfg k (userEnv (.ref p) y) [.expr (.call (.attr (.attr (.loc "x") "value") "append") [.loc "y"])] h =
        some (h', userEnv (.ref p) y, .next) ∧ InHeap φ (m.setList l (rs ++ [r])) h' := by
  obtain ⟨attrs, N⟩ := L.node a o p ho hp
  have ha := N.cell
  have hs := N.value
  rw [hc, hv] at hs
  obtain ⟨b, e1, e2⟩ := hs
  obtain ⟨xs, f1, f2⟩ := L.list l rs b hrs e1
  have hf : List.Forall₂ (RefAt φ) (rs ++ [r]) (xs ++ [y]) := List.rel_append f2 (.cons hy .nil)
  refine ⟨_, ?_, L.setList e1 hf⟩
  unfold userEnv
  runs [ha, e2, f1]

/-- C106: `x.append(y)` on a Sequence that is no list of one type. -/
theorem C106_append_method (L : InHeap φ m h) {a p : Nat} {o : Node} {c : SeqCls} {l : Nat} {rs : List Ref} (ho : m.objs[a]? = some o)
    (hp : φ.objs[a]? = some p) (hc : o.cls = .seq c) (hn : (Cls.seq c).isSubclass (.seq .sequenceOf) = false) (hv : o.value = .items l)
    (hrs : m.lists[l]? = some rs) {r : Ref} {y : V} (hy : RefAt φ r y) :
    ∃ h', callMethod cfg (.ref p) "append" [y] h = okR .none h' ∧ InHeap φ (m.setList l (rs ++ [r])) h' := by
  obtain ⟨attrs, N⟩ := L.node a o p ho hp
  have ha := N.cell
  rw [hc] at ha
  have hs := N.value
  rw [hc, hv] at hs
  obtain ⟨b, e1, e2⟩ := hs
  obtain ⟨xs, f1, f2⟩ := L.list l rs b hrs e1
  have hf : List.Forall₂ (RefAt φ) (rs ++ [r]) (xs ++ [y]) := List.rel_append f2 (.cons hy .nil)
  refine ⟨_, ?_, L.setList e1 hf⟩
  have n1 : attrs.lookup "append" = none := N.plain.none
  have hm : program.attr (cid (.seq c)) "append" = some (.func .rfc1155 824) := by
    cases c <;> first | rfl | exact absurd hn (by decide)
  unfold callMethod
  runs [ha, n1, hm, call_rfc1155_824, rfc1155_824, e2, f1]

/-- C106: assigning a field of an object that is no Message changes nothing that `encode()` of any object returns. -/
theorem C106_assigned_field_not_sent (hl : Limits cfg) (L : InHeap φ m h) {a p : Nat} {o : Node} (ho : m.objs[a]? = some o)
    (hp : φ.objs[a]? = some p) (hm : o.cls.isSubclass (.seq .message) = false) (f : Attr) {r : Ref} {y : V} (hy : RefAt φ r y) (k : Module)
    {b q : Nat} (hq : φ.objs[b]? = some q) {d : Nat} {s : Str} (hg : (gEncode d m (.obj b)).2 = .ok s) (hs : s.length < 10 ^ 640) :
    ∃ h1 h2 h3, callMethod cfg (.ref q) "encode" [] h = okR (.str s) h1 ∧
      block program cfg k (userEnv (.ref p) y) [.assign (.attr (.loc "x") f.name) (.loc "y")] h = some (h2, userEnv (.ref p) y, .next) ∧
      callMethod cfg (.ref q) "encode" [] h2 = okR (.str s) h3 := by
  obtain ⟨φ1, h1, e1, -, -⟩ := C106_encode hl L hq (m' := (gEncode d m (.obj b)).1) (d := d) (by rw [← hg]) hs
  obtain ⟨h2, f1, f2, -⟩ := C106_assign (cfg := cfg) L ho hp f hy k
  have hg2 : (gEncode d (m.setAttr a f r) (.obj b)).2 = .ok s := by
    rw [gEncode_pure d f2.bounded, gPure_setAttr ho hm, ← gEncode_pure d L.bounded, hg]
  obtain ⟨φ3, h3, g1, -, -⟩ := C106_encode hl f2 hq (m' := (gEncode d (m.setAttr a f r) (.obj b)).1) (d := d) (by rw [← hg2]) hs
  exact ⟨h1, h2, h3, e1, f1, g1⟩

/-- C106: encoding an object, even one that shares parts with another, changes nothing that the other's `encode()` returns. -/
theorem C106_encode_keeps (hl : Limits cfg) (L : InHeap φ m h) {a p b q : Nat} (hp : φ.objs[a]? = some p) (hq : φ.objs[b]? = some q)
    {d e : Nat} {s t : Str} (hg : (gEncode d m (.obj a)).2 = .ok s) (hg2 : (gEncode e m (.obj b)).2 = .ok t) (hs : s.length < 10 ^ 640)
    (ht : t.length < 10 ^ 640) :
    ∃ h1 h2 h3, callMethod cfg (.ref q) "encode" [] h = okR (.str t) h1 ∧ callMethod cfg (.ref p) "encode" [] h = okR (.str s) h2 ∧
      callMethod cfg (.ref q) "encode" [] h2 = okR (.str t) h3 := by
  obtain ⟨φ1, h1, e1, -, -⟩ := C106_encode hl L hq (m' := (gEncode e m (.obj b)).1) (d := e) (by rw [← hg2]) ht
  obtain ⟨φ2, h2, f1, f2, f3⟩ := C106_encode hl L hp (m' := (gEncode d m (.obj a)).1) (d := d) (by rw [← hg]) hs
  have hg3 : (gEncode e (gEncode d m (.obj a)).1 (.obj b)).2 = .ok t := by
    rw [gEncode_pure e f2.bounded, gPure_ext L.bounded (gEncode_ext d m (.obj a)), ← gEncode_pure e L.bounded, hg2]
  obtain ⟨φ3, h3, g1, -, -⟩ := C106_encode hl f2 (by rw [f3.objs]; exact hq) (d := e)
    (m' := (gEncode e (gEncode d m (.obj a)).1 (.obj b)).1) (by rw [← hg3]) ht
  exact ⟨h1, h2, h3, e1, f1, g1⟩

theorem mapM_ok {l : List Ref} {e : Ref → Except Exc Str} : ∀ {ss : List Str}, l.map e = ss.map Except.ok →
    pureRefs e l = .ok ss.flatten := by
  induction l with
  | nil => intro ss h; cases ss with
    | nil => rfl
    | cons => cases h
  | cons r rs ih => intro ss h; cases ss with
    | nil => cases h
    | cons s ss =>
      rw [List.map_cons, List.map_cons] at h
      injection h with h1 h2
      rw [pureRefs, h1, ih h2]
      rfl

/-- C106: a Message sends what its three fields refer to at that moment. -/
theorem C106_message_sends_fields (hl : Limits cfg) (L : InHeap φ m h) {a p : Nat} {o : Node} {c : SeqCls} {v co da : Ref}
    (ho : m.objs[a]? = some o) (hp : φ.objs[a]? = some p) (hc : o.cls = .seq c) (hm : (Cls.seq c).isSubclass (.seq .message) = true)
    (h1 : o.attrs .version = some v) (h2 : o.attrs .community = some co) (h3 : o.attrs .data = some da) {d : Nat} {s1 s2 s3 s : Str}
    (g1 : (gEncode d m v).2 = .ok s1) (g2 : (gEncode d m co).2 = .ok s2) (g3 : (gEncode d m da).2 = .ok s3)
    (ht : tlv (.seq c) (s1 ++ s2 ++ s3) = .ok s) (hs : s.length < 10 ^ 640) :
    ∃ h', callMethod cfg (.ref p) "encode" [] h = okR (.str s) h' := by
  have hb := L.bounded
  have hg : (gEncode (d + 1) m (.obj a)).2 = .ok s := by
    rw [gEncode_pure _ hb] at *
    rw [gPure, ho]
    simp only [hc, hm, if_true, h1, h2, h3]
    rw [mapM_ok (ss := [s1, s2, s3]) (by simp [g1, g2, g3])]
    rw [pureTlv, ← ht]; simp
  obtain ⟨_, h', e1, -, -⟩ := C106_encode hl L hp (m' := (gEncode (d + 1) m (.obj a)).1) (d := d + 1) (by rw [← hg]) hs
  exact ⟨h', e1⟩

/-- C106: every other Sequence sends what its `value` lists at that moment. -/
theorem C106_sequence_sends_value (hl : Limits cfg) (L : InHeap φ m h) {a p : Nat} {o : Node} {c : SeqCls} {l : Nat} {rs : List Ref}
    (ho : m.objs[a]? = some o) (hp : φ.objs[a]? = some p) (hc : o.cls = .seq c) (hm : (Cls.seq c).isSubclass (.seq .message) = false)
    (hv : o.value = .items l) (hrs : m.lists[l]? = some rs) {d : Nat} {ss : List Str} {s : Str}
    (hg : rs.map (fun r => (gEncode d m r).2) = ss.map Except.ok) (ht : tlv (.seq c) ss.flatten = .ok s) (hs : s.length < 10 ^ 640) :
    ∃ h', callMethod cfg (.ref p) "encode" [] h = okR (.str s) h' := by
  have hb := L.bounded
  have hg : (gEncode (d + 1) m (.obj a)).2 = .ok s := by
    rw [gEncode_pure _ hb, gPure, ho]
    simp only [hc, hm, Bool.false_eq_true, if_false, hv]
    rw [getD_some hrs, mapM_ok (ss := ss) (by rw [← hg]; simp only [gEncode_pure d hb])]
    exact ht
  obtain ⟨_, h', e1, -, -⟩ := C106_encode hl L hp (m' := (gEncode (d + 1) m (.obj a)).1) (d := d + 1) (by rw [← hg]) hs
  exact ⟨h', e1⟩

/-! ## A graph with sharing -/

/-- A Message whose PDU lists the same Integer twice and holds its version again. -/
def shared : Mem where
  objs := [⟨.int .integer, .num 5, fun _ => none⟩, ⟨.oct .octetString, .text [112], fun _ => none⟩,
    ⟨.oid, .ids (some [1, 3]), fun _ => none⟩, ⟨.seq .sequence, .items 0, fun _ => none⟩,
    ⟨.seq .message, .items 1, fun
      | .version => some (.obj 0) | .community => some (.obj 1) | .data => some (.obj 3) | _ => none⟩]
  lists := [[.obj 0, .obj 0, .obj 2], []]

/-- Where it lies. -/
def sharedHeap : Heap :=
  [.inst (cid (.int .integer)) [("value", .int 5)], .inst (cid (.oct .octetString)) [("value", .str [112])], .list [.int 1, .int 3],
   .inst (cid .oid) [("value", .ref 2)], .list [.ref 0, .ref 0, .ref 3], .inst (cid (.seq .sequence)) [("value", .ref 4)], .list [],
   .inst (cid (.seq .message)) [("version", .ref 0), ("community", .ref 1), ("data", .ref 5), ("value", .ref 6)]]

def sharedAt : Layout := ⟨[0, 1, 3, 5, 7], [4, 6]⟩

theorem shared_lays : InHeap sharedAt shared sharedHeap := by
  refine ⟨rfl, rfl, by decide, by decide, fun _ _ hq => hq, fun _ _ hq => hq, fun a o p h1 h2 => ?_, fun l rs b h1 h2 => ?_⟩
  · have no : ∀ {o : Node} {attrs : List (String × V)}, (o.attrs = fun _ => none) → ∀ f r, o.attrs f = some r →
        ∃ x, attrs.lookup f.name = some x ∧ RefAt sharedAt r x := fun e f r hf => by rw [e] at hf; cases hf
    match a, h1, h2 with
    | 0, h1, h2 =>
      cases h1; cases h2
      exact ⟨_, rfl, by simp [Plain, dataNames], rfl, no rfl, fun f _ => by cases f <;> rfl, fun hm => (by cases hm), fun hm => (by cases hm)⟩
    | 1, h1, h2 =>
      cases h1; cases h2
      exact ⟨_, rfl, by simp [Plain, dataNames], rfl, no rfl, fun f _ => by cases f <;> rfl, fun hm => (by cases hm), fun hm => (by cases hm)⟩
    | 2, h1, h2 =>
      cases h1; cases h2
      exact ⟨_, rfl, by simp [Plain, dataNames], ⟨2, rfl, fun hq => hq, by decide, rfl⟩, no rfl, fun f _ => by cases f <;> rfl, fun hm => (by cases hm), fun hm => (by cases hm)⟩
    | 3, h1, h2 =>
      cases h1; cases h2
      exact ⟨_, rfl, by simp [Plain, dataNames], ⟨4, rfl, rfl⟩, no rfl, fun f _ => by cases f <;> rfl, fun hm => (by cases hm), fun hm => (by cases hm)⟩
    | 4, h1, h2 =>
      cases h1; cases h2
      refine ⟨_, rfl, by simp [Plain, dataNames], ⟨6, rfl, rfl⟩, fun f r hf => ?_, fun f hf => ?_, fun _ => ⟨⟨_, rfl⟩, ⟨_, rfl⟩, _, rfl⟩, fun hm => (by cases hm)⟩
      · cases f <;> cases hf
        · exact ⟨_, rfl, 0, rfl, rfl⟩
        · exact ⟨_, rfl, 1, rfl, rfl⟩
        · exact ⟨_, rfl, 5, rfl, rfl⟩
      · cases f <;> first | rfl | cases hf
    | n + 5, h1, h2 => cases h2
  · match l, h1, h2 with
    | 0, h1, h2 =>
      cases h1; cases h2
      exact ⟨_, rfl, .cons ⟨0, rfl, rfl⟩ (.cons ⟨0, rfl, rfl⟩ (.cons ⟨3, rfl, rfl⟩ .nil))⟩
    | 1, h1, h2 => cases h1; cases h2; exact ⟨_, rfl, .nil⟩
    | n + 2, h1, h2 => cases h2

theorem shared_sends : (gEncode 5 shared (.obj 4)).2 = .ok [48, 17, 2, 1, 5, 4, 1, 112, 48, 9, 2, 1, 5, 2, 1, 5, 6, 1, 43] := by decide +kernel

theorem small {s : Str} (h : s.length < 100) : s.length < 10 ^ 640 := Nat.lt_of_lt_of_le h (by
  have : 10 ^ 2 ≤ 10 ^ 640 := Nat.pow_le_pow_right (by decide) (by decide)
  simpa using this)

/-- Encoding the shared Message on the source text. -/
example (hl : Limits cfg) : ∃ h', callMethod cfg (.ref 7) "encode" [] sharedHeap =
    okR (.str [48, 17, 2, 1, 5, 4, 1, 112, 48, 9, 2, 1, 5, 2, 1, 5, 6, 1, 43]) h' := by
  obtain ⟨_, h', e, -⟩ := C106_encode hl shared_lays (a := 4) (p := 7) rfl (d := 5) (m' := (gEncode 5 shared (.obj 4)).1) (by rw [← shared_sends])
    (small (by decide))
  exact ⟨h', e⟩

/-- `pdu.requestID = msg` on the PDU in it changes nothing that is sent. -/
example (hl : Limits cfg) : ∃ h2 h3,
    block program cfg .v1 (userEnv (.ref 5) (.ref 7)) [.assign (.attr (.loc "x") "requestID") (.loc "y")] sharedHeap =
      some (h2, userEnv (.ref 5) (.ref 7), .next) ∧
    callMethod cfg (.ref 7) "encode" [] h2 = okR (.str [48, 17, 2, 1, 5, 4, 1, 112, 48, 9, 2, 1, 5, 2, 1, 5, 6, 1, 43]) h3 := by
  obtain ⟨-, h2, h3, -, e1, e2⟩ := C106_assigned_field_not_sent hl shared_lays (a := 3) (p := 5) rfl rfl rfl .requestID (r := .obj 4) (y := .ref 7)
    ⟨7, rfl, rfl⟩ .v1 (b := 4) (q := 7) rfl (d := 5) shared_sends (small (by decide))
  exact ⟨h2, h3, e1, e2⟩

/-- The graph once None has been appended to the PDU's list. -/
def withNone : Mem := shared.setList 0 ([.obj 0, .obj 0, .obj 2] ++ [.none])

theorem withNone_modest : Modest 2 withNone (.obj 3) := by
  have h1 : (gEncode 1 withNone (.obj 0)) = (withNone, .ok [2, 1, 5]) := by
    exact Prod.ext rfl (show (gEncode 1 withNone (.obj 0)).2 = .ok [2, 1, 5] by decide +kernel)
  have h2 : (gEncode 1 withNone (.obj 2)) = (withNone, .ok [6, 1, 43]) := by
    exact Prod.ext rfl (show (gEncode 1 withNone (.obj 2)).2 = .ok [6, 1, 43] by decide +kernel)
  have m1 : Modest 1 withNone (.obj 0) := modest_of_ok 1 _ _ [2, 1, 5] (by rw [h1]) (small (by decide))
  have m2 : Modest 1 withNone (.obj 2) := modest_of_ok 1 _ _ [6, 1, 43] (by rw [h2]) (small (by decide))
  have key : ModestRefs 1 withNone [.obj 0, .obj 0, .obj 2, .none] := by
    rw [ModestRefs, h1, ModestRefs, h1, ModestRefs, h2, ModestRefs, ModestRefs]
    exact ⟨m1, m1, m2, by rw [Modest] <;> simp, trivial⟩
  have err : (encodeRefs (gEncode 1) withNone [.obj 0, .obj 0, .obj 2, .none]).2 = .error .attributeError := by decide +kernel
  rw [Modest]
  exact ⟨key, fun s hs => by
    have : (encodeRefs (gEncode 1) withNone [.obj 0, .obj 0, .obj 2, .none]).2 = .ok s := hs
    rw [err] at this; cases this⟩

/-- After `pdu.value.append(None)`, `pdu.encode()` raises AttributeError. -/
example (hl : Limits cfg) : ∃ h' h'' : Heap,
    block program cfg .v1 (userEnv (.ref 5) .none) [.expr (.call (.attr (.attr (.loc "x") "value") "append") [.loc "y"])] sharedHeap =
        some (h', userEnv (.ref 5) .none, .next) ∧
    callMethod cfg (.ref 5) "encode" [] h' = excR (.exc "AttributeError" []) h'' := by
  obtain ⟨h', e1, e2⟩ := C106_append (cfg := cfg) shared_lays (a := 3) (p := 5) rfl rfl rfl rfl rfl (r := .none) (y := .none) rfl .v1
  obtain ⟨_, h'', e3, -⟩ := C106_encode_error hl e2 (a := 3) (p := 5) rfl (d := 2) (e := .attributeError)
    (m' := (gEncode 2 withNone (.obj 3)).1) (by
      have : (gEncode 2 withNone (.obj 3)).2 = .error .attributeError := by decide +kernel
      rw [← this]; rfl) (by simp) withNone_modest
  exact ⟨h', h'', e1, e3⟩

end Libsnmp
