import Verif.Lemmas.GraphLinked
import Verif.Props.Equality

/-!
# C68, C69: the fields of an object and what is sent; equality of Messages

C68: `obj.field = x` and the octets of `encode()`.  C69: a Message compares through a `value` that only `encode()`
fills.
-/

namespace Libsnmp
open Spec

/-! ## C68 -/

theorem gPure_setAttr {m : Mem} {a : Nat} {o : Node} (ho : m.objs[a]? = some o)
    (hm : o.cls.isSubclass (.seq .message) = false) (f : Attr) (x : Ref) (d : Nat) (r : Ref) :
    gPure (m.setAttr a f x) d r = gPure m d r := by
  induction d generalizing r with
  | zero => cases r <;> rfl
  | succ d ih =>
    cases r with
    | obj b =>
      have hl : (m.setAttr a f x).lists = m.lists := rfl
      have congr : ∀ l, pureRefs (gPure (m.setAttr a f x) d) l = pureRefs (gPure m d) l :=
        fun l => pureRefs_congr fun y _ => ih y
      rw [gPure, gPure]
      by_cases e : a = b
      · subst e
        have hn : (m.setAttr a f x).objs[a]? = some { o with attrs := fun g => if g = f then some x else o.attrs g } := by
          rw [Mem.setAttr, update_objs_eq, ho]; rfl
        rw [hn, ho]
        simp only [hl, congr]
        cases hc : o.cls with
        | seq c =>
          rw [hc] at hm
          simp only [hm, Bool.false_eq_true, if_false]
        | _ => rfl
      · have hn : (m.setAttr a f x).objs[b]? = m.objs[b]? := update_objs_ne m _ e
        rw [hn]
        simp only [hl, congr]
    | _ => rfl

theorem setAttr_bounded {m : Mem} (h : m.Bounded) (a : Nat) (f : Attr) (x : Ref) : (m.setAttr a f x).Bounded :=
  h.update a _ fun o l ho hl => h a o l ho hl

/-- C68: assigning a field of an object that is not a Message (`pdu.requestID = x`, `vb.objectValue = x`, ...) is read
back by the program but changes nothing that any `encode()` anywhere returns. -/
theorem C68_assigned_field_not_sent (ops : List POp) (a : Nat) (o : Node) (f : Attr) (x : Ref)
    (ho : (({} : Prog).run ops).mem.objs[a]? = some o) (hm : o.cls.isSubclass (.seq .message) = false) :
    ((({} : Prog).run ops).mem.setAttr a f x).attr a f = some x ∧
      ∀ depth r, (gEncode depth ((({} : Prog).run ops).mem.setAttr a f x) r).2 =
        (gEncode depth (({} : Prog).run ops).mem r).2 := by
  have hb := (run_full ops).1.bounded
  refine ⟨?_, fun depth r => ?_⟩
  · simp [Mem.attr, Mem.setAttr, update_objs_eq, ho]
  · rw [gEncode_pure depth hb, gEncode_pure depth (setAttr_bounded hb a f x), gPure_setAttr ho hm]

/-- The components of a Sequence object. -/
def Mem.component (m : Mem) (r : Ref) (i : Nat) : Option Ref := (m.items r).bind (·[i]?)

theorem linked_component {m : Mem} {a : Nat} {o : Node} {c : SeqCls} (ho : m.objs[a]? = some o) (hc : o.cls = .seq c)
    (hm : (Cls.seq c).isSubclass (.seq .message) = false) (h : o.Linked m) :
    ∀ p ∈ fields c, m.attr a p.1 = m.component (.obj a) p.2 := by
  intro p hp
  obtain ⟨l, xs, h1, h2, h3⟩ := h c hc hm (List.ne_nil_of_mem hp)
  simp only [Mem.attr, Mem.component, Mem.items, ho, h1, h2, Option.bind_some]
  exact h3 p hp

theorem api_message (k : Api) : (Cls.seq k.message).isSubclass (.seq .message) = true := by cases k <;> decide

theorem assign_len (m : Mem) (r : Ref) (v : Slot) (ok : Cls → Bool) :
    (m.assign r v ok).1.objs.length = m.objs.length := by
  unfold Mem.assign
  split
  · split
    · split
      · simp [Mem.setValue, Mem.update]
      · rfl
    · rfl
  · rfl

theorem append_len (m : Mem) (r x : Ref) : (m.append r x).1.objs.length = m.objs.length := by
  unfold Mem.append
  split
  · split <;> rfl
  · split
    · split
      · split <;> rfl
      · rfl
    · rfl
  · rfl

theorem gEncode_len (d : Nat) (m : Mem) (r : Ref) : (gEncode d m r).1.objs.length = m.objs.length := by
  have h := gEncode_ext d m r
  generalize (gEncode d m r).1 = m' at *
  have h1 : m'.objs.length ≤ m.objs.length := by
    have : m'.objs[m.objs.length]? = Option.none := h.none _ (by simp)
    exact List.getElem?_eq_none_iff.mp this
  have h2 : m.objs.length ≤ m'.objs.length := by
    cases hn : m.objs.length with
    | zero => omega
    | succ n =>
      have hx : m.objs[n]? = some (m.objs[n]'(by omega)) := List.getElem?_eq_getElem (by omega)
      obtain ⟨o', ho', _⟩ := h.some n _ hx
      have := (List.getElem?_eq_some_iff.mp ho').1
      omega
  omega

theorem viewRefs_length {view : Ref → Option Val} {l : List Ref} {vs : List Val} (h : viewRefs view l = some vs) :
    vs.length = l.length := by
  induction l generalizing vs with
  | nil => simp [viewRefs] at h; subst h; rfl
  | cons r rs ih =>
    rw [viewRefs] at h
    cases h1 : view r with
    | none => rw [h1] at h; simp at h
    | some v =>
      cases h2 : viewRefs view rs with
      | none => rw [h1, h2] at h; simp at h
      | some ws => rw [h1, h2] at h; simp at h; subst h; simp [ih h2]

theorem born_step (p : Prog) (op : POp) :
    Born p.mem (p.step op).1.mem ∨ (p.step op).1.mem.objs.length = p.mem.objs.length := by
  have fin : ∀ x : Mem × Except Exc Ref, (p.finish x).1.mem = x.1 := by
    rintro ⟨m, e | r⟩ <;> rfl
  have same : Born p.mem p.mem := Born.refl _
  cases op with
  | constNone => exact Or.inl (by rw [Prog.step, fin]; exact same)
  | constInt n => exact Or.inl (by rw [Prog.step, fin]; exact same)
  | constStr s => exact Or.inl (by rw [Prog.step, fin]; exact same)
  | list vs =>
    refine Or.inl ?_
    rw [Prog.step]
    split
    · rw [fin]; exact Born.newList _ _
    · exact same
  | setList v vs =>
    refine Or.inr ?_
    rw [Prog.step]
    split
    · rw [fin]; rfl
    · rfl
  | integer c n => exact Or.inl (by rw [Prog.step, fin]; exact Born.mkInteger _ _ _)
  | octets c s =>
    refine Or.inl ?_
    rw [Prog.step]
    split
    · exact same
    · rw [fin]; exact Born.newPrim _ rfl _
  | oid arg =>
    refine Or.inl ?_
    rw [Prog.step]
    split
    · exact same
    · rw [fin]; exact Born.newPrim _ rfl _
  | null c => exact Or.inl (by rw [Prog.step, fin]; exact Born.newPrim _ rfl _)
  | sequence v =>
    refine Or.inl ?_
    rw [Prog.step]
    split
    · rw [fin]
      refine Born.newNode fun d hd _ hf => ?_
      simp only [Cls.seq.injEq] at hd
      subst hd
      exact absurd rfl hf
    · exact same
  | varBind c v w =>
    refine Or.inl ?_
    rw [Prog.step]
    split
    · split
      · rw [fin]; exact Born.mkVarBind ..
      · exact same
    · exact same
  | varBindList c v =>
    refine Or.inl ?_
    rw [Prog.step]
    split
    · split
      · rw [fin]; exact Born.mkVarBindList ..
      · exact same
    · exact same
  | pdu c a b d v =>
    refine Or.inl ?_
    rw [Prog.step]
    split
    · split
      · rw [fin]; exact Born.mkPDU ..
      · exact same
    · exact same
  | trap e a g s t v =>
    refine Or.inl ?_
    rw [Prog.step]
    split
    · rw [fin]; exact Born.newSeq ..
    · exact same
  | message c version community v =>
    refine Or.inl ?_
    rw [Prog.step]
    split
    · next hc =>
      split
      · rw [fin]; exact Born.mkMessage _ hc ..
      · exact same
    · exact same
  | arrive reg c stream =>
    refine Or.inl ?_
    rw [Prog.step]
    split
    · next hc => rw [fin]; exact Born.decodeMessage _ _ hc _
    · exact same
  | attr v f =>
    refine Or.inl ?_
    rw [Prog.step]
    split
    · split
      · rw [fin]; exact same
      · exact same
    · exact same
  | item v i =>
    refine Or.inl ?_
    rw [Prog.step]
    split
    · split
      · split
        · rw [fin]; exact same
        · exact same
      · exact same
    · exact same
  | value v =>
    refine Or.inl ?_
    rw [Prog.step]
    split
    · split
      · rw [fin]; exact same
      · exact same
    · exact same
  | setAttr v f w =>
    refine Or.inr ?_
    rw [Prog.step]
    split
    · rw [fin]; simp [Mem.setAttr, Mem.update]
    · rfl
  | setNum v n =>
    refine Or.inr ?_
    rw [Prog.step]
    split
    · rw [fin]; exact assign_len ..
    · rfl
  | setText v s =>
    refine Or.inr ?_
    rw [Prog.step]
    split
    · rw [fin]; exact assign_len ..
    · rfl
  | setIds v ids =>
    refine Or.inr ?_
    rw [Prog.step]
    split
    · rw [fin]; exact assign_len ..
    · rfl
  | setItems v w =>
    refine Or.inr ?_
    rw [Prog.step]
    split
    · rw [fin]; exact assign_len ..
    · rfl
  | append v w =>
    refine Or.inr ?_
    rw [Prog.step]
    split
    · rw [fin]; exact append_len ..
    · rfl
  | encode depth v =>
    refine Or.inr ?_
    rw [Prog.step]
    split
    · next a _ =>
      have h := gEncode_len depth p.mem (.obj a)
      generalize gEncode depth p.mem (.obj a) = x at *
      rcases x with ⟨m, e | s⟩
      · simp only; rw [fin]; exact h
      · simp only; rw [fin]; exact h
    · rfl
  | snmpGet k oids community =>
    refine Or.inl ?_
    rw [Prog.step]
    unfold Prog.snmpGet
    have g1 := Born.getBinds p.mem k.varBind oids
    generalize p.mem.getBinds k.varBind oids = x1 at *
    rcases x1 with ⟨m, e | vbs⟩
    · exact g1
    · have g2 := Born.newList m vbs
      simp only at g1 ⊢
      generalize m.newList vbs = x2 at *
      rcases x2 with ⟨m0, l⟩
      have g3 := Born.mkVarBindList m0 k.varBindList (.list l)
      simp only at g2 ⊢
      generalize m0.mkVarBindList k.varBindList (.list l) = x3 at *
      rcases x3 with ⟨m1, e | vbl⟩
      · exact (g1.trans g2).trans g3
      · simp only at g3 ⊢
        have g4 := Born.mkPDU m1 k.get p.nextID 0 0 vbl
        generalize m1.mkPDU k.get p.nextID 0 0 vbl = x4 at *
        rcases x4 with ⟨m2, e | pdu⟩
        · exact ((g1.trans g2).trans g3).trans g4
        · simp only at g4 ⊢
          have g5 := Born.mkMessage m2 (api_message k) k.version community pdu
          generalize m2.mkMessage k.message k.version community pdu = x5 at *
          rcases x5 with ⟨m3, e | msg⟩
          · exact (((g1.trans g2).trans g3).trans g4).trans g5
          · simp only at g5 ⊢
            cases m3.requestIDOf pdu <;> exact (((g1.trans g2).trans g3).trans g4).trans g5
  | snmpGetNext k v community =>
    refine Or.inl ?_
    rw [Prog.step]
    split
    · next r _ =>
      unfold Prog.snmpGetNext
      split
      · exact same
      · have g4 := Born.mkPDU p.mem k.getNext p.nextID 0 0 r
        generalize p.mem.mkPDU k.getNext p.nextID 0 0 r = x4 at *
        rcases x4 with ⟨m2, e | pdu⟩
        · exact g4
        · simp only at g4 ⊢
          have g5 := Born.mkMessage m2 (api_message k) k.version community pdu
          generalize m2.mkMessage k.message k.version community pdu = x5 at *
          rcases x5 with ⟨m3, e | msg⟩
          · exact g4.trans g5
          · simp only at g5 ⊢
            cases m3.requestIDOf pdu <;> exact g4.trans g5
    · exact same
  | snmpTrap k v community =>
    refine Or.inl ?_
    rw [Prog.step]
    split
    · next r _ =>
      unfold Prog.snmpTrap
      split
      · exact same
      · have g5 := Born.mkMessage p.mem (api_message k) k.version community r
        generalize p.mem.mkMessage k.message k.version community r = x5 at *
        rcases x5 with ⟨m3, e | msg⟩ <;> exact g5
    · exact same
  | send depth =>
    refine Or.inr ?_
    rw [Prog.step]
    split
    · rfl
    · next msg rest _ =>
      have h := gEncode_len depth p.mem msg
      generalize gEncode depth p.mem msg = x at *
      rcases x with ⟨m, e | s⟩ <;> exact h

/-- C68: whatever a program does, every new object with fields (built by a constructor, by a request method or by
decoding a datagram) has in each field the very object that its `value` lists at that position.  (Messages: C69.) -/
theorem C68_new_fields_are_components (p : Prog) (op : POp) (a : Nat) (o : Node) (c : SeqCls)
    (ha : p.mem.objs.length ≤ a) (ho : (p.step op).1.mem.objs[a]? = some o) (hc : o.cls = .seq c)
    (hm : (Cls.seq c).isSubclass (.seq .message) = false) :
    ∀ q ∈ fields c, (p.step op).1.mem.attr a q.1 = (p.step op).1.mem.component (.obj a) q.2 := by
  rcases born_step p op with h | h
  · exact linked_component ho hc hm (h.linked a o ha ho)
  · have := (List.getElem?_eq_some_iff.mp ho).1
    omega

/-- The octets of a constructed encoding: identifier and length of class `c` around the parts, if all exist. -/
def wrapParts (c : SeqCls) : List (Except Exc Str) → Except Exc Str
  | parts => match (parts.mapM id : Except Exc (List Str)) with
    | .ok l => tlv (.seq c) l.flatten
    | .error e => .error e

theorem pureTlv_wrap (c : SeqCls) (e : Ref → Except Exc Str) (l : List Ref) :
    pureTlv (.seq c) (pureRefs e l) = wrapParts c (l.map e) := by
  have key : ∀ l : List Ref, pureRefs e l = ((l.map e).mapM id : Except Exc (List Str)).map List.flatten := by
    intro l
    induction l with
    | nil => rfl
    | cons r rs ih =>
      rw [pureRefs, List.map_cons, List.mapM_cons, ih]
      cases e r with
      | error x => rfl
      | ok s =>
        simp only [id, bind, Except.bind, pure, Except.pure]
        cases (List.mapM id (List.map e rs) : Except Exc (List Str)) <;> rfl
  rw [key, wrapParts]
  cases (List.mapM id (List.map e l) : Except Exc (List Str)) <;> rfl

/-- C68: a Message, on the other hand, sends its three fields as they are at the moment of `encode()`. -/
theorem C68_message_sends_fields (ops : List POp) (a : Nat) (o : Node) (c : SeqCls) (v co da : Ref)
    (ho : (({} : Prog).run ops).mem.objs[a]? = some o) (hc : o.cls = .seq c)
    (hm : (Cls.seq c).isSubclass (.seq .message) = true) (h1 : o.attrs .version = some v)
    (h2 : o.attrs .community = some co) (h3 : o.attrs .data = some da) (depth : Nat) :
    (gEncode (depth + 1) (({} : Prog).run ops).mem (.obj a)).2 =
      wrapParts c [(gEncode depth (({} : Prog).run ops).mem v).2, (gEncode depth (({} : Prog).run ops).mem co).2,
        (gEncode depth (({} : Prog).run ops).mem da).2] := by
  have hb := (run_full ops).1.bounded
  rw [gEncode_pure _ hb, gEncode_pure _ hb, gEncode_pure _ hb, gEncode_pure _ hb, gPure, ho]
  simp only [hc, hm, if_true, h1, h2, h3]
  rw [pureTlv_wrap]
  rfl

/-- C68: every other Sequence sends the components its `value` lists at that moment, whatever its fields say. -/
theorem C68_sequence_sends_value (ops : List POp) (a : Nat) (o : Node) (c : SeqCls) (xs : List Ref)
    (ho : (({} : Prog).run ops).mem.objs[a]? = some o) (hc : o.cls = .seq c)
    (hm : (Cls.seq c).isSubclass (.seq .message) = false) (hx : (({} : Prog).run ops).mem.items (.obj a) = some xs)
    (depth : Nat) :
    (gEncode (depth + 1) (({} : Prog).run ops).mem (.obj a)).2 =
      wrapParts c (xs.map fun x => (gEncode depth (({} : Prog).run ops).mem x).2) := by
  have hb := (run_full ops).1.bounded
  have e : (fun x => (gEncode depth (({} : Prog).run ops).mem x).2) = gPure (({} : Prog).run ops).mem depth :=
    funext fun x => gEncode_pure depth hb x
  rw [e, gEncode_pure _ hb, gPure, ho]
  simp only [hc, hm, Bool.false_eq_true, if_false]
  simp only [Mem.items, ho] at hx
  cases hv : o.value with
  | items l =>
    rw [hv] at hx
    simp only at hx ⊢
    rw [← pureTlv_wrap]
    simp [List.getD, hx]
  | _ => rw [hv] at hx; cases hx

/-! ## C69 -/

/-- `len(r)` of a Sequence object. -/
def Mem.len (m : Mem) (r : Ref) : Option Nat := (m.items r).map List.length

/-- C69: a Message built by its constructor is empty: `len()` is 0 and it is false. -/
theorem C69_built_empty (m m' : Mem) (c : SeqCls) (version : Int) (community : Str) (data r : Ref)
    (h : m.mkMessage c version community data = (m', .ok r)) : m'.len r = some 0 ∧ m'.truthy r = false := by
  unfold Mem.mkMessage at h
  cases h1 : m.mkInteger .integer version with
  | mk m1 x =>
    rw [h1] at h
    cases x with
    | error e => simp at h
    | ok v =>
      simp only [Prod.mk.injEq, Except.ok.injEq] at h
      obtain ⟨rfl, rfl⟩ := h
      simp [Mem.len, Mem.truthy, Mem.items, Mem.newPrim, Mem.newNode, Mem.newList, List.getD]

/-- C69: so is one that was decoded from a datagram. -/
theorem C69_decoded_empty (m m' : Mem) (reg : Reg) (c : SeqCls) (stream : Str) (r : Ref)
    (h : m.decodeMessage reg c stream = (m', .ok r)) : m'.len r = some 0 ∧ m'.truthy r = false := by
  unfold Mem.decodeMessage at h
  split at h
  · simp at h
  · simp only [Prod.mk.injEq, Except.ok.injEq] at h
    obtain ⟨rfl, rfl⟩ := h
    simp [Mem.len, Mem.truthy, Mem.items, Mem.newNode, Mem.newList, List.getD]

/-- C69: two empty Messages of one class are equal, whatever their versions, communities and PDUs. -/
theorem C69_empty_equal (m : Mem) (a b : Nat) (oa ob : Node) (c : SeqCls) (ha : m.objs[a]? = some oa)
    (hb : m.objs[b]? = some ob) (hca : oa.cls = .seq c) (hcb : ob.cls = .seq c) (la : m.len (.obj a) = some 0)
    (lb : m.len (.obj b) = some 0) (depth : Nat) : m.eq (depth + 1) (.obj a) (.obj b) = .ok true := by
  have key : ∀ x (o : Node), m.objs[x]? = some o → o.cls = .seq c → m.len (.obj x) = some 0 →
      m.byValue (depth + 1) (.obj x) = some (.seq c []) := by
    intro x o ho hc hl
    simp only [Mem.len, Mem.items, ho, Option.map_eq_some_iff] at hl
    obtain ⟨l, hl, hz⟩ := hl
    have hz := List.length_eq_zero_iff.mp hz
    subst hz
    rw [Mem.byValue, ho]
    rcases o with ⟨c', w, f⟩
    simp only at hc hl
    subst hc
    cases w with
    | items k =>
      simp only at hl
      simp [List.getD, hl, viewRefs]
    | _ => cases hl
  rw [Mem.eq, key a oa ha hca la, key b ob hb hcb lb]
  simp only [pyEq_seq, if_true]
  rw [listEq]
  simp [itemsEq]

/-- C69: `encode()` of a Message, even one that raises, fills it: `len()` is then 3. -/
theorem C69_encode_fills (m : Mem) (a : Nat) (o : Node) (c : SeqCls) (v co da : Ref) (ho : m.objs[a]? = some o)
    (hc : o.cls = .seq c) (hm : (Cls.seq c).isSubclass (.seq .message) = true) (h1 : o.attrs .version = some v)
    (h2 : o.attrs .community = some co) (h3 : o.attrs .data = some da) (depth : Nat) :
    (gEncode (depth + 1) m (.obj a)).1.items (.obj a) = some [v, co, da] ∧
      (gEncode (depth + 1) m (.obj a)).1.len (.obj a) = some 3 ∧
      (gEncode (depth + 1) m (.obj a)).1.truthy (.obj a) = true := by
  obtain ⟨o', l, q0, q1, q2, q3, q4, q5⟩ := gEncode_loads depth ho hc hm h1 h2 h3
  have hi : (gEncode (depth + 1) m (.obj a)).1.items (.obj a) = some [v, co, da] := by
    simp [Mem.items, q0, q4, q5]
  refine ⟨hi, by rw [Mem.len, hi]; rfl, ?_⟩
  simp [Mem.truthy, q0, q4, q5, List.getD]

/-- C69: a Message that was encoded and one that was not are unequal, even if they say the same. -/
theorem C69_encoded_differs (m : Mem) (a b : Nat) (oa ob : Node) (c d : SeqCls) (ha : m.objs[a]? = some oa)
    (hb : m.objs[b]? = some ob) (hca : oa.cls = .seq c) (hcb : ob.cls = .seq d) (la : m.len (.obj a) = some 3)
    (lb : m.len (.obj b) = some 0) (depth : Nat) (va vb : Val) (hva : m.byValue depth (.obj a) = some va)
    (hvb : m.byValue depth (.obj b) = some vb) : m.eq depth (.obj a) (.obj b) = .ok false := by
  have key : ∀ x n (o : Node) (c : SeqCls) v, m.objs[x]? = some o → o.cls = .seq c → m.len (.obj x) = some n →
      m.byValue depth (.obj x) = some v → ∃ l, v = .seq c l ∧ l.length = n := by
    intro x n o c v ho hc hl hv
    simp only [Mem.len, Mem.items, ho, Option.map_eq_some_iff] at hl
    obtain ⟨l, hl, hz⟩ := hl
    cases depth with
    | zero => simp [Mem.byValue] at hv
    | succ d =>
      rw [Mem.byValue, ho] at hv
      rcases o with ⟨c', w, f⟩
      simp only at hc hl
      subst hc
      cases w with
      | items k =>
        simp only [List.getD, Option.map_eq_some_iff] at hl hv
        rw [hl] at hv
        obtain ⟨vs, hvs, rfl⟩ := hv
        exact ⟨vs, rfl, by rw [← hz]; exact viewRefs_length hvs⟩
      | _ => cases hl
  obtain ⟨l1, rfl, n1⟩ := key a 3 oa c va ha hca la hva
  obtain ⟨l2, rfl, n2⟩ := key b 0 ob d vb hb hcb lb hvb
  rw [Mem.eq, hva, hvb]
  simp only [pyEq_seq]
  split
  · rw [listEq]
    rw [if_pos (by omega)]
  · rfl

/-- C69: two Messages that were both encoded are equal exactly when their classes are the same and their versions,
communities and PDUs are equal. -/
theorem C69_encoded_compare (m : Mem) (a b : Nat) (oa ob : Node) (c d : SeqCls) (x y z x' y' z' : Ref)
    (ha : m.objs[a]? = some oa) (hb : m.objs[b]? = some ob) (hca : oa.cls = .seq c) (hcb : ob.cls = .seq d)
    (ia : m.items (.obj a) = some [x, y, z]) (ib : m.items (.obj b) = some [x', y', z']) (depth : Nat)
    (hva : (m.byValue (depth + 1) (.obj a)).isSome) (hvb : (m.byValue (depth + 1) (.obj b)).isSome) :
    m.eq (depth + 1) (.obj a) (.obj b) = .ok true ↔
      c = d ∧ m.eq depth x x' = .ok true ∧ m.eq depth y y' = .ok true ∧ m.eq depth z z' = .ok true := by
  have key : ∀ k (o : Node) (c : SeqCls) x y z, m.objs[k]? = some o → o.cls = .seq c →
      m.items (.obj k) = some [x, y, z] → (m.byValue (depth + 1) (.obj k)).isSome →
      ∃ u v w, m.byValue depth x = some u ∧ m.byValue depth y = some v ∧ m.byValue depth z = some w ∧
        m.byValue (depth + 1) (.obj k) = some (.seq c [u, v, w]) := by
    intro k o c x y z ho hc hi hs
    simp only [Mem.items, ho] at hi
    rcases o with ⟨c', w, f⟩
    simp only at hc hi
    subst hc
    cases w with
    | items l =>
      simp only at hi
      rw [Mem.byValue, ho] at hs ⊢
      simp only [List.getD, hi, Option.getD_some, viewRefs] at hs ⊢
      cases h1 : m.byValue depth x <;> cases h2 : m.byValue depth y <;> cases h3 : m.byValue depth z <;>
        rw [h1, h2, h3] at hs <;> simp at hs
      exact ⟨_, _, _, rfl, rfl, rfl, rfl⟩
    | _ => cases hi
  obtain ⟨u, v, w, h1, h2, h3, h4⟩ := key a oa c x y z ha hca ia hva
  obtain ⟨u', v', w', h1', h2', h3', h4'⟩ := key b ob d x' y' z' hb hcb ib hvb
  rw [Mem.eq, h4, h4', Mem.eq, h1, h1', Mem.eq, h2, h2', Mem.eq, h3, h3']
  simp only [pyEq_seq]
  by_cases e : c = d
  · subst e
    simp only [if_true, true_and]
    rw [listEq, if_neg (by simp), itemsEq]
    cases pyEq u u' with
    | error q => simp
    | ok t1 =>
      cases t1 with
      | false => simp
      | true =>
        simp only [true_and]
        rw [itemsEq]
        cases pyEq v v' with
        | error q => simp
        | ok t2 =>
          cases t2 with
          | false => simp
          | true =>
            simp only [true_and]
            rw [itemsEq]
            cases pyEq w w' with
            | error q => simp
            | ok t3 =>
              cases t3 with
              | false => simp
              | true => simp [itemsEq]
  · simp [e]

/-- C40: the same for lists of bindings in programs where objects and lists are shared: `append` of anything but a VarBind
raises ValueError and changes nothing at all; a VarBind, and anything in another Sequence, is added at the end. -/
theorem C40_program_append (p : Prog) (v w a : Nat) (o : Node) (x : Ref) (c : SeqCls) (xs : List Ref)
    (hv : p.vars[v]? = some (.obj a)) (hw : p.vars[w]? = some x) (ho : p.mem.objs[a]? = some o) (hc : o.cls = .seq c)
    (hx : p.mem.items (.obj a) = some xs) :
    (c ∈ [SeqCls.varBindList, .varBindList2] → p.mem.isInstance x (.seq .varBind) = false →
      p.step (.append v w) = (p, .error .valueError)) ∧
    (c ∉ [SeqCls.varBindList, .varBindList2] ∨ p.mem.isInstance x (.seq .varBind) = true →
      (p.step (.append v w)).2 = .ok .none ∧ (p.step (.append v w)).1.mem.items (.obj a) = some (xs ++ [x])) := by
  simp only [Mem.items, ho] at hx
  have hsub : (Cls.seq c).isSubclass (.seq .varBindList) = decide (c ∈ [SeqCls.varBindList, .varBindList2]) := by
    cases c <;> decide
  split at hx
  · next l hl =>
    simp only [Prog.step, hv, hw, Mem.append, ho, hl, hc, hsub, List.getD, hx, Option.getD_some]
    constructor
    · intro h1 h2
      simp [h1, h2, Prog.finish]
    · intro h
      have : (decide (c ∈ [SeqCls.varBindList, .varBindList2]) && !p.mem.isInstance x (.seq .varBind)) = false := by
        rcases h with h | h <;> simp [h]
      have hlen := (List.getElem?_eq_some_iff.mp hx).1
      simp only [this, Bool.false_eq_true, if_false]
      simp [Prog.finish, Prog.bind, Mem.items, Mem.setList, ho, hl, hlen]
  · cases hx

/-! ## Cases -/

/-- A program: a Get PDU with no bindings and a Message around it, another around nothing much. -/
def messageProgram : List POp :=
  [.list [], .pdu .get 7 0 0 0, .message .message 0 [112] 1, .constNone, .message .message 5 [] 3]

-- both Messages are equal: one says version 0, community "p" and a PDU, the other version 5 and None
example : (({} : Prog).run messageProgram).vars[2]? = some (.obj 7) ∧
    (({} : Prog).run messageProgram).vars[4]? = some (.obj 10) ∧
    (({} : Prog).run messageProgram).mem.eq 3 (.obj 7) (.obj 10) = .ok true := by decide +kernel

-- the second cannot be encoded; trying makes it differ
example : let p := ({} : Prog).run (messageProgram ++ [.encode 9 4])
    p.mem.eq 3 (.obj 7) (.obj 10) = .ok false ∧ p.mem.len (.obj 10) = some 3 ∧ p.mem.len (.obj 7) = some 0 := by
  decide +kernel

-- `pdu.requestID = Integer(5)`: the field reads 5, the PDU still sends 7
example : let p := ({} : Prog).run (messageProgram ++ [.integer .integer 5, .setAttr 1 .requestID 5, .attr 1 .requestID])
    p.vars[7]? = some (.obj 11) ∧ p.mem.num 11 = some 5 ∧
    (gEncode 9 p.mem (.obj 4)).2 = .ok [160, 11, 2, 1, 7, 2, 1, 0, 2, 1, 0, 48, 0] := by decide +kernel

-- `pdu.requestID.value = 5`: the PDU sends 5
example : let p := ({} : Prog).run (messageProgram ++ [.attr 1 .requestID, .setNum 5 5])
    (gEncode 9 p.mem (.obj 4)).2 = .ok [160, 11, 2, 1, 5, 2, 1, 0, 2, 1, 0, 48, 0] := by decide +kernel

-- a VarBindList refuses a Null and takes a VarBind
example : let p := ({} : Prog).run [.list [], .varBindList .varBindList 0, .null .null, .oid (.int 1), .varBind .varBind 3 2]
    (p.step (.append 1 2)).2 = .error .valueError ∧ (p.step (.append 1 4)).2 = .ok .none := by decide +kernel

end Libsnmp
