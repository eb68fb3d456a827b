import Verif.Spec.Grammar
import Verif.Props.Decoding
import Verif.Props.Integers
import Verif.Props.OidContents

/-! # C65: the language accepted by `decode` -/

namespace Libsnmp
open Spec

/-! ## Every decoded object, its components and theirs are SNMP objects -/

/-- An SNMP object. -/
def IsObj (v : Val) : Prop := v.cls?.isSome = true

/-- ... whose components are SNMP objects. -/
def IsObj1 (v : Val) : Prop := IsObj v ∧ ∀ c l, v = .seq c l → ∀ x ∈ l, IsObj x

/-- ... whose components' components are SNMP objects. -/
def IsObj2 (v : Val) : Prop := IsObj v ∧ ∀ c l, v = .seq c l → ∀ x ∈ l, IsObj1 x

theorem IsObj2.one {v : Val} (h : IsObj2 v) : IsObj1 v := ⟨h.1, fun c l e x hx => (h.2 c l e x hx).1⟩

theorem isObj1_integer (c : IntCls) (v : Int) : IsObj1 (.integer c v) := ⟨rfl, by simp⟩

theorem isObj1_list {cl cb : SeqCls} {l vbs : List Val} (h : mkVarBinds cb l = .ok vbs) : IsObj1 (.seq cl vbs) := by
  refine ⟨rfl, fun c l' e x hx => ?_⟩
  cases e
  obtain ⟨_, _, n, v, _, _, rfl, _⟩ := mkVarBinds_ok h x hx
  rfl

theorem finishSeq_isObj {c : SeqCls} {items : List Val} (hs : ∀ x ∈ items, IsObj2 x) {v : Val}
    (h : finishSeq c items = .ok v) : IsObj2 v := by
  rcases finishSeq_ok h with ⟨rfl, _⟩ | ⟨o0, o1, o2, o3, l, vbs, a, b, d, cb, rfl, _, h1, _, h2, _, _, _, h6⟩ |
    ⟨o0, o1, o2, o3, o4, o5, l, vbs, g, rfl, h1, h2, _, _, _, _, _, rfl⟩
  · refine ⟨rfl, fun c l e x hx => ?_⟩
    cases e
    exact (hs x hx).one
  · obtain ⟨c1, c2, cl, rfl, _⟩ := mkPDU_ok h6
    refine ⟨rfl, fun c l e x hx => ?_⟩
    cases e
    simp only [List.mem_cons, List.not_mem_nil, or_false] at hx
    rcases hx with rfl | rfl | rfl | rfl
    · exact isObj1_integer _ _
    · exact isObj1_integer _ _
    · exact isObj1_integer _ _
    · exact isObj1_list h2
  · refine ⟨rfl, fun c l e x hx => ?_⟩
    cases e
    have one : ∀ x ∈ [o0, o1, o2, o3, o4, o5], IsObj1 x := fun x hx => (hs x hx).one
    simp only [List.mem_cons, List.not_mem_nil, or_false] at hx
    rcases hx with rfl | rfl | rfl | rfl | rfl | rfl
    · exact one _ (by simp)
    · exact one _ (by simp)
    · exact isObj1_integer _ _
    · exact one _ (by simp)
    · exact one _ (by simp)
    · exact isObj1_list h2

theorem decodeAll_isObj (reg : Reg) (s : Str) (items : List Val) (h : decodeAll reg s = .ok items) :
    ∀ v ∈ items, IsObj2 v := by
  refine (decodeAll_inv reg IsObj2 (fun _ => True) trivial trivial ?_ s).1 items h
  intro cls t data _ ih
  refine ⟨fun v hv => ?_, fun _ _ => trivial⟩
  cases cls with
  | asn1Object => rw [decodeContents_asn1] at hv; simp at hv
  | int c =>
    rw [decodeContents_int] at hv
    split at hv
    · simp at hv
    · cases hv; exact ⟨rfl, by simp⟩
  | oct c => rw [decodeContents_oct] at hv; cases hv; exact ⟨rfl, by simp⟩
  | oid =>
    rw [decodeContents_oid] at hv
    split at hv
    · simp at hv
    · cases hv; exact ⟨rfl, by simp⟩
  | null c =>
    rw [decodeContents_null] at hv
    split at hv
    · simp at hv
    · cases hv; exact ⟨rfl, by simp⟩
  | seq c =>
    rw [decodeContents_seq] at hv
    split at hv
    · simp at hv
    · next items hi => exact finishSeq_isObj (ih.1 items hi) hv

/-! ## Variable bindings -/

theorem isInstance_obj {v : Val} (h : IsObj v) : v.isInstance .asn1Object = true := by
  unfold IsObj at h
  unfold Val.isInstance
  cases hc : v.cls? with
  | none => rw [hc] at h; simp at h
  | some c =>
    simp only
    cases c with
    | asn1Object => decide
    | int c => cases c <;> decide
    | oct c => cases c <;> decide
    | oid => decide
    | null c => cases c <;> decide
    | seq c => cases c <;> decide

/-- A name the constructor accepts, among SNMP objects. -/
theorem name_ok {n : Val} (h : IsObj n) : (n.truthy && !n.isInstance .oid) = false ↔
    (∃ ids, n = .oid ids) ∨ ∃ c, n = .seq c [] := by
  cases n with
  | none => simp [IsObj, Val.cls?] at h
  | int _ => simp [IsObj, Val.cls?] at h
  | str _ => simp [IsObj, Val.cls?] at h
  | bytes _ => simp [IsObj, Val.cls?] at h
  | integer c v => cases c <;> simp [Val.truthy, Val.isInstance, Val.cls?] <;> decide
  | octets c v => cases c <;> simp [Val.truthy, Val.isInstance, Val.cls?] <;> decide
  | raw c v => cases c <;> simp [Val.truthy, Val.isInstance, Val.cls?] <;> decide
  | oid v =>
    have : (Val.oid v).isInstance .oid = true := by simp only [Val.isInstance, Val.cls?]; decide
    simp [this]
  | null c => cases c <;> simp [Val.truthy, Val.isInstance, Val.cls?] <;> decide
  | seq c l =>
    have : (Val.seq c l).isInstance .oid = false := by
      simp only [Val.isInstance, Val.cls?]; cases c <;> decide
    cases l <;> simp [this, Val.truthy]

theorem mkVarBind_obj {cb : SeqCls} {n v x : Val} (hn : IsObj n) (hv : IsObj v) :
    mkVarBind cb n v = .ok x ↔ ((∃ ids, n = .oid ids) ∨ ∃ c, n = .seq c []) ∧ x = .seq cb [n, v] := by
  unfold mkVarBind
  rw [isInstance_obj hv]
  simp only [Bool.not_true, Bool.and_false, Bool.false_eq_true, if_false]
  rw [← name_ok hn]
  by_cases h : (n.truthy && !n.isInstance .oid) = true
  · rw [if_pos h]; simp [h]
  · rw [if_neg h]
    have h' : (n.truthy && !n.isInstance .oid) = false := by simpa using h
    simp only [h', Except.ok.injEq, true_and]
    exact eq_comm

theorem mkVarBind_int {cb : SeqCls} {a b : Int} {x : Val} :
    mkVarBind cb (.int a) (.int b) = .ok x ↔ a = 0 ∧ b = 0 ∧ x = .seq cb [.int 0, .int 0] := by
  unfold mkVarBind
  simp only [Val.truthy, Val.isInstance, Val.cls?]
  by_cases ha : a = 0
  · by_cases hb : b = 0
    · subst ha hb
      simp [eq_comm]
    · simp [ha, hb]
  · simp [ha]

/-- One item of a received list. -/
theorem binding_iff {cb : SeqCls} {item x : Val} (h : IsObj1 item) :
    (∃ n v, item.getItem 0 = .ok n ∧ item.getItem 1 = .ok v ∧ mkVarBind cb n v = .ok x) ↔ BindingOf cb item x := by
  constructor
  · rintro ⟨n, v, h0, h1, hx⟩
    cases item with
    | none => simp [Val.getItem] at h0
    | int _ => simp [Val.getItem] at h0
    | integer _ _ => simp [Val.getItem] at h0
    | octets _ _ => simp [Val.getItem] at h0
    | raw _ _ => simp [Val.getItem] at h0
    | null _ => simp [Val.getItem] at h0
    | str _ => have := h.1; simp [IsObj, Val.cls?] at this
    | bytes _ => have := h.1; simp [IsObj, Val.cls?] at this
    | oid ids =>
      match ids with
      | none => simp [Val.getItem] at h0
      | some [] => simp [Val.getItem] at h0
      | some [a] => simp [Val.getItem] at h1
      | some (a :: b :: t) =>
        simp only [Val.getItem, List.getElem?_cons_zero, List.getElem?_cons_succ, Except.ok.injEq] at h0 h1
        subst h0 h1
        obtain ⟨rfl, rfl, rfl⟩ := mkVarBind_int.mp hx
        exact .zeroArcs t
    | seq c l =>
      match l with
      | [] => simp [Val.getItem] at h0
      | [a] => simp [Val.getItem] at h1
      | a :: b :: t =>
        simp only [Val.getItem, List.getElem?_cons_zero, List.getElem?_cons_succ, Except.ok.injEq] at h0 h1
        subst h0 h1
        have ho := h.2 c _ rfl
        obtain ⟨hn, rfl⟩ := (mkVarBind_obj (ho a (by simp)) (ho b (by simp))).mp hx
        rcases hn with ⟨ids, rfl⟩ | ⟨c', rfl⟩
        · exact .pair c ids b t
        · exact .emptyName c c' b t
  · intro hb
    cases hb with
    | pair c ids value ignored =>
      have ho := h.2 c _ rfl
      exact ⟨_, _, rfl, rfl, (mkVarBind_obj (ho _ (by simp)) (ho _ (by simp))).mpr ⟨.inl ⟨_, rfl⟩, rfl⟩⟩
    | emptyName c c' value ignored =>
      have ho := h.2 c _ rfl
      exact ⟨_, _, rfl, rfl, (mkVarBind_obj (ho _ (by simp)) (ho _ (by simp))).mpr ⟨.inr ⟨_, rfl⟩, rfl⟩⟩
    | zeroArcs ignored => exact ⟨_, _, rfl, rfl, mkVarBind_int.mpr ⟨rfl, rfl, rfl⟩⟩

theorem mkVarBinds_iff {cb : SeqCls} {l vbs : List Val} (h : ∀ x ∈ l, IsObj1 x) :
    mkVarBinds cb l = .ok vbs ↔ List.Forall₂ (BindingOf cb) l vbs := by
  induction l generalizing vbs with
  | nil => simp [mkVarBinds, eq_comm]
  | cons x xs ih =>
    have ih' := fun w => ih (vbs := w) (fun y hy => h y (by simp [hy]))
    rw [mkVarBinds]
    constructor
    · intro hk
      obtain ⟨n, hn, hk⟩ := bind_ok hk
      obtain ⟨v, hv, hk⟩ := bind_ok hk
      obtain ⟨vb, hvb, hk⟩ := bind_ok hk
      obtain ⟨rest, hrest, hk⟩ := bind_ok hk
      cases hk
      exact .cons ((binding_iff (h x (by simp))).mp ⟨n, v, hn, hv, hvb⟩) ((ih' _).mp hrest)
    · intro hk
      cases hk with
      | cons hb hr =>
        obtain ⟨n, v, hn, hv, hvb⟩ := (binding_iff (h x (by simp))).mpr hb
        simp only [hn, hv, hvb, (ih' _).mpr hr, bind, Except.bind]

theorem forall2_varBind {cb : SeqCls} (hcb : cb = .varBind ∨ cb = .varBind2) {l vbs : List Val}
    (h : List.Forall₂ (BindingOf cb) l vbs) : vbs.all (·.isInstance (.seq .varBind)) = true := by
  induction h with
  | nil => rfl
  | cons hb _ ih =>
    rw [List.all_cons, ih, Bool.and_true]
    rcases hcb with rfl | rfl <;> cases hb <;> (simp only [Val.isInstance, Val.cls?]; decide)

/-! ## PDUs -/

theorem toInt_iff {o : Val} (h : IsObj o) {n : Int} : o.toInt = .ok n ↔ ∃ k, o = .integer k n := by
  cases o with
  | integer k v => simp [Val.toInt]
  | str _ => simp [IsObj, Val.cls?] at h
  | bytes _ => simp [IsObj, Val.cls?] at h
  | int _ => simp [IsObj, Val.cls?] at h
  | _ => simp [Val.toInt]

theorem iter_binds {o : Val} (h : IsObj2 o) {cb : SeqCls} {vbs : List Val} :
    (∃ l, o.iter = .ok l ∧ mkVarBinds cb l = .ok vbs) ↔
      (∃ c items, o = .seq c items ∧ List.Forall₂ (BindingOf cb) items vbs) ∨ (o = .oid (some []) ∧ vbs = []) := by
  cases o with
  | seq c items =>
    simp only [Val.iter, Except.ok.injEq, exists_eq_left', Val.seq.injEq, reduceCtorEq, false_and, or_false]
    rw [mkVarBinds_iff (h.2 c items rfl)]
    constructor
    · intro hk; exact ⟨c, items, ⟨rfl, rfl⟩, hk⟩
    · rintro ⟨_, _, ⟨rfl, rfl⟩, hk⟩; exact hk
  | oid ids =>
    match ids with
    | none => simp [Val.iter]
    | some [] => simp [Val.iter, mkVarBinds, eq_comm]
    | some (a :: t) => simp [Val.iter, mkVarBinds, Val.getItem, bind, Except.bind]
  | str _ => have := h.1; simp [IsObj, Val.cls?] at this
  | bytes _ => have := h.1; simp [IsObj, Val.cls?] at this
  | _ => simp [Val.iter]

theorem decodeAll_oid (reg : Reg) (s : Str) (items : List Val) (h : decodeAll reg s = .ok items) :
    ∀ v ∈ items, v ≠ .oid (some []) := by
  refine (decodeAll_inv reg (fun v => v ≠ .oid (some [])) (fun _ => True) trivial trivial ?_ s).1 items h
  intro cls t data _ _
  refine ⟨fun v hv => ?_, fun _ _ => trivial⟩
  cases cls with
  | asn1Object => rw [decodeContents_asn1] at hv; simp at hv
  | int c =>
    rw [decodeContents_int] at hv
    split at hv
    · simp at hv
    · cases hv; simp
  | oct c => rw [decodeContents_oct] at hv; cases hv; simp
  | oid =>
    rw [decodeContents_oid] at hv
    split at hv
    · simp at hv
    · next ids hd =>
      cases hv
      unfold oidDecode at hd
      split at hd
      · simp at hd
      · split at hd
        · split at hd
          · simp at hd
          · cases hd; simp
        · simp at hd
  | null c =>
    rw [decodeContents_null] at hv
    split at hv
    · simp at hv
    · cases hv; simp
  | seq c =>
    rw [decodeContents_seq] at hv
    split at hv
    · simp at hv
    · next items hi =>
      rcases finishSeq_ok hv with ⟨rfl, _⟩ | ⟨o0, o1, o2, o3, l, vbs, a, b, d, cb, rfl, _, h1, _, h2, _, _, _, h6⟩ |
        ⟨o0, o1, o2, o3, o4, o5, l, vbs, g, rfl, h1, h2, _, _, _, _, _, rfl⟩
      · simp
      · obtain ⟨c1, c2, cl, rfl, _⟩ := mkPDU_ok h6; simp
      · simp [mkTrap]

/-- An object of a decoded list. -/
def Decoded (v : Val) : Prop := IsObj2 v ∧ v ≠ .oid (some [])

theorem Decoded.binds {o : Val} (h : Decoded o) {cb : SeqCls} {vbs : List Val} :
    (∃ l, o.iter = .ok l ∧ mkVarBinds cb l = .ok vbs) ↔
      ∃ c items, o = .seq c items ∧ List.Forall₂ (BindingOf cb) items vbs := by
  rw [iter_binds h.1]
  constructor
  · rintro (h' | ⟨h', _⟩)
    · exact h'
    · exact absurd h' h.2
  · exact .inl

theorem mkInteger_iff {c : IntCls} {v : Int} {x : Val} :
    mkInteger c v = .ok x ↔ (c.minVal ≤ v ∧ v ≤ c.maxVal) ∧ x = .integer c v := by
  unfold mkInteger
  split
  · next h => simp [h, eq_comm]
  · next h => simp [h]

theorem range_integer (v : Int) : (IntCls.integer.minVal ≤ v ∧ v ≤ IntCls.integer.maxVal) ↔ Int32 v := Iff.rfl
theorem range_status (v : Int) : (IntCls.errorStatus.minVal ≤ v ∧ v ≤ IntCls.errorStatus.maxVal) ↔ Int32 v := Iff.rfl
theorem range_status2 (v : Int) : (IntCls.errorStatus2.minVal ≤ v ∧ v ≤ IntCls.errorStatus2.maxVal) ↔ Int32 v := Iff.rfl
theorem range_trap (v : Int) : (IntCls.genericTrap.minVal ≤ v ∧ v ≤ IntCls.genericTrap.maxVal) ↔ Int32 v := Iff.rfl
theorem range_integer32 (v : Int) : (IntCls.integer32.minVal ≤ v ∧ v ≤ IntCls.integer32.maxVal) ↔ Request2 v := Iff.rfl

theorem bind_iff {α β : Type} {x : Except Exc α} {f : α → Except Exc β} {b : β} :
    (x >>= f) = .ok b ↔ ∃ a, x = .ok a ∧ f a = .ok b := by
  constructor
  · exact bind_ok
  · rintro ⟨a, rfl, h⟩; exact h

/-- The constructors, on a list of bindings. -/
theorem mkPDU1_iff {c : SeqCls} {a b d : Int} {vbs : List Val} {x : Val}
    (hv : vbs.all (·.isInstance (.seq .varBind)) = true) :
    mkPDU1 c a b d vbs = .ok x ↔ Int32 a ∧ Int32 b ∧ Int32 d ∧
      x = .seq c [.integer .integer a, .integer .errorStatus b, .integer .integer d, .seq .varBindList vbs] := by
  have hl : mkVarBindList .varBindList vbs = .ok (.seq .varBindList vbs) := by
    unfold mkVarBindList
    rw [show (Cls.seq SeqCls.varBindList).isSubclass (.seq .varBindList2) = false by decide, hv]; simp
  unfold mkPDU1
  simp only [bind_iff, mkInteger_iff, hl, range_integer, range_status, Except.ok.injEq]
  constructor
  · rintro ⟨_, ⟨h1, rfl⟩, _, ⟨h2, rfl⟩, _, ⟨h3, rfl⟩, _, rfl, rfl⟩
    exact ⟨h1, h2, h3, rfl⟩
  · rintro ⟨h1, h2, h3, rfl⟩
    exact ⟨_, ⟨h1, rfl⟩, _, ⟨h2, rfl⟩, _, ⟨h3, rfl⟩, _, rfl, rfl⟩

theorem mkVarBindList2_iff {vbs : List Val} {x : Val} (hv : vbs.all (·.isInstance (.seq .varBind)) = true) :
    mkVarBindList .varBindList2 vbs = .ok x ↔ vbs.length ≤ 2147483647 ∧ x = .seq .varBindList2 vbs := by
  unfold mkVarBindList
  rw [show (Cls.seq SeqCls.varBindList2).isSubclass (.seq .varBindList2) = true by decide, hv]
  by_cases h : 2147483647 < vbs.length
  · simp [h]
  · simp [h, eq_comm]; intro _; omega

theorem mkPDU2_iff {c : SeqCls} {a b d : Int} {vbs : List Val} {x : Val}
    (hv : vbs.all (·.isInstance (.seq .varBind)) = true) :
    mkPDU2 c a b d vbs = .ok x ↔ Request2 a ∧ Int32 b ∧ Int32 d ∧ vbs.length ≤ 2147483647 ∧
      x = .seq c [.integer .integer32 a, .integer .errorStatus2 b, .integer .integer d, .seq .varBindList2 vbs] := by
  unfold mkPDU2
  by_cases hd : d > 2147483647
  · rw [if_pos hd]
    constructor
    · simp
    · rintro ⟨_, _, h3, _⟩; have := h3.2; omega
  · rw [if_neg hd]
    simp only [bind_iff, mkInteger_iff, mkVarBindList2_iff hv, range_integer, range_integer32, range_status2, Except.ok.injEq]
    constructor
    · rintro ⟨_, ⟨h1, rfl⟩, _, ⟨h2, rfl⟩, _, ⟨h3, rfl⟩, _, ⟨h4, rfl⟩, rfl⟩
      exact ⟨h1, h2, h3, h4, rfl⟩
    · rintro ⟨h1, h2, h3, h4, rfl⟩
      exact ⟨_, ⟨h1, rfl⟩, _, ⟨h2, rfl⟩, _, ⟨h3, rfl⟩, _, ⟨h4, rfl⟩, rfl⟩

theorem mkBulk_iff {c : SeqCls} {a b d : Int} {vbs : List Val} {x : Val}
    (hv : vbs.all (·.isInstance (.seq .varBind)) = true) :
    mkBulk c a b d vbs = .ok x ↔ Request2 a ∧ Int32 b ∧ Int32 d ∧ vbs.length ≤ 2147483647 ∧
      x = .seq c [.integer .integer32 a, .integer .integer b, .integer .integer d, .seq .varBindList2 vbs] := by
  unfold mkBulk
  by_cases hb : b > 2147483647
  · rw [if_pos hb]
    constructor
    · simp
    · rintro ⟨_, h2, _⟩; have := h2.2; omega
  · rw [if_neg hb]
    by_cases hd : d > 2147483647
    · rw [if_pos hd]
      constructor
      · simp
      · rintro ⟨_, _, h3, _⟩; have := h3.2; omega
    · rw [if_neg hd]
      simp only [bind_iff, mkInteger_iff, mkVarBindList2_iff hv, range_integer, range_integer32, Except.ok.injEq]
      constructor
      · rintro ⟨_, ⟨h1, rfl⟩, _, ⟨h2, rfl⟩, _, ⟨h3, rfl⟩, _, ⟨h4, rfl⟩, rfl⟩
        exact ⟨h1, h2, h3, h4, rfl⟩
      · rintro ⟨h1, h2, h3, h4, rfl⟩
        exact ⟨_, ⟨h1, rfl⟩, _, ⟨h2, rfl⟩, _, ⟨h3, rfl⟩, _, ⟨h4, rfl⟩, rfl⟩

/-- The kinds of sequence class. -/
theorem seq_kinds (c : SeqCls) (h1 : c ≠ .message) (h2 : c ≠ .message2) :
    (c ∈ sequenceClasses ∧ (Cls.seq c).isSubclass (.seq .pdu) = false ∧ (Cls.seq c).isSubclass (.seq .bulkPDU) = false ∧
      (Cls.seq c).isSubclass (.seq .trapPDU) = false ∧ c ∉ v1Pdus ∧ c ∉ v2Pdus ∧ c ∉ bulkPdus ∧ c ≠ .trapPDU) ∨
    (c ∈ v1Pdus ∧ (Cls.seq c).isSubclass (.seq .pdu) = true ∧ (Cls.seq c).isSubclass (.seq .pdu2) = false ∧
      (Cls.seq c).isSubclass (.seq .bulkPDU) = false ∧ c ∉ sequenceClasses ∧ c ∉ v2Pdus ∧ c ∉ bulkPdus ∧ c ≠ .trapPDU) ∨
    (c ∈ v2Pdus ∧ (Cls.seq c).isSubclass (.seq .pdu) = true ∧ (Cls.seq c).isSubclass (.seq .pdu2) = true ∧
      (Cls.seq c).isSubclass (.seq .bulkPDU) = false ∧ c ∉ sequenceClasses ∧ c ∉ v1Pdus ∧ c ∉ bulkPdus ∧ c ≠ .trapPDU) ∨
    (c ∈ bulkPdus ∧ (Cls.seq c).isSubclass (.seq .pdu) = false ∧ (Cls.seq c).isSubclass (.seq .pdu2) = false ∧
      (Cls.seq c).isSubclass (.seq .bulkPDU) = true ∧ c ∉ sequenceClasses ∧ c ∉ v1Pdus ∧ c ∉ v2Pdus ∧ c ≠ .trapPDU) ∨
    (c = .trapPDU) := by
  cases c <;> first
    | exact absurd rfl h1
    | exact absurd rfl h2
    | exact .inr (.inr (.inr (.inr rfl)))
    | exact .inl ⟨by decide, by decide, by decide, by decide, by decide, by decide, by decide, by decide⟩
    | exact .inr (.inl ⟨by decide, by decide, by decide, by decide, by decide, by decide, by decide, by decide⟩)
    | exact .inr (.inr (.inl ⟨by decide, by decide, by decide, by decide, by decide, by decide, by decide, by decide⟩))
    | exact .inr (.inr (.inr (.inl ⟨by decide, by decide, by decide, by decide, by decide, by decide, by decide, by decide⟩)))

/-- `finishPDU`, given its tests on the class. -/
theorem finishPDU_iff {c : SeqCls} {cb : SeqCls}
    (hcb : cb = if (Cls.seq c).isSubclass (.seq .bulkPDU) then SeqCls.varBind2 else SeqCls.varBind)
    {items : List Val} (hs : ∀ x ∈ items, Decoded x) {v : Val} :
    finishPDU c items = .ok v ↔ ∃ k0 k1 k2 a b d cl l vbs,
      items = [.integer k0 a, .integer k1 b, .integer k2 d, .seq cl l] ∧ List.Forall₂ (BindingOf cb) l vbs ∧
      mkPDU c a b d vbs = .ok v := by
  unfold finishPDU
  simp only
  constructor
  · intro h
    split at h
    · next o0 o1 o2 o3 =>
      obtain ⟨l, e1, h1⟩ := bind_ok h
      obtain ⟨vbs, e2, h2⟩ := bind_ok h1
      obtain ⟨a, e3, h3⟩ := bind_ok h2
      obtain ⟨b, e4, h4⟩ := bind_ok h3
      obtain ⟨d, e5, h5⟩ := bind_ok h4
      clear h h1 h2 h3 h4
      rw [← hcb] at e2
      obtain ⟨k0, rfl⟩ := (toInt_iff (hs o0 (by simp)).1.1).mp e3
      obtain ⟨k1, rfl⟩ := (toInt_iff (hs o1 (by simp)).1.1).mp e4
      obtain ⟨k2, rfl⟩ := (toInt_iff (hs o2 (by simp)).1.1).mp e5
      obtain ⟨cl, l', rfl, hf⟩ := (hs o3 (by simp)).binds.mp ⟨l, e1, e2⟩
      exact ⟨k0, k1, k2, a, b, d, cl, l', vbs, rfl, hf, h5⟩
    · simp at h
  · rintro ⟨k0, k1, k2, a, b, d, cl, l, vbs, rfl, hf, h⟩
    obtain ⟨l', e1, e2⟩ := (hs (.seq cl l) (by simp)).binds.mpr ⟨cl, l, rfl, hf⟩
    simp only [e1, ← hcb, Val.toInt, bind, Except.bind]
    rw [e2]
    exact h

theorem finishSeq_iff {c : SeqCls} (h1 : c ≠ .message) (h2 : c ≠ .message2) {items : List Val}
    (hs : ∀ x ∈ items, Decoded x) {v : Val} :
    finishSeq c items = .ok v ↔ (c ∈ sequenceClasses ∧ v = .seq c items) ∨ PduOf c items v := by
  rcases seq_kinds c h1 h2 with ⟨m, p1, p2, p3, n1, n2, n3, n4⟩ | ⟨m, p1, p2, p3, n1, n2, n3, n4⟩ |
    ⟨m, p1, p2, p3, n1, n2, n3, n4⟩ | ⟨m, p1, p2, p3, n1, n2, n3, n4⟩ | rfl
  · simp only [finishSeq, p1, p2, p3, Bool.or_self, Bool.false_eq_true, if_false, Except.ok.injEq, m, true_and]
    constructor
    · intro h; exact .inl h.symm
    · rintro (rfl | h)
      · rfl
      · cases h <;> contradiction
  · simp only [finishSeq, p1, Bool.true_or, if_true, n1, false_and, false_or]
    rw [finishPDU_iff rfl hs, p3]
    simp only [Bool.false_eq_true, if_false]
    constructor
    · rintro ⟨k0, k1, k2, a, b, d, cl, l, vbs, rfl, hf, h⟩
      simp only [mkPDU, p2, p3, Bool.false_eq_true, if_false] at h
      obtain ⟨ha, hb, hd, rfl⟩ := (mkPDU1_iff (forall2_varBind (.inl rfl) hf)).mp h
      exact .v1 c cl k0 k1 k2 a b d l vbs m ha hb hd hf
    · intro h
      cases h with
      | v1 _ cl k0 k1 k2 a b d l vbs hc ha hb hd hf =>
        refine ⟨k0, k1, k2, a, b, d, cl, l, vbs, rfl, hf, ?_⟩
        simp only [mkPDU, p2, p3, Bool.false_eq_true, if_false]
        exact (mkPDU1_iff (forall2_varBind (.inl rfl) hf)).mpr ⟨ha, hb, hd, rfl⟩
      | v2 => contradiction
      | bulk => contradiction
      | trap => contradiction
  · simp only [finishSeq, p1, Bool.true_or, if_true, n1, false_and, false_or]
    rw [finishPDU_iff rfl hs, p3]
    simp only [Bool.false_eq_true, if_false]
    constructor
    · rintro ⟨k0, k1, k2, a, b, d, cl, l, vbs, rfl, hf, h⟩
      simp only [mkPDU, p2, if_true] at h
      obtain ⟨ha, hb, hd, hl, rfl⟩ := (mkPDU2_iff (forall2_varBind (.inl rfl) hf)).mp h
      exact .v2 c cl k0 k1 k2 a b d l vbs m ha hb hd hf hl
    · intro h
      cases h with
      | v2 _ cl k0 k1 k2 a b d l vbs hc ha hb hd hf hl =>
        refine ⟨k0, k1, k2, a, b, d, cl, l, vbs, rfl, hf, ?_⟩
        simp only [mkPDU, p2, if_true]
        exact (mkPDU2_iff (forall2_varBind (.inl rfl) hf)).mpr ⟨ha, hb, hd, hl, rfl⟩
      | v1 => contradiction
      | bulk => contradiction
      | trap => contradiction
  · simp only [finishSeq, p1, p3, Bool.or_true, if_true, n1, false_and, false_or]
    rw [finishPDU_iff rfl hs, p3]
    simp only [if_true]
    constructor
    · rintro ⟨k0, k1, k2, a, b, d, cl, l, vbs, rfl, hf, h⟩
      simp only [mkPDU, p2, p3, Bool.false_eq_true, if_false, if_true] at h
      obtain ⟨ha, hb, hd, hl, rfl⟩ := (mkBulk_iff (forall2_varBind (.inr rfl) hf)).mp h
      exact .bulk c cl k0 k1 k2 a b d l vbs m ha hb hd hf hl
    · intro h
      cases h with
      | bulk _ cl k0 k1 k2 a b d l vbs hc ha hb hd hf hl =>
        refine ⟨k0, k1, k2, a, b, d, cl, l, vbs, rfl, hf, ?_⟩
        simp only [mkPDU, p2, p3, Bool.false_eq_true, if_false, if_true]
        exact (mkBulk_iff (forall2_varBind (.inr rfl) hf)).mpr ⟨ha, hb, hd, hl, rfl⟩
      | v1 => contradiction
      | v2 => contradiction
      | trap => contradiction
  · have p1 : (Cls.seq SeqCls.trapPDU).isSubclass (.seq .pdu) = false := by decide
    have p2 : (Cls.seq SeqCls.trapPDU).isSubclass (.seq .bulkPDU) = false := by decide
    have p3 : (Cls.seq SeqCls.trapPDU).isSubclass (.seq .trapPDU) = true := by decide
    have p4 : SeqCls.trapPDU ∉ sequenceClasses := by decide
    simp only [finishSeq, p1, p2, p3, p4, Bool.or_self, Bool.false_eq_true, if_false, if_true, false_and, false_or]
    constructor
    · intro h
      unfold finishTrap at h
      split at h
      · next o0 o1 o2 o3 o4 o5 =>
        obtain ⟨l, e1, h1⟩ := bind_ok h
        obtain ⟨vbs, e2, h2⟩ := bind_ok h1
        obtain ⟨g, e3, h3⟩ := bind_ok h2
        obtain ⟨gt, e4, h4⟩ := bind_ok h3
        clear h h1 h2 h3
        obtain ⟨hg, rfl⟩ := mkInteger_iff.mp e4
        obtain ⟨k, rfl⟩ := (toInt_iff (hs o2 (by simp)).1.1).mp e3
        obtain ⟨cl, l', rfl, hf⟩ := (hs o5 (by simp)).binds.mp ⟨l, e1, e2⟩
        cases h4
        exact .trap cl k g o0 o1 o3 o4 l' vbs hg hf
      · simp at h
    · intro h
      cases h with
      | trap cl k g ent addr spec ts l vbs hg hf =>
        obtain ⟨l', e1, e2⟩ := (hs (.seq cl l) (by simp)).binds.mpr ⟨cl, l, rfl, hf⟩
        simp only [finishTrap, e1, e2, Val.toInt, bind, Except.bind]
        rw [mkInteger_iff.mpr ⟨(range_trap g).mpr hg, rfl⟩]
        rfl
      | v1 _ _ _ _ _ _ _ _ _ _ hc => exact absurd hc (by decide)
      | v2 _ _ _ _ _ _ _ _ _ _ hc => exact absurd hc (by decide)
      | bulk _ _ _ _ _ _ _ _ _ _ hc => exact absurd hc (by decide)

/-! ## Contents and elements -/

theorem counter_mem (c : IntCls) : (Cls.int c).isSubclass (.int .counter) = true ↔ c ∈ counterClasses := by
  cases c <;> decide

theorem contents_iff {reg : Reg} {cls : Cls} (h0 : cls ≠ .asn1Object) (h1 : cls ≠ .seq .message) (h2 : cls ≠ .seq .message2)
    {s : Str} (ho : Octets s) (ih : ∀ items, decodeAll reg s = .ok items ↔ Parses reg s items) {v : Val} :
    decodeContents reg cls s = .ok v ↔ Contents reg cls s v := by
  cases cls with
  | asn1Object => exact absurd rfl h0
  | int c =>
    rw [decodeContents_int, C10_counter_decode_any s ho, C06_int_decode s ho]
    by_cases hs : s = []
    · subst hs
      simp only [if_true, ite_self]
      constructor
      · simp
      · intro h; cases h <;> contradiction
    · simp only [hs, if_false]
      by_cases hc : c ∈ counterClasses
      · rw [if_pos ((counter_mem c).mpr hc)]
        simp only [Except.ok.injEq]
        constructor
        · rintro rfl; exact .counter c s hc hs
        · intro h
          cases h with
          | integer _ _ hc' => exact absurd hc hc'
          | counter => rfl
      · rw [if_neg (fun h => hc ((counter_mem c).mp h))]
        simp only [Except.ok.injEq]
        constructor
        · rintro rfl; exact .integer c s hc hs
        · intro h
          cases h with
          | integer => rfl
          | counter _ _ hc' => exact absurd hc' hc
  | oct c =>
    rw [decodeContents_oct]
    simp only [Except.ok.injEq]
    constructor
    · rintro rfl; exact .string c s
    · intro h; cases h; rfl
  | oid =>
    rw [decodeContents_oid]
    constructor
    · intro h
      split at h
      · simp at h
      · next ids hd =>
        cases h
        obtain ⟨b, t, ns, rfl, hb, hns, rfl⟩ := (C13_oid_decode_ok s ho ids).mp hd
        exact .oid b t ns hb hns
    · intro h
      cases h with
      | oid b t ns hb hns =>
        rw [(C13_oid_decode_ok (b :: t) ho _).mpr ⟨b, t, ns, rfl, hb, hns, rfl⟩]
        rfl
  | null c =>
    rw [decodeContents_null]
    constructor
    · intro h
      split at h
      · simp at h
      · next hs =>
        cases h
        rw [not_not.mp hs]
        exact .null c
    · intro h; cases h; rfl
  | seq c =>
    rw [decodeContents_seq]
    have n1 : c ≠ .message := fun h => h1 (by rw [h])
    have n2 : c ≠ .message2 := fun h => h2 (by rw [h])
    constructor
    · intro h
      split at h
      · simp at h
      · next items hi =>
        rcases (finishSeq_iff n1 n2 (fun x hx => ⟨decodeAll_isObj reg s items hi x hx, decodeAll_oid reg s items hi x hx⟩)).mp h
          with ⟨hc, rfl⟩ | hp
        · exact .sequence c s items hc ((ih items).mp hi)
        · exact .pdu c s items v ((ih items).mp hi) hp
    · intro h
      cases h with
      | sequence _ _ items hc hp =>
        have hi := (ih items).mpr hp
        rw [hi]
        exact (finishSeq_iff n1 n2 (fun x hx => ⟨decodeAll_isObj reg s items hi x hx, decodeAll_oid reg s items hi x hx⟩)).mpr
          (.inl ⟨hc, rfl⟩)
      | pdu _ _ items _ hp hq =>
        have hi := (ih items).mpr hp
        rw [hi]
        exact (finishSeq_iff n1 n2 (fun x hx => ⟨decodeAll_isObj reg s items hi x hx, decodeAll_oid reg s items hi x hx⟩)).mpr
          (.inr hq)

theorem lengthRead_decode {n : Nat} {lf rest : Str} (h : LengthRead n lf) (ho : Octets (lf ++ rest)) :
    decodeLength (lf ++ rest) = .ok (n, rest) := by
  rw [C03_decodeLength_exact _ ho]
  cases h with
  | short _ h => simp [h]
  | long ds h =>
    have : ¬ 128 + ds.length < 128 := by omega
    simp [this]

theorem decodeLength_read {n : Nat} {s rest : Str} (ho : Octets s) (h : decodeLength s = .ok (n, rest)) :
    ∃ lf, s = lf ++ rest ∧ LengthRead n lf := by
  rw [C03_decodeLength_exact s ho] at h
  cases s with
  | nil => simp at h
  | cons b t =>
    simp only at h
    have hb : b < 256 := ho b (by simp)
    split at h
    · next hlt =>
      simp only [Except.ok.injEq, Prod.mk.injEq] at h
      obtain ⟨rfl, rfl⟩ := h
      exact ⟨[_], rfl, .short _ hlt⟩
    · split at h
      · simp at h
      · next h1 h2 =>
        simp only [Except.ok.injEq, Prod.mk.injEq] at h
        obtain ⟨rfl, rfl⟩ := h
        have e : (t.take (b - 128)).length = b - 128 := by simp only [List.length_take]; omega
        refine ⟨(128 + (t.take (b - 128)).length) :: t.take (b - 128), ?_, .long _ (by omega)⟩
        rw [e]
        simp only [List.cons_append, List.take_append_drop, List.cons.injEq, and_true]
        omega

/-- Classes a module registers. -/
theorem imported_not_message {reg : Reg} (hreg : Imported reg) {tag : Nat} {cls : Cls} (h : reg tag = some cls) :
    cls ≠ .asn1Object ∧ cls ≠ .seq .message ∧ cls ≠ .seq .message2 := by
  refine ⟨fun e => imported_no_base hreg tag (by rw [h, e]), ?_⟩
  obtain ⟨b, c, d, rfl⟩ := imported_decoder hreg
  unfold decoder at h
  rw [if_neg (by simp)] at h
  cases b <;> cases c <;> cases d <;> (split at h <;> (simp at h; try (subst h; exact ⟨by simp, by simp⟩)))

/-- **C65.** `decode` accepts exactly the streams of the grammar `Parses`, and returns exactly the objects the grammar
assigns to them. -/
theorem C65_parse_iff {reg : Reg} (hreg : Imported reg) (s : Str) (h : Octets s) (objs : List Val) :
    decode reg (.str s) = .ok objs ↔ Parses reg s objs := by
  show decodeAll reg s = .ok objs ↔ _
  induction hn : s.length using Nat.strong_induction_on generalizing s objs with
  | _ n ih =>
    constructor
    · intro hd
      rw [decodeAll_eq] at hd
      by_cases hs : s = []
      · subst hs
        rw [if_pos rfl] at hd
        cases hd
        exact .nil
      rw [if_neg hs] at hd
      rcases C04_decodeTag_exact s h with ⟨tag, idf, s1, rfl, hid, ht⟩ | ⟨_, ht⟩
      swap
      · rw [ht] at hd; simp at hd
      rw [ht] at hd
      simp only at hd
      have o1 : Octets s1 := (octets_append.mp h).2
      have l1 := decodeTag_length ht
      cases hl : decodeLength s1 with
      | error e => rw [hl] at hd; simp at hd
      | ok p =>
        obtain ⟨len, s2⟩ := p
        rw [hl] at hd
        simp only at hd
        obtain ⟨lf, rfl, hlr⟩ := decodeLength_read o1 hl
        have l2 := decodeLength_length hl
        have o2 : Octets s2 := (octets_append.mp o1).2
        cases hr : reg tag with
        | none => rw [hr] at hd; simp at hd
        | some cls =>
          rw [hr] at hd
          simp only at hd
          have hcls := imported_not_message hreg hr
          have ot : Octets (s2.take len) := fun x hx => o2 x (List.mem_of_mem_take hx)
          have od : Octets (s2.drop len) := fun x hx => o2 x (List.mem_of_mem_drop hx)
          cases hc : decodeContents reg cls (s2.take len) with
          | error e => rw [hc] at hd; simp at hd
          | ok v =>
            rw [hc] at hd
            simp only at hd
            cases hrest : decodeAll reg (s2.drop len) with
            | error e => rw [hrest] at hd; simp at hd
            | ok vs =>
              rw [hrest] at hd
              cases hd
              have hv := (contents_iff hcls.1 hcls.2.1 hcls.2.2 ot (fun items => ih (s2.take len).length
                (by simp only [List.length_take]; omega) _ ot items rfl)).mp hc
              have hvs := (ih (s2.drop len).length (by simp only [List.length_drop]; omega) _ od vs rfl).mp hrest
              have hcut : Cut len (s2.take len) (s2.drop len) := by
                unfold Cut
                by_cases hle : len ≤ s2.length
                · left; simp only [List.length_take]; omega
                · right
                  refine ⟨by simp only [List.length_take]; omega, List.drop_eq_nil_of_le (by omega)⟩
              have := Parses.cons hid hlr hcut hr hv hvs
              rwa [List.append_assoc, List.take_append_drop, List.append_assoc] at this
    · intro hp
      cases hp with
      | nil => rw [decodeAll_eq, if_pos rfl]
      | @cons tag len idf lf contents rest cls v vs hid hlr hcut hr hv hvs =>
        have hcls := imported_not_message hreg hr
        rw [List.append_assoc, List.append_assoc] at h hn ⊢
        have o1 := (octets_append.mp h).2
        have o2 := (octets_append.mp o1).2
        have oc := (octets_append.mp o2).1
        have or := (octets_append.mp o2).2
        have ht := decodeTag_field hid (lf ++ (contents ++ rest))
        have hl := lengthRead_decode hlr o1
        have l1 := decodeTag_length ht
        have l2 := decodeLength_length hl
        have hne : idf ++ (lf ++ (contents ++ rest)) ≠ [] := by
          intro e; rw [e] at l1; simp at l1
        have e1 : (contents ++ rest).take len = contents := by
          rcases hcut with rfl | ⟨hlt, rfl⟩
          · simp
          · simp only [List.append_nil]; exact List.take_of_length_le (by omega)
        have e2 : (contents ++ rest).drop len = rest := by
          rcases hcut with rfl | ⟨hlt, rfl⟩
          · simp
          · simp only [List.append_nil]; exact List.drop_eq_nil_of_le (by omega)
        rw [List.length_append] at l2
        have hc := (contents_iff hcls.1 hcls.2.1 hcls.2.2 oc (fun items => ih contents.length (by omega) _ oc items rfl)).mpr hv
        have hrest := (ih rest.length (by omega) _ or vs rfl).mpr hvs
        rw [decodeAll_eq, if_neg hne, ht]
        simp only [hl, hr, e1, e2, hc, hrest]

/-- C65: everything else is refused with an exception. -/
theorem C65_rejects_iff {reg : Reg} (hreg : Imported reg) (s : Str) (h : Octets s) :
    (∃ e, decode reg (.str s) = .error e) ↔ ¬ ∃ objs, Parses reg s objs := by
  constructor
  · rintro ⟨e, he⟩ ⟨objs, ho⟩
    rw [(C65_parse_iff hreg s h objs).mpr ho] at he
    cases he
  · intro hn
    cases hd : decode reg (.str s) with
    | error e => exact ⟨e, rfl⟩
    | ok objs => exact absurd ⟨objs, (C65_parse_iff hreg s h objs).mp hd⟩ hn

/-- C65: the grammar is unambiguous. -/
theorem C65_unambiguous {reg : Reg} (hreg : Imported reg) (s : Str) (h : Octets s) (v w : List Val)
    (hv : Parses reg s v) (hw : Parses reg s w) : v = w := by
  have := (C65_parse_iff hreg s h v).mpr hv
  rw [(C65_parse_iff hreg s h w).mpr hw] at this
  cases this
  rfl

/-- C65: a sequence announcing 200 octets and containing an Integer -1 (two octets, long length) and an IPAddress: the
grammar says what it stands for, and what it does not. -/
example : Parses regFull [0x30, 0x81, 200, 0x02, 0x81, 2, 255, 255, 0x40, 0]
      [.seq .sequence [.integer .integer32 (-1), .octets .ipAddress []]] ∧
    ¬ Parses regFull [0x30, 0x81, 200, 0x02, 0x81, 2, 255, 255, 0x40, 0] [] := by
  have h : Octets [0x30, 0x81, 200, 0x02, 0x81, 2, 255, 255, 0x40, 0] := by decide
  have e : decode regFull (.str [0x30, 0x81, 200, 0x02, 0x81, 2, 255, 255, 0x40, 0]) =
      .ok [.seq .sequence [.integer .integer32 (-1), .octets .ipAddress []]] := by decide +kernel
  rw [← C65_parse_iff imported_full _ h, ← C65_parse_iff imported_full _ h, e]
  simp

/-- C10, on the wire: under every registry an element `0x41` is an object of a Counter class, and of at most four contents
octets is read as an unsigned 32-bit number. -/
theorem C10_counter_element {reg : Reg} (hreg : Imported reg) (s : Str) (h : Octets s) (h1 : 1 ≤ s.length) (h4 : s.length ≤ 4) :
    ∃ c v, c ∈ counterClasses ∧ decode reg (.str (0x41 :: s.length :: s)) = .ok [.integer c v] ∧ 0 ≤ v ∧ v < 2 ^ 32 ∧
      v = twos s % 2 ^ 32 ∧ (s.length = 4 → v = unsigned s) := by
  obtain ⟨v, hv, h5, h6, h7, h8⟩ := C10_counter_decode s h h1 h4
  have hne : s ≠ [] := by rintro rfl; simp at h1
  rw [C10_counter_decode_any s h, if_neg hne] at hv
  have hr : ∃ c, reg 0x41 = some (.int c) ∧ c ∈ counterClasses := by
    obtain ⟨b, c, d, rfl⟩ := imported_decoder hreg
    cases c
    · exact ⟨.counter, rfl, by decide⟩
    · exact ⟨.counter32, rfl, by decide⟩
  obtain ⟨c, hr, hc⟩ := hr
  refine ⟨c, v, hc, ?_, h5, h6, h7, h8⟩
  have ho : Octets (0x41 :: s.length :: s) := by
    simp only [octets_cons]; exact ⟨by decide, by omega, h⟩
  rw [C65_parse_iff hreg _ ho]
  have hp := Parses.cons (IdentifierField.low 0x41 (by decide)) (LengthRead.short s.length (by omega))
    (Or.inl rfl : Cut s.length s []) hr (Contents.counter c s hc hne) Parses.nil
  cases hv
  simpa using hp

/-- C10: Counter64 is read the same way: 2^32 is added to a negative number, whatever its length, so that the eight octets
of a counter past 2^63 are read as a negative number. -/
theorem C10_counter64_element (s : Str) (h : Octets s) (h1 : 1 ≤ s.length) (h8 : s.length < 128) :
    decode regFull (.str (0x46 :: s.length :: s)) =
      .ok [.integer .counter64 (if twos s < 0 then twos s + 2 ^ 32 else twos s)] := by
  have hne : s ≠ [] := by rintro rfl; simp at h1
  have ho : Octets (0x46 :: s.length :: s) := by
    simp only [octets_cons]; exact ⟨by decide, by omega, h⟩
  rw [C65_parse_iff imported_full _ ho]
  have hp := Parses.cons (reg := regFull) (IdentifierField.low 0x46 (by decide)) (LengthRead.short s.length (by omega))
    (Or.inl rfl : Cut s.length s []) rfl (Contents.counter .counter64 s (by decide) hne) Parses.nil
  simpa using hp

example : decode regFull (.str [0x46, 8, 255, 255, 255, 255, 0, 0, 0, 0]) = .ok [.integer .counter64 0] ∧
    decode regFull (.str [0x46, 8, 128, 0, 0, 0, 0, 0, 0, 0]) = .ok [.integer .counter64 (-9223372032559808512)] ∧
    decode regFull (.str [0x41, 4, 255, 255, 255, 255]) = .ok [.integer .counter32 4294967295] := by
  have e := C10_counter64_element [255, 255, 255, 255, 0, 0, 0, 0] (by decide) (by decide) (by decide)
  have e' := C10_counter64_element [128, 0, 0, 0, 0, 0, 0, 0] (by decide) (by decide) (by decide)
  exact ⟨e, e', by decide +kernel⟩

end Libsnmp
