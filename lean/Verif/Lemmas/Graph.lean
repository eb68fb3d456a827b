import Verif.Model.Program

/-!
# Lemmas about the object graph
-/

namespace Libsnmp

/-- A `Message` class. -/
def Cls.isMessage : Cls → Bool
  | .seq c => (Cls.seq c).isSubclass (.seq .message)
  | _ => false

/-- Two nodes that `encode()` cannot tell apart: only the `value` of a Message may differ. -/
def Same (o o' : Node) : Prop := o'.cls = o.cls ∧ o'.attrs = o.attrs ∧ (o.cls.isMessage = false → o'.value = o.value)

theorem Same.refl (o : Node) : Same o o := ⟨rfl, rfl, fun _ => rfl⟩

theorem Same.trans {a b c : Node} (h : Same a b) (k : Same b c) : Same a c := by
  obtain ⟨h1, h2, h3⟩ := h
  obtain ⟨k1, k2, k3⟩ := k
  refine ⟨k1.trans h1, k2.trans h2, fun hm => ?_⟩
  rw [k3 (by rw [h1]; exact hm), h3 hm]

/-- Every Sequence's list exists. -/
def Mem.Bounded (m : Mem) : Prop :=
  ∀ (a : Nat) (o : Node) (l : Nat), m.objs[a]? = some o → o.value = .items l → l < m.lists.length

/-- What `encode()` may have changed. -/
structure Ext (m m' : Mem) : Prop where
  none : ∀ (a : Nat), m.objs[a]? = Option.none → m'.objs[a]? = Option.none
  some : ∀ (a : Nat) (o : Node), m.objs[a]? = some o → ∃ o', m'.objs[a]? = some o' ∧ Same o o'
  lists : ∃ s, m'.lists = m.lists ++ s

theorem Ext.refl (m : Mem) : Ext m m :=
  ⟨fun _ h => h, fun _ o h => ⟨o, h, Same.refl o⟩, ⟨[], by simp⟩⟩

theorem Ext.trans {a b c : Mem} (h : Ext a b) (k : Ext b c) : Ext a c := by
  refine ⟨fun x hx => k.none x (h.none x hx), fun x o hx => ?_, ?_⟩
  · obtain ⟨o1, h1, s1⟩ := h.some x o hx
    obtain ⟨o2, h2, s2⟩ := k.some x o1 h1
    exact ⟨o2, h2, s1.trans s2⟩
  · obtain ⟨s, hs⟩ := h.lists
    obtain ⟨t, ht⟩ := k.lists
    exact ⟨s ++ t, by rw [ht, hs, List.append_assoc]⟩

theorem Ext.getD {m m' : Mem} (h : Ext m m') {l : Nat} (hl : l < m.lists.length) :
    m'.lists.getD l [] = m.lists.getD l [] := by
  obtain ⟨s, hs⟩ := h.lists
  rw [hs]
  simp [List.getD, List.getElem?_append_left hl]

/-! ## Update lemmas -/

theorem update_objs_ne (m : Mem) {a b : Nat} (f : Node → Node) (h : a ≠ b) :
    (m.update a f).objs[b]? = m.objs[b]? := by
  simp [Mem.update, List.getElem?_modify, h]

theorem update_objs_eq (m : Mem) (a : Nat) (f : Node → Node) :
    (m.update a f).objs[a]? = m.objs[a]?.map f := by
  simp [Mem.update, List.getElem?_modify]

theorem setValue_ne (m : Mem) {a b : Nat} (v : Slot) (h : a ≠ b) : (m.setValue a v).objs[b]? = m.objs[b]? :=
  update_objs_ne m _ h

theorem setValue_eq (m : Mem) (a : Nat) (v : Slot) :
    (m.setValue a v).objs[a]? = m.objs[a]?.map fun o => { o with value := v } := update_objs_eq m a _

theorem update_lists (m : Mem) (a : Nat) (f : Node → Node) : (m.update a f).lists = m.lists := rfl

theorem loadMessage_ext {m : Mem} {a : Nat} {o : Node} (ho : m.objs[a]? = some o) (hm : o.cls.isMessage = true) :
    Ext m (m.loadMessage a o).1 := by
  unfold Mem.loadMessage
  split
  · refine ⟨fun x hx => ?_, fun x o' hx => ?_, ⟨[_], rfl⟩⟩
    · by_cases h : a = x
      · subst h; rw [ho] at hx; cases hx
      · simp only; rw [setValue_ne _ _ h]; exact hx
    · by_cases h : a = x
      · subst h
        rw [ho] at hx; cases hx
        refine ⟨{ o with value := .items m.lists.length }, ?_, ?_⟩
        · simp only
          rw [setValue_eq]
          show Option.map _ m.objs[a]? = _
          rw [ho]; rfl
        · exact ⟨rfl, rfl, fun h => by rw [hm] at h; cases h⟩
      · refine ⟨o', ?_, Same.refl _⟩
        simp only
        rw [setValue_ne _ _ h]; exact hx
  · exact Ext.refl m

theorem encodeRefs_ext {enc : Mem → Ref → Mem × Except Exc Str} (h : ∀ m r, Ext m (enc m r).1) (m : Mem)
    (l : List Ref) : Ext m (encodeRefs enc m l).1 := by
  induction l generalizing m with
  | nil => exact Ext.refl m
  | cons r rs ih =>
    have h1 := h m r
    have h2 := ih (enc m r).1
    unfold encodeRefs
    generalize hx : enc m r = x at *
    rcases x with ⟨m1, e | s⟩
    · exact h1
    · simp only at h1 h2 ⊢
      generalize hy : encodeRefs enc m1 rs = y at *
      rcases y with ⟨m2, e | t⟩
      · exact h1.trans h2
      · exact h1.trans h2

theorem finishTlv_fst (c : Cls) (x : Mem × Except Exc Str) : (finishTlv c x).1 = x.1 := by
  rcases x with ⟨m, e | s⟩ <;> rfl

theorem gEncode_ext (d : Nat) (m : Mem) (r : Ref) : Ext m (gEncode d m r).1 := by
  induction d generalizing m r with
  | zero => cases r <;> exact Ext.refl m
  | succ d ih =>
    cases r with
    | obj a =>
      rw [gEncode]
      split
      · exact Ext.refl m
      · next o ho =>
        split
        · split <;> exact Ext.refl m
        · split <;> exact Ext.refl m
        · split
          · split <;> exact Ext.refl m
          · exact Ext.refl m
        · exact Ext.refl m
        · exact Ext.refl m
        · next c hc =>
          split
          · next hm =>
            have hl := loadMessage_ext ho (by rw [hc]; exact hm)
            generalize m.loadMessage a o = x at *
            rcases x with ⟨m1, e | l⟩
            · exact hl
            · simp only [finishTlv_fst]
              exact hl.trans (encodeRefs_ext ih _ _)
          · split
            · simp only [finishTlv_fst]
              exact encodeRefs_ext ih _ _
            · exact Ext.refl m
    | _ => exact Ext.refl m

/-! ## Boundedness -/

theorem Mem.Bounded.update {m : Mem} (h : m.Bounded) (a : Nat) (f : Node → Node)
    (hf : ∀ o l, m.objs[a]? = some o → (f o).value = .items l → l < m.lists.length) : (m.update a f).Bounded := by
  intro x o l hx hl
  rw [update_lists]
  by_cases e : a = x
  · subst e
    rw [update_objs_eq] at hx
    obtain ⟨o', h1, rfl⟩ := Option.map_eq_some_iff.mp hx
    exact hf o' l h1 hl
  · rw [update_objs_ne _ _ e] at hx
    exact h x o l hx hl

theorem Mem.Bounded.newList {m : Mem} (h : m.Bounded) (l : List Ref) : (m.newList l).1.Bounded := by
  intro x o k hx hk
  have := h x o k hx hk
  simp only [Mem.newList, List.length_append]
  omega

theorem loadMessage_bounded {m : Mem} (h : m.Bounded) (a : Nat) (o : Node) : (m.loadMessage a o).1.Bounded := by
  unfold Mem.loadMessage
  split
  · refine (h.newList _).update a _ fun o' l _ hl => ?_
    simp only [Mem.newList, Slot.items.injEq] at hl
    simp only [Mem.newList, List.length_append, List.length_cons]
    omega
  · exact h

theorem encodeRefs_bounded {enc : Mem → Ref → Mem × Except Exc Str} (h : ∀ m r, m.Bounded → (enc m r).1.Bounded)
    {m : Mem} (hm : m.Bounded) (l : List Ref) : (encodeRefs enc m l).1.Bounded := by
  induction l generalizing m with
  | nil => exact hm
  | cons r rs ih =>
    have h1 := h m r hm
    have h2 := ih h1
    unfold encodeRefs
    generalize hx : enc m r = x at *
    rcases x with ⟨m1, e | s⟩
    · exact h1
    · simp only at h1 h2 ⊢
      generalize hy : encodeRefs enc m1 rs = y at *
      rcases y with ⟨m2, e | t⟩
      · exact h2
      · exact h2

theorem gEncode_bounded (d : Nat) {m : Mem} (hm : m.Bounded) (r : Ref) : (gEncode d m r).1.Bounded := by
  induction d generalizing m r with
  | zero => cases r <;> exact hm
  | succ d ih =>
    cases r with
    | obj a =>
      rw [gEncode]
      split
      · exact hm
      · next o ho =>
        split
        · split <;> exact hm
        · split <;> exact hm
        · split
          · split <;> exact hm
          · exact hm
        · exact hm
        · exact hm
        · next c hc =>
          split
          · have hl := loadMessage_bounded hm a o
            generalize m.loadMessage a o = x at *
            rcases x with ⟨m1, e | l⟩
            · exact hl
            · simp only [finishTlv_fst]
              exact encodeRefs_bounded (fun m r h => ih h r) hl _
          · split
            · simp only [finishTlv_fst]
              exact encodeRefs_bounded (fun m r h => ih h r) hm _
            · exact hm
    | _ => exact hm

/-! ## The octets do not depend on what `encode()` changes -/

def pureRefs (enc : Ref → Except Exc Str) : List Ref → Except Exc Str
  | [] => .ok []
  | r :: rs => match enc r with
    | .error e => .error e
    | .ok s => match pureRefs enc rs with
      | .error e => .error e
      | .ok t => .ok (s ++ t)

def pureTlv (c : Cls) : Except Exc Str → Except Exc Str
  | .error e => .error e
  | .ok s => tlv c s

/-- The octets `encode()` returns, read off one memory. -/
def gPure (m : Mem) : Nat → Ref → Except Exc Str
  | _, .none => .error .attributeError
  | _, .int _ => .error .attributeError
  | _, .bytes _ => .error .attributeError
  | _, .list _ => .error .attributeError
  | _, .str s => .ok s
  | 0, .obj _ => .error .recursionError
  | depth + 1, .obj a =>
    match m.objs[a]? with
    | Option.none => .error .attributeError
    | some o =>
      match o.cls with
      | .int c => match o.value with
        | .num v => tlv (.int c) (intEncode v)
        | _ => .error .typeError
      | .oct c => match o.value with
        | .text s => tlv (.oct c) s
        | _ => .error .typeError
      | .oid => match o.value with
        | .ids v => match oidEncode v with
          | .error e => .error e
          | .ok contents => tlv .oid contents
        | _ => .error .typeError
      | .null c => tlv (.null c) []
      | .asn1Object => .error .notImplementedError
      | .seq c =>
        if (Cls.seq c).isSubclass (.seq .message) then
          match o.attrs .version, o.attrs .community, o.attrs .data with
          | some v, some co, some d => pureTlv (.seq c) (pureRefs (gPure m depth) [v, co, d])
          | _, _, _ => .error .attributeError
        else match o.value with
          | .items l => pureTlv (.seq c) (pureRefs (gPure m depth) (m.lists.getD l []))
          | _ => .error .typeError

theorem pureRefs_congr {e1 e2 : Ref → Except Exc Str} {l : List Ref} (h : ∀ r ∈ l, e1 r = e2 r) :
    pureRefs e1 l = pureRefs e2 l := by
  induction l with
  | nil => rfl
  | cons r rs ih =>
    rw [pureRefs, pureRefs, h r (by simp), ih fun x hx => h x (by simp [hx])]

theorem viewRefs_congr {e1 e2 : Ref → Option Val} {l : List Ref} (h : ∀ r ∈ l, e1 r = e2 r) :
    viewRefs e1 l = viewRefs e2 l := by
  induction l with
  | nil => rfl
  | cons r rs ih =>
    rw [viewRefs, viewRefs, h r (by simp), ih fun x hx => h x (by simp [hx])]

theorem gPure_ext {m m' : Mem} (hb : m.Bounded) (h : Ext m m') (d : Nat) (r : Ref) :
    gPure m' d r = gPure m d r := by
  induction d generalizing r with
  | zero => cases r <;> rfl
  | succ d ih =>
    cases r with
    | obj a =>
      rw [gPure, gPure]
      cases ho : m.objs[a]? with
      | none => rw [h.none a ho]
      | some o =>
        obtain ⟨o', ho', hc, ha, hv⟩ := h.some a o ho
        rw [ho']
        simp only [hc]
        have hcls : o.cls = o.cls := rfl
        cases hcl : o.cls with
        | asn1Object => rfl
        | int c => rw [hv (by rw [hcl]; rfl)]
        | oct c => rw [hv (by rw [hcl]; rfl)]
        | oid => rw [hv (by rw [hcl]; rfl)]
        | null c => rfl
        | seq c =>
          simp only [ha]
          by_cases hm : (Cls.seq c).isSubclass (.seq .message) = true
          · simp only [hm, if_true]
            split
            · rw [pureRefs_congr fun x _ => ih x]
            · rfl
          · simp only [hm]
            rw [hv (by rw [hcl]; simpa [Cls.isMessage] using hm)]
            cases hval : o.value with
            | items l =>
              simp only [Bool.false_eq_true, if_false]
              rw [h.getD (hb a o l ho hval), pureRefs_congr fun x _ => ih x]
            | _ => rfl
    | _ => rfl

theorem encodeRefs_pure {d : Nat} (ih : ∀ (m : Mem) (r : Ref), m.Bounded → (gEncode d m r).2 = gPure m d r)
    {m : Mem} (hb : m.Bounded) (l : List Ref) : (encodeRefs (gEncode d) m l).2 = pureRefs (gPure m d) l := by
  induction l generalizing m with
  | nil => rfl
  | cons r rs ihl =>
    have h1 := ih m r hb
    have h2 := gEncode_ext d m r
    have h3 := gEncode_bounded d hb r
    have h4 := ihl h3
    rw [encodeRefs, pureRefs, ← h1]
    generalize gEncode d m r = x at *
    rcases x with ⟨m1, e | s⟩
    · rfl
    · simp only at h4 h2 ⊢
      rw [pureRefs_congr fun x _ => gPure_ext hb h2 d x] at h4
      rw [← h4]
      generalize encodeRefs (gEncode d) m1 rs = y
      rcases y with ⟨m2, e | t⟩ <;> rfl

theorem finishTlv_snd (c : Cls) (x : Mem × Except Exc Str) : (finishTlv c x).2 = pureTlv c x.2 := by
  rcases x with ⟨m, e | s⟩ <;> rfl

theorem gEncode_pure (d : Nat) {m : Mem} (hb : m.Bounded) (r : Ref) : (gEncode d m r).2 = gPure m d r := by
  induction d generalizing m r with
  | zero => cases r <;> rfl
  | succ d ih =>
    cases r with
    | obj a =>
      rw [gEncode, gPure]
      cases ho : m.objs[a]? with
      | none => rfl
      | some o =>
        simp only
        cases hcl : o.cls with
        | asn1Object => rfl
        | int c => cases o.value <;> rfl
        | oct c => cases o.value <;> rfl
        | oid => 
          simp only
          cases o.value with
          | ids v => simp only; cases oidEncode v <;> rfl
          | _ => rfl
        | null c => rfl
        | seq c =>
          simp only
          by_cases hm : (Cls.seq c).isSubclass (.seq .message) = true
          · simp only [hm, if_true]
            have he := loadMessage_ext ho (by rw [hcl]; exact hm)
            have hb' := loadMessage_bounded hb a o
            unfold Mem.loadMessage at he hb' ⊢
            cases h1 : o.attrs .version with
            | none => rfl
            | some v =>
              cases h2 : o.attrs .community with
              | none => rfl
              | some co =>
                cases h3 : o.attrs .data with
                | none => rfl
                | some dt =>
                  simp only [h1, h2, h3] at he hb' ⊢
                  simp only [finishTlv_snd]
                  rw [encodeRefs_pure (fun m r h => ih h r) hb', pureRefs_congr fun x _ => gPure_ext hb he d x]
          · simp only [hm]
            cases o.value with
            | items l => 
              simp only [Bool.false_eq_true, if_false, finishTlv_snd]
              rw [encodeRefs_pure (fun m r h => ih h r) hb]
            | _ => rfl
    | _ => rfl

/-- When the graph below `r` unfolds to a value, the octets are those of the value. -/
theorem gPure_onWire {m : Mem} {d : Nat} {r : Ref} {v : Val} (h : m.onWire d r = some v) :
    gPure m d r = v.encode := by
  induction d generalizing r v with
  | zero => cases r <;> simp [Mem.onWire] at h <;> subst h <;> simp [gPure, Val.encode]
  | succ d ih =>
    have refs : ∀ (l : List Ref) (vs : List Val), viewRefs (m.onWire d) l = some vs →
        pureRefs (gPure m d) l = encodeItems vs := by
      intro l
      induction l with
      | nil => intro vs hv; simp [viewRefs] at hv; subst hv; simp [pureRefs, encodeItems]
      | cons r rs ihl =>
        intro vs hv
        rw [viewRefs] at hv
        cases h1 : m.onWire d r with
        | none => rw [h1] at hv; simp at hv
        | some v =>
          cases h2 : viewRefs (m.onWire d) rs with
          | none => rw [h1, h2] at hv; simp at hv
          | some ws =>
            rw [h1, h2] at hv
            simp at hv
            subst hv
            rw [pureRefs, encodeItems, ih h1, ihl _ h2]
            cases v.encode <;> rfl
    cases r with
    | obj a =>
      rw [Mem.onWire] at h
      rw [gPure]
      cases ho : m.objs[a]? with
      | none => rw [ho] at h; simp at h
      | some o =>
        rw [ho] at h
        simp only at h ⊢
        cases hcl : o.cls with
        | asn1Object => rw [hcl] at h; simp at h
        | int c =>
          rw [hcl] at h
          cases hv : o.value <;> rw [hv] at h <;> simp at h
          subst h; simp [Val.encode]
        | oct c =>
          rw [hcl] at h
          cases hv : o.value <;> rw [hv] at h <;> simp at h <;> subst h <;> simp [Val.encode]
        | oid =>
          rw [hcl] at h
          cases hv : o.value <;> rw [hv] at h <;> simp at h
          subst h; rw [Val.encode]; simp only; cases oidEncode _ <;> rfl
        | null c =>
          rw [hcl] at h
          simp at h
          subst h; simp [Val.encode]
        | seq c =>
          rw [hcl] at h
          simp only at h ⊢
          by_cases hm : (Cls.seq c).isSubclass (.seq .message) = true
          · simp only [hm, if_true] at h ⊢
            split at h
            · next v1 v2 v3 e1 e2 e3 =>
              obtain ⟨vs, hvs, rfl⟩ := Option.map_eq_some_iff.mp h
              simp only [e1, e2, e3]
              rw [refs _ _ hvs, Val.encode]
              cases encodeItems vs <;> rfl
            · cases h
          · simp only [hm] at h ⊢
            cases hv : o.value with
            | items l =>
              rw [hv] at h
              obtain ⟨vs, hvs, rfl⟩ := Option.map_eq_some_iff.mp h
              simp only [Bool.false_eq_true, if_false]
              rw [refs _ _ hvs, Val.encode]
              cases encodeItems vs <;> rfl
            | _ => rw [hv] at h; cases h
    | _ => simp [Mem.onWire] at h <;> subst h <;> simp [gPure, Val.encode]

end Libsnmp
