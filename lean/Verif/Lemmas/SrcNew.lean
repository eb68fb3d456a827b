import Verif.Lemmas.SrcRep

/-!
# Running constructors
-/

namespace Libsnmp.Src
open Libsnmp

variable {cfg : Cfg}

/-! ## Methods named through their class -/

@[src] theorem attr_Asn1Object_init : program.attr (.rfc1155, 64) "__init__" = some (.func .rfc1155 79) := rfl
@[src] theorem attr_Integer_init : program.attr (.rfc1155, 288) "__init__" = some (.func .rfc1155 297) := rfl
@[src] theorem attr_Integer_decodeContents : program.attr (.rfc1155, 288) "decodeContents" = some (.func .rfc1155 401) := rfl
@[src] theorem attr_OctetString_init : program.attr (.rfc1155, 513) "__init__" = some (.func .rfc1155 519) := rfl
@[src] theorem attr_Sequence_init : program.attr (.rfc1155, 785) "__init__" = some (.func .rfc1155 796) := rfl
@[src] theorem attr_Sequence_append : program.attr (.rfc1155, 785) "append" = some (.func .rfc1155 824) := rfl
@[src] theorem attr_Sequence_encodeContents : program.attr (.rfc1155, 785) "encodeContents" = some (.func .rfc1155 827) := rfl
@[src] theorem attr_Sequence_decodeContents : program.attr (.rfc1155, 785) "decodeContents" = some (.func .rfc1155 842) := rfl
@[src] theorem attr_SequenceOf_init : program.attr (.rfc1155, 855) "__init__" = some (.func .rfc1155 864) := rfl
@[src] theorem attr_ErrorStatus_init : program.attr (.rfc1157, 20) "__init__" = some (.func .rfc1155 297) := rfl
@[src] theorem attr_VarBindList_init : program.attr (.rfc1157, 76) "__init__" = some (.func .rfc1157 80) := rfl
@[src] theorem attr_Message_init : program.attr (.rfc1157, 87) "__init__" = some (.func .rfc1157 91) := rfl
@[src] theorem attr_PDU_init : program.attr (.rfc1157, 133) "__init__" = some (.func .rfc1157 138) := rfl

/-- The constructor of the class. -/
def initOf : Cls → Module × Nat
  | .int .timeTicks => (.rfc1155, 1047)
  | .int .errorStatus2 => (.rfc1905, 68)
  | .int _ => (.rfc1155, 297)
  | .oct .ipAddress | .oct .networkAddress => (.rfc1155, 898)
  | .oct .octetString2 => (.rfc1902, 60)
  | .oct _ => (.rfc1155, 519)
  | .oid => (.rfc1155, 557)
  | .null _ | .asn1Object => (.rfc1155, 79)
  | .seq .sequence => (.rfc1155, 796)
  | .seq .sequenceOf => (.rfc1155, 864)
  | .seq .varBind | .seq .varBind2 => (.rfc1157, 63)
  | .seq .varBindList => (.rfc1157, 80)
  | .seq .varBindList2 => (.rfc1905, 52)
  | .seq .message => (.rfc1157, 91)
  | .seq .message2 => (.rfc1905, 60)
  | .seq .trapPDU => (.rfc1157, 233)
  | .seq .bulkPDU | .seq .getBulk => (.rfc1905, 144)
  | .seq .pdu | .seq .get | .seq .getNext | .seq .response | .seq .set => (.rfc1157, 138)
  | .seq _ => (.rfc1905, 105)

theorem attr_init (c : Cls) : program.attr (cid c) "__init__" = some (.func (initOf c).1 (initOf c).2) := by all_classes c

/-- Calling a class makes an empty object and gives it to the constructor. -/
theorem call_cls (c : Cls) (args : List V) (h : Heap) : call program cfg (.cls (cid c)) args h =
    bindR (call program cfg (.func (initOf c).1 (initOf c).2) (.ref h.length :: args) (h ++ [.inst (cid c) []]))
      fun _ h' => okR (.ref h.length) h' := by
  rw [call.eq_4, attr_init]
  simp only [isExc_cid, Bool.false_eq_true, if_false]

@[src] theorem run_objInit (self : V) (h : Heap) : call program cfg (.func .rfc1155 79) [self] h = okR .none h := by
  rw [call_rfc1155_79]
  runs [rfc1155_79]

/-! ## Integers -/

theorem Limits.short (hc : Limits cfg) {n : Int} (hn : n.natAbs < 10 ^ 640) : tooLong cfg.digits n = false := by
  rcases hc with h | h
  · simp [tooLong, h]
  · simp only [tooLong, Bool.and_eq_false_iff, decide_eq_false_iff_not]
    have := Nat.pow_le_pow_right (n := 10) (by decide) h
    exact .inr (by omega)

theorem attr_minVal (c : IntCls) : program.attr (cid (.int c)) "MINVAL" = some (.int c.minVal) := by cases c <;> rfl
theorem attr_maxVal (c : IntCls) : program.attr (cid (.int c)) "MAXVAL" = some (.int c.maxVal) := by cases c <;> rfl
theorem minVal_short (c : IntCls) : c.minVal.natAbs < 10 ^ 640 := by
  have : c.minVal.natAbs < 10 ^ 20 := by cases c <;> decide
  exact Nat.lt_of_lt_of_le this (Nat.pow_le_pow_right (by decide) (by decide))
theorem maxVal_short (c : IntCls) : c.maxVal.natAbs < 10 ^ 640 := by
  have : c.maxVal.natAbs < 10 ^ 20 := by cases c <;> decide
  exact Nat.lt_of_lt_of_le this (Nat.pow_le_pow_right (by decide) (by decide))

/-- `Integer.__init__` on an object without attributes. -/
theorem run_intInit (hc : Limits cfg) {h : Heap} {a : Nat} {c : IntCls} (ha : h[a]? = some (.inst (cid (.int c)) [])) (n : Int) :
    if c.minVal ≤ n ∧ n ≤ c.maxVal then
      call program cfg (.func .rfc1155 297) [.ref a, .int n] h = okR .none (h.set a (.inst (cid (.int c)) [("value", .int n)]))
    else ∃ args, call program cfg (.func .rfc1155 297) [.ref a, .int n] h = excR (.exc "ValueError" args) h := by
  have he := isExc_cid (.int c)
  have hmin := hc.short (minVal_short c)
  have hmax := hc.short (maxVal_short c)
  rw [call_rfc1155_297]
  by_cases h1 : c.minVal ≤ n
  · by_cases h2 : n ≤ c.maxVal
    · rw [if_pos ⟨h1, h2⟩]
      runs [rfc1155_297, ha, attr_minVal, attr_maxVal, h1, h2, he]
    · rw [if_neg fun k => h2 k.2]
      cases hd : cfg.debug <;> cases ht : tooLong cfg.digits n <;>
      · runs [rfc1155_297, ha, attr_minVal, attr_maxVal, h1, h2, he, hmin, hmax, hd, ht]
        exact ⟨_, rfl⟩
  · rw [if_neg fun k => h1 k.1]
    cases hd : cfg.debug <;> cases ht : tooLong cfg.digits n <;>
    · runs [rfc1155_297, ha, attr_minVal, attr_maxVal, h1, he, hmin, hmax, hd, ht]
      exact ⟨_, rfl⟩

/-- Making an integer of any class but rfc1905.ErrorStatus. -/
theorem run_newInt (hc : Limits cfg) {c : IntCls} (hne : c ≠ .errorStatus2) (n : Int) (h : Heap) :
    if c.minVal ≤ n ∧ n ≤ c.maxVal then call program cfg (.cls (cid (.int c))) [.int n] h =
        okR (.ref h.length) (h ++ [.inst (cid (.int c)) [("value", .int n)]])
    else ∃ args, call program cfg (.cls (cid (.int c))) [.int n] h =
        excR (.exc "ValueError" args) (h ++ [.inst (cid (.int c)) []]) := by
  have hi := run_intInit (cfg := cfg) hc (get_app h [.inst (cid (.int c)) []]) n
  rw [call_cls]
  have hcase : (initOf (.int c)) = (.rfc1155, 297) ∨ initOf (.int c) = (.rfc1155, 1047) := by
    cases c <;> first | exact .inl rfl | exact .inr rfl | exact absurd rfl hne
  rcases hcase with hcase | hcase <;> rw [hcase] <;> dsimp only
  · split at hi
    · rename_i hr
      rw [if_pos hr]
      runs [hi]
    · rename_i hr
      rw [if_neg hr]
      obtain ⟨args, hi⟩ := hi
      runs [hi]
      exact ⟨_, rfl⟩
  · rw [call_rfc1155_1047_2]
    split at hi
    · rename_i hr
      rw [if_pos hr]
      runs [rfc1155_1047, hi]
    · rename_i hr
      rw [if_neg hr]
      obtain ⟨args, hi⟩ := hi
      runs [rfc1155_1047, hi]
      exact ⟨_, rfl⟩

/-- The same without an argument. -/
theorem run_newInt0 (hc : Limits cfg) {c : IntCls} (hne : c ≠ .errorStatus2) (h : Heap) :
    call program cfg (.cls (cid (.int c))) [] h = okR (.ref h.length) (h ++ [.inst (cid (.int c)) [("value", .int 0)]]) := by
  have hi := run_intInit (cfg := cfg) hc (get_app h [.inst (cid (.int c)) []]) 0
  have hr : c.minVal ≤ 0 ∧ 0 ≤ c.maxVal := by cases c <;> decide
  rw [if_pos hr] at hi
  have hd : call program cfg (.func .rfc1155 297) [.ref h.length] (h ++ [.inst (cid (.int c)) []]) =
      call program cfg (.func .rfc1155 297) [.ref h.length, .int 0] (h ++ [.inst (cid (.int c)) []]) := by
    rw [call_rfc1155_297_1, call_rfc1155_297]
  rw [call_cls]
  have hcase : (initOf (.int c)) = (.rfc1155, 297) ∨ initOf (.int c) = (.rfc1155, 1047) := by
    cases c <;> first | exact .inl rfl | exact .inr rfl | exact absurd rfl hne
  rcases hcase with hcase | hcase <;> rw [hcase] <;> dsimp only
  · rw [hd]
    runs [hi]
  · rw [call_rfc1155_1047_1]
    runs [rfc1155_1047, hi]

/-! ## Octets, names, nothing -/

theorem run_newOct {c : OctCls} (hne : c ≠ .octetString2) (h : Heap) :
    call program cfg (.cls (cid (.oct c))) [] h = okR (.ref h.length) (h ++ [.inst (cid (.oct c)) [("value", .str [])]]) := by
  have he := isExc_cid (.oct c)
  rw [call_cls]
  have hcase : (initOf (.oct c)) = (.rfc1155, 519) ∨ initOf (.oct c) = (.rfc1155, 898) := by
    cases c <;> first | exact .inl rfl | exact .inr rfl | exact absurd rfl hne
  rcases hcase with hcase | hcase <;> rw [hcase] <;> dsimp only
  · rw [call_rfc1155_519_1]
    runs [rfc1155_519, he]
    rfl
  · rw [call_rfc1155_898_1]
    runs [rfc1155_898, call_rfc1155_519, rfc1155_519, he]
    rfl

theorem run_newOid (h : Heap) :
    call program cfg (.cls (cid .oid)) [] h = okR (.ref h.length) (h ++ [.inst (cid .oid) [("value", .none)]]) := by
  have he := isExc_cid .oid
  rw [call_cls, initOf, call_rfc1155_557_1]
  runs [rfc1155_557, he]

theorem run_newNull (c : NullCls) (h : Heap) :
    call program cfg (.cls (cid (.null c))) [] h = okR (.ref h.length) (h ++ [.inst (cid (.null c)) []]) := by
  rw [call_cls, initOf]
  runs

end Libsnmp.Src
