import Verif.Lemmas.SrcPdu
import Verif.Model.LongInts

/-!
# Running `decodeContents`
-/

namespace Libsnmp.Src
open Libsnmp

variable {cfg : Cfg}

theorem limit_tooLong (v : Int) : Libsnmp.tooLong cfg.limit v = (cfg.debug && Src.tooLong cfg.digits v) := by
  cases h : cfg.debug <;> simp [Cfg.limit, h, Libsnmp.tooLong, Src.tooLong]

/-- The attributes of an object that has just been made. -/
def Fresh : Cls → List (String × V) → Prop
  | .null _, attrs => attrs = []
  | .seq _, attrs => Plain attrs
  | _, attrs => ∃ x, attrs = [("value", x)]

/-- The method of the class that decodes. -/
def decOf : Cls → Module × Nat
  | .int c => if (Cls.int c).isSubclass (.int .counter) then (.rfc1155, 977) else (.rfc1155, 401)
  | .oct .ipAddress | .oct .networkAddress => (.rfc1155, 921)
  | .oct _ => (.rfc1155, 532)
  | .oid => (.rfc1155, 696)
  | .null _ => (.rfc1155, 775)
  | .seq .trapPDU => (.rfc1157, 255)
  | .seq .bulkPDU | .seq .getBulk => (.rfc1905, 164)
  | .seq c => if (Cls.seq c).isSubclass (.seq .pdu) then (.rfc1157, 153) else (.rfc1155, 842)
  | .asn1Object => (.rfc1155, 0)

theorem attr_dec (c : Cls) (hc : c ≠ .asn1Object) :
    program.attr (cid c) "decodeContents" = some (.func (decOf c).1 (decOf c).2) := by
  rcases c with _ | c | c | _ | c | c
  · exact absurd rfl hc
  all_goals first | rfl | (cases c <;> rfl)

theorem excName_plain {e : Exc} {h : Heap} {args : List V} (h1 : e ≠ .pduError) (h2 : e ≠ .pduError2) (h3 : e ≠ .messageError) :
    Raised h e (.exc (excName e) args) := by
  cases e <;> first | exact ⟨_, rfl⟩ | exact absurd rfl ‹_›

theorem intDecode_exc {s : Str} {e : Exc} (h : intDecode s = .error e) : e = .indexError := by
  unfold intDecode at h
  split at h
  · simpa using h.symm
  · dsimp only at h
    repeat' split at h
    all_goals simp at h

/-- Integers. -/
theorem run_decInt {h : Heap} (hb : Base h) {a : Nat} {c : IntCls} {attrs : List (String × V)}
    (ha : h[a]? = some (.inst (cid (.int c)) attrs)) (h9 : 9 ≤ a) (hf : Fresh (.int c) attrs) (s : Str)
    (nested : Str → Except Exc (List Val)) :
    Decodes a h (call program cfg (.func (decOf (.int c)).1 (decOf (.int c)).2) [.ref a, .str s] h)
      (contentsDig cfg.limit nested (.int c) s) := by
  have hlt := lt_of_get ha
  have he := isExc_cid (.int c)
  have hd := run_intDecode (cfg := cfg) ha (.inr hf) s
  have hkept : ∀ c t, Kept a h (h.set a c ++ t) := fun c t =>
    (Kept.set hb h9 (Nat.le_refl _) c).app' t (by simp; omega)
  have hrep : ∀ v t, Rep a (h.set a (.inst (cid (.int c)) [("value", .int v)]) ++ t) (.integer c v) (.ref a) := fun v t => by
    rw [Rep]
    exact ⟨a, _, rfl, Nat.le_refl _, get_set hlt _ _, plain [_], rfl⟩
  rw [contentsDig, decOf]
  cases hi : intDecode s with
  | error e =>
    rw [hi] at hd
    have hexc := intDecode_exc hi
    cases hsub : (Cls.int c).isSubclass (.int .counter) with
    | false =>
      simp only [Bool.false_eq_true, if_false, hd]
      exact ⟨_, _, rfl, hkept _ _, by subst hexc; exact ⟨_, rfl⟩⟩
    | true =>
      simp only [if_true]
      rw [call_rfc1155_977]
      runs [rfc1155_977, hd]
      exact ⟨_, _, rfl, hkept _ _, by subst hexc; exact ⟨_, rfl⟩⟩
  | ok v =>
    rw [hi] at hd
    simp only [limit_tooLong]
    cases hlong : (cfg.debug && tooLong cfg.digits v) with
    | true =>
      simp only [hlong, if_true] at hd ⊢
      cases hsub : (Cls.int c).isSubclass (.int .counter) with
      | false =>
        simp only [Bool.false_eq_true, if_false, hd]
        exact ⟨_, _, rfl, hkept _ _, ⟨_, rfl⟩⟩
      | true =>
        simp only [if_true]
        rw [call_rfc1155_977]
        runs [rfc1155_977, hd]
        exact ⟨_, _, rfl, hkept _ _, ⟨_, rfl⟩⟩
    | false =>
      simp only [hlong, Bool.false_eq_true, if_false] at hd ⊢
      cases hsub : (Cls.int c).isSubclass (.int .counter) with
      | false =>
        simp only [Bool.false_eq_true, if_false, hd]
        exact ⟨_, _, rfl, hkept _ _, hrep _ _⟩
      | true =>
        simp only [if_true]
        rw [call_rfc1155_977]
        by_cases hn : v < 0
        · runs [rfc1155_977, hd, get_set hlt, set_set_old hlt, hn, he]
          exact ⟨_, _, rfl, hkept _ _, hrep _ _⟩
        · runs [rfc1155_977, hd, get_set hlt, set_set_old hlt, hn]
          exact ⟨_, _, rfl, hkept _ _, hrep _ _⟩

/-- Octets. -/
theorem run_decOct {h : Heap} (hb : Base h) {a : Nat} {c : OctCls} {attrs : List (String × V)}
    (ha : h[a]? = some (.inst (cid (.oct c)) attrs)) (h9 : 9 ≤ a) (hf : Fresh (.oct c) attrs) (s : Str) :
    Decodes a h (call program cfg (.func (decOf (.oct c)).1 (decOf (.oct c)).2) [.ref a, .str s] h) (.ok (.octets c s)) := by
  have hlt := lt_of_get ha
  have he := isExc_cid (.oct c)
  obtain ⟨x, rfl⟩ := hf
  have hrep : Rep a (h.set a (.inst (cid (.oct c)) [("value", .str s)])) (.octets c s) (.ref a) := by
    rw [Rep]
    exact ⟨a, _, rfl, Nat.le_refl _, get_set_nil hlt _, plain [_], rfl⟩
  have hcase : decOf (.oct c) = (.rfc1155, 532) ∨ decOf (.oct c) = (.rfc1155, 921) := by
    cases c <;> first | exact .inl rfl | exact .inr rfl
  rcases hcase with hcase | hcase <;> rw [hcase] <;> dsimp only
  · rw [call_rfc1155_532]
    runs [rfc1155_532, ha, he]
    exact ⟨_, _, rfl, Kept.set hb h9 (Nat.le_refl _) _, hrep⟩
  · rw [call_rfc1155_921]
    runs [rfc1155_921, ha, he]
    exact ⟨_, _, rfl, Kept.set hb h9 (Nat.le_refl _) _, hrep⟩

/-- Nothing. -/
theorem run_decNull {h : Heap} (hb : Base h) {a : Nat} {c : NullCls}
    (ha : h[a]? = some (.inst (cid (.null c)) [])) (s : Str) :
    Decodes a h (call program cfg (.func (decOf (.null c)).1 (decOf (.null c)).2) [.ref a, .str s] h)
      (if s ≠ [] then .error .valueError else .ok (.null c)) := by
  have hn : ∃ nm, (program.classes (cid (.null c))).map (fun k => V.str (lit k.name)) = some (.str nm) := by
    cases c <;> exact ⟨_, rfl⟩
  obtain ⟨nm, hn⟩ := hn
  have hpc : pieces ((lit "Input stream too long for %s").length + 1) (lit "Input stream too long for %s") =
      some [.text (lit "Input stream too long for "), .conv 0 none 115] := by decide +kernel
  rw [decOf, call_rfc1155_775]
  by_cases hs : s = []
  · subst hs
    runs [rfc1155_775]
    refine ⟨_, _, rfl, Kept.refl hb _, ?_⟩
    rw [Rep]
    exact ⟨a, _, rfl, Nat.le_refl _, ha, plain [], rfl⟩
  · have hz : ¬ ((s.length : Int) = 0) := by
      rw [Int.natCast_eq_zero, List.length_eq_zero_iff]; exact hs
    rw [if_pos hs]
    runs [rfc1155_775, ha, hz, hn, hpc, ↓convStr, padLeft_zero]
    exact ⟨_, _, rfl, Kept.refl hb _, ⟨_, rfl⟩⟩

theorem oidDecode_exc {s : Str} {e : Exc} (h : oidDecode s = .error e) : e ≠ .pduError ∧ e ≠ .pduError2 ∧ e ≠ .messageError := by
  have hsub : ∀ v b e, subidDecodeLoop v b = .error e → e = .indexError := by
    intro v b e hs
    fun_induction subidDecodeLoop v b <;> simp_all
  have hloop : ∀ b e, oidDecodeLoop b = .error e → e = .indexError := by
    intro b e hs
    fun_induction oidDecodeLoop b <;> simp_all
    exact hsub _ _ _ (by assumption)
  unfold oidDecode at h
  split at h
  · simp at h; subst h; decide
  · split at h
    · split at h
      · rename_i hl
        simp at h; subst h
        have := hloop _ _ hl
        subst this; decide
      · simp at h
    · simp at h; subst h; decide

/-- Names. -/
theorem run_decOid {h : Heap} (hb : Base h) {a : Nat} {attrs : List (String × V)}
    (ha : h[a]? = some (.inst (cid .oid) attrs)) (h9 : 9 ≤ a) (hf : Fresh .oid attrs) (s : Str) :
    Decodes a h (call program cfg (.func (decOf .oid).1 (decOf .oid).2) [.ref a, .str s] h)
      (match oidDecode s with | .error e => .error e | .ok ids => .ok (.oid (some ids))) := by
  have hlt := lt_of_get ha
  have hd := run_oidDecode (cfg := cfg) ha (.inr hf) s
  have hkept : ∀ c t, Kept a h (h.set a c ++ t) := fun c t =>
    (Kept.set hb h9 (Nat.le_refl _) c).app' t (by simp; omega)
  rw [decOf]
  cases hi : oidDecode s with
  | error e =>
    simp only [hi] at hd
    obtain ⟨args, l, hd⟩ := hd
    have := oidDecode_exc hi
    exact ⟨_, _, hd, hkept _ _, excName_plain this.1 this.2.1 this.2.2⟩
  | ok ids =>
    simp only [hi] at hd
    refine ⟨_, _, hd, hkept _ _, ?_⟩
    rw [Rep]
    exact ⟨a, _, h.length, rfl, Nat.le_refl _, get_set hlt _ _, plain [_], rfl, by omega, get_set_new _ _ _ _⟩

end Libsnmp.Src
