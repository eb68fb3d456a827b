import Verif.Model.Obj

/-! Decidable (syntactic) equality of values, used only to evaluate examples. -/

namespace Libsnmp

mutual
def Val.same : Val → Val → Bool
  | .none, .none => true
  | .int a, .int b => a == b
  | .str a, .str b => a == b
  | .bytes a, .bytes b => a == b
  | .integer c a, .integer d b => decide (c = d) && a == b
  | .octets c a, .octets d b => decide (c = d) && a == b
  | .raw c a, .raw d b => decide (c = d) && a == b
  | .oid a, .oid b => a == b
  | .null c, .null d => decide (c = d)
  | .seq c a, .seq d b => decide (c = d) && sameList a b
  | _, _ => false
def sameList : List Val → List Val → Bool
  | [], [] => true
  | x :: xs, y :: ys => x.same y && sameList xs ys
  | _, _ => false
end

mutual
theorem Val.same_eq : (x y : Val) → x.same y = true → x = y
  | .none, y => by cases y <;> simp [Val.same]
  | .int a, y => by cases y <;> simp [Val.same]
  | .str a, y => by cases y <;> simp [Val.same]
  | .bytes a, y => by cases y <;> simp [Val.same]
  | .integer c a, y => by cases y <;> simp [Val.same]
  | .octets c a, y => by cases y <;> simp [Val.same]
  | .raw c a, y => by cases y <;> simp [Val.same]
  | .oid a, y => by cases y <;> simp [Val.same]
  | .null c, y => by cases y <;> simp [Val.same]
  | .seq c a, .seq d b => by
      simp only [Val.same, Bool.and_eq_true, decide_eq_true_eq]
      rintro ⟨rfl, h⟩
      rw [sameList_eq a b h]
  | .seq c a, .none | .seq c a, .int _ | .seq c a, .str _ | .seq c a, .bytes _ | .seq c a, .integer _ _
  | .seq c a, .octets _ _ | .seq c a, .raw _ _ | .seq c a, .oid _ | .seq c a, .null _ => by simp [Val.same]
theorem sameList_eq : (xs ys : List Val) → sameList xs ys = true → xs = ys
  | [], [] => fun _ => rfl
  | x :: xs, y :: ys => by
      simp only [sameList, Bool.and_eq_true]
      rintro ⟨h1, h2⟩
      rw [Val.same_eq x y h1, sameList_eq xs ys h2]
  | [], _ :: _ => by simp [sameList]
  | _ :: _, [] => by simp [sameList]
end

mutual
theorem Val.same_refl : (x : Val) → x.same x = true
  | .none | .int a | .str a | .bytes a | .integer c a | .octets c a | .raw c a | .oid a | .null c => by
      simp [Val.same]
  | .seq c a => by simp [Val.same, sameList_refl a]
theorem sameList_refl : (xs : List Val) → sameList xs xs = true
  | [] => rfl
  | x :: xs => by simp [sameList, Val.same_refl x, sameList_refl xs]
end

instance : DecidableEq Val := fun x y =>
  if h : x.same y = true then isTrue (Val.same_eq x y h)
  else isFalse fun e => h (e ▸ Val.same_refl x)

deriving instance DecidableEq for Msg

end Libsnmp
