import Verif.Model.StrLim

namespace Libsnmp

theorem numStr_short {D : Nat} {n : Int} (h : tooLong D n = false) : numStr D n = .ok (pyStrInt n) := by
  unfold numStr; rw [h]; rfl

theorem numStrs_short {D : Nat} : ∀ {l : List Int}, (∀ n ∈ l, tooLong D n = false) → numStrs D l = .ok (l.map pyStrInt)
  | [], _ => rfl
  | n :: l, h => by
    rw [numStrs, numStr_short (h n List.mem_cons_self), numStrs_short fun m hm => h m (List.mem_cons_of_mem _ hm)]
    rfl

mutual
/-- Short enough numbers: the limit does not matter. -/
theorem valStrDig_short (D : Nat) (d : Table) : ∀ v : Val, Writable D v → valStrDig D d v = valStr d v
  | .none, _ | .str _, _ | .bytes _, _ | .raw _ _, _ | .null _, _ | .oid none, _ => by
    rw [valStrDig] <;> intros <;> simp_all
  | .int n, h => by
    rw [Writable] at h
    rw [valStrDig, valStr, numStr_short h]
  | .integer c n, h => by
    rw [Writable] at h
    rw [valStrDig, valStr]
    unfold errorStatusStrDig genericTrapStrDig errorStatusStr genericTrapStr
    rw [numStr_short h]
    split
    · cases d.get n <;> rfl
    · split
      · cases genericTraps.get n <;> rfl
      · rfl
  | .octets c s, h => by
    rw [Writable] at h
    rw [valStrDig, valStr, numStrs_short (by simpa using h)]
    split
    · rw [Except.map, ipStr, List.map_map]; rfl
    · rfl
  | .oid (some ids), h => by
    rw [Writable] at h
    rw [valStrDig, valStr, numStrs_short (h ids rfl)]; rfl
  | .seq c items, h => by
    rw [Writable] at h
    rw [valStrDig, valStr, itemsStrDig_short D d items h]
    rfl
theorem itemsStrDig_short (D : Nat) (d : Table) : ∀ vs : List Val, AllWritable D vs → itemsStrDig D d vs = itemsStr d vs
  | [], _ => by rw [itemsStrDig, itemsStr]
  | v :: vs, h => by
    rw [AllWritable] at h
    rw [itemsStrDig, itemsStr, valStrDig_short D d v h.1, itemsStrDig_short D d vs h.2]
    rfl
end

theorem tooLong_zero (n : Int) : tooLong 0 n = false := rfl

mutual
theorem writable_zero : ∀ v : Val, Writable 0 v
  | .none | .str _ | .bytes _ | .raw _ _ | .null _ => trivial
  | .int n | .integer _ n => by rw [Writable]; rfl
  | .octets _ s => by rw [Writable]; intro c _; rfl
  | .oid v => by rw [Writable]; intro _ _ n _; rfl
  | .seq _ items => by rw [Writable]; exact allWritable_zero items
theorem allWritable_zero : ∀ vs : List Val, AllWritable 0 vs
  | [] => trivial
  | v :: vs => by rw [AllWritable]; exact ⟨writable_zero v, allWritable_zero vs⟩
end

end Libsnmp
