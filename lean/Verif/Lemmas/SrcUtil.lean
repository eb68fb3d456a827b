import Verif.Lemmas.SrcBase
import Verif.Model.Text

/-!
# Running util.py
-/

namespace Libsnmp.Src
open Libsnmp

variable {cfg : Cfg}

theorem padLeft_zero (c : Nat) (s : Str) : padLeft 0 c s = s := by simp [padLeft]

theorem padLeft_two (n : Nat) : padLeft 2 48 ((digits 16 n).map hexDigit) = hex2 n := by
  have h : (digits 16 n).length ≠ 0 := by
    rw [digits]; split <;> simp
  simp only [padLeft, hex2, List.length_map]
  by_cases h2 : (digits 16 n).length < 2
  · have : (digits 16 n).length = 1 := by omega
    simp [this]
  · simp [h2, show 2 - (digits 16 n).length = 0 by omega]

theorem run_hexLoop (s r : Str) (b : Option V) (h : Heap) :
    ∃ b', whileL program cfg .util [("octets", some (.str s)), ("result", some (.str r)), ("byte", b)]
      (.loc "octets") util_13 h =
      some (h, [("octets", some (.str [])), ("result", some (.str (r ++ octetsToHex s))), ("byte", b')], .next) := by
  induction s generalizing r b with
  | nil =>
    rw [whileL]
    runs [octetsToHex, List.isEmpty_nil]
    exact ⟨_, rfl⟩
  | cons c s ih =>
    obtain ⟨b', hb⟩ := ih (r ++ hex2 c) (some (.str [c]))
    refine ⟨b', ?_⟩
    have h0 : (0 : Int) ≤ c := by omega
    rw [whileL]
    runs [octetsToHex, List.isEmpty_cons, util_13, List.drop_succ_cons, List.drop_zero, h0, basedDigits, Option.getD_some,
      Int.toNat_natCast, padLeft_two, padLeft_zero]
    rw [List.append_assoc] at hb
    exact hb

/-- `util.octetsToHex`. -/
theorem run_octetsToHex (s : Str) (h : Heap) :
    call program cfg (.func .util 9) [.str s] h = okR (.str (octetsToHex s)) h := by
  obtain ⟨b, hl⟩ := run_hexLoop (cfg := cfg) s [] none h
  rw [call_util_9]
  have h0 : lit "" = [] := rfl
  runs [util_9, h0, hl]

theorem run_octLoop (s r : Str) (b : Option V) (h : Heap) :
    ∃ b', whileL program cfg .util [("octets", some (.str s)), ("result", some (.str r)), ("byte", b)]
      (.loc "octets") util_24 h =
      some (h, [("octets", some (.str [])), ("result", some (.str (r ++ octetsToOct s))), ("byte", b')], .next) := by
  induction s generalizing r b with
  | nil =>
    rw [whileL]
    runs [octetsToOct, List.isEmpty_nil]
    exact ⟨_, rfl⟩
  | cons c s ih =>
    obtain ⟨b', hb⟩ := ih (r ++ ((pyOct c).take 4 ++ lit ",")) (some (.str [c]))
    refine ⟨b', ?_⟩
    have h0 : (0 : Int) ≤ c := by omega
    have h1 : lit "0o" ++ (digits 8 c).map (· + 48) = pyOct c := rfl
    rw [whileL]
    runs [octetsToOct, List.isEmpty_cons, util_24, List.drop_succ_cons, List.drop_zero, h0, Int.toNat_natCast, h1, convStr,
      padLeft_zero]
    simp only [List.append_assoc] at hb
    exact hb

/-- `util.octetsToOct`. -/
theorem run_octetsToOct (s : Str) (h : Heap) :
    call program cfg (.func .util 20) [.str s] h = okR (.str (octetsToOct s)) h := by
  obtain ⟨b, hl⟩ := run_octLoop (cfg := cfg) s [] none h
  rw [call_util_20]
  have h0 : lit "" = [] := rfl
  runs [util_20, h0, hl]

end Libsnmp.Src
