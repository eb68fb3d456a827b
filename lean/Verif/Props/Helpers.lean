import Verif.Props.Text
import Verif.Props.Imports
import Verif.Model.Str

/-! # C63 (createTrapPDU), C64 (typeSetter, enterpriseOID) -/

namespace Libsnmp
open Spec

/-! ## C63 -/

/-- C63: without an agent address no class can build a trap PDU, whatever the other arguments. -/
theorem C63_default_agent (k : Kind) (vbl : Val) (version : Int) (enterprise : Arg) (g sp up : Int) :
    (createTrapPDU k vbl version enterprise .none g sp up).toOption = none ∧
    ((∃ v, mkOid enterprise = .ok v) → createTrapPDU k vbl version enterprise .none g sp up = .error .attributeError) := by
  cases k <;> cases h : mkOid enterprise <;> simp [createTrapPDU, h, bind, Except.bind, Except.toOption]

/-- C63: `v1.SNMP` and `v2.SNMP` treat the empty string as no address; `snmpManager` refuses it too, with ValueError. -/
theorem C63_empty_agent (k : Kind) (vbl : Val) (version : Int) (enterprise : Arg) (g sp up : Int)
    (hv : k = .sm → version = 1 ∨ version = 2) (he : ∃ v, mkOid enterprise = .ok v) :
    createTrapPDU k vbl version enterprise (.str []) g sp up = .error (if k = .sm then .valueError else .attributeError) := by
  obtain ⟨v, he⟩ := he
  have h4 : mkIPAddress .networkAddress (.str []) = .error .valueError := rfl
  cases k
  · simp [createTrapPDU, he, bind, Except.bind]
  · simp [createTrapPDU, he, bind, Except.bind]
  · have := hv rfl
    simp [createTrapPDU, he, h4, bind, Except.bind, this]

/-- C63: with an address given as text, a trap PDU is built exactly when the enterprise is an object identifier, the address
is one, the two trap numbers are 32-bit integers and the uptime is below 2^32 hundredths of a second (497 days), and it
carries exactly these values and the bindings unchecked; `snmpManager` must also be asked for version 1 or 2. -/
theorem C63_built_iff (k : Kind) (vbl : Val) (version : Int) (enterprise : Arg) (a : Str) (ha : a ≠ []) (g sp up : Int)
    (pdu : Val) :
    createTrapPDU k vbl version enterprise (.str a) g sp up = .ok pdu ↔
      (k = .sm → version = 1 ∨ version = 2) ∧
      (-2 ^ 31 ≤ g ∧ g < 2 ^ 31) ∧ (-2 ^ 31 ≤ sp ∧ sp < 2 ^ 31) ∧ (0 ≤ up ∧ up < 2 ^ 32) ∧
      ∃ ent addr, mkOid enterprise = .ok ent ∧ mkIPAddress .networkAddress (.str a) = .ok addr ∧
        pdu = .seq .trapPDU [.oid ent, addr, .integer .genericTrap g, .integer .integer sp, .integer .timeTicks up, vbl] := by
  have hg : mkInteger .genericTrap g = if -2147483648 ≤ g ∧ g ≤ 2147483647 then .ok (.integer .genericTrap g) else .error .valueError := rfl
  have hs : mkInteger .integer sp = if -2147483648 ≤ sp ∧ sp ≤ 2147483647 then .ok (.integer .integer sp) else .error .valueError := rfl
  have hu : mkInteger .timeTicks up = if 0 ≤ up ∧ up ≤ 4294967295 then .ok (.integer .timeTicks up) else .error .valueError := rfl
  have hae : a.isEmpty = false := by cases a <;> simp_all
  have build : (do
      let ent ← mkOid enterprise
      let agent ← mkIPAddress .networkAddress (.str a)
      let gTrap ← mkInteger .genericTrap g
      let sTrap ← mkInteger .integer sp
      let ts ← mkInteger .timeTicks up
      (.ok (mkTrap (.oid ent) agent gTrap sTrap ts vbl) : Except Exc Val)) = .ok pdu ↔
      (-2 ^ 31 ≤ g ∧ g < 2 ^ 31) ∧ (-2 ^ 31 ≤ sp ∧ sp < 2 ^ 31) ∧ (0 ≤ up ∧ up < 2 ^ 32) ∧
      ∃ ent addr, mkOid enterprise = .ok ent ∧ mkIPAddress .networkAddress (.str a) = .ok addr ∧
        pdu = .seq .trapPDU [.oid ent, addr, .integer .genericTrap g, .integer .integer sp, .integer .timeTicks up, vbl] := by
    rw [hg, hs, hu]
    cases mkOid enterprise with
    | error e => simp [bind, Except.bind]
    | ok ent =>
      cases mkIPAddress .networkAddress (.str a) with
      | error e => simp [bind, Except.bind]
      | ok addr =>
        by_cases h1 : -2147483648 ≤ g ∧ g ≤ 2147483647
        · by_cases h2 : -2147483648 ≤ sp ∧ sp ≤ 2147483647
          · by_cases h3 : 0 ≤ up ∧ up ≤ 4294967295
            · rw [if_pos h1, if_pos h2, if_pos h3]
              simp only [bind, Except.bind, mkTrap, Except.ok.injEq]
              constructor
              · rintro rfl
                exact ⟨by omega, by omega, by omega, ent, addr, rfl, rfl, rfl⟩
              · rintro ⟨_, _, _, ent', addr', e1, e2, e3⟩
                rw [e3, e1, e2]
            · rw [if_pos h1, if_pos h2, if_neg h3]
              simp only [bind, Except.bind, reduceCtorEq, false_iff]
              rintro ⟨_, _, h, _⟩
              omega
          · rw [if_pos h1, if_neg h2]
            simp only [bind, Except.bind, reduceCtorEq, false_iff]
            rintro ⟨_, h, _⟩
            omega
        · rw [if_neg h1]
          simp only [bind, Except.bind, reduceCtorEq, false_iff]
          rintro ⟨h, _⟩
          omega
  cases k with
  | v1 => simpa [createTrapPDU, hae] using build
  | v2 => simpa [createTrapPDU, hae] using build
  | sm =>
    by_cases hv : version = 1 ∨ version = 2
    · simpa [createTrapPDU, hv] using build
    · simp [createTrapPDU, hv]

/-- C63: `snmpManager` asked for any other version raises UnboundLocalError. -/
theorem C63_other_version (vbl : Val) (version : Int) (hv : version ≠ 1 ∧ version ≠ 2) (enterprise : Arg) (a : Str)
    (g sp up : Int) : createTrapPDU .sm vbl version enterprise (.str a) g sp up = .error .unboundLocalError := by
  simp [createTrapPDU, hv.1, hv.2]

example : (createTrapPDU .v1 (.seq .varBindList []) 1 (.str (lit ".1.3.6.1.4")) (.str (lit "10.0.0.1")) 6 0 4294967295).isOk = true ∧
    createTrapPDU .v1 (.seq .varBindList []) 1 (.str (lit ".1.3.6.1.4")) (.str (lit "10.0.0.1")) 6 0 4294967296 =
      .error .valueError := by decide +kernel

/-! ## C64 -/

/-- The type letters and the class each should stand for in a program using `snmpManager`. -/
def letters : List (Str × Cls) :=
  [(lit "i", .int .integer32), (lit "s", .oct .octetString), (lit "o", .oid), (lit "t", .int .timeTicks),
   (lit "a", .oct .ipAddress), (lit "c", .int .counter32), (lit "C", .int .counter64)]

/-- C64: `typeSetter` accepts exactly the seven letters, and each gives the identifier that `snmpSet` turns into the class
it stands for; everything else is a KeyError. -/
theorem C64_typeSetter (s : Str) :
    (∀ cls, (s, cls) ∈ letters → ∃ t : Nat, typeSetter s = .ok t ∧ regFull t = some cls) ∧
    (s ∉ letters.map Prod.fst → typeSetter s = .error .keyError) := by
  constructor
  · intro cls h
    simp only [letters, List.mem_cons, Prod.mk.injEq, List.not_mem_nil, or_false] at h
    rcases h with ⟨rfl, rfl⟩ | ⟨rfl, rfl⟩ | ⟨rfl, rfl⟩ | ⟨rfl, rfl⟩ | ⟨rfl, rfl⟩ | ⟨rfl, rfl⟩ | ⟨rfl, rfl⟩
    · exact ⟨0x02, rfl, rfl⟩
    · exact ⟨0x04, rfl, rfl⟩
    · exact ⟨0x06, rfl, rfl⟩
    · exact ⟨0x43, rfl, rfl⟩
    · exact ⟨0x40, rfl, rfl⟩
    · exact ⟨0x41, rfl, rfl⟩
    · exact ⟨0x46, rfl, rfl⟩
  · intro h
    simp only [letters, List.map_cons, List.map_nil, List.mem_cons, List.not_mem_nil, or_false, not_or] at h
    obtain ⟨h1, h2, h3, h4, h5, h6, h7⟩ := h
    simp [typeSetter, h1, h2, h3, h4, h5, h6, h7]

/-- C64: values given as text are accepted for no numeric type (the `snmpset.py` script converts only the letter `i`, so from it `t`,
`c` and `C` always fail). -/
theorem C64_numbers_as_text (s v : Str) (c : IntCls) (h : (s, Cls.int c) ∈ letters) :
    ∃ t, typeSetter s = .ok t ∧ constructTag regFull t (.str v) = .error .typeError := by
  obtain ⟨t, h1, h2⟩ := (C64_typeSetter s).1 _ h
  refine ⟨t, h1, ?_⟩
  have h0 : ¬ ((t : Int) < 0) := by omega
  simp only [constructTag, h0, if_false, Int.toNat_natCast, h2]
  rfl

/-- C64: a value type of `snmpSet` that is no registered identifier octet - negative, unknown - is a KeyError. -/
theorem C64_unknown_type (reg : Reg) (t : Int) (h : ∀ n : Nat, t = n → reg n = none) (value : Arg) :
    constructTag reg t value = .error .keyError := by
  unfold constructTag
  split
  · rfl
  · rw [h t.toNat (by omega)]

example : (∀ n : Nat, (-2 : Int) = n → regFull n = none) ∧ ∀ n : Nat, (7 : Int) = n → regFull n = none := by
  refine ⟨fun n h => by omega, fun n h => ?_⟩
  have : n = 7 := by omega
  subst this
  rfl

/-- C64: numbers, text, names and addresses given in their own Python type are built as the class the letter stands for. -/
theorem C64_values (n : Int) (v : Str) (oid : Arg) :
    (∀ s c, (s, Cls.int c) ∈ letters → ∃ t, typeSetter s = .ok t ∧ constructTag regFull t (.int n) = mkInteger c n) ∧
    (∃ t, typeSetter (lit "s") = .ok t ∧ constructTag regFull t (.str v) = .ok (.octets .octetString v)) ∧
    (∃ t, typeSetter (lit "a") = .ok t ∧ constructTag regFull t (.str v) = mkIPAddress .ipAddress (.str v)) ∧
    (∃ t, typeSetter (lit "o") = .ok t ∧ constructTag regFull t oid = (mkOid oid).map Val.oid) := by
  refine ⟨?_, ⟨0x04, rfl, rfl⟩, ⟨0x40, rfl, rfl⟩, ⟨0x06, rfl, ?_⟩⟩
  · intro s c h
    obtain ⟨t, h1, h2⟩ := (C64_typeSetter s).1 _ h
    refine ⟨t, h1, ?_⟩
    have h0 : ¬ ((t : Int) < 0) := by omega
    simp only [constructTag, h0, if_false, Int.toNat_natCast, h2]
    rfl
  · show construct .oid oid = _
    unfold construct
    cases mkOid oid <;> rfl

/-- C64: `enterpriseOID` puts a name under mib-2 (1.3.6.1.2.1) - not under enterprises (1.3.6.1.4.1), as its name says. -/
theorem C64_enterpriseOID (ns : List Nat) (hr : ∀ n ∈ ns, n < 2 ^ 31) (t : Str) (ht : DottedText ns t) :
    mkOid (.str (enterpriseOID t)) = .ok (some (ints ([1, 3, 6, 1, 2, 1] ++ ns))) := by
  have num : ∀ d, d < 10 → Numeral 10 d [d] := by
    intro d hd
    refine ⟨by simp [hd], by simp, ?_, by simp [ofDigits]⟩
    intro h; simp at h; rw [h]
  have key : DottedText ([1, 3, 6, 1, 2, 1] ++ ns) (lit "1.3.6.1.2.1." ++ t) := by
    have e : lit "1.3.6.1.2.1." ++ t = [1].map (· + 48) ++ 46 :: ([3].map (· + 48) ++ 46 :: ([6].map (· + 48) ++ 46 ::
      ([1].map (· + 48) ++ 46 :: ([2].map (· + 48) ++ 46 :: ([1].map (· + 48) ++ 46 :: t))))) := rfl
    rw [e]
    exact .cons (num 1 (by decide)) (.cons (num 3 (by decide)) (.cons (num 6 (by decide)) (.cons (num 1 (by decide))
      (.cons (num 2 (by decide)) (.cons (num 1 (by decide)) ht)))))
  have := C15_oid_parse _ (by intro n hn; rcases List.mem_append.1 hn with hn | hn
                              · simp at hn; omega
                              · exact hr n hn) _ key [46] [] (by simp) (by simp)
  have e : enterpriseOID t = [46] ++ (lit "1.3.6.1.2.1." ++ t) ++ [] := by rw [List.append_nil]; rfl
  rw [e]; exact this

example : mkOid (.str (enterpriseOID (lit "1.3.0"))) = .ok (some (ints [1, 3, 6, 1, 2, 1, 1, 3, 0])) := by decide +kernel

end Libsnmp
