import Verif.Lemmas.SrcTwos
import Verif.Lemmas.SrcOct
import Verif.Props.Source3
import Verif.Props.Integers

/-!
# C95: the other decoders of integers and the constructors of OctetStrings, on the source text
-/

namespace Libsnmp
open Spec Src

variable {cfg : Cfg}

/-! ## C95 -/

/-- The three algorithms that nothing in the package calls. -/
def twosMethods : List String := ["decodeTwosInteger1", "decodeTwosInteger2", "decodeTwosInteger3"]

/-- C95. The three other decoders of the Integer class, called on any Integer with any string of octets: each gives the number that
`decodeContents` decodes (IndexError for the empty string), and leaves every object as it was. -/
theorem C95_twos {lo : Nat} {h : Heap} {c : IntCls} {n : Int} {x : V} (r : Rep lo h (.integer c n) x) (s : Str) (hs : Octets s)
    (m : String) (hm : m ∈ twosMethods) :
    ∃ t, callMethod cfg x m [.str s] h = outR (intDecode s) V.int (h ++ t) := by
  obtain ⟨e1, e2, e3⟩ := C07_decoders_agree s hs
  obtain ⟨a, attrs, rfl, ha, hp⟩ := r.cell
  simp only [twosMethods, List.mem_cons, List.not_mem_nil, or_false] at hm
  rcases hm with rfl | rfl | rfl
  · rw [callMethod_eq ha hp (show program.attr (cid (.int c)) "decodeTwosInteger1" = some (.func .rfc1155 436) by cases c <;> rfl), ← e1]
    exact run_twos1 _ s h
  · rw [callMethod_eq ha hp (show program.attr (cid (.int c)) "decodeTwosInteger2" = some (.func .rfc1155 452) by cases c <;> rfl), ← e2]
    exact ⟨[], by rw [run_twos2, List.append_nil]⟩
  · rw [callMethod_eq ha hp (show program.attr (cid (.int c)) "decodeTwosInteger3" = some (.func .rfc1155 480) by cases c <;> rfl), ← e3]
    exact run_twos3 _ s h

/-- C95. `OctetString(text)` and `Opaque(text)`. -/
theorem C95_octetString {h : Heap} (hb : Base h) (c : OctCls) (hc : c = .octetString ∨ c = .opaque) (s : Str) :
    NewOr h.length h (call program cfg (.cls (cid (.oct c))) [.str s] h) (mkOctetString c s) := run_mkOct hb c hc s

/-- C95. `IPAddress(value)` and `NetworkAddress(value)`, for a text, a number, a tuple or None. -/
theorem C95_ipAddress {lo : Nat} {h : Heap} (hb : Base h) (c : OctCls) (hc : c = .ipAddress ∨ c = .networkAddress) {arg : Arg} {y : V}
    (r : RepArg lo h arg y) (hl : ∀ l, arg ≠ .list l) (ho : ∀ v, arg ≠ .obj v) (hn : ∀ s, arg = .str s → Short cfg s) :
    NewOr h.length h (call program cfg (.cls (cid (.oct c))) [y] h) (mkIPAddress c arg) := run_mkIP hb c hc r hl ho hn

/-- C95. `IPAddress(list)`: a new object that keeps a copy of a list of four elements, whatever they are; ValueError for any other
list. -/
theorem C95_ipAddress_list {h : Heap} (c : OctCls) (hc : c = .ipAddress ∨ c = .networkAddress) {b : Nat} {l : List V}
    (hl : h[b]? = some (.list l)) :
    ∃ args t, h.length < (h ++ t).length ∧ call program cfg (.cls (cid (.oct c))) [.ref b] h =
      (if l.length = 4 then okR (.ref h.length) (h ++ t) else excR (.exc "ValueError" args) (h ++ t)) ∧
      ∃ attrs, (h ++ t)[h.length]? = some (.inst (cid (.oct c)) attrs) ∧ attrs.lookup "value" = some (.ref (h.length + 1)) ∧
        (h ++ t)[h.length + 1]? = some (.list l) := by
  obtain ⟨args, h1⟩ := run_mkIPList (cfg := cfg) c hc hl
  refine ⟨args, _, by simp, h1, _, get_app _ _, rfl, ?_⟩
  rw [List.getElem?_append_right (by omega)]; simp

/-! ## The hypotheses are met -/

/-- `counter.decodeTwosInteger2('\xff\x7f')`. -/
example : ∃ t, callMethod sampleCfg (.ref 12) "decodeTwosInteger2" [.str [0xff, 0x7f]] sampleTwo = okR (.int (-129)) (sampleTwo ++ t) := by
  have h1 := C95_twos (cfg := sampleCfg) sampleTwo_counter [0xff, 0x7f] (by decide +kernel) "decodeTwosInteger2" (by decide)
  rw [show intDecode [0xff, 0x7f] = .ok (-129) by decide +kernel] at h1
  exact h1

/-- `IPAddress('10.0.0.255')` and `IPAddress('10.0.255')`. -/
example : (∃ h' x, call program sampleCfg (.cls (cid (.oct .ipAddress))) [.str (lit "10.0.0.255")] statics = okR x h' ∧
      Rep statics.length h' (.octets .ipAddress [10, 0, 0, 255]) x) ∧
    ∃ h' args, call program sampleCfg (.cls (cid (.oct .ipAddress))) [.str (lit "10.0.255")] statics = excR (.exc "ValueError" args) h' := by
  have h1 := C95_ipAddress (cfg := sampleCfg) (lo := 9) base_statics .ipAddress (.inl rfl) (arg := .str (lit "10.0.0.255")) (y := .str (lit "10.0.0.255"))
    rfl (by simp) (by simp) (fun s hs => by injection hs with hs; subst hs; exact .inr (by decide +kernel))
  have h2 := C95_ipAddress (cfg := sampleCfg) (lo := 9) base_statics .ipAddress (.inl rfl) (arg := .str (lit "10.0.255")) (y := .str (lit "10.0.255"))
    rfl (by simp) (by simp) (fun s hs => by injection hs with hs; subst hs; exact .inr (by decide +kernel))
  rw [show mkIPAddress .ipAddress (.str (lit "10.0.0.255")) = .ok (.octets .ipAddress [10, 0, 0, 255]) by decide +kernel] at h1
  rw [show mkIPAddress .ipAddress (.str (lit "10.0.255")) = .error .valueError by decide +kernel] at h2
  obtain ⟨h', x, e1, -, e2⟩ := h1
  obtain ⟨g, args, e3, -⟩ := h2
  exact ⟨⟨h', x, e1, e2⟩, g, args, e3⟩

end Libsnmp
