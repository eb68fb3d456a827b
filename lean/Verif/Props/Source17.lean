import Verif.Props.Source14
import Verif.Props.Forms
import Verif.Props.Source4
import Verif.Props.Pdus
import Verif.Props.Size
import Verif.Props.Relay
import Verif.Props.Arith
import Verif.Props.Grammar
import Verif.Props.Decoding
import Verif.Spec.SourceMore

/-!
# C108: more guarantees, stated of the source text alone
-/

namespace Libsnmp
open Src Spec

variable {cfg cfg' : Cfg}

mutual
theorem denotes_noMessage {reg : Reg} : ∀ (y : Val) (a : Asn), Denotes reg a y → NoMessage y
  | .integer _ _, _, _ => by rw [NoMessage] <;> simp
  | .octets _ _, _, _ => by rw [NoMessage] <;> simp
  | .null _, _, _ => by rw [NoMessage] <;> simp
  | .oid _, _, _ => by rw [NoMessage] <;> simp
  | .seq c items, .seq as, h => by
    cases h with
    | seq _ _ _ hl =>
      rw [NoMessage]
      exact ⟨by simp, by simp, denotesList_noMessages items as hl⟩
theorem denotesList_noMessages {reg : Reg} : ∀ (ys : List Val) (as : List Asn), DenotesList reg as ys → NoMessages ys
  | [], _, _ => by rw [NoMessages]; trivial
  | y :: ys, a :: as, h => by
    cases h with
    | cons h1 h2 =>
      rw [NoMessages]
      exact ⟨denotes_noMessage y a h1, denotesList_noMessages ys as h2⟩
end

theorem denotes_obj {reg : Reg} {y : Val} {a : Asn} (h : Denotes reg a y) : Obj y = true := by cases h <;> rfl

theorem RepAll.unique {lo : Nat} {h : Heap} : ∀ (vs ws : List Val) {l : List V}, RepAll lo h vs l → RepAll lo h ws l → vs = ws
  | [], ws, l, r, s => by
    rw [RepAll] at r
    subst r
    cases ws with
    | nil => rfl
    | cons w ws => rw [RepAll] at s; obtain ⟨_, _, e, _⟩ := s; cases e
  | v :: vs, ws, l, r, s => by
    rw [RepAll] at r
    obtain ⟨x, xs, rfl, r1, r2⟩ := r
    cases ws with
    | nil => rw [RepAll] at s; cases s
    | cons w ws =>
      rw [RepAll] at s
      obtain ⟨_, _, e, s1, s2⟩ := s
      cases e
      rw [Rep.unique v w r1 s1, RepAll.unique vs ws r2 s2]

/-! ## Decoding -/

section Decoding

variable (hc : Limits cfg) (hD : cfg.limit = 0) {reg : Reg} (hreg : Knows cfg reg) (hi : Imported reg) {h : Heap} (hb : Base h)
  {d : Nat} {c : Cls} {attrs : List (String × V)} (hd : h[d]? = some (.inst (cid c) attrs)) (h9 : 9 ≤ d) (hp : Plain attrs)
  (hdec : Decodable c = true)

include hc hD hreg hi hb hd h9 hp hdec

/-- What the source text makes of a text that it decodes. -/
theorem decoded_ok {s : Str} (hs : s.length < 10 ^ 640) {b : V} {g : Heap}
    (e : callMethod cfg (.ref d) "decode" [.str s] h = okR b g) :
    ∃ vs n l, decode reg (.str s) = .ok vs ∧ b = .ref n ∧ Kept h.length h g ∧ g[n]? = some (.list l) ∧ RepAll h.length g vs l := by
  have h1 := C88_decode_O hc hD hreg hi hb hd h9 hp hdec s hs
  cases hm : decode reg (.str s) with
  | error x =>
    rw [hm] at h1
    obtain ⟨h', x, e1, -⟩ := h1
    rw [e] at e1
    simp [okR, excR] at e1
  | ok vs =>
    rw [hm] at h1
    obtain ⟨h', n, l, e1, e2, -, e3, e4⟩ := h1
    rw [e] at e1
    simp only [okR, Option.some.injEq, Prod.mk.injEq, Out.ok.injEq] at e1
    obtain ⟨rfl, rfl⟩ := e1
    exact ⟨vs, n, l, rfl, rfl, e2, e3, e4⟩

theorem decoded_error {s : Str} (hs : s.length < 10 ^ 640) {x : V} {g : Heap}
    (e : callMethod cfg (.ref d) "decode" [.str s] h = excR x g) : ∃ y, decode reg (.str s) = .error y ∧ Raised g y x := by
  have h1 := C88_decode_O hc hD hreg hi hb hd h9 hp hdec s hs
  cases hm : decode reg (.str s) with
  | ok vs =>
    rw [hm] at h1
    obtain ⟨h', n, l, e1, -⟩ := h1
    rw [e] at e1
    simp [okR, excR] at e1
  | error y =>
    rw [hm] at h1
    obtain ⟨h', x', e1, -, e3⟩ := h1
    rw [e] at e1
    simp only [excR, Option.some.injEq, Prod.mk.injEq, Out.exc.injEq] at e1
    obtain ⟨rfl, rfl⟩ := e1
    exact ⟨y, rfl, e3⟩

/-- C108. Octets that consist of complete elements, followed by any text: the objects of the first part come first, then those of the
rest; if the rest cannot be decoded, the whole cannot. -/
theorem C108_concatenation {s : Str} (he : Elements s) (t : Str) (hs : (s ++ t).length < 10 ^ 640) {n : Nat} {g : Heap} {l : List V}
    {vs : List Val} (e : callMethod cfg (.ref d) "decode" [.str s] h = okR (.ref n) g) (hl : g[n]? = some (.list l))
    (hr : RepAll h.length g vs l) :
    (∀ n' g' l' ws, callMethod cfg (.ref d) "decode" [.str t] h = okR (.ref n') g' → g'[n']? = some (.list l') →
      RepAll h.length g' ws l' → ∃ n'' g'' l'', callMethod cfg (.ref d) "decode" [.str (s ++ t)] h = okR (.ref n'') g'' ∧
        Kept h.length h g'' ∧ g''[n'']? = some (.list l'') ∧ RepAll h.length g'' (vs ++ ws) l'') ∧
    (∀ x g', callMethod cfg (.ref d) "decode" [.str t] h = excR x g' → ∃ y x' g'',
      callMethod cfg (.ref d) "decode" [.str (s ++ t)] h = excR x' g'' ∧ Raised g' y x ∧ Raised g'' y x') := by
  have l1 : s.length < 10 ^ 640 := by rw [List.length_append] at hs; omega
  have l2 : t.length < 10 ^ 640 := by rw [List.length_append] at hs; omega
  obtain ⟨vs', n1, l1', m1, e1, -, f1, r1⟩ := decoded_ok hc hD hreg hi hb hd h9 hp hdec l1 e
  cases e1
  rw [hl] at f1
  cases f1
  obtain rfl := RepAll.unique _ _ hr r1
  have h3 := C88_decode_O hc hD hreg hi hb hd h9 hp hdec (s ++ t) hs
  rw [C26_concatenation reg he t, m1] at h3
  refine ⟨fun n' g' l' ws e' hl' hr' => ?_, fun x g' e' => ?_⟩
  · obtain ⟨ws', n2, l2', m2, e2, -, f2, r2⟩ := decoded_ok hc hD hreg hi hb hd h9 hp hdec l2 e'
    cases e2
    rw [hl'] at f2
    cases f2
    obtain rfl := RepAll.unique _ _ hr' r2
    rw [m2] at h3
    obtain ⟨g'', n'', l'', e3, k3, -, f3, r3⟩ := h3
    exact ⟨n'', g'', l'', e3, k3, f3, r3⟩
  · obtain ⟨y, m2, r2⟩ := decoded_error hc hD hreg hi hb hd h9 hp hdec l2 e'
    rw [m2] at h3
    obtain ⟨g'', x', e3, -, r3⟩ := h3
    exact ⟨y, x', g'', e3, r2, r3⟩

/-- C108. Every BER encoding of a value, minimal or not, decodes to one object that stands for the value; and sent on with `encode()`
it becomes the BER encoding of the value's echo. -/
theorem C108_relay {a a' : Asn} {s : Str} (hs : Ber a s) (hl : s.length < 10 ^ 640) {y : Val} (hy : Denotes reg a y) (he : Echo a a')
    (ho : ∀ o, y.encode = .ok o → o.length < 256 ^ 127) :
    ∃ g n w o u, callMethod cfg (.ref d) "decode" [.str s] h = okR (.ref n) g ∧ Kept h.length h g ∧ g[n]? = some (.list [w]) ∧
      Rep h.length g y w ∧ callMethod cfg w "encode" [] g = okR (.str o) (g ++ u) ∧ Ber a' o := by
  obtain ⟨m, o, eo, bo⟩ := C76_relay hi hs hy he
  have h1 := C88_decode_O hc hD hreg hi hb hd h9 hp hdec s hl
  rw [m] at h1
  obtain ⟨g, n, l, e1, k1, -, f1, r1⟩ := h1
  rw [RepAll] at r1
  obtain ⟨w, l', rfl, r2, r3⟩ := r1
  rw [RepAll] at r3
  subst r3
  obtain ⟨u, hu⟩ := C89_encode (cfg := cfg) hc r2 (denotes_obj hy)
    (sane_of_encode y o eo (Nat.lt_trans (ho o eo) wire_bound) (denotes_noMessage y a hy))
  rw [eo, outR] at hu
  exact ⟨g, n, w, o, u, e1, k1, f1, r2, hu, bo (ho o eo)⟩

/-- C108. What decoding makes is never bigger than the octets that it was made from, and of registered classes only. -/
theorem C108_decoded {s : Str} (hs : s.length < 10 ^ 640) {n : Nat} {g : Heap} {l : List V} {vs : List Val}
    (e : callMethod cfg (.ref d) "decode" [.str s] h = okR (.ref n) g) (hl : g[n]? = some (.list l)) (hr : RepAll h.length g vs l) :
    (Octets s → weights vs ≤ s.length) ∧ ∀ o ∈ vs, ∀ p, Inside o p → ∃ tag cls, cfg.tag tag = some (cid cls) ∧ p.cls? = some cls := by
  obtain ⟨vs', n1, l1', m1, e1, -, f1, r1⟩ := decoded_ok hc hD hreg hi hb hd h9 hp hdec hs e
  cases e1
  rw [hl] at f1
  cases f1
  obtain rfl := RepAll.unique _ _ hr r1
  refine ⟨fun ho => C81_no_amplification hi s ho vs m1, fun o ho p hp => ?_⟩
  obtain ⟨tag, cls, h1, h2⟩ := C24_only_registered reg s vs m1 o ho p hp
  exact ⟨tag, cls, by rw [hreg, h1]; rfl, h2⟩

/-- C108. `decode` returns exactly the objects that the grammar of `Spec/Grammar.lean` finds in the octets, and raises exactly if it finds
none; and the PDUs and traps among them, at any depth, are well-formed. -/
theorem C108_parses {s : Str} (hs : s.length < 10 ^ 640) (ho : Octets s) :
    (∀ vs, Parses reg s vs → ∃ n g l, callMethod cfg (.ref d) "decode" [.str s] h = okR (.ref n) g ∧ Kept h.length h g ∧
      g[n]? = some (.list l) ∧ RepAll h.length g vs l ∧ ∀ o ∈ vs, ∀ p, Component o p → ∀ c, p.cls? = some (.seq c) →
        (c ∈ pduClasses → WellFormedPdu c p) ∧ (c = .trapPDU → WellFormedTrap p)) ∧
    ((¬ ∃ vs, Parses reg s vs) → ∃ x g, callMethod cfg (.ref d) "decode" [.str s] h = excR x g ∧ Kept h.length h g) := by
  have h1 := C88_decode_O hc hD hreg hi hb hd h9 hp hdec s hs
  refine ⟨fun vs hv => ?_, fun hn => ?_⟩
  · have hm := (C65_parse_iff hi s ho vs).2 hv
    rw [hm] at h1
    obtain ⟨g, n, l, e1, k1, -, f1, r1⟩ := h1
    exact ⟨n, g, l, e1, k1, f1, r1, C28_decoded_pdus_wellformed reg s vs hm⟩
  · obtain ⟨e, hm⟩ := (C65_rejects_iff hi s ho).2 hn
    rw [hm] at h1
    obtain ⟨g, x, e1, k1, -⟩ := h1
    exact ⟨x, g, e1, k1⟩

end Decoding

/-! ## Encoding -/

/-- C108. What `encode()` returns consists of octets, if the strings inside do; and its length is between the two bounds. -/
theorem C108_encoded (hc : Limits cfg) {lo : Nat} {h g : Heap} {v : Val} {x : V} (r : Rep lo h v x) (ho : Obj v = true) (hs : Sane v)
    {s : Str} (e : callMethod cfg x "encode" [] h = okR (.str s) g) :
    (StringsOctets v → Octets s) ∧ (Moderate v → least v ≤ s.length ∧ (room v ≤ 65507 → s.length ≤ room v)) := by
  obtain ⟨t, h1⟩ := C89_encode (cfg := cfg) hc r ho hs
  rw [e] at h1
  cases hm : v.encode with
  | error x => rw [hm] at h1; simp [outR, okR, excR] at h1
  | ok o =>
    rw [hm] at h1
    simp only [outR, okR, Option.some.injEq, Prod.mk.injEq, Out.ok.injEq, V.str.injEq] at h1
    obtain ⟨-, rfl⟩ := h1
    exact ⟨fun hx => C60_encoding_octets v hx s hm, fun hv => C82_size v s hm hv⟩

/-! ## Numbers -/

/-- C108. The constructor of a class of Integers accepts exactly the numbers in the range of the class. -/
theorem C108_new (hc : Limits cfg) {h : Heap} (hb : Base h) (c : IntCls) (n : Int) :
    (InRange c n → ∃ h' x, call program cfg (.cls (cid (.int c))) [.int n] h = okR x h' ∧ Kept h.length h h' ∧
      Rep h.length h' (.integer c n) x) ∧
    (¬ InRange c n → ∃ h' args, call program cfg (.cls (cid (.int c))) [.int n] h = excR (.exc "ValueError" args) h' ∧
      Kept h.length h h') := by
  have h1 := C92_new (cfg := cfg) hc (lo := 9) hb c (v := .int n) (y := .int n) (by rw [Rep])
  rw [newInt] at h1
  refine ⟨fun hr => ?_, fun hr => ?_⟩
  · rw [(C32_constructor c n).1 hr] at h1
    exact h1
  · rw [(C32_constructor c n).2 hr] at h1
    exact h1

theorem Rep.lt {lo : Nat} {h : Heap} {c : IntCls} {n : Int} {a : Nat} (r : Rep lo h (.integer c n) (.ref a)) : lo ≤ a ∧ a < h.length := by
  rw [Rep] at r
  obtain ⟨b, attrs, e, h1, h2, -⟩ := r
  cases e
  exact ⟨h1, lt_of_get h2⟩

/-- C108. A Counter that is counted up, by numbers from zero to its maximum, any number of times: it shows where a dial marked from 0 to
the maximum stands that goes from the maximum to 1; each addition returns None; and no other object changes. -/
theorem C108_counter (hc : Limits cfg) {c : IntCls} (hcc : IsCounter c) {lo : Nat} (h9 : 9 ≤ lo) {a : Nat} :
    ∀ (ns : List Int) {h : Heap} (_ : Base h) {v : Int} (_ : InRange c v) (_ : Rep lo h (.integer c v) (.ref a))
      (_ : ∀ n ∈ ns, 0 ≤ n ∧ n ≤ (range c).2),
    ∃ g, Sums cfg a h (ns.map Tally.add) (ns.map fun _ => .none) g ∧ Base g ∧
      Rep lo g (.integer c (wrapped (range c).2 (v + ns.sum))) (.ref a) ∧
      ∀ b, 9 ≤ b → b < h.length → b ≠ a → g[b]? = h[b]? := by
  intro ns
  have key : ∀ (ns : List Int) {h : Heap} (_ : Base h) {v : Int} (_ : Rep lo h (.integer c v) (.ref a)),
      ∃ g, Sums cfg a h (ns.map Tally.add) (ns.map fun _ => .none) g ∧ Base g ∧ Rep lo g (.integer c (counterHistory c v ns)) (.ref a) ∧
      ∀ b, 9 ≤ b → b < h.length → b ≠ a → g[b]? = h[b]? := by
    intro ns
    induction ns with
    | nil => intro h hb v r; exact ⟨h, .nil, hb, r, fun _ _ _ _ => rfl⟩
    | cons n ns ih =>
      intro h hb v r
      have ⟨l1, l2⟩ := Rep.lt r
      obtain ⟨h1, b1, f1, r1, e1⟩ := C92_add (cfg := cfg) hc hb h9 (by omega) r (v := .int n) (y := .int n) (by rw [Rep])
      have e2 : (pyAdd c v (.int n)).result = .ok .none := by rw [C34_add c hcc v n]
      rw [e2] at e1
      obtain ⟨x, e1, rx⟩ := e1
      rw [Rep] at rx
      subst rx
      obtain ⟨g, s, bg, rg, fg⟩ := ih b1 r1
      refine ⟨g, .cons e1 s, bg, rg, fun b h1' h2' h3' => ?_⟩
      have h4 := f1 b h1' h2' h3'
      rw [fg b h1' (lt_of_get (h4.trans (List.getElem?_eq_getElem h2'))) h3', h4]
  intro h hb v hv r hn
  obtain ⟨g, s, bg, rg, fg⟩ := key ns hb r
  rw [C34_history c hcc v hv ns hn] at rg
  exact ⟨g, s, bg, rg, fg⟩

/-- C108. A Guage under any sequence of additions and subtractions: each stops at the maximum and at zero, it returns None, and no other
object changes; if no amount is negative the Guage never leaves its range. -/
theorem C108_guage (hc : Limits cfg) {c : IntCls} (hcc : IsGuage c) {lo : Nat} (h9 : 9 ≤ lo) {a : Nat} :
    ∀ (ops : List Tally) {h : Heap} (_ : Base h) {v : Int} (_ : Rep lo h (.integer c v) (.ref a)),
    ∃ g, Sums cfg a h ops (ops.map fun _ => .none) g ∧ Base g ∧ Rep lo g (.integer c (latched v ops)) (.ref a) ∧
      (∀ b, 9 ≤ b → b < h.length → b ≠ a → g[b]? = h[b]?) ∧
      (InRange c v → (∀ op ∈ ops, 0 ≤ op.amount) → InRange c (latched v ops)) := by
  intro ops
  have hr : range c = (0, 2 ^ 32 - 1) := by rcases hcc with rfl | rfl <;> rfl
  induction ops with
  | nil => intro h hb v r; exact ⟨h, .nil, hb, r, fun _ _ _ _ => rfl, fun h _ => h⟩
  | cons op ops ih =>
    intro h hb v r
    have ⟨l1, l2⟩ := Rep.lt r
    have next : ∀ (h1 : Heap) (w : Int), Base h1 → (∀ b, 9 ≤ b → b < h.length → b ≠ a → h1[b]? = h[b]?) →
        Rep lo h1 (.integer c w) (.ref a) → op.run cfg a h = okR .none h1 → latched v (op :: ops) = latched w ops →
        (InRange c v → 0 ≤ op.amount → InRange c w) →
        ∃ g, Sums cfg a h (op :: ops) ((op :: ops).map fun _ => .none) g ∧ Base g ∧ Rep lo g (.integer c (latched v (op :: ops))) (.ref a) ∧
          (∀ b, 9 ≤ b → b < h.length → b ≠ a → g[b]? = h[b]?) ∧
          (InRange c v → (∀ o ∈ op :: ops, 0 ≤ o.amount) → InRange c (latched v (op :: ops))) := by
      intro h1 w b1 f1 r1 e1 e2 hw
      obtain ⟨g, s, bg, rg, fg, ig⟩ := ih b1 r1
      rw [e2]
      refine ⟨g, .cons e1 s, bg, rg, fun b h1' h2' h3' => ?_, fun hv ho => ig (hw hv (ho _ List.mem_cons_self)) fun o h => ho o (List.mem_cons_of_mem _ h)⟩
      have h4 := f1 b h1' h2' h3'
      rw [fg b h1' (lt_of_get (h4.trans (List.getElem?_eq_getElem h2'))) h3', h4]
    cases op with
    | add n =>
      obtain ⟨h1, b1, f1, r1, e1⟩ := C92_add (cfg := cfg) hc hb h9 (by omega) r (v := .int n) (y := .int n) (by rw [Rep])
      rw [(C35_latches c hcc v n).1] at r1 e1
      obtain ⟨x, e1, rx⟩ := e1
      rw [Rep] at rx
      subst rx
      refine next h1 _ b1 f1 r1 e1 rfl fun hv ho => ?_
      unfold InRange at *
      rw [hr] at *
      simp only [Tally.amount] at *
      omega
    | sub n =>
      obtain ⟨h1, b1, f1, r1, e1⟩ := C92_sub (cfg := cfg) hc hb h9 (by omega) r (v := .int n) (y := .int n) (by rw [Rep])
      rw [(C35_latches c hcc v n).2] at r1 e1
      obtain ⟨x, e1, rx⟩ := e1
      rw [Rep] at rx
      subst rx
      refine next h1 _ b1 f1 r1 e1 rfl fun hv ho => ?_
      unfold InRange at *
      rw [hr] at *
      simp only [Tally.amount] at *
      omega

/-! ## Object identifiers and texts -/

/-- C108. `x.isPrefixOf(y)` is whether the numbers of `x` are the first numbers of `y`. -/
theorem C108_isPrefixOf {lo : Nat} {h : Heap} {v w : Option (List Int)} {x y : V} (r : Rep lo h (.oid v) x) (s : Rep lo h (.oid w) y) :
    callMethod cfg x "isPrefixOf" [y] h = okR (.bool (decide (v.getD [] <+: w.getD []))) h := by
  obtain ⟨args, e⟩ := C93_isPrefixOf (cfg := cfg) r s
  rw [C17_isPrefixOf v w] at e
  exact e

/-- C108. `ObjectID(text)`: the texts that it accepts, and the numbers that it makes of them. -/
theorem C108_oid_accepts {h : Heap} (hb : Base h) {s : Str} (hs : Short cfg s) :
    (∀ l, OidText s l → ∃ g x, call program cfg (.cls (cid .oid)) [.str s] h = okR x g ∧ Kept h.length h g ∧
      Rep h.length g (.oid (some l)) x) ∧
    ((¬ ∃ l, OidText s l) → ∃ g args, call program cfg (.cls (cid .oid)) [.str s] h = excR (.exc "ValueError" args) g ∧
      Kept h.length h g) := by
  have h1 := C93_new (cfg := cfg) (lo := 9) hb (arg := .str s) (y := .str s) rfl (fun s e => by injection e with e; subst e; exact hs)
  refine ⟨fun l hl => ?_, fun hn => ?_⟩
  · obtain ⟨u, t, w, ps, e1, e2, e3, e4, e5, e6, e7⟩ := hl
    rw [(C16_oid_text_accepted_iff s (some l)).2 ⟨u, t, w, ps, l, e1, e2, e3, e4, e5, e6, rfl, e7⟩] at h1
    exact h1
  · rcases C16_oid_text_validated s with e | ⟨l, e, -⟩
    · rw [e] at h1
      exact h1
    · obtain ⟨u, t, w, ps, l', e1, e2, e3, e4, e5, e6, e8, e7⟩ := (C16_oid_text_accepted_iff s (some l)).1 e
      cases e8
      exact absurd ⟨l, u, t, w, ps, e1, e2, e3, e4, e5, e6, e7⟩ hn

/-- C108. `IPAddress(text)`, likewise. -/
theorem C108_ip_accepts {c : OctCls} (hcc : c = .ipAddress ∨ c = .networkAddress) {h : Heap} (hb : Base h) {s : Str} (hs : Short cfg s) :
    (∀ l, IpText s l → ∃ g x, call program cfg (.cls (cid (.oct c))) [.str s] h = okR x g ∧ Kept h.length h g ∧
      Rep h.length g (.octets c l) x) ∧
    ((¬ ∃ l, IpText s l) → ∃ g t args, call program cfg (.cls (cid (.oct c))) [.str s] h = excR (.exc t args) g ∧
      (t = "ValueError" ∨ t = "OverflowError") ∧ Kept h.length h g) := by
  have h1 := C95_ipAddress (cfg := cfg) (lo := 9) hb c hcc (arg := .str s) (y := .str s) rfl nofun nofun
    (fun s e => by injection e with e; subst e; exact hs)
  refine ⟨fun l hl => ?_, fun hn => ?_⟩
  · obtain ⟨ps, e1, e2, e3⟩ := hl
    rw [(C41_ip_text_accepted_iff c s _).2 ⟨ps, l, e1, e2, rfl, e3⟩] at h1
    exact h1
  · cases e : mkIPAddress c (.str s) with
    | ok v =>
      obtain ⟨ps, l, e1, e2, -, e3⟩ := (C41_ip_text_accepted_iff c s v).1 e
      exact absurd ⟨l, ps, e1, e2, e3⟩ hn
    | error x =>
      rw [e] at h1
      obtain ⟨g, args, e1, k1⟩ := h1
      exact ⟨g, _, args, e1, by rcases C41_ip_text_errors c s x e with rfl | rfl <;> simp [excName], k1⟩

/-- C108. `IPAddress(str(x))` is an object of its own with the contents of `x`, and `==` says that it equals `x`. -/
theorem C108_ip_text (hc : Limits cfg) {c : OctCls} (hcc : c = .ipAddress ∨ c = .networkAddress) {lo : Nat} (h9 : 9 ≤ lo) {d : Table} {h : Heap} (hb : Base h)
    (ht : Texts d h) {v : Str} (hl : v.length = 4) (hv : ∀ b ∈ v, b ≤ 0x10FFFF) {x : V} (r : Rep lo h (.octets c v) x)
    (hs : Short cfg (ipStr v)) :
    ∃ s g y g', toStr program cfg x h = okR s g ∧ DottedText v s ∧
      call program cfg (.cls (cid (.oct c))) [.str s] g = okR y g' ∧ Kept g.length g g' ∧ Rep g.length g' (.octets c v) y ∧
      Src.compare program cfg .eq y x g' = okR (.bool true) g' := by
  have hw : Writable cfg.digits (.octets c v) := by
    rw [Writable]
    intro b hm
    rw [tooLong_eq]
    refine hc.short (Nat.lt_of_lt_of_le (m := 10 ^ 10) ?_ (Nat.pow_le_pow_right (by decide) (by decide)))
    have := hv b hm
    show b < _
    omega
  obtain ⟨t, e1⟩ := C94_str_short (cfg := cfg) ht r (by rw [NoMessage] <;> simp) hw
  have hst : valStr d (.octets c v) = .ok (ipStr v) := by
    rcases hcc with rfl | rfl <;> (rw [valStr]; rfl)
  rw [hst] at e1
  have hk := Kept.app hb t
  obtain ⟨d1, d2⟩ := C41_ip_text_round_trip c v hl hv
  have h2 := C95_ipAddress (cfg := cfg) (lo := 9) hk.base c hcc (arg := .str (ipStr v)) (y := .str (ipStr v)) rfl nofun nofun
    (fun s e => by injection e with e; subst e; exact hs)
  rw [d2] at h2
  obtain ⟨g', y, e2, k2, r2⟩ := h2
  refine ⟨_, _, y, g', e1, d1, e2, k2, r2, ?_⟩
  have n1 : Numerals cfg (.octets c v) := by rw [Numerals] <;> simp
  have r1 : Rep 9 g' (.octets c v) x := (r.app t).kept k2 (Nat.le_refl _) h9 h9
  rw [C91_eq (r2.mono hk.base.long) r1 n1 n1, C37_reflexive _ (.octets _ _)]
  rfl

/-- C108. Two strings of octets with the same hex dump are the same. -/
theorem C108_hex_injective {lo lo' : Nat} {h h' g g' : Heap} {c c' : OctCls} {s t u : Str} {x y : V} (r : Rep lo h (.octets c s) x)
    (r' : Rep lo' h' (.octets c' t) y) (hs : Octets s) (ht : Octets t) (e : callMethod cfg x "__hex__" [] h = okR (.str u) g)
    (e' : callMethod cfg' y "__hex__" [] h' = okR (.str u) g') : s = t := by
  obtain ⟨t1, h1⟩ := C94_hex (cfg := cfg) r rfl
  obtain ⟨t2, h2⟩ := C94_hex (cfg := cfg') r' rfl
  rw [e, valHex] at h1
  rw [e', valHex] at h2
  simp only [outR, okR, Option.some.injEq, Prod.mk.injEq, Out.ok.injEq, V.str.injEq] at h1 h2
  exact (C79_octets_injective c c' s t hs ht).1 (by rw [valHex, valHex, ← h1.2, ← h2.2])

/-! ## The hypotheses are met -/

def quietCfg : Cfg := { sampleCfg with debug := false }

/-- An Opaque, its length in a needlessly long form: the object that it is decoded to is sent on as an OctetString. -/
example : ∃ g n w o u, callMethod quietCfg (.ref 10) "decode" [.str [0x44, 0x81, 1, 9]] sampleHeap = okR (.ref n) g ∧
    g[n]? = some (.list [w]) ∧ callMethod quietCfg w "encode" [] g = okR (.str o) (g ++ u) ∧ Ber (.string .octetString [9]) o := by
  obtain ⟨g, n, w, o, u, e1, -, e2, -, e3, e4⟩ := C108_relay (cfg := quietCfg) (.inr (by decide)) rfl sampleCfg_knows imported_full sampleHeap_base
    (d := 10) (c := .int .integer) rfl (by decide) (plain _) rfl (a := .string .opaque [9]) (s := [0x44, 0x81, 1, 9])
    (.string .opaque [9] _ ⟨[0x81, 1], .long [1] (by decide) (by decide) (by decide), rfl⟩) (by decide +kernel) (.string .opaque _ .opaque rfl) .opaque
    (fun o h => by
      have : (Val.octets .opaque [9]).encode = .ok [4, 1, 9] := by decide +kernel
      rw [this] at h; cases h; simp)
  exact ⟨g, n, w, o, u, e1, e2, e3, e4⟩

/-- Two elements, then garbage: an exception. -/
example : ∃ n g l x g', callMethod quietCfg (.ref 10) "decode" [.str [2, 1, 5, 5, 0]] sampleHeap = okR (.ref n) g ∧ g[n]? = some (.list l) ∧
    RepAll 11 g [.integer .integer32 5, .null .null] l ∧
    callMethod quietCfg (.ref 10) "decode" [.str ([2, 1, 5, 5, 0] ++ [0x1e, 0])] sampleHeap = excR x g' := by
  have h1 := C88_decode_O (cfg := quietCfg) (.inr (by decide)) rfl sampleCfg_knows imported_full sampleHeap_base
    (a := 10) (c := .int .integer) rfl (by decide) (plain _) rfl [2, 1, 5, 5, 0] (by decide +kernel)
  have h2 := C88_decode_O (cfg := quietCfg) (.inr (by decide)) rfl sampleCfg_knows imported_full sampleHeap_base
    (a := 10) (c := .int .integer) rfl (by decide) (plain _) rfl [0x1e, 0] (by decide +kernel)
  rw [show decode regFull (.str [2, 1, 5, 5, 0]) = .ok [.integer .integer32 5, .null .null] from by decide +kernel] at h1
  rw [show decode regFull (.str [0x1e, 0]) = .error .valueError from by decide +kernel] at h2
  obtain ⟨g, n, l, e1, -, -, e2, e3⟩ := h1
  obtain ⟨g', x, e4, -⟩ := h2
  have he : Elements [2, 1, 5, 5, 0] := .cons (s := [2, 1, 5]) (.mk [5] (.low 2 (by decide)) (.short 1 (by decide)))
    (.cons (s := [5, 0]) (.mk [] (.low 5 (by decide)) (.short 0 (by decide))) .nil)
  obtain ⟨-, h3⟩ := C108_concatenation (cfg := quietCfg) (.inr (by decide)) rfl sampleCfg_knows imported_full sampleHeap_base
    (d := 10) (c := .int .integer) rfl (by decide) (plain _) rfl he [0x1e, 0] (by decide +kernel) e1 e2 e3
  obtain ⟨_, x', g'', e5, -⟩ := h3 x g' e4
  exact ⟨n, g, l, x', g'', e1, e2, e3, e5⟩

/-- A Counter at 5: 4294967290 more is its maximum, and one more is 1. -/
def meterHeap : Heap := statics ++ [.inst (cid (.int .counter)) [("value", .int 5)], .inst (cid (.int .guage)) [("value", .int 5)],
  .inst (cid (.oct .ipAddress)) [("value", .str [10, 0, 0, 255])], .inst (cid (.oct .octetString)) [("value", .str [104, 105])]]

theorem meterHeap_base : Base meterHeap := (Kept.app base_statics _).base

example : ∃ g, Sums sampleCfg 10 meterHeap [.add 4294967290, .add 1] [.none, .none] g ∧ Rep 9 g (.integer .counter 1) (.ref 10) ∧
    g[11]? = meterHeap[11]? := by
  obtain ⟨g, s, -, r, f⟩ := C108_counter (cfg := sampleCfg) (.inr (by decide)) (c := .counter) (.inl rfl) (lo := 9) (by decide) (a := 10)
    [4294967290, 1] meterHeap_base (v := 5) (by decide) (by rw [Rep]; exact ⟨10, [("value", .int 5)], rfl, by decide, rfl, plain _, rfl⟩)
    (by decide)
  exact ⟨g, s, by simpa [wrapped, range] using r, f 11 (by decide) (by decide) (by decide)⟩

example : ∃ g, Sums sampleCfg 11 meterHeap [.sub 7, .add 4294967300] [.none, .none] g ∧
    Rep 9 g (.integer .guage 4294967295) (.ref 11) := by
  obtain ⟨g, s, -, r, -⟩ := C108_guage (cfg := sampleCfg) (.inr (by decide)) (c := .guage) (.inl rfl) (lo := 9) (by decide) (a := 11)
    [.sub 7, .add 4294967300] meterHeap_base (v := 5) (by rw [Rep]; exact ⟨11, [("value", .int 5)], rfl, by decide, rfl, plain _, rfl⟩)
  exact ⟨g, s, by simpa [latched] using r⟩

/-- 2^32 is refused as the value of a Counter, 2^32 - 1 is not. -/
example : (∃ h' x, call program sampleCfg (.cls (cid (.int .counter))) [.int 4294967295] meterHeap = okR x h') ∧
    ∃ h' args, call program sampleCfg (.cls (cid (.int .counter))) [.int 4294967296] meterHeap = excR (.exc "ValueError" args) h' := by
  obtain ⟨h', x, e, -⟩ := (C108_new (cfg := sampleCfg) (.inr (by decide)) meterHeap_base .counter 4294967295).1 (by decide)
  obtain ⟨g, args, e', -⟩ := (C108_new (cfg := sampleCfg) (.inr (by decide)) meterHeap_base .counter 4294967296).2 (by decide)
  exact ⟨⟨h', x, e⟩, g, args, e'⟩

/-- `IPAddress(str(x)) == x` for 10.0.0.255. -/
example : ∃ s g y g', toStr program sampleCfg (.ref 12) meterHeap = okR s g ∧
    call program sampleCfg (.cls (cid (.oct .ipAddress))) [.str s] g = okR y g' ∧
    Src.compare program sampleCfg .eq y (.ref 12) g' = okR (.bool true) g' := by
  obtain ⟨s, g, y, g', e1, -, e2, -, -, e3⟩ := C108_ip_text (cfg := sampleCfg) (.inr (by decide)) (c := .ipAddress) (.inl rfl) (lo := 9) (by decide)
    (d := errString1) meterHeap_base ⟨rfl, rfl⟩ (v := [10, 0, 0, 255]) rfl (by decide)
    (by rw [Rep]; exact ⟨12, [("value", .str [10, 0, 0, 255])], rfl, by decide, rfl, plain _, rfl⟩) (.inr (by decide +kernel))
  exact ⟨s, g, y, g', e1, e2, e3⟩

/-- `.1.3.6.1.4.1.99999` is a prefix of itself; its encoding and that of `OctetString('hi')` have at most as many octets as said. -/
example : callMethod sampleCfg (.ref 13) "isPrefixOf" [.ref 13] treeHeap = okR (.bool true) treeHeap ∧
    ∃ s g, callMethod sampleCfg (.ref 10) "encode" [] treeHeap = okR (.str s) g ∧ Octets s ∧ 17 ≤ s.length ∧ s.length ≤ 55 := by
  refine ⟨(C108_isPrefixOf (cfg := sampleCfg) tree_oid tree_oid).trans (by simp), ?_⟩
  have h1 : ∃ s, tree.encode = .ok s ∧ s.length < 256 := by
    have h1 : (match tree.encode with | .ok s => decide (s.length < 256) | _ => false) = true := by decide +kernel
    cases h : tree.encode with
    | error e => rw [h] at h1; cases h1
    | ok s => rw [h] at h1; exact ⟨s, rfl, of_decide_eq_true h1⟩
  obtain ⟨s0, e0, l0⟩ := h1
  have hsane := sane_of_encode tree s0 e0 (Nat.lt_of_lt_of_le l0 (by decide +kernel)) (represents_noMessage _ _ tree_asn)
  obtain ⟨t, e⟩ := C89_encode (cfg := sampleCfg) (.inr (by decide)) tree_rep rfl hsane
  rw [e0, outR] at e
  obtain ⟨h1, h2⟩ := C108_encoded (cfg := sampleCfg) (.inr (by decide)) tree_rep rfl hsane e
  have hm : Moderate tree := .seq _ _ fun v hv => by
    simp only [List.mem_cons, List.not_mem_nil, or_false] at hv
    rcases hv with rfl | rfl | rfl
    · exact .integer _ _ (by decide)
    · exact .oid [1, 3, 6, 1, 4, 1, 99999] (by decide)
    · exact .octets _ _
  have h3 := h2 hm
  have hl : least tree = 17 := by decide +kernel
  have hr : room tree = 55 := by decide +kernel
  rw [hl, hr] at h3
  refine ⟨s0, _, e, h1 ?_, h3.1, h3.2 (by decide)⟩
  rw [tree, StringsOctets]
  simp only [StringsOctetsList, StringsOctets]
  exact ⟨trivial, trivial, by unfold Octets; decide, trivial⟩

/-- The hex dump of `OctetString('hi')`. -/
example : ∃ u g, callMethod sampleCfg (.ref 13) "__hex__" [] meterHeap = okR (.str u) g ∧
    ∀ t, Octets t → ∀ h' y g', Rep 9 h' (.octets .opaque t) y → callMethod sampleCfg y "__hex__" [] h' = okR (.str u) g' → t = [104, 105] := by
  have r : Rep 9 meterHeap (.octets .octetString [104, 105]) (.ref 13) := by
    rw [Rep]; exact ⟨13, [("value", .str [104, 105])], rfl, by decide, rfl, plain _, rfl⟩
  obtain ⟨t, e⟩ := C94_hex (cfg := sampleCfg) r rfl
  rw [valHex, outR] at e
  exact ⟨_, _, e, fun t ht h' y g' r' e' => (C108_hex_injective r r' (by unfold Octets; decide) ht e e').symm⟩

/-- An Integer and a NULL, in the octets `02 01 05 05 00`; `1e 00` has no meaning. -/
example : (∃ n g l, callMethod quietCfg (.ref 10) "decode" [.str [2, 1, 5, 5, 0]] sampleHeap = okR (.ref n) g ∧ g[n]? = some (.list l) ∧
      RepAll 11 g [.integer .integer32 5, .null .null] l ∧ weights [.integer .integer32 5, .null .null] ≤ 5) ∧
    ∃ x g, callMethod quietCfg (.ref 10) "decode" [.str [0x1e, 0]] sampleHeap = excR x g := by
  obtain ⟨h1, -⟩ := C108_parses (cfg := quietCfg) (.inr (by decide)) rfl sampleCfg_knows imported_full sampleHeap_base
    (d := 10) (c := .int .integer) rfl (by decide) (plain _) rfl (s := [2, 1, 5, 5, 0]) (by decide +kernel) (by unfold Octets; decide)
  obtain ⟨-, h2⟩ := C108_parses (cfg := quietCfg) (.inr (by decide)) rfl sampleCfg_knows imported_full sampleHeap_base
    (d := 10) (c := .int .integer) rfl (by decide) (plain _) rfl (s := [0x1e, 0]) (by decide +kernel) (by unfold Octets; decide)
  refine ⟨?_, ?_⟩
  · obtain ⟨n, g, l, e1, -, e2, e3, -⟩ := h1 [.integer .integer32 5, .null .null]
      ((C65_parse_iff imported_full _ (by unfold Octets; decide) _).1 (by decide +kernel))
    exact ⟨n, g, l, e1, e2, e3, (C108_decoded (cfg := quietCfg) (.inr (by decide)) rfl sampleCfg_knows imported_full sampleHeap_base
      (d := 10) (c := .int .integer) rfl (by decide) (plain _) rfl (by decide +kernel) e1 e2 e3).1 (by unfold Octets; decide)⟩
  · obtain ⟨x, g, e, -⟩ := h2 fun ⟨vs, hv⟩ => by
      have h3 := (C65_parse_iff imported_full _ (by unfold Octets; decide) _).2 hv
      rw [show decode regFull (.str [0x1e, 0]) = .error .valueError from by decide +kernel] at h3
      cases h3
    exact ⟨x, g, e⟩

/-- `ObjectID('.1.3')` and `IPAddress('10.0.0.255')` are made; `ObjectID('1.x')` and `IPAddress('10.0.0')` are not. -/
example : (∃ g x, call program sampleCfg (.cls (cid .oid)) [.str [46, 49, 46, 51]] statics = okR x g ∧ Rep 9 g (.oid (some [1, 3])) x) ∧
    (∃ g args, call program sampleCfg (.cls (cid .oid)) [.str [49, 46, 120]] statics = excR (.exc "ValueError" args) g) ∧
    (∃ g x, call program sampleCfg (.cls (cid (.oct .ipAddress))) [.str [49, 48, 46, 48, 46, 48, 46, 50, 53, 53]] statics = okR x g ∧
      Rep 9 g (.octets .ipAddress [10, 0, 0, 255]) x) ∧
    ∃ g t args, call program sampleCfg (.cls (cid (.oct .ipAddress))) [.str [49, 48, 46, 48, 46, 48]] statics = excR (.exc t args) g := by
  refine ⟨?_, ?_, ?_, ?_⟩
  · obtain ⟨u, t, w, ps, l, e1, e2, e3, e4, e5, e6, e8, e7⟩ := (C16_oid_text_accepted_iff [46, 49, 46, 51] (some [1, 3])).1 (by decide +kernel)
    cases e8
    obtain ⟨g, x, e, -, r⟩ := (C108_oid_accepts (cfg := sampleCfg) base_statics (.inr (by decide))).1 [1, 3]
      ⟨u, t, w, ps, e1, e2, e3, e4, e5, e6, e7⟩
    exact ⟨g, x, e, r.mono base_statics.long⟩
  · obtain ⟨g, args, e, -⟩ := (C108_oid_accepts (cfg := sampleCfg) base_statics (s := [49, 46, 120]) (.inr (by decide))).2
      fun ⟨l, u, t, w, ps, e1, e2, e3, e4, e5, e6, e7⟩ => by
        have h1 := (C16_oid_text_accepted_iff [49, 46, 120] (some l)).2 ⟨u, t, w, ps, l, e1, e2, e3, e4, e5, e6, rfl, e7⟩
        rw [show mkOid (.str [49, 46, 120]) = .error .valueError from by decide +kernel] at h1
        cases h1
    exact ⟨g, args, e⟩
  · obtain ⟨ps, l, e1, e2, e4, e3⟩ := (C41_ip_text_accepted_iff .ipAddress [49, 48, 46, 48, 46, 48, 46, 50, 53, 53]
      (.octets .ipAddress [10, 0, 0, 255])).1 (by decide +kernel)
    cases e4
    obtain ⟨g, x, e, -, r⟩ := (C108_ip_accepts (cfg := sampleCfg) (c := .ipAddress) (.inl rfl) base_statics (.inr (by decide))).1 _ ⟨ps, e1, e2, e3⟩
    exact ⟨g, x, e, r.mono base_statics.long⟩
  · obtain ⟨g, t, args, e, -⟩ := (C108_ip_accepts (cfg := sampleCfg) (c := .ipAddress) (.inl rfl) base_statics
      (s := [49, 48, 46, 48, 46, 48]) (.inr (by decide))).2
      fun ⟨l, ps, e1, e2, e3⟩ => by
        have h1 := (C41_ip_text_accepted_iff .ipAddress [49, 48, 46, 48, 46, 48] _).2 ⟨ps, l, e1, e2, rfl, e3⟩
        rw [show mkIPAddress .ipAddress (.str [49, 48, 46, 48, 46, 48]) = .error .valueError from by decide +kernel] at h1
        cases h1
    exact ⟨g, t, args, e⟩

end Libsnmp
