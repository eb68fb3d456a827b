import Verif.Props.Source3
import Verif.Props.Source7
import Verif.Props.Equality
import Verif.Props.Text
import Verif.Props.Objects
import Verif.Props.Responses
import Verif.Props.Source11

/-!
# C105: the guarantees of the codec, of equality and of texts, stated of the source text alone
-/

namespace Libsnmp
open Src Spec

variable {cfg cfg' : Cfg}

/-! ## What a well-formed tree is -/

mutual
theorem represents_noMessage : ∀ (x : Val) (a : Asn), Represents x a → NoMessage x
  | .integer _ _, _, _ => by rw [NoMessage] <;> simp
  | .octets _ _, _, _ => by rw [NoMessage] <;> simp
  | .null _, _, _ => by rw [NoMessage] <;> simp
  | .oid _, _, _ => by rw [NoMessage] <;> simp
  | .seq c items, .seq as, h => by
    cases h with
    | seq _ _ _ hc hl =>
      rw [NoMessage]
      refine ⟨?_, ?_, representsList_noMessages items as hl⟩ <;> (rintro rfl; simp [sequenceClasses] at hc)
theorem representsList_noMessages : ∀ (xs : List Val) (as : List Asn), RepresentsList xs as → NoMessages xs
  | [], _, _ => by rw [NoMessages]; trivial
  | x :: xs, a :: as, h => by
    cases h with
    | cons h1 h2 =>
      rw [NoMessages]
      exact ⟨represents_noMessage x a h1, representsList_noMessages xs as h2⟩
end

theorem represents_obj {x : Val} {a : Asn} (h : Represents x a) : Obj x = true := by cases h <;> rfl

theorem wire_bound : (256 : Nat) ^ 127 < 10 ^ 640 := by decide +kernel

/-- C105. `x.encode()` on a well-formed object returns the BER encoding of the value that it stands for. -/
theorem C105_encode_ber (hc : Limits cfg) {lo : Nat} {h : Heap} {v : Val} {x : V} {a : Asn} (r : Rep lo h v x) (hv : Represents v a)
    (hs : ∀ s, v.encode = .ok s → s.length < 256 ^ 127) :
    ∃ s t, callMethod cfg x "encode" [] h = okR (.str s) (h ++ t) ∧ Ber a s := by
  obtain ⟨s, e1, e2⟩ := encode_ber v a hv
  have hl := hs s e1
  obtain ⟨t, ht⟩ := C89_encode (cfg := cfg) hc r (represents_obj hv)
    (sane_of_encode v s e1 (Nat.lt_trans hl wire_bound) (represents_noMessage v a hv))
  rw [e1, outR] at ht
  exact ⟨s, t, ht, e2 hl⟩

/-- C105. One process encodes an object, another decodes the octets with an object of its own of any class: it gets a list with one
object, which stands for the same value, and encodes to the same octets again; and all that existed before is as it was. -/
theorem C105_object_wire (hc : Limits cfg) {lo : Nat} {h : Heap} {v : Val} {x : V} {a : Asn} (r : Rep lo h v x) (hv : Represents v a)
    (ha : SmallArcs a) (hs : ∀ s, v.encode = .ok s → s.length < 256 ^ 127)
    (hc' : Limits cfg') (hD : cfg'.limit = 0) {reg : Reg} (hreg : Knows cfg' reg) (hi : Imported reg) {h' : Heap} (hb : Base h')
    {d : Nat} {c : Cls} {attrs : List (String × V)} (hd : h'[d]? = some (.inst (cid c) attrs)) (h9 : 9 ≤ d) (hp : Plain attrs)
    (hdec : Decodable c = true) :
    ∃ s t g b w y, callMethod cfg x "encode" [] h = okR (.str s) (h ++ t) ∧
      callMethod cfg' (.ref d) "decode" [.str s] h' = okR (.ref b) g ∧ Kept h'.length h' g ∧ g[b]? = some (.list [w]) ∧
      Rep h'.length g y w ∧ Represents y a ∧ ∃ u, callMethod cfg' w "encode" [] g = okR (.str s) (g ++ u) := by
  obtain ⟨y, hy, -, henc, s, e1, e2⟩ := C19_object_roundtrip_registries reg hi hv ha
  have hl := hs s e1
  have hl' := Nat.lt_trans hl wire_bound
  obtain ⟨t, ht⟩ := C89_encode (cfg := cfg) hc r (represents_obj hv) (sane_of_encode v s e1 hl' (represents_noMessage v a hv))
  rw [e1, outR] at ht
  have h2 := C88_decode_O hc' hD hreg hi hb hd h9 hp hdec s hl'
  rw [e2 hl] at h2
  obtain ⟨g, b, l, f1, f2, -, f3, f4⟩ := h2
  rw [RepAll] at f4
  obtain ⟨w, l', rfl, f5, f6⟩ := f4
  rw [RepAll] at f6
  subst f6
  rw [e1] at henc
  obtain ⟨u, hu⟩ := C89_encode (cfg := cfg') hc' f5 (represents_obj hy) (sane_of_encode y s henc hl' (represents_noMessage y a hy))
  rw [henc, outR] at hu
  exact ⟨s, t, g, b, w, y, ht, f1, f2, f3, f5, hy, u, hu⟩

/-- C105. Objects, of one process or of two, that encode to the same octets stand for the same value; and those that stand for the
same value encode to the same octets. -/
theorem C105_unique (hc : Limits cfg) (hc' : Limits cfg') {lo lo' : Nat} {h h' : Heap} {v w : Val} {x y : V} {a b : Asn}
    (r : Rep lo h v x) (r' : Rep lo' h' w y) (hv : Represents v a) (hw : Represents w b)
    (hs : ∀ s, v.encode = .ok s → s.length < 256 ^ 127) (hs' : ∀ s, w.encode = .ok s → s.length < 256 ^ 127) :
    ∃ s s' t t', callMethod cfg x "encode" [] h = okR (.str s) (h ++ t) ∧ callMethod cfg' y "encode" [] h' = okR (.str s') (h' ++ t') ∧
      (s = s' ↔ a = b) := by
  obtain ⟨s, e1, e2⟩ := encode_ber v a hv
  obtain ⟨s', e1', e2'⟩ := encode_ber w b hw
  obtain ⟨t, ht⟩ := C89_encode (cfg := cfg) hc r (represents_obj hv)
    (sane_of_encode v s e1 (Nat.lt_trans (hs s e1) wire_bound) (represents_noMessage v a hv))
  obtain ⟨t', ht'⟩ := C89_encode (cfg := cfg') hc' r' (represents_obj hw)
    (sane_of_encode w s' e1' (Nat.lt_trans (hs' s' e1') wire_bound) (represents_noMessage w b hw))
  rw [e1, outR] at ht
  rw [e1', outR] at ht'
  refine ⟨s, s', t, t', ht, ht', ?_, ?_⟩
  · rintro rfl
    exact (C22_encoding_unique hv hw e1 (r := []) (by rw [List.append_nil]; exact e1') (by rw [List.append_nil]; exact hs' s e1')).2
  · rintro rfl
    have := C22_encoding_canonical hv hw
    rw [e1, e1'] at this
    injection this

/-- C105. `decode` on any text whatever: it ends, with a list of objects, at most one for every two characters, or with one of six
exceptions; and all that existed before is as it was. -/
theorem C105_decode_total (hc : Limits cfg) {reg : Reg} (hreg : Knows cfg reg) (hi : Imported reg) {h : Heap} (hb : Base h) {a : Nat}
    {c : Cls} {attrs : List (String × V)} (ha : h[a]? = some (.inst (cid c) attrs)) (h9 : 9 ≤ a) (hp : Plain attrs)
    (hd : Decodable c = true) (s : Str) (hs : s.length < 10 ^ 640) :
    ∃ h', Kept h.length h h' ∧
      ((∃ b l vs, callMethod cfg (.ref a) "decode" [.str s] h = okR (.ref b) h' ∧ h'[b]? = some (.list l) ∧ RepAll h.length h' vs l ∧
          2 * l.length ≤ s.length) ∨
       ∃ e x, callMethod cfg (.ref a) "decode" [.str s] h = excR x h' ∧ Raised h' e x ∧ e ∈ [Exc.valueError, .typeError, .indexError, .notImplementedError, .pduError, .pduError2]) := by
  have h1 := C88_decode hc hreg hi hb ha h9 hp hd s hs
  have key : (∃ vs, decode311 reg cfg.limit s = .ok vs ∧ 2 * vs.length ≤ s.length) ∨
      ∃ e, decode311 reg cfg.limit s = .error e ∧ e ∈ decodeExceptions := by
    rcases C86_limit_or_same reg cfg.limit s with h2 | h2
    · exact .inr ⟨_, h2, by simp [decodeExceptions]⟩
    · rw [h2]; exact C23_decode_outcomes reg hi s
  rcases key with ⟨vs, h2, h3⟩ | ⟨e, h2, h3⟩
  · rw [h2] at h1
    obtain ⟨h', b, l, e1, e2, -, e3, e4⟩ := h1
    have : vs.length = l.length := by
      clear e3 e1 h2 h3
      induction vs generalizing l with
      | nil => rw [RepAll] at e4; subst e4; rfl
      | cons v vs ih =>
        rw [RepAll] at e4
        obtain ⟨w, l', rfl, -, e5⟩ := e4
        simp [ih _ e5]
    exact ⟨h', e2, .inl ⟨b, l, vs, e1, e3, e4, by omega⟩⟩
  · rw [h2] at h1
    obtain ⟨h', x, e1, e2, e3⟩ := h1
    exact ⟨h', e2, .inr ⟨e, x, e1, e3, h3⟩⟩

/-! ## Equality -/

/-- C105. `==` of Integers, of whatever classes: reflexive, symmetric, transitive, it compares the numbers, and equal Integers have
the same hash. -/
theorem C105_integers {lo : Nat} {h : Heap} {c1 c2 c3 : IntCls} {m n k : Int} {x y z : V} (rx : Rep lo h (.integer c1 m) x)
    (ry : Rep lo h (.integer c2 n) y) (rz : Rep lo h (.integer c3 k) z) :
    Src.compare program cfg .eq x x h = okR (.bool true) h ∧
    Src.compare program cfg .eq x y h = Src.compare program cfg .eq y x h ∧
    (Src.compare program cfg .eq x y h = okR (.bool true) h → Src.compare program cfg .eq y z h = okR (.bool true) h →
      Src.compare program cfg .eq x z h = okR (.bool true) h) ∧
    (Src.compare program cfg .eq x y h = okR (.bool true) h ↔ m = n) ∧
    (Src.compare program cfg .eq x y h = okR (.bool true) h →
      ∃ i, callMethod cfg x "__hash__" [] h = okR (.int i) h ∧ callMethod cfg y "__hash__" [] h = okR (.int i) h) := by
  have hN : ∀ (c : IntCls) (i : Int), Numerals cfg (.integer c i) := fun c i => by rw [Numerals] <;> simp
  have hE : ∀ {c d : IntCls} {i j : Int} {u w : V}, Rep lo h (.integer c i) u → Rep lo h (.integer d j) w →
      (Src.compare program cfg .eq u w h = okR (.bool (decide (i = j))) h) := fun ru rw' => by
    rw [C91_eq ru rw' (hN _ _) (hN _ _), C36_eq]; rfl
  have hT : ∀ {b : Bool}, (okR (V.bool b) h : R V) = okR (.bool true) h ↔ b = true := fun {b} => by
    constructor
    · intro e; simp only [okR, Option.some.injEq, Prod.mk.injEq, true_and, Out.ok.injEq, V.bool.injEq] at e; exact e
    · rintro rfl; rfl
  rw [hE rx rx, hE rx ry, hE ry rx, hE ry rz, hE rx rz]
  simp only [hT, decide_eq_true_eq]
  refine ⟨trivial, ?_, fun e1 e2 => e1.trans e2, trivial, ?_⟩
  · rw [show decide (m = n) = decide (n = m) from by rw [Bool.eq_iff_iff]; simp only [decide_eq_true_eq]; exact eq_comm]
  · rintro rfl
    rw [C91_hash rx, C91_hash ry]
    exact ⟨_, rfl, rfl⟩

mutual
theorem numerals_tree {x : Val} (h : ObjectTree x) : Numerals cfg x := by
  cases h with
  | seq c hl => rw [Numerals]; exact numerals_trees hl
  | _ => rw [Numerals] <;> simp
theorem numerals_trees {l : List Val} (h : ObjectTrees l) : NumeralsAll cfg l := by
  cases h with
  | nil => rw [NumeralsAll]; trivial
  | cons h1 h2 => rw [NumeralsAll]; exact ⟨numerals_tree h1, numerals_trees h2⟩
end

theorem outR_true {r : Except Exc Bool} {h : Heap} : (outR r V.bool h = okR (.bool true) h) ↔ r = .ok true := by
  cases r with
  | ok b => simp [outR, okR]
  | error e => simp [outR, okR, excR]

/-- C105. `==` of trees of objects: True exactly if they have the same shape, the same classes apart from those of Integers, and the
same contents; so it is reflexive, symmetric and transitive; and `!=` never says True where `==` does. -/
theorem C105_trees {lo : Nat} {h : Heap} {u v w : Val} {x y z : V} (rx : Rep lo h u x) (ry : Rep lo h v y) (rz : Rep lo h w z)
    (hu : ObjectTree u) (hv : ObjectTree v) (hw : ObjectTree w) :
    (Src.compare program cfg .eq x y h = okR (.bool true) h ↔ Equal u v) ∧
    Src.compare program cfg .eq x x h = okR (.bool true) h ∧
    (Src.compare program cfg .eq x y h = okR (.bool true) h → Src.compare program cfg .eq y x h = okR (.bool true) h) ∧
    (Src.compare program cfg .eq x y h = okR (.bool true) h → Src.compare program cfg .eq y z h = okR (.bool true) h →
      Src.compare program cfg .eq x z h = okR (.bool true) h) ∧
    (Src.compare program cfg .eq x y h = okR (.bool true) h → Src.compare program cfg .ne x y h = okR (.bool false) h) := by
  have nu := numerals_tree (cfg := cfg) hu
  have nv := numerals_tree (cfg := cfg) hv
  have nw := numerals_tree (cfg := cfg) hw
  rw [C91_eq rx ry nu nv, C91_eq rx rx nu nu, C91_eq ry rx nv nu, C91_eq ry rz nv nw, C91_eq rx rz nu nw, C91_ne rx ry nu nv]
  simp only [outR_true]
  refine ⟨C37_eq_iff u v hu hv, C37_reflexive u hu, (C37_symmetric u v hu hv).1.1, C37_transitive u v w hu hv hw, fun e => ?_⟩
  rw [C37_ne, e]; rfl

/-! ## Texts -/

/-- C105. `ObjectID(str(x))` is an object of its own with the numbers of `x`, and `==` says that it equals `x`, for every object
identifier whose numbers are below 2^31. -/
theorem C105_oid_text (hc : Limits cfg) {lo : Nat} (h9 : 9 ≤ lo) {d : Table} {h : Heap} (hb : Base h) (ht : Texts d h) {ns : List Nat} (hne : ns ≠ [])
    (hr : ∀ n ∈ ns, n < 2 ^ 31) {x : V} (r : Rep lo h (.oid (some (ints ns))) x)
    (hs : Short cfg (oidStr (some (ints ns)))) :
    ∃ s g y g', toStr program cfg x h = okR s g ∧ (∃ t, DottedText ns t ∧ s = 46 :: t) ∧
      call program cfg (.cls (cid .oid)) [.str s] g = okR y g' ∧ Kept g.length g g' ∧ Rep g.length g' (.oid (some (ints ns))) y ∧
      Src.compare program cfg .eq y x g' = okR (.bool true) g' := by
  have hw : Writable cfg.digits (.oid (some (ints ns))) := by
    rw [Writable]
    intro ids e n hn
    injection e with e
    subst e
    obtain ⟨m, hm, rfl⟩ := List.mem_map.1 hn
    rw [tooLong_eq]
    refine hc.short (Nat.lt_of_lt_of_le (m := 10 ^ 10) ?_ (Nat.pow_le_pow_right (by decide) (by decide)))
    have := hr m hm
    show m < _
    omega
  obtain ⟨t, e1⟩ := C94_str_short (cfg := cfg) ht r (by rw [NoMessage] <;> simp) hw
  rw [valStr] at e1
  have hk := Kept.app hb t
  have h2 := C93_new (cfg := cfg) (lo := 9) hk.base (arg := .str (oidStr (some (ints ns)))) (y := .str (oidStr (some (ints ns)))) rfl
    (fun s e => by injection e with e; subst e; exact hs)
  rw [(C15_oid_text_round_trip ns hne hr).1] at h2
  obtain ⟨g', y, e2, k2, r2⟩ := h2
  obtain ⟨t', d1, d2⟩ := C15_oid_str ns hne
  refine ⟨_, _, y, g', e1, ⟨t', d1, d2⟩, e2, k2, r2, ?_⟩
  have n1 : Numerals cfg (.oid (some (ints ns))) := by rw [Numerals] <;> simp
  have r1 : Rep 9 g' (.oid (some (ints ns))) x := (r.app t).kept k2 (Nat.le_refl _) h9 h9
  rw [C91_eq (r2.mono hk.base.long) r1 n1 n1, C37_reflexive _ (.oid _)]
  rfl

/-! ## Managers -/

section Managers

variable {nm : Src.Names} {env : Libsnmp.Env} {S : Site}

/-- What `receiveData` of any kind of manager does (C98). -/
theorem receives {k : Libsnmp.Kind} (hc : Limits cfg) (hreg : Knows cfg env.reg) (hi : Imported env.reg) {h : Heap} (hb : Base h) {a : Nat}
    {s : Mgr k} (r : MgrRep nm env h a s) {U : Nat → Prop} {user : User k} (hu : Obeys cfg nm env U h.length a user)
    (hprint : k = .v2 → ∀ h, cfg.ext "traceback.print_exc" [] h = okR .none h) (t : Str) (ht : t.length < 10 ^ 640) (manager ctx src : V) :
    Receives nm env U h a (callMethod cfg (.ref a) "receiveData" [manager, ctx, .tuple [.str t, src], .tuple [.none, .none, .none]] h)
      (receiveData311 env cfg.limit k user (.str t) s) := by
  cases k with
  | v1 => exact C98_v1 hc hreg hi hb r hu t ht manager ctx src
  | v2 => exact C98_v2 hc hreg hi hb r hu (hprint rfl) t ht manager ctx src
  | sm => exact C98_snmpManager hc hreg hi hb r hu t ht manager ctx src

/-- C105. At any point of the history of a `v2.SNMP`, whatever text arrives and whatever exceptions the callbacks raise, `receiveData`
returns, and the manager is one that goes on working. -/
theorem C105_v2_survives (hi : Imported env.reg) {h0 h : Heap} (f : JustMade nm env .v2 S h0) {l : List (Step .v2 × Heap × Out V)}
    {s : Mgr .v2} (hh : History nm env S h0 l h s) (hc : Limits cfg) (hreg : Knows cfg env.reg)
    (hprint : ∀ h, cfg.ext "traceback.print_exc" [] h = okR .none h) (user : Nat → Option Msg → Act .v2)
    (hu : Obeys cfg nm env S.U h.length S.a fun cb m => (user cb m).exec env)
    (he : ∀ cb m s e, ((user cb m).exec env s).1 = .error e → e.isException = true)
    (t : Str) (ht : t.length < 10 ^ 640) (manager ctx src : V) :
    ∃ x h', ∃ s' : Mgr .v2, callMethod cfg (.ref S.a) "receiveData" [manager, ctx, .tuple [.str t, src], .tuple [.none, .none, .none]] h = okR x h' ∧
      Base h' ∧ MgrRep nm env h' S.a s' := by
  obtain ⟨hr, r⟩ := C102_reachable hi f hh
  have hb := (history_holds hi f hh).base
  obtain ⟨h', attrs, attrs', q, d, -, -, -, hl, m, e⟩ := receives (cfg := cfg) hc hreg hi hb r hu (fun _ => hprint) t ht manager ctx src
  have key : (receiveData311 env cfg.limit .v2 (fun cb m => (user cb m).exec env) (.str t) s).1 = .ok () := by
    rcases C86_limit_or_same env.reg cfg.limit t with h1 | h1
    · unfold receiveData311
      rw [msgDecode311_value env.reg cfg.limit _ t h1]
      rfl
    · rw [C86_manager_same env cfg.limit .v2 _ t s h1]
      exact C49_v2_survives hi hr user he (.str t)
  rw [key] at e
  obtain ⟨x, e⟩ := e
  exact ⟨x, h', _, e, hl.base, attrs', q, d, m⟩

/-- C105. At any point of the history of a manager of any kind, a text that does not decode, or whose version is not the manager's, or
which answers no request that is still waiting and is no trap for a trap callback, leaves the manager exactly as it was. -/
theorem C105_unsolicited {k : Libsnmp.Kind} (hi : Imported env.reg) {h0 h : Heap} (f : JustMade nm env k S h0)
    {l : List (Step k × Heap × Out V)} {s : Mgr k} (hh : History nm env S h0 l h s) (hc : Limits cfg) (hreg : Knows cfg env.reg)
    (hprint : k = .v2 → ∀ h, cfg.ext "traceback.print_exc" [] h = okR .none h) (user : Nat → Option Msg → Act k)
    (hu : Obeys cfg nm env S.U h.length S.a fun cb m => (user cb m).exec env) (t : Str) (ht : t.length < 10 ^ 640)
    (hd : ∀ m, msgDecode env.reg (msgCls k) (.str t) = .ok m → accepts k m →
      (∀ n cb, answers k m = some n → ¬ Pending s.log n cb) ∧ (isTrap k m → env.trapCallback = none)) (manager ctx src : V) :
    ∃ o h', callMethod cfg (.ref S.a) "receiveData" [manager, ctx, .tuple [.str t, src], .tuple [.none, .none, .none]] h = some (h', o) ∧
      Base h' ∧ MgrRep nm env h' S.a s := by
  obtain ⟨hr, r⟩ := C102_reachable hi f hh
  have hb := (history_holds hi f hh).base
  obtain ⟨h', attrs, attrs', q, d, -, -, -, hl, m, e⟩ := receives (cfg := cfg) hc hreg hi hb r hu hprint t ht manager ctx src
  have key : (receiveData311 env cfg.limit k (fun cb m => (user cb m).exec env) (.str t) s).2 = s := by
    rcases C86_limit_or_same env.reg cfg.limit t with h1 | h1
    · unfold receiveData311
      rw [msgDecode311_value env.reg cfg.limit _ t h1]
      cases k <;> rfl
    · rw [C86_manager_same env cfg.limit k _ t s h1]
      exact C48_unsolicited hr user (.str t) hd
  generalize receiveData311 env cfg.limit k (fun cb m => (user cb m).exec env) (.str t) s = z at m e key
  obtain ⟨z, s'⟩ := z
  dsimp only at m e key
  subst key
  cases z with
  | ok u => obtain ⟨x, e⟩ := e; exact ⟨_, h', e, hl.base, attrs', q, d, m⟩
  | error y => obtain ⟨-, x, e, -⟩ := e; exact ⟨_, h', e, hl.base, attrs', q, d, m⟩

end Managers

/-! ## The hypotheses are met -/

/-- `Sequence([Integer(-5), ObjectID('.1.3.6.1.4.1.99999'), OctetString('hi')])`, an `Integer32(-5)`, and an ObjectID of its own. -/
def treeHeap : Heap := statics ++
  [.inst (cid (.seq .sequence)) [("value", .ref 11)], .list [.ref 12, .ref 13, .ref 15], .inst (cid (.int .integer)) [("value", .int (-5))],
   .inst (cid .oid) [("value", .ref 14)], .list ([1, 3, 6, 1, 4, 1, 99999].map V.int),
   .inst (cid (.oct .octetString)) [("value", .str [104, 105])], .inst (cid (.int .integer32)) [("value", .int (-5))]]

def tree : Val := .seq .sequence [.integer .integer (-5), .oid (some [1, 3, 6, 1, 4, 1, 99999]), .octets .octetString [104, 105]]

theorem treeHeap_base : Base treeHeap := (Kept.app base_statics _).base

theorem tree_oid : Rep 9 treeHeap (.oid (some (ints [1, 3, 6, 1, 4, 1, 99999]))) (.ref 13) := by
  rw [Rep]; exact ⟨13, [("value", .ref 14)], 14, rfl, by decide, rfl, plain _, rfl, by decide, rfl⟩

theorem tree_rep : Rep 9 treeHeap tree (.ref 10) := by
  rw [tree, Rep]
  refine ⟨10, [("value", .ref 11)], 11, [.ref 12, .ref 13, .ref 15], rfl, by decide, rfl, plain _, rfl, by decide, rfl, by simp [Fields, fieldNames], ?_⟩
  rw [RepAll]
  refine ⟨_, _, rfl, by rw [Rep]; exact ⟨12, [("value", .int (-5))], rfl, by decide, rfl, plain _, rfl⟩, ?_⟩
  rw [RepAll]
  refine ⟨_, _, rfl, tree_oid, ?_⟩
  rw [RepAll]
  refine ⟨_, _, rfl, by rw [Rep]; exact ⟨15, [("value", .str [104, 105])], rfl, by decide, rfl, plain _, rfl⟩, ?_⟩
  rw [RepAll]

theorem outOfBand_five : OutOfBand (-5) := fun k hk h => by
  have : (256 : Int) ^ 1 ≤ 256 ^ k := pow_le_pow_right₀ (by decide) hk
  omega

def treeAsn : Asn := .seq [.integer (-5), .oid [1, 3, 6, 1, 4, 1, 99999], .string .octetString [104, 105]]

theorem tree_asn : Represents tree treeAsn :=
  .seq _ _ _ (by decide) (.cons (.integer _ _ (by decide) outOfBand_five) (.cons (.oid 1 3 [6, 1, 4, 1, 99999] (by decide) (by decide))
    (.cons (.string .octetString _ _ (by decide)) .nil)))

/-- The tree goes from a process to another one. -/
example : ∃ s t g b w y, callMethod sampleCfg (.ref 10) "encode" [] treeHeap = okR (.str s) (treeHeap ++ t) ∧
    callMethod { sampleCfg with debug := false } (.ref 10) "decode" [.str s] sampleHeap = okR (.ref b) g ∧ g[b]? = some (.list [w]) ∧
    Rep 9 g y w ∧ Represents y treeAsn := by
  obtain ⟨s, t, g, b, w, y, e1, e2, -, e3, e4, e5, -⟩ := C105_object_wire (cfg := sampleCfg) (cfg' := { sampleCfg with debug := false })
    (.inr (by decide)) tree_rep tree_asn (by simp [treeAsn, SmallArcs, SmallArcsList])
    (fun s hs => by
      have h1 : (match tree.encode with | .ok s => decide (s.length < 256) | _ => false) = true := by decide +kernel
      rw [hs] at h1
      exact Nat.lt_of_lt_of_le (of_decide_eq_true h1) (by decide +kernel))
    (.inr (by decide)) rfl sampleCfg_knows imported_full sampleHeap_base (d := 10) (c := .int .integer) rfl (by decide) (plain _) rfl
  exact ⟨s, t, g, b, w, y, e1, e2, e3, e4.mono (by decide), e5⟩

/-- An `Integer` and an `Integer32` with the same number are equal, and have the same hash. -/
example : Src.compare program sampleCfg .eq (.ref 12) (.ref 16) treeHeap = okR (.bool true) treeHeap ∧
    ∃ i, callMethod sampleCfg (.ref 12) "__hash__" [] treeHeap = okR (.int i) treeHeap ∧
      callMethod sampleCfg (.ref 16) "__hash__" [] treeHeap = okR (.int i) treeHeap := by
  have r1 : Rep 9 treeHeap (.integer .integer (-5)) (.ref 12) := by
    rw [Rep]; exact ⟨12, [("value", .int (-5))], rfl, by decide, rfl, plain _, rfl⟩
  have r2 : Rep 9 treeHeap (.integer .integer32 (-5)) (.ref 16) := by
    rw [Rep]; exact ⟨16, [("value", .int (-5))], rfl, by decide, rfl, plain _, rfl⟩
  obtain ⟨-, -, -, h1, h2⟩ := C105_integers (cfg := sampleCfg) r1 r2 r2
  exact ⟨h1.mpr rfl, h2 (h1.mpr rfl)⟩

/-- The tree equals itself. -/
example : Src.compare program sampleCfg .eq (.ref 10) (.ref 10) treeHeap = okR (.bool true) treeHeap :=
  have ht : ObjectTree tree := .seq _ (.cons (.integer _ _) (.cons (.oid _) (.cons (.octets _ _) .nil)))
  (C105_trees (cfg := sampleCfg) tree_rep tree_rep tree_rep ht ht ht).2.1

/-- `ObjectID(str(x)) == x`. -/
example : ∃ s g y g', toStr program sampleCfg (.ref 13) treeHeap = okR s g ∧ call program sampleCfg (.cls (cid .oid)) [.str s] g = okR y g' ∧
    Src.compare program sampleCfg .eq y (.ref 13) g' = okR (.bool true) g' := by
  obtain ⟨s, g, y, g', e1, -, e2, -, -, e3⟩ := C105_oid_text (cfg := sampleCfg) (.inr (by decide)) (by decide) treeHeap_base
    (d := errString1) ⟨rfl, rfl⟩ (ns := [1, 3, 6, 1, 4, 1, 99999]) (by decide) (by decide) tree_oid (.inr (by decide +kernel))
  exact ⟨s, g, y, g', e1, e2, e3⟩

/-- A new `v2.SNMP`, and any octets at all. -/
example (t : Str) (ht : t.length < 10 ^ 640) : ∃ h0, call program openCfg (.cls (.v2, 24)) [] statics = okR (.ref 10) h0 ∧
    ∃ x h', callMethod openCfg (.ref 10) "receiveData" [.none, .none, .tuple [.str t, .none], .tuple [.none, .none, .none]] h0 = okR x h' := by
  have hn : NewManager againNames ⟨regFull, none, none⟩ .v2 statics (call program openCfg (.cls (.v2, 24)) [] statics)
      "sock" (.tuple [.str (lit "0.0.0.0"), .int 0]) (.quot 1 4) := by
    have := C100_defaults (cfg := openCfg) .v2 statics
    exact this ▸ C100_new (nm := againNames) (env := ⟨regFull, none, none⟩) (h := statics) .v2 (by decide) (openCfg_opens _ _)
  obtain ⟨h0, g, e0, f⟩ := C102_fresh base_statics hn (fun _ => False) (fun _ h => h.elim)
  obtain ⟨x, h', s', e, -⟩ := C105_v2_survives (cfg := openCfg) (S := ⟨statics.length, g, "sock", 65536, .quot 1 4, fun _ => False⟩) imported_full f .new
    sampleCfg_limits sampleCfg_knows (fun _ => rfl) (fun _ _ => .ret)
    ⟨nofun, fun cb m s h x attrs q d hn hb r _ => ⟨h, attrs, ⟨hb, Nat.le_refl _, fun _ _ _ _ _ _ _ => rfl, fun c l hc => ⟨l, hc, fun _ _ => rfl⟩⟩, r, .none, by
          show call program openCfg (.ext "again") _ h = _
          rw [call]
          rfl⟩⟩
    (fun cb m s e h => by cases h) t ht .none .none .none
  exact ⟨h0, e0, x, h', e⟩

/-- Nothing that arrives at a manager which has asked for nothing changes it. -/
example (t : Str) (ht : t.length < 10 ^ 640) : ∃ h0, call program openCfg (.cls (.v1, 19)) [] statics = okR (.ref 10) h0 ∧
    ∃ o h', callMethod openCfg (.ref 10) "receiveData" [.none, .none, .tuple [.str t, .none], .tuple [.none, .none, .none]] h0 = some (h', o) ∧
      MgrRep againNames ⟨regFull, none, none⟩ h' 10 ({} : Mgr .v1) := by
  have hn : NewManager againNames ⟨regFull, none, none⟩ .v1 statics (call program openCfg (.cls (.v1, 19)) [] statics)
      "sock" (.tuple [.str (lit "0.0.0.0"), .int 0]) (.quot 1 4) := by
    have := C100_defaults (cfg := openCfg) .v1 statics
    exact this ▸ C100_new (nm := againNames) (env := ⟨regFull, none, none⟩) (h := statics) .v1 (by decide) (openCfg_opens _ _)
  obtain ⟨h0, g, e0, f⟩ := C102_fresh base_statics hn (fun _ => False) (fun _ h => h.elim)
  obtain ⟨o, h', e, -, r⟩ := C105_unsolicited (cfg := openCfg) (S := ⟨statics.length, g, "sock", 65536, .quot 1 4, fun _ => False⟩) imported_full f .new
    sampleCfg_limits sampleCfg_knows nofun (fun _ _ => .ret)
    ⟨nofun, fun cb m s h x attrs q d hn hb r _ => ⟨h, attrs, ⟨hb, Nat.le_refl _, fun _ _ _ _ _ _ _ => rfl, fun c l hc => ⟨l, hc, fun _ _ => rfl⟩⟩, r, .none, by
          show call program openCfg (.ext "again") _ h = _
          rw [call]
          rfl⟩⟩
    t ht (fun m _ _ => ⟨fun n cb _ hp => by simp [Pending, issued] at hp, fun _ => rfl⟩) .none .none .none
  exact ⟨h0, e0, o, h', e, r⟩

end Libsnmp
