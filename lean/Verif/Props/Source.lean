import Verif.Lemmas.SrcEnc
import Verif.Props.Imports
import Verif.Props.Pdus
import Verif.Props.LongInts

/-!
# C88-C90: the source text, run statement by statement

`program` is the text of the package as the extraction script reads it (`Model/SourceData.lean`), `call` an interpreter for the
part of Python that it uses (`Model/Interp.lean`).  The theorems say that running the text does what the functions of the model
compute; how objects in the heap are values of the model is said in `Spec/Source.lean`.
-/

namespace Libsnmp
open Spec Src

variable {cfg : Cfg}

/-! ## C88: decoding -/

/-- C88. `isinstance` of the source text is `isinstance` of the model, for all classes that the modules define. -/
theorem C88_isinstance {lo : Nat} {h : Heap} {v : Val} {x : V} (r : Rep lo h v x) (d : Cls) :
    isInst program h x (.cls (cid d)) = some (v.isInstance d) := run_isInst r d

/-- C88. `decodeTag`, on every object and every string. -/
theorem C88_decodeTag {h : Heap} {a : Nat} {c : Cls} {attrs : List (String × V)} (ha : h[a]? = some (.inst (cid c) attrs))
    (hp : Plain attrs) (s : Str) :
    callMethod cfg (.ref a) "decodeTag" [.str s] h = outR (decodeTag s) (fun r => .tuple [.int r.1, .str r.2]) h := by
  rw [callMethod_eq ha hp (attr_decodeTag c)]
  exact run_decodeTag _ s h

/-- C88. `decodeLength`. -/
theorem C88_decodeLength {h : Heap} {a : Nat} {c : Cls} {attrs : List (String × V)} (ha : h[a]? = some (.inst (cid c) attrs))
    (hp : Plain attrs) (s : Str) :
    callMethod cfg (.ref a) "decodeLength" [.str s] h = outR (decodeLength s) (fun r => .tuple [.int r.1, .str r.2]) h := by
  rw [callMethod_eq ha hp (attr_decodeLength c)]
  exact run_decodeLength _ s h

/-- The registry is the one of the model. -/
def Knows (cfg : Cfg) (reg : Reg) : Prop := ∀ n : Nat, cfg.tag n = (reg n).map cid

theorem imported_decodable {reg : Reg} (hi : Imported reg) (n : Nat) (c : Cls) (hn : reg n = some c) : Decodable c = true := by
  obtain ⟨b, c', d, rfl⟩ := imported_decoder hi
  unfold decoder at hn
  cases b <;> cases c' <;> cases d <;> simp only [Bool.true_eq_false, if_false, Bool.false_eq_true, if_true] at hn <;>
    split at hn <;> first | (injection hn with hn; subst hn; rfl) | cases hn

/-- C88. `decode`, called on any object that the package can decode with, whatever objects exist, after any imports: it ends, with a
new list of new objects that are the values which the model computes, or with the model's exception; and all objects that existed
are as they were. -/
theorem C88_decode (hc : Limits cfg) {reg : Reg} (hreg : Knows cfg reg) (hi : Imported reg) {h : Heap} (hb : Base h) {a : Nat}
    {c : Cls} {attrs : List (String × V)} (ha : h[a]? = some (.inst (cid c) attrs)) (h9 : 9 ≤ a) (hp : Plain attrs)
    (hd : Decodable c = true) (s : Str) (hs : s.length < 10 ^ 640) :
    DecodesAll h (callMethod cfg (.ref a) "decode" [.str s] h) (decode311 reg cfg.limit s) := by
  rw [callMethod_eq ha hp (attr_decode c hd)]
  exact run_decode hc hreg (imported_decodable hi) (s.length + 1) hb ha h9 hp s (by omega) hs

/-! ## C89: encoding -/

/-- C89. `encodeLength`. -/
theorem C89_encodeLength {h : Heap} {a : Nat} {c : Cls} {attrs : List (String × V)} (ha : h[a]? = some (.inst (cid c) attrs))
    (hp : Plain attrs) (hc : Limits cfg) (n : Nat) (hn : n < 10 ^ 640) :
    ∃ t, callMethod cfg (.ref a) "encodeLength" [.int n] h = okR (.str (encodeLength n)) (h ++ t) := by
  rw [callMethod_eq ha hp (attr_encodeLength c)]
  exact run_encodeLength _ n h fun _ => hc.short (by simpa using hn)

/-- C89. `encode` on any object of the package, with whatever other objects share its parts: it ends, with the octets or the
exception of the model, and every object that existed is as it was. -/
theorem C89_encode (hc : Limits cfg) {lo : Nat} {h : Heap} {v : Val} {x : V} (r : Rep lo h v x) (ho : Obj v = true) (hs : Sane v) :
    ∃ t, callMethod cfg x "encode" [] h = outR v.encode V.str (h ++ t) := by
  obtain ⟨t, ht⟩ := run_encode (cfg := cfg) hc v x r ho hs
  obtain ⟨a, c, attrs, rfl, ha, hp⟩ := r.obj ho
  rw [callMethod_eq ha hp (attr_encode c)]
  exact ⟨t, ht⟩

/-! ## C90: constructors and messages -/

/-- C90. `VarBind(name, value)`. -/
theorem C90_varBind {lo : Nat} {h : Heap} (hb : Base h) (hlo : lo ≤ h.length) {n v : Val} {x y : V} (rn : Rep lo h n x)
    (rv : Rep lo h v y) {c : SeqCls} (hc : c = .varBind ∨ c = .varBind2) :
    Makes lo h (call program cfg (.cls (cid (.seq c))) [x, y] h) (mkVarBind c n v) := by
  have h1 := run_newVarBind (cfg := cfg) rn rv hc
  unfold Makes
  split at h1
  · next w hw =>
    obtain ⟨rfl, h1⟩ := h1
    rw [hw]
    refine ⟨_, h1, Kept.app hb _, ?_⟩
    rw [Rep]
    refine ⟨_, _, _, [x, y], rfl, hlo, get_app _ _, plain _, rfl, by omega, ?_, ?_, ?_⟩
    · rw [List.getElem?_append_right (by omega)]; simp
    · rcases hc with rfl | rfl <;> rfl
    · rw [RepAll]; refine ⟨_, _, rfl, rn.app _, ?_⟩
      rw [RepAll]; refine ⟨_, _, rfl, rv.app _, ?_⟩
      rw [RepAll]
  · next e he =>
    obtain ⟨rfl, args, h1⟩ := h1
    rw [he]
    exact ⟨args, _, h1, Kept.app hb _, rfl⟩

/-- C90. The constructors of PDUs, with a list of bindings. -/
theorem C90_pdu (hc : Limits cfg) {lo : Nat} {h : Heap} (hb : Base h) {c : SeqCls}
    (hp : (Cls.seq c).isSubclass (.seq .pdu) = true ∨ (Cls.seq c).isSubclass (.seq .bulkPDU) = true)
    {b : Nat} {l : List V} {vs : List Val} (h9b : 9 ≤ b) (hl : h[b]? = some (.list l)) (hr : RepAll lo h vs l) (h9 : 9 ≤ lo)
    (hlo : lo ≤ h.length) (hv : vs.all (·.isInstance (.seq .varBind)) = true) (n1 n2 n3 : Int) :
    Makes lo h (call program cfg (.cls (cid (.seq c))) [.int n1, .int n2, .int n3, .ref b] h) (mkPDU c n1 n2 n3 vs) :=
  run_newPDU hc hb hp (items_list h9b hl) hr h9 hlo hv n1 n2 n3

/-- C90. `Message(version, community, data)`. -/
theorem C90_message (hc : Limits cfg) {lo : Nat} {h : Heap} (hb : Base h) {c : SeqCls} (hm : c = .message ∨ c = .message2)
    (n : Int) (s : Str) {d : Val} {z : V} (h9 : 9 ≤ lo) (hlo : lo ≤ h.length) (r : Rep lo h d z) :
    match mkMessage c n s d with
    | .ok m => ∃ h', call program cfg (.cls (cid (.seq c))) [.int n, .str s, z] h = okR (.ref h.length) h' ∧
        Kept h.length h h' ∧ RepMsg lo h' m h.length
    | .error e => ∃ h' x, call program cfg (.cls (cid (.seq c))) [.int n, .str s, z] h = excR x h' ∧
        Kept h.length h h' ∧ Raised h' e x := by
  have h1 := run_newMsg (cfg := cfg) hc hb hm n s h9 hlo r
  split at h1 <;> next hh =>
    rw [hh]
    first
    | exact h1
    | (obtain ⟨h', e1, e2, e3, e4⟩ := h1
       exact ⟨h', e1, e2, e4⟩)

/-- C90. `encode` on a message. -/
theorem C90_message_encode (hc : Limits cfg) {lo : Nat} {h : Heap} {m : Msg} {a : Nat} (hm : m.cls = .message ∨ m.cls = .message2)
    (r : RepMsg lo h m a) (hlo : lo ≤ h.length) (hs : SaneAll [m.version, m.community, m.data])
    (hlen : ∀ s, encodeItems [m.version, m.community, m.data] = .ok s → s.length < 10 ^ 640) :
    ∃ h', callMethod cfg (.ref a) "encode" [] h = outR m.encode V.str h' ∧
      (∀ b, b < h.length → b ≠ a → h'[b]? = h[b]?) ∧ RepMsg lo h' m a := by
  obtain ⟨attrs, b, l, x, y, z, hla, ha, hp, hr⟩ := r
  rw [callMethod_eq ha hp (attr_encode _)]
  exact run_msgEncode hc hm ⟨attrs, b, l, x, y, z, hla, ha, hp, hr⟩ hlo hs hlen

/-- C90. `decode` on a message: all that existed, apart from the three fields of this message, is as it was; if there is an exception
the message is as it was, too. -/
theorem C90_message_decode (hc : Limits cfg) {reg : Reg} (hreg : Knows cfg reg) (hi : Imported reg) {lo : Nat} {h : Heap} (hb : Base h)
    {m : Msg} {a : Nat} (hm : m.cls = .message ∨ m.cls = .message2) (r : RepMsg lo h m a) (h9 : 9 ≤ lo) (s : Str)
    (hs : s.length < 10 ^ 640) :
    MsgDecodes h a m.cls (callMethod cfg (.ref a) "decode" [.str s] h) (msgDecode311 reg cfg.limit m.cls (.str s)) := by
  obtain ⟨attrs, b, l, x, y, z, hla, ha, hp, hv, hlb, hl, hl3, hr⟩ := r
  have hat : program.attr (cid (.seq m.cls)) "decode" = some (.func .rfc1157 110) := by
    rcases hm with hm | hm <;> rw [hm] <;> rfl
  rw [callMethod_eq ha hp hat]
  refine run_msgDecode hc hreg (imported_decodable hi) hb ha (by omega) hv (by omega) hl ?_ s hs
  exact Nat.lt_of_le_of_lt hl3 (Nat.lt_of_lt_of_le (by decide : 3 < 10 ^ 1) (Nat.pow_le_pow_right (by decide) (by decide)))

theorem contentsDig_zero (nested : Str → Except Exc (List Val)) (c : Cls) (s : Str) :
    contentsDig 0 nested c s = contentsWith nested c s := by
  unfold contentsDig
  split
  · simp only [contentsWith, Libsnmp.tooLong, ne_eq, not_true, decide_false, Bool.false_and, Bool.false_eq_true, if_false]
    cases hsub : (Cls.int _).isSubclass (.int .counter) <;> cases hi : intDecode s <;> simp [counterDecode, hi]
  · rfl

theorem decodeDig_zero (reg : Reg) (d : Nat) (s : Str) : decodeDig reg 0 d s = decodeLim reg d s := by
  induction d generalizing s with
  | zero => rfl
  | succ d ih =>
    have h1 : decodeDig reg 0 d = decodeLim reg d := funext ih
    have h2 : contentsDig 0 (decodeDig reg 0 d) = contentsWith (decodeLim reg d) := by
      rw [h1]; funext c s; exact contentsDig_zero _ c s
    rw [decodeDig, decodeLim, h2]

theorem decode311_zero (reg : Reg) (s : Str) : decode311 reg 0 s = decode reg (.str s) := by
  unfold decode311
  rw [decodeDig_zero, C71_short_streams reg (s.length + 1) s (by omega)]

/-- C88. `decode` under `python -O`, or without a limit on numerals: what the other properties say about decoding holds of the
source text. -/
theorem C88_decode_O (hc : Limits cfg) (hD : cfg.limit = 0) {reg : Reg} (hreg : Knows cfg reg) (hi : Imported reg) {h : Heap}
    (hb : Base h) {a : Nat} {c : Cls} {attrs : List (String × V)} (ha : h[a]? = some (.inst (cid c) attrs)) (h9 : 9 ≤ a)
    (hp : Plain attrs) (hd : Decodable c = true) (s : Str) (hs : s.length < 10 ^ 640) :
    DecodesAll h (callMethod cfg (.ref a) "decode" [.str s] h) (decode reg (.str s)) := by
  rw [← decode311_zero, ← hD]
  exact C88_decode hc hreg hi hb ha h9 hp hd s hs

/-- C88. `decode` under the default limit, for every string of octets of at most 1785 octets. -/
theorem C88_decode_4300 (hD : cfg.limit = 4300) {reg : Reg} (hreg : Knows cfg reg) (hi : Imported reg) {h : Heap}
    (hb : Base h) {a : Nat} {c : Cls} {attrs : List (String × V)} (ha : h[a]? = some (.inst (cid c) attrs)) (h9 : 9 ≤ a)
    (hp : Plain attrs) (hd : Decodable c = true) (s : Str) (ho : Octets s) (hs : s.length ≤ 1785) :
    DecodesAll h (callMethod cfg (.ref a) "decode" [.str s] h) (decode reg (.str s)) := by
  have hc : Limits cfg := by
    unfold Cfg.limit at hD
    split at hD
    · exact .inr (by omega)
    · cases hD
  rw [← C86_short reg s ho hs, ← hD]
  exact C88_decode hc hreg hi hb ha h9 hp hd s
    (Nat.lt_of_le_of_lt hs (Nat.lt_of_lt_of_le (by decide : 1785 < 10 ^ 4) (Nat.pow_le_pow_right (by decide) (by decide))))

theorem msgDecode311_zero (reg : Reg) (c : SeqCls) (s : Str) : msgDecode311 reg 0 c (.str s) = msgDecode reg c (.str s) := by
  unfold msgDecode311 msgDecode
  simp only [decode311_zero]
  rfl

/-- C90. One process runs `encode` on a message with a PDU, another runs `decode` on a message of its own with the octets: the
receiver's message then has the version, the community and the PDU of the sender's. -/
theorem C90_wire {cfg cfg' : Cfg} {reg : Reg} (hi : Imported reg) {cm cm' c c' : SeqCls} {t : Nat}
    (hcm : cm = .message ∨ cm = .message2) (hcm' : cm' = .message ∨ cm' = .message2)
    (hid : (Cls.seq c).identifier = .ok [t]) (hc' : reg t = some (.seq c')) (hp' : c' ∈ pduClasses) (ht : t % 32 ≠ 31)
    {v r e i : Int} (hv : OutOfBand v) (hr : OutOfBand r) (he : OutOfBand e) (hi' : OutOfBand i) {xs ys : List Val}
    (hb : Bindings reg (if c' = .bulkPDU ∨ c' = .getBulk then .varBind2 else .varBind) xs ys)
    {community : Str} {x y : Val} {m : Msg} (hx : mkPDU c r e i xs = .ok x) (hy : mkPDU c' r e i ys = .ok y)
    (hm : mkMessage cm v community x = .ok m) (hn : NoMessage x)
    (hc1 : Limits cfg) {lo : Nat} {h : Heap} {a : Nat} (r1 : RepMsg lo h m a) (hlo : lo ≤ h.length)
    (hc2 : Limits cfg') (hD : cfg'.limit = 0) (hreg : Knows cfg' reg) {h' : Heap} (hb' : Base h') {a' lo' : Nat} {m' : Msg}
    (hm' : m'.cls = cm') (r2 : RepMsg lo' h' m' a') (h9 : 9 ≤ lo') :
    ∃ s, m.encode = .ok s ∧ (s.length < 256 ^ 127 →
      (∃ g, callMethod cfg (.ref a) "encode" [] h = okR (.str s) g) ∧
      ∃ g attrs k co w1 w2 w3, callMethod cfg' (.ref a') "decode" [.str s] h' = okR (.ref a') g ∧
        g[a']? = some (.inst (cid (.seq cm')) attrs) ∧ attrs.lookup "version" = some w1 ∧ attrs.lookup "community" = some w2 ∧
        attrs.lookup "data" = some w3 ∧ Rep h'.length g (.integer k v) w1 ∧ Rep h'.length g (.octets co community) w2 ∧
        Rep h'.length g y w3) := by
  obtain ⟨-, -, s, k, co, hs, hdec⟩ := C30_pdu_message_roundtrip reg (imported_understands hi) cm cm' c c' t hcm hid hc' hp' ht
    v r e i hv hr he hi' xs ys hb community x y m hx hy hm
  refine ⟨s, hs, fun hl => ?_⟩
  have hbig : (256 : Nat) ^ 127 < 10 ^ 640 := by decide +kernel
  have hfields : m.cls = cm ∧ m.data = x ∧ (∃ k, m.version = .integer k v) ∧ ∃ co, m.community = .octets co community := by
    unfold mkMessage at hm
    split at hm
    · cases hm
    · next vv hvv =>
      injection hm with hm
      subst hm
      unfold mkInteger at hvv
      split at hvv
      · injection hvv with hvv; subst hvv; exact ⟨rfl, rfl, ⟨_, rfl⟩, _, rfl⟩
      · cases hvv
  obtain ⟨f1, f2, ⟨k1, f3⟩, co1, f4⟩ := hfields
  have hitems : ∃ u, encodeItems [m.version, m.community, m.data] = .ok u ∧ u.length ≤ s.length := by
    unfold Msg.encode at hs
    split at hs
    · cases hs
    · next u hu => exact ⟨u, hu, tlv_len hs⟩
  obtain ⟨u, hu, hul⟩ := hitems
  have hnm : NoMessages [m.version, m.community, m.data] := by
    rw [NoMessages, NoMessages, NoMessages, NoMessages, f2, f3, f4]
    refine ⟨?_, ?_, hn, trivial⟩ <;> rw [NoMessage] <;> simp
  constructor
  · obtain ⟨g, hg, -, -⟩ := C90_message_encode (cfg := cfg) hc1 (by rw [f1]; exact hcm) r1 hlo
      (saneAll_of_encode _ u hu (by omega) hnm) (fun u' hu' => by rw [hu] at hu'; injection hu' with hu'; subst hu'; omega)
    rw [hs, outR] at hg
    exact ⟨g, hg⟩
  · have h2 := C90_message_decode (cfg := cfg') hc2 hreg hi hb' (by rw [hm']; exact hcm') r2 h9 s (by omega)
    rw [hD, msgDecode311_zero, hm', hdec hl] at h2
    obtain ⟨g, attrs, w1, w2, w3, e1, -, -, e2, -, e3, e4, e5, e6, e7, e8, -⟩ := h2
    exact ⟨g, attrs, k, co, w1, w2, w3, e1, e2, e3, e4, e5, e6, e7, e8⟩

/-! ## The hypotheses are met -/

/-- A process that has imported everything, with the default limit on numerals. -/
def sampleCfg : Cfg := { tag := fun n => if n < 0 then none else (regFull n.toNat).map cid, digits := 4300, debug := true, repr := fun _ _ => [] }

theorem sampleCfg_knows : Knows sampleCfg regFull := fun n => by
  simp only [sampleCfg, Int.toNat_natCast, if_neg (show ¬ (n : Int) < 0 by omega)]

/-- The objects that the imports make, and an `Integer`. -/
def sampleHeap : Heap := statics ++ [.inst (cid (.int .integer)) [("value", .int 0)]]

theorem sampleHeap_base : Base sampleHeap := (Kept.app base_statics _).base

/-- Decoding two objects, the first a sequence, on the source text. -/
example : ∃ h' b l, callMethod sampleCfg (.ref 10) "decode" [.str [0x30, 7, 2, 1, 5, 4, 2, 104, 105, 6, 2, 43, 6]] sampleHeap = okR (.ref b) h' ∧
    h'[b]? = some (.list l) ∧ RepAll 11 h' [.seq .sequence [.integer .integer32 5, .octets .octetString [104, 105]], .oid (some [1, 3, 6])] l := by
  have h1 := C88_decode (cfg := sampleCfg) (.inr (by decide)) sampleCfg_knows imported_full sampleHeap_base (a := 10) (c := .int .integer)
    rfl (by decide) (plain _) rfl [0x30, 7, 2, 1, 5, 4, 2, 104, 105, 6, 2, 43, 6]
    (Nat.lt_of_lt_of_le (by decide : 13 < 10 ^ 2) (Nat.pow_le_pow_right (by decide) (by decide)))
  rw [show decode311 regFull sampleCfg.limit [0x30, 7, 2, 1, 5, 4, 2, 104, 105, 6, 2, 43, 6] =
    .ok [.seq .sequence [.integer .integer32 5, .octets .octetString [104, 105]], .oid (some [1, 3, 6])] by decide +kernel] at h1
  obtain ⟨h', b, l, e1, -, -, e2, e3⟩ := h1
  exact ⟨h', b, l, e1, e2, e3⟩

/-- The name and the value of a binding, as objects. -/
def sampleParts : Heap := statics ++
  [.inst (cid .oid) [("value", .ref 11)], .list ([1, 3, 6, 1, 2, 1, 1, 3, 0].map V.int),
   .inst (cid (.int .timeTicks)) [("value", .int 4294967295)]]

/-- A message with a PDU with a binding: made by running the constructors of the source text one after the other. -/
theorem sampleMsg_made : ∃ h a, Base h ∧ RepMsg 9 h sampleMsg a := by
  have b0 : Base sampleParts := (Kept.app base_statics _).base
  have rn : Rep 9 sampleParts (.oid (some [1, 3, 6, 1, 2, 1, 1, 3, 0])) (.ref 10) := by
    rw [Rep]; exact ⟨10, _, 11, rfl, by decide, rfl, plain _, rfl, by decide, rfl⟩
  have rv : Rep 9 sampleParts (.integer .timeTicks 4294967295) (.ref 12) := by
    rw [Rep]; exact ⟨12, [("value", .int 4294967295)], rfl, by decide, rfl, plain _, rfl⟩
  have hlim : Limits sampleCfg := .inr (by decide)
  obtain ⟨h1, -, k1, r1⟩ := C90_varBind (cfg := sampleCfg) b0 (by decide) rn rv (c := .varBind) (.inl rfl)
  have k1' := k1.app' [.list [.ref sampleParts.length]] k1.len
  have hl1 := k1.base.long
  obtain ⟨h2, -, k2, r2⟩ := C90_pdu (cfg := sampleCfg) hlim k1'.base (c := .response2) (.inl rfl) (b := h1.length)
    (l := [.ref sampleParts.length]) (vs := [sampleVb]) (lo := 9) (by omega) (get_app _ _)
    (by rw [RepAll]; refine ⟨_, _, rfl, r1.app _, ?_⟩; rw [RepAll]) (by decide) (by simp; omega) rfl 12 2 1
  obtain ⟨h3, -, k3, r3⟩ := C90_message (cfg := sampleCfg) hlim k2.base (c := .message2) (.inr rfl) 1 [112, 117] (lo := 9)
    (by decide) k2.base.long r2
  exact ⟨h3, _, k3.base, r3⟩

/-- The hypotheses of C90_wire are met by it; the octets go from the source text to the source text. -/
example : ∃ s h a, sampleMsg.encode = .ok s ∧ (∃ g, callMethod sampleCfg (.ref a) "encode" [] h = okR (.str s) g) ∧
    ∃ g w, callMethod { sampleCfg with debug := false } (.ref a) "decode" [.str s] h = okR (.ref a) g ∧ Rep 9 g samplePdu w := by
  obtain ⟨h, a, hb, r⟩ := sampleMsg_made
  obtain ⟨s, hs, hw⟩ := C90_wire (cfg := sampleCfg) (cfg' := { sampleCfg with debug := false }) imported_full (cm := .message2)
    (cm' := .message2) (c := .response2) (c' := .response2) (t := 0xa2) (.inr rfl) (.inr rfl) (by decide +kernel) rfl (by decide)
    (by decide) (v := 1) (r := 12) (e := 2) (i := 1) (outOfBand_nonneg (by decide)) (outOfBand_nonneg (by decide))
    (outOfBand_nonneg (by decide)) (outOfBand_nonneg (by decide)) sampleBindings (community := [112, 117]) (x := samplePdu)
    (y := samplePdu) (m := sampleMsg) rfl rfl rfl
    (by simp [samplePdu, sampleVb, NoMessage, NoMessages]) (.inr (by decide)) r hb.long (.inr (by decide)) rfl sampleCfg_knows hb
    (m' := sampleMsg) rfl r (by decide)
  have hlen : s.length < 256 ^ 127 := by
    have h1 : (match sampleMsg.encode with | .ok s => decide (s.length < 256) | _ => false) = true := by decide +kernel
    rw [hs] at h1
    exact Nat.lt_of_lt_of_le (of_decide_eq_true h1) (by decide +kernel)
  obtain ⟨h1, g, attrs, k, co, w1, w2, w3, e1, -, -, -, -, -, -, e2⟩ := hw hlen
  exact ⟨s, h, a, hs, h1, g, w3, e1, Rep.congr hb.long (fun _ _ _ h => h) _ _ e2⟩

end Libsnmp
