import Verif.Lemmas.SrcForms
import Verif.Props.Source2

/-!
# C94: the texts and other forms of objects, on the source text
-/

namespace Libsnmp
open Spec Src

variable {cfg : Cfg}

/-! ## C94: `str`, `hex`, `oct`, `toObjectID`, `enum` -/

theorem dictOfTable_inj {d d' : Table} (h : dictOfTable d = dictOfTable d') : d = d' := by
  unfold dictOfTable at h
  injection h with h
  induction d generalizing d' with
  | nil => cases d' with
    | nil => rfl
    | cons _ _ => cases h
  | cons p d ih => cases d' with
    | nil => cases h
    | cons q d' =>
      injection h with h1 h2
      injection h1 with h1 h3
      injection h1 with h1
      injection h3 with h3
      rw [ih h2, Prod.ext h1 h3]

theorem extend_again : extendErrString (extendErrString errString1) = extendErrString errString1 := by decide +kernel

/-- C94. The tables of texts are always one of two: that of rfc1157, and the longer one of rfc1905. -/
theorem C94_tables {h : Heap} (hb : Base h) : Texts errString1 h ∨ Texts (extendErrString errString1) h :=
  hb.strings.imp (fun h1 => ⟨h1, hb.traps⟩) fun h1 => ⟨h1, hb.traps⟩

/-- C94. `rfc1905.ErrorStatus(n)` leaves the table of texts - also that of the objects of rfc1157 - as the model says: the longer one,
unless the number is refused. -/
theorem C94_tables_status (hc : Limits cfg) {d : Table} {h : Heap} (hb : Base h) (ht : Texts d h) (n : Int) :
    match newErrorStatus2 n d with
    | (.ok v, d') => ∃ x h', call program cfg (.cls (cid (.int .errorStatus2))) [.int n] h = okR x h' ∧ Rep h.length h' v x ∧ Texts d' h'
    | (.error _, d') => ∃ args h', call program cfg (.cls (cid (.int .errorStatus2))) [.int n] h = excR (.exc "ValueError" args) h' ∧
        Texts d' h' := by
  have h1 := run_newStatus (cfg := cfg) hc hb n
  have hd : extendErrString errString1 = extendErrString d := by
    have := ht.errors
    rcases hb.strings with h2 | h2 <;> rw [h2] at this <;> injection this with this
    · rw [dictOfTable_inj this]
    · rw [← dictOfTable_inj this, extend_again]
  unfold newErrorStatus2 mkInteger
  split at h1
  · next hr =>
    obtain ⟨h', e, hl, hk, ht'⟩ := h1
    rw [hd] at ht'
    rw [if_pos hr]
    have := hb.long
    refine ⟨_, _, e, ?_, by rw [List.getElem?_append_left (by omega)]; exact ht',
      by rw [List.getElem?_append_left (by omega)]; exact hk.base.traps⟩
    rw [Rep]
    exact ⟨_, _, rfl, by omega, get_app _ _, plain _, rfl⟩
  · next hr =>
    obtain ⟨args, h', e, hk, ht'⟩ := h1
    rw [if_neg hr]
    exact ⟨_, _, e, by rw [ht']; exact ht.errors, hk.base.traps⟩

/-- C94. `str(x)` of any value that is no message and has no message in it: the text or the exception of the model, and every object
that existed is as it was. -/
theorem C94_str {lo : Nat} {d : Table} {h : Heap} {v : Val} {x : V} (ht : Texts d h) (r : Rep lo h v x) (hn : NoMessage v) :
    ∃ t, toStr program cfg x h = outS (valStrDig cfg.digits d v) (h ++ t) := run_str v ht r hn

/-- C94. `str(x)`, if no number in `x` has more digits than Python may write: the text of `Model/Str.lean`. -/
theorem C94_str_short {lo : Nat} {d : Table} {h : Heap} {v : Val} {x : V} (ht : Texts d h) (r : Rep lo h v x) (hn : NoMessage v)
    (hw : Writable cfg.digits v) : ∃ t, toStr program cfg x h = outS (valStr d v) (h ++ t) := by
  rw [← valStrDig_short cfg.digits d v hw]
  exact run_str v ht r hn

/-- C94. `str(message)`. -/
theorem C94_message_str {lo : Nat} {d : Table} {h : Heap} {m : Msg} {a : Nat} (hm : m.cls = .message ∨ m.cls = .message2)
    (ht : Texts d h) (r : RepMsg lo h m a) (hn : NoMessages [m.version, m.community, m.data]) :
    ∃ t, toStr program cfg (.ref a) h = outS (msgStrDig cfg.digits d m) (h ++ t) := run_msgStr hm r ht hn

theorem noAttr {v : Val} {c : Cls} {lo : Nat} {h : Heap} {x : V} (r : Rep lo h v x) (hc : v.cls? = some c) {name : String}
    (hp : name ∉ dataNames) (h1 : name ≠ "__class__") (h2 : name ≠ "__repr__") (hn : program.attr (cid c) name = none) (args : List V) :
    callMethod cfg x name args h = excR (.exc "AttributeError" []) h := by
  have hr := r.cell
  rw [hc] at hr
  obtain ⟨a, attrs, rfl, ha, hpl⟩ := hr
  have h3 : attrs.lookup name = none := hpl.none (by simpa using hp)
  runs [callMethod, getattr, ha, h3, hn, orRaise, h1, h2]

/-- C94. `x.__hex__()` of any object of the package. -/
theorem C94_hex {lo : Nat} {h : Heap} {v : Val} {x : V} (r : Rep lo h v x) (ho : Obj v = true) :
    ∃ t, callMethod cfg x "__hex__" [] h = outR (valHex v) V.str (h ++ t) := by
  match v, r with
  | .integer c n, r =>
    rw [Rep] at r
    obtain ⟨a, attrs, rfl, hlo, ha, hp, hv⟩ := r
    rw [callMethod_eq ha hp (show program.attr (cid (.int c)) "__hex__" = some (.func .rfc1155 319) by cases c <;> rfl), run_intHex ha hv]
    exact ⟨[], by simp [valHex, outR]⟩
  | .octets c s, r =>
    rw [Rep] at r
    obtain ⟨a, attrs, rfl, hlo, ha, hp, hv⟩ := r
    rw [callMethod_eq ha hp (show program.attr (cid (.oct c)) "__hex__" = some (.func .rfc1155 538) by cases c <;> rfl), run_octHex ha hv]
    exact ⟨_, rfl⟩
  | .oid v, r =>
    exact ⟨[], by rw [noAttr r (c := .oid) rfl (by decide) (by decide) (by decide) rfl, List.append_nil]; rfl⟩
  | .null c, r =>
    exact ⟨[], by rw [noAttr r (c := .null c) rfl (by decide) (by decide) (by decide) (by cases c <;> rfl), List.append_nil]; rfl⟩
  | .seq c l, r =>
    exact ⟨[], by rw [noAttr r (c := .seq c) rfl (by decide) (by decide) (by decide) (by cases c <;> rfl), List.append_nil]; rfl⟩
  | .none, _ | .int _, _ | .str _, _ | .bytes _, _ | .raw _ _, _ => cases ho

/-- C94. `x.__oct__()`. -/
theorem C94_oct {lo : Nat} {h : Heap} {v : Val} {x : V} (r : Rep lo h v x) (ho : Obj v = true) :
    ∃ t, callMethod cfg x "__oct__" [] h = outR (valOct v) V.str (h ++ t) := by
  match v, r with
  | .integer c n, r =>
    rw [Rep] at r
    obtain ⟨a, attrs, rfl, hlo, ha, hp, hv⟩ := r
    rw [callMethod_eq ha hp (show program.attr (cid (.int c)) "__oct__" = some (.func .rfc1155 322) by cases c <;> rfl), run_intOct ha hv]
    exact ⟨[], by simp [valOct, outR]⟩
  | .octets c s, r =>
    rw [Rep] at r
    obtain ⟨a, attrs, rfl, hlo, ha, hp, hv⟩ := r
    rw [callMethod_eq ha hp (show program.attr (cid (.oct c)) "__oct__" = some (.func .rfc1155 541) by cases c <;> rfl), run_octOct ha hv]
    exact ⟨_, rfl⟩
  | .oid v, r =>
    exact ⟨[], by rw [noAttr r (c := .oid) rfl (by decide) (by decide) (by decide) rfl, List.append_nil]; rfl⟩
  | .null c, r =>
    exact ⟨[], by rw [noAttr r (c := .null c) rfl (by decide) (by decide) (by decide) (by cases c <;> rfl), List.append_nil]; rfl⟩
  | .seq c l, r =>
    exact ⟨[], by rw [noAttr r (c := .seq c) rfl (by decide) (by decide) (by decide) (by cases c <;> rfl), List.append_nil]; rfl⟩
  | .none, _ | .int _, _ | .str _, _ | .bytes _, _ | .raw _ _, _ => cases ho

/-- C94. `x()`: an Integer is called to get its number; any other object is no function. -/
theorem C94_call {lo : Nat} {h : Heap} {v : Val} {x : V} (r : Rep lo h v x) :
    call program cfg x [] h = outR (valCall v) V.int h := by
  match v, r with
  | .integer c n, r =>
    rw [Rep] at r
    obtain ⟨a, attrs, rfl, hlo, ha, hp, hv⟩ := r
    exact run_intCall ha hv
  | .octets c s, r =>
    obtain ⟨a, attrs, rfl, ha, hp⟩ := r.cell
    have hm : program.attr (cid (.oct c)) "__call__" = none := by cases c <;> rfl
    rw [call]; runs [kind, ha, hm, valCall, outR, excName]
  | .oid v, r =>
    obtain ⟨a, attrs, rfl, ha, hp⟩ := r.cell
    have hm : program.attr (cid .oid) "__call__" = none := rfl
    rw [call]; runs [kind, ha, hm, valCall, outR, excName]
  | .null c, r =>
    obtain ⟨a, attrs, rfl, ha, hp⟩ := r.cell
    have hm : program.attr (cid (.null c)) "__call__" = none := by cases c <;> rfl
    rw [call]; runs [kind, ha, hm, valCall, outR, excName]
  | .seq c l, r =>
    obtain ⟨a, attrs, rfl, ha, hp⟩ := r.cell
    have hm : program.attr (cid (.seq c)) "__call__" = none := by cases c <;> rfl
    rw [call]; runs [kind, ha, hm, valCall, outR, excName]
  | .none, r | .int _, r | .str _, r => rw [Rep] at r; subst r; rw [call] <;> runs [valCall, outR, excName]
  | .bytes _, r | .raw _ _, r => rw [Rep] at r; exact r.elim

/-- The outcome of `toObjectID`: a new ObjectID, none of whose parts existed before, or the exception. -/
def NewOid (h : Heap) (r : R V) (m : Except Exc (Option (List Int))) : Prop :=
  match m with
  | .ok v => ∃ t x, r = okR x (h ++ t) ∧ Rep h.length (h ++ t) (.oid v) x
  | .error e => r = excR (.exc (excName e) []) h

/-- C94. `x.toObjectID()`. -/
theorem C94_toObjectID {lo : Nat} {h : Heap} {v : Val} {x : V} (r : Rep lo h v x) (ho : Obj v = true) :
    NewOid h (callMethod cfg x "toObjectID" [] h) (toObjectID v) := by
  match v, r with
  | .integer c n, r =>
    rw [Rep] at r
    obtain ⟨a, attrs, rfl, hlo, ha, hp, hv⟩ := r
    rw [callMethod_eq ha hp (show program.attr (cid (.int c)) "toObjectID" = some (.func .rfc1155 507) by cases c <;> rfl)]
    obtain ⟨t, h1, h2⟩ := run_intToOid (cfg := cfg) ha hv
    exact ⟨t, _, h1, h2⟩
  | .octets c s, r =>
    rw [Rep] at r
    obtain ⟨a, attrs, rfl, hlo, ha, hp, hv⟩ := r
    have hm : ∃ l, (l = 544 ∨ l = 937) ∧ program.attr (cid (.oct c)) "toObjectID" = some (.func .rfc1155 l) := by
      cases c <;> first | exact ⟨544, .inl rfl, rfl⟩ | exact ⟨937, .inr rfl, rfl⟩
    obtain ⟨l, hl, hm⟩ := hm
    rw [callMethod_eq ha hp hm]
    obtain ⟨t, h1, h2⟩ := run_octToOid (cfg := cfg) ha hv l hl
    exact ⟨t, _, h1, h2⟩
  | .oid none, r =>
    rw [Rep] at r
    obtain ⟨a, attrs, rfl, hlo, ha, hp, hv⟩ := r
    rw [callMethod_eq ha hp (show program.attr (cid .oid) "toObjectID" = some (.func .rfc1155 756) from rfl), run_oidToOid_none ha hv]
    refine ⟨_, _, rfl, ?_⟩
    rw [Rep]
    exact ⟨_, _, rfl, Nat.le_refl _, get_app _ _, plain _, rfl⟩
  | .oid (some ids), r =>
    rw [Rep] at r
    obtain ⟨a, attrs, b, rfl, hlo, ha, hp, hv, hlb, hb⟩ := r
    rw [callMethod_eq ha hp (show program.attr (cid .oid) "toObjectID" = some (.func .rfc1155 756) from rfl), run_oidToOid ha hv hb]
    refine ⟨_, _, rfl, ?_⟩
    rw [Rep]
    refine ⟨h.length + 1, [("value", .ref (h.length + 2))], h.length + 2, rfl, by omega, ?_, plain _, rfl, by omega, ?_⟩ <;>
      (rw [List.getElem?_append_right (by omega)]; simp)
  | .null c, r =>
    obtain ⟨a, attrs, rfl, ha, hp⟩ := r.cell
    rw [callMethod_eq ha hp (show program.attr (cid (.null c)) "toObjectID" = some (.func .rfc1155 282) by cases c <;> rfl), call_rfc1155_282]
    simp only [NewOid, toObjectID]
    runs [rfc1155_282, excName]
  | .seq c l, r =>
    obtain ⟨a, attrs, rfl, ha, hp⟩ := r.cell
    rw [callMethod_eq ha hp (show program.attr (cid (.seq c)) "toObjectID" = some (.func .rfc1155 282) by cases c <;> rfl), call_rfc1155_282]
    simp only [NewOid, toObjectID]
    runs [rfc1155_282, excName]
  | .none, _ | .int _, _ | .str _, _ | .bytes _, _ | .raw _ _, _ => cases ho

/-- The argument of `enum`. -/
def enumArg (num : Option Int) : V := match num with | some k => .int k | none => .none

/-- C94. `GenericTrap.enum(num)`. -/
theorem C94_trap_enum {lo : Nat} {d : Table} {h : Heap} (ht : Texts d h) {n : Int} {x : V} (r : Rep lo h (.integer .genericTrap n) x)
    (num : Option Int) : callMethod cfg x "enum" [enumArg num] h = outR (genericTrapEnum n num) V.str h := by
  rw [Rep] at r
  obtain ⟨a, attrs, rfl, hlo, ha, hp, hv⟩ := r
  rw [callMethod_eq ha hp (show program.attr (cid (.int .genericTrap)) "enum" = some (.func .rfc1157 216) from rfl)]
  exact run_trapEnum ht ha hp hv num

/-- C94. `ErrorStatus.enum(num)` has no result: the code calls a dictionary. -/
theorem C94_status_enum {lo : Nat} {h : Heap} (hb : Base h) {c : IntCls} (hc : c = .errorStatus ∨ c = .errorStatus2) {n : Int} {x : V}
    (r : Rep lo h (.integer c n) x) (num : Option Int) :
    callMethod cfg x "enum" [enumArg num] h = outR (errorStatusEnum num) V.str h := by
  rw [Rep] at r
  obtain ⟨a, attrs, rfl, hlo, ha, hp, hv⟩ := r
  obtain ⟨d, hd⟩ := hb.numbers
  have hn := hp.none (a := "errNum")
  have hm : program.attr (cid (.int c)) "errNum" = some (.ref 2) := by rcases hc with rfl | rfl <;> rfl
  have h2 : ∀ k, call program cfg (.ref 2) [.int k] h = excR (.exc "TypeError" []) h := by
    intro k
    rw [call]
    runs [kind, hd]
  rw [callMethod_eq ha hp (show program.attr (cid (.int c)) "enum" = some (.func .rfc1157 47) by rcases hc with rfl | rfl <;> rfl),
    call_rfc1157_47]
  cases num <;> runs [rfc1157_47, enumArg, ha, hv, hn, hm, ↓h2, errorStatusEnum, outR, excName]

/-- C94. `len(x)` of any value. -/
theorem C94_len {lo : Nat} {h : Heap} {v : Val} {x : V} (r : Rep lo h v x) : len program cfg x h = outR v.len (fun n => V.int n) h := by
  have h1 := run_len (cfg := cfg) r
  split at h1
  · next n hn => rw [hn, h1]; rfl
  · next e he => obtain ⟨rfl, h1⟩ := h1; rw [he, h1]; rfl

/-! ## The hypotheses are met -/

theorem texts_statics (t : Heap) : Texts errString1 (statics ++ t) := ⟨rfl, rfl⟩

/-- An ErrorStatus, a GenericTrap and a PDU with a binding. -/
def sampleTexts : Heap := statics ++
  [.inst (cid .oid) [("value", .ref 11)], .list ([1, 3, 6].map V.int), .inst (cid (.int .counter)) [("value", .int 4294967295)],
   .inst (cid (.seq .varBind)) [("value", .ref 14), ("objectID", .ref 10), ("objectValue", .ref 12)], .list [.ref 10, .ref 12],
   .inst (cid (.int .errorStatus)) [("value", .int 2)], .inst (cid (.int .genericTrap)) [("value", .int 3)],
   .inst (cid (.int .errorStatus)) [("value", .int 18)], .inst (cid (.oct .octetString)) [("value", .str [7, 255])]]

theorem sampleTexts_vb : Rep 9 sampleTexts (.seq .varBind [.oid (some [1, 3, 6]), .integer .counter 4294967295]) (.ref 13) := by
  rw [Rep]
  refine ⟨13, _, 14, [.ref 10, .ref 12], rfl, by decide, rfl, plain _, rfl, by decide, rfl, rfl, ?_⟩
  rw [RepAll]
  refine ⟨_, _, rfl, ?_, ?_⟩
  · rw [Rep]; exact ⟨10, _, 11, rfl, by decide, rfl, plain _, rfl, by decide, rfl⟩
  rw [RepAll]
  refine ⟨_, _, rfl, ?_, ?_⟩
  · rw [Rep]; exact ⟨12, [("value", .int 4294967295)], rfl, by decide, rfl, plain _, rfl⟩
  rw [RepAll]

theorem sampleTexts_int {k : Nat} {c : IntCls} {n : Int} (hk : 9 ≤ k)
    (h : sampleTexts[k]? = some (.inst (cid (.int c)) [("value", .int n)])) : Rep 9 sampleTexts (.integer c n) (.ref k) := by
  rw [Rep]; exact ⟨k, _, rfl, hk, h, plain _, rfl⟩

/-- A binding, an error status and a trap are written; number 18 is no error status of rfc1157, and writing it is a KeyError. -/
example : (∃ t, toStr program sampleCfg (.ref 13) sampleTexts = okR (lit "[.1.3.6, 4294967295]") (sampleTexts ++ t)) ∧
    (∃ t, toStr program sampleCfg (.ref 15) sampleTexts =
      okR (lit "2: There is no such variable name in this MIB") (sampleTexts ++ t)) ∧
    (∃ t, toStr program sampleCfg (.ref 16) sampleTexts = okR (lit "GenericTrap: 3 (linkUp)") (sampleTexts ++ t)) ∧
    ∃ t, toStr program sampleCfg (.ref 17) sampleTexts = excR (.exc "KeyError" []) (sampleTexts ++ t) := by
  have h1 := C94_str (cfg := sampleCfg) (texts_statics _) sampleTexts_vb (by simp [NoMessage, NoMessages])
  have h2 := C94_str (cfg := sampleCfg) (texts_statics _) (sampleTexts_int (k := 15) (by decide) rfl) trivial
  have h3 := C94_str (cfg := sampleCfg) (texts_statics _) (sampleTexts_int (k := 16) (by decide) rfl) trivial
  have h4 := C94_str (cfg := sampleCfg) (texts_statics _) (sampleTexts_int (k := 17) (by decide) rfl) trivial
  rw [show valStrDig sampleCfg.digits errString1 _ = .ok (lit "[.1.3.6, 4294967295]") by decide +kernel] at h1
  rw [show valStrDig sampleCfg.digits errString1 _ = .ok (lit "2: There is no such variable name in this MIB") by decide +kernel] at h2
  rw [show valStrDig sampleCfg.digits errString1 _ = .ok (lit "GenericTrap: 3 (linkUp)") by decide +kernel] at h3
  rw [show valStrDig sampleCfg.digits errString1 _ = .error .keyError by decide +kernel] at h4
  exact ⟨h1, h2, h3, h4⟩

/-- A message is written as its three fields, whichever of the two tables there is. -/
example : ∃ h a t, RepMsg 9 h sampleMsg a ∧ toStr program sampleCfg (.ref a) h = okR
    (lit "[1, pu, [12, 2: There is no such variable name in this MIB, 1, [[.1.3.6.1.2.1.1.3.0, 4294967295]]]]") (h ++ t) := by
  obtain ⟨h, a, hb, r⟩ := sampleMsg_made
  have hn : NoMessages [sampleMsg.version, sampleMsg.community, sampleMsg.data] := by
    simp [NoMessages, NoMessage, sampleMsg, samplePdu, sampleVb]
  rcases C94_tables hb with ht | ht
  · obtain ⟨t, h1⟩ := C94_message_str (cfg := sampleCfg) (.inr rfl) ht r hn
    rw [show msgStrDig sampleCfg.digits errString1 sampleMsg = .ok
      (lit "[1, pu, [12, 2: There is no such variable name in this MIB, 1, [[.1.3.6.1.2.1.1.3.0, 4294967295]]]]") by decide +kernel] at h1
    exact ⟨h, a, t, r, h1⟩
  · obtain ⟨t, h1⟩ := C94_message_str (cfg := sampleCfg) (.inr rfl) ht r hn
    rw [show msgStrDig sampleCfg.digits (extendErrString errString1) sampleMsg = .ok
      (lit "[1, pu, [12, 2: There is no such variable name in this MIB, 1, [[.1.3.6.1.2.1.1.3.0, 4294967295]]]]") by decide +kernel] at h1
    exact ⟨h, a, t, r, h1⟩

/-- `OctetString('\x07\xff')`: its hexadecimal and octal forms, and its ObjectID. -/
example : (∃ t, callMethod sampleCfg (.ref 18) "__hex__" [] sampleTexts = okR (.str (lit "07FF")) (sampleTexts ++ t)) ∧
    (∃ t, callMethod sampleCfg (.ref 18) "__oct__" [] sampleTexts = okR (.str (lit "  7377")) (sampleTexts ++ t)) ∧
    ∃ t x, callMethod sampleCfg (.ref 18) "toObjectID" [] sampleTexts = okR x (sampleTexts ++ t) ∧
      Rep sampleTexts.length (sampleTexts ++ t) (.oid (some [7, 255])) x := by
  have r : Rep 9 sampleTexts (.octets .octetString [7, 255]) (.ref 18) := by
    rw [Rep]; exact ⟨18, _, rfl, by decide, rfl, plain _, rfl⟩
  have h1 := C94_hex (cfg := sampleCfg) r rfl
  have h2 := C94_oct (cfg := sampleCfg) r rfl
  have h3 := C94_toObjectID (cfg := sampleCfg) r rfl
  rw [show valHex (.octets .octetString [7, 255]) = .ok (lit "07FF") by decide +kernel] at h1
  rw [show valOct (.octets .octetString [7, 255]) = .ok (lit "  7377") by decide +kernel] at h2
  exact ⟨h1, h2, h3⟩

end Libsnmp
