import Verif.Lemmas.SrcRun

/-!
# Running messages
-/

namespace Libsnmp.Src
open Libsnmp

variable {cfg : Cfg}

/-- `len(x)`. -/
theorem run_len {lo : Nat} {h : Heap} {v : Val} {x : V} (r : Rep lo h v x) :
    match v.len with
    | .ok n => len program cfg x h = okR (.int n) h
    | .error e => e = .typeError ∧ len program cfg x h = excR (.exc "TypeError" []) h := by
  match v, r with
  | .none, r => rw [Rep] at r; subst r; runs [Val.len]
  | .int n, r => rw [Rep] at r; subst r; runs [Val.len]
  | .str s, r => rw [Rep] at r; subst r; runs [Val.len]
  | .integer c n, r =>
    rw [Rep] at r
    obtain ⟨a, attrs, rfl, hl, ha, hp, hv⟩ := r
    runs [Val.len, ha]
  | .octets c n, r =>
    rw [Rep] at r
    obtain ⟨a, attrs, rfl, hl, ha, hp, hv⟩ := r
    runs [Val.len, ha]
  | .null c, r =>
    rw [Rep] at r
    obtain ⟨a, attrs, rfl, hl, ha, hp⟩ := r
    runs [Val.len, ha]
  | .oid none, r =>
    rw [Rep] at r
    obtain ⟨a, attrs, rfl, hl, ha, hp, hv⟩ := r
    runs [Val.len, ha, run_oidLen0 ha hv]
    rfl
  | .oid (some ids), r =>
    rw [Rep] at r
    obtain ⟨a, attrs, b, rfl, hl, ha, hp, hv, hb, hr⟩ := r
    runs [Val.len, ha, run_oidLen ha hv hr]
    simp
  | .seq c items, r =>
    rw [Rep] at r
    obtain ⟨a, attrs, b, l, rfl, hl, ha, hp, hv, hb, hr, hf, hi⟩ := r
    runs [Val.len, ha, run_seqLen ha hv hr]
    rw [hi.length]

/-- `raise MessageError(text)`. -/
theorem run_newMsgErr (s : Str) (h : Heap) :
    ∃ attrs, call program cfg (.cls (.rfc1157, 128)) [.str s] h = okR (.ref h.length) (h ++ [.inst (.rfc1157, 128) attrs]) := by
  have hi : program.attr (.rfc1157, 128) "__init__" = some (.func .rfc1157 129) := rfl
  have he : program.isExc 8 (.rfc1157, 128) = true := rfl
  rw [call.eq_4, hi]
  runs [he, call_rfc1157_129, rfc1157_129]
  exact ⟨_, rfl⟩

theorem lookup_setOther {attrs : List (String × V)} {k j : String} {x : V} (hj : (j == k) = false) :
    (setAssoc attrs k x).lookup j = attrs.lookup j := by
  induction attrs with
  | nil => rw [setAssoc, List.lookup_cons, hj]
  | cons p ps ih =>
    obtain ⟨b, w⟩ := p
    rw [setAssoc]
    split
    · rename_i h; subst h; simp only [List.lookup_cons, hj]
    · rw [List.lookup_cons, List.lookup_cons, ih]

theorem getItem_ok {lo : Nat} {h : Heap} {v : Val} {x : V} (r : Rep lo h v x) {n i : Nat} (hn : v.len = .ok n) (hi : i < n) :
    ∃ w, v.getItem i = .ok w := by
  match v, r with
  | .bytes _, r => rw [Rep] at r; exact r.elim
  | .str s, _ =>
    cases hn
    rw [Val.getItem, List.getElem?_eq_getElem hi]
    exact ⟨_, rfl⟩
  | .oid none, _ => cases hn; simp at hi
  | .oid (some ids), _ =>
    cases hn
    rw [Val.getItem, List.getElem?_eq_getElem (by simpa using hi)]
    exact ⟨_, rfl⟩
  | .seq _ items, _ =>
    cases hn
    rw [Val.getItem, List.getElem?_eq_getElem hi]
    exact ⟨_, rfl⟩

theorem item_ok {lo : Nat} {h : Heap} {v w : Val} {x : V} (r : Rep lo h v x) {i : Nat} (hw : v.getItem i = .ok w) :
    ∃ y, getitem program cfg x (.int i) h = okR y h ∧ Rep lo h w y := by
  have := run_getItem (cfg := cfg) r i
  rw [hw] at this
  exact this

/-- `Message.decode`. -/
theorem run_msgDecode (hc : Limits cfg) {reg : Reg} (hreg : ∀ n : Nat, cfg.tag n = (reg n).map cid)
    (hdec : ∀ n c, reg n = some c → Decodable c = true) {h : Heap} (hb : Base h) {a b : Nat} {c : SeqCls}
    {attrs : List (String × V)} {l : List V} (ha : h[a]? = some (.inst (cid (.seq c)) attrs)) (h9 : 9 ≤ a)
    (hv : attrs.lookup "value" = some (.ref b)) (h9b : 9 ≤ b) (hl : h[b]? = some (.list l)) (hs' : l.length < 10 ^ 640)
    (s : Str) (hs : s.length < 10 ^ 640) :
    MsgDecodes h a c (call program cfg (.func .rfc1157 110) [.ref a, .str s] h)
      (msgDecode311 reg cfg.limit c (.str s)) := by
  have hk0 := Kept.app hb [.inst (cid (.seq .sequence)) [("value", .ref (h.length + 1))], .list []]
  have hseq : (h ++ [.inst (cid (.seq .sequence)) [("value", .ref (h.length + 1))], .list []])[h.length]? =
    some (.inst (cid (.seq .sequence)) [("value", .ref (h.length + 1))]) := get_app _ _
  have hns : call program cfg (.cls (.rfc1155, 785)) [] h = okR (.ref h.length)
    (h ++ [.inst (.rfc1155, 785) [("value", .ref (h.length + 1))], .list []]) := run_newSeq h
  have hrun := run_decode (cfg := cfg) hc hreg hdec (s.length + 1) hk0.base hseq hb.long (plain _) s (by omega) hs
  have hat := attr_decode (.seq .sequence) rfl
  simp only [show cid (.seq .sequence) = (Module.rfc1155, 785) from rfl] at hseq hrun hat hk0
  rw [call_rfc1157_110, msgDecode311]
  simp only [decode311]
  cases hm : decodeDig reg cfg.limit (s.length + 1) s with
  | error e =>
    rw [hm] at hrun
    obtain ⟨H, x, hrun, hk, hx⟩ := hrun
    runs [rfc1157_110, ↓hns, hseq, hat, hrun]
    exact ⟨_, _, rfl, hk0.trans (hk.mono (by simp)), hx⟩
  | ok vs =>
    rw [hm] at hrun
    obtain ⟨H, o, xs, hrun, hk, ho, hox, hall⟩ := hrun
    have hkk : Kept h.length h H := hk0.trans (hk.mono (by simp))
    have haH := hkk.get ha h9 (lt_of_get ha)
    have hlH := hkk.get hl h9b (lt_of_get hl)
    have hsh := hc.short (n := (l.length : Int)) (by simpa using hs')
    match vs, hall with
    | [], hall =>
      rw [RepAll] at hall
      subst hall
      runs [rfc1157_110, ↓hns, hseq, hat, hrun, hox, haH, hv, hlH]
      exact ⟨_, _, rfl, hkk, _, rfl⟩
    | [w], hall =>
      rw [RepAll] at hall
      obtain ⟨x, xs, rfl, r, hall⟩ := hall
      rw [RepAll] at hall
      subst hall
      have hlen := run_len (cfg := cfg) r
      simp only [bind, Except.bind]
      cases hw : w.len with
      | error e =>
        rw [hw] at hlen
        obtain ⟨rfl, hlen⟩ := hlen
        runs [rfc1157_110, ↓hns, hseq, hat, hrun, hox, ↓hlen]
        exact ⟨_, _, rfl, hkk, _, rfl⟩
      | ok n =>
        rw [hw] at hlen
        by_cases h3 : n = 3
        · subst h3
          obtain ⟨u0, hu0⟩ := getItem_ok r hw (i := 0) (by omega)
          obtain ⟨u1, hu1⟩ := getItem_ok r hw (i := 1) (by omega)
          obtain ⟨u2, hu2⟩ := getItem_ok r hw (i := 2) (by omega)
          have haf := lt_of_get haH
          have ham := lt_of_get ha
          have e0 := isExc_cid (.seq c)
          have hlen3 : len program cfg x H = okR (.int 3) H := hlen
          have hset : ∀ (K : Heap) (d : Cell) (v : Val) (z : V), Rep (h.length + 2) K v z → Rep (h.length + 2) (K.set a d) v z :=
            fun K d v z rz => Rep.congr (Nat.le_refl _) (fun b' d' hb' hd' => by
              rw [List.getElem?_set_ne (by omega)]; exact hd') v z rz
          simp only [List.length_append, List.length_cons, List.length_nil, Nat.zero_add, Nat.reduceAdd] at r
          obtain ⟨y0, g0, r0⟩ := item_ok (cfg := cfg) r hu0
          have r' := hset H (.inst (cid (.seq c)) (setAssoc attrs "version" y0)) _ _ r
          obtain ⟨y1, g1, r1⟩ := item_ok (cfg := cfg) r' hu1
          have r'' := hset _ (.inst (cid (.seq c)) (setAssoc (setAssoc attrs "version" y0) "community" y1)) _ _ r'
          rw [List.set_set] at r''
          obtain ⟨y2, g2, r2⟩ := item_ok (cfg := cfg) r'' hu2
          have g0' : getitem program cfg x (.int 0) H = okR y0 H := g0
          have g1' : getitem program cfg x (.int 1) _ = okR y1 _ := g1
          have g2' : getitem program cfg x (.int 2) _ = okR y2 _ := g2
          have hao : a ≠ o := by simp at ho; omega
          have ho1 : ∀ d, (H.set a d)[o]? = some (.list [x]) := fun d => by rw [List.getElem?_set_ne hao, hox]
          simp only [hu0, hu1, hu2, ne_eq, not_true, if_false]
          runs [rfc1157_110, ↓hns, hseq, hat, hrun, hox, ↓hlen3, e0, ↓g0', haH, ↓g1', ↓g2', ho1, get_set_nil haf]
          refine ⟨_, _, y0, y1, y2, rfl, ?_, ?_, get_set_nil haf _, rfl, ?_, ?_, ?_, ?_, ?_, ?_, ?_⟩
          · exact (Kept.set hkk.base h9 (Nat.le_refl _) _).base
          · intro b' h9' hb' hne
            rw [List.getElem?_set_ne (Ne.symm hne)]
            exact hkk.same b' h9' hb'
          · rw [lookup_setOther (by decide), lookup_setOther (by decide), lookup_setAssoc]
          · rw [lookup_setOther (by decide), lookup_setAssoc]
          · rw [lookup_setAssoc]
          · have := hset _ (.inst (cid (.seq c)) (setAssoc (setAssoc (setAssoc attrs "version" y0) "community" y1) "data" y2)) _ _ r0
            exact Rep.congr (by omega) (fun _ _ _ h => h) _ _ this
          · have := hset _ (.inst (cid (.seq c)) (setAssoc (setAssoc (setAssoc attrs "version" y0) "community" y1) "data" y2)) _ _ r1
            rw [List.set_set] at this
            exact Rep.congr (by omega) (fun _ _ _ h => h) _ _ this
          · have := hset _ (.inst (cid (.seq c)) (setAssoc (setAssoc (setAssoc attrs "version" y0) "community" y1) "data" y2)) _ _ r2
            rw [List.set_set] at this
            exact Rep.congr (by omega) (fun _ _ _ h => h) _ _ this
          · intro c0 attrs0 k e0 k1 k2 k3
            rw [ha] at e0
            cases e0
            rw [lookup_setOther (beq_false_of_ne k3), lookup_setOther (beq_false_of_ne k2), lookup_setOther (beq_false_of_ne k1)]
        · have hn : (decide ((n : Int) = 3)) = false := by simp; omega
          obtain ⟨attrs', herr⟩ := run_newMsgErr (cfg := cfg)
            (lit "Malformed Message: Incorrect sequence length " ++ padLeft 0 32 (pyStrInt l.length)) H
          runs [rfc1157_110, ↓hns, hseq, hat, hrun, hox, ↓hlen, hn, haH, hv, hlH, hsh, h3, ↓herr]
          exact ⟨_, _, rfl, hkk.app' _ hkk.len, _, _, rfl, get_app _ _⟩
    | _ :: _ :: _, hall =>
      rw [RepAll] at hall
      obtain ⟨x, xs, rfl, r, hall⟩ := hall
      rw [RepAll] at hall
      obtain ⟨x', xs, rfl, r', hall⟩ := hall
      runs [rfc1157_110, ↓hns, hseq, hat, hrun, hox, haH, hv, hlH]
      exact ⟨_, _, rfl, hkk, _, rfl⟩


/-! ## Constructors of messages -/

theorem run_newOctStr (s : Str) (h : Heap) :
    call program cfg (.cls (cid (.oct .octetString))) [.str s] h =
      okR (.ref h.length) (h ++ [.inst (cid (.oct .octetString)) [("value", .str s)]]) := by
  have he := isExc_cid (.oct .octetString)
  rw [call_cls, show initOf (.oct .octetString) = (.rfc1155, 519) from rfl]
  dsimp only
  rw [call_rfc1155_519]
  runs [rfc1155_519, he]

theorem run_msgInit (hc : Limits cfg) {h : Heap} {a : Nat} {c : SeqCls} (ha : h[a]? = some (.inst (cid (.seq c)) []))
    (n : Int) (s : Str) (z : V) :
    if (IntCls.integer).minVal ≤ n ∧ n ≤ (IntCls.integer).maxVal then
      call program cfg (.func .rfc1157 91) [.ref a, .int n, .str s, z] h = okR .none
        (h.set a (.inst (cid (.seq c)) [("value", .ref h.length), ("version", .ref (h.length + 1)), ("community", .ref (h.length + 2)), ("data", z)]) ++
          [.list [], .inst (cid (.int .integer)) [("value", .int n)], .inst (cid (.oct .octetString)) [("value", .str s)]])
    else ∃ args H, call program cfg (.func .rfc1157 91) [.ref a, .int n, .str s, z] h = excR (.exc "ValueError" args) H ∧
      (Base h → 9 ≤ a → Kept a h H) := by
  have he := isExc_cid (.seq c)
  have haf := lt_of_get ha
  have hsi := run_seqInit (cfg := cfg) ha he
  have hin := run_newInt (cfg := cfg) hc (c := .integer) (by decide) n (h.set a (.inst (cid (.seq c)) [("value", .ref h.length)]) ++ [.list []])
  rw [call_rfc1157_91]
  split at hin
  · rename_i hr
    rw [if_pos hr]
    have hos := fun H => run_newOctStr (cfg := cfg) s H
    simp only [show cid (.int .integer) = (Module.rfc1155, 288) from rfl, show cid (.oct .octetString) = (Module.rfc1155, 513) from rfl] at hin hos ⊢
    runs [rfc1157_91, ↓hsi, ↓hin, ↓hos, he, get_set haf, set_old, List.set_set, haf, List.length_append, List.length_set]
  · rename_i hr
    rw [if_neg hr]
    obtain ⟨args, hin⟩ := hin
    simp only [show cid (.int .integer) = (Module.rfc1155, 288) from rfl] at hin
    runs [rfc1157_91, ↓hsi, ↓hin]
    exact ⟨_, _, rfl, fun hb h9 => (Kept.set hb h9 (Nat.le_refl _) _).app' _ (by simp; omega)⟩


theorem initOf_msg {c : SeqCls} (h : c = .message ∨ c = .message2) :
    initOf (.seq c) = (.rfc1157, 91) ∨ initOf (.seq c) = (.rfc1905, 60) := by
  rcases h with rfl | rfl
  · exact .inl rfl
  · exact .inr rfl

/-- `Message(version, community, data)`. -/
theorem run_newMsg (hc : Limits cfg) {lo : Nat} {h : Heap} (hb : Base h) {c : SeqCls} (hm : c = .message ∨ c = .message2)
    (n : Int) (s : Str) {d : Val} {z : V} (h9 : 9 ≤ lo) (hlo : lo ≤ h.length) (r : Rep lo h d z) :
    match mkMessage c n s d with
    | .ok m => ∃ h', call program cfg (.cls (cid (.seq c))) [.int n, .str s, z] h = okR (.ref h.length) h' ∧
        Kept h.length h h' ∧ m.cls = c ∧ RepMsg lo h' m h.length
    | .error e => ∃ h' x, call program cfg (.cls (cid (.seq c))) [.int n, .str s, z] h = excR x h' ∧
        Kept h.length h h' ∧ Raised h' e x := by
  have hi := run_msgInit (cfg := cfg) hc (get_app h [.inst (cid (.seq c)) []]) n s z
  have hk := Kept.app hb [.inst (cid (.seq c)) []]
  have hcall : call program cfg (.cls (cid (.seq c))) [.int n, .str s, z] h =
      bindR (call program cfg (.func .rfc1157 91) [.ref h.length, .int n, .str s, z] (h ++ [.inst (cid (.seq c)) []]))
        fun _ h' => okR (.ref h.length) h' := by
    rw [call_cls]
    rcases hm with rfl | rfl
    · rfl
    · rw [show initOf (.seq .message2) = (.rfc1905, 60) from rfl]
      dsimp only
      rw [call_rfc1905_60]
      by_cases hr : (IntCls.integer).minVal ≤ n ∧ n ≤ (IntCls.integer).maxVal
      · rw [if_pos hr] at hi
        runs [rfc1905_60, hi]
      · rw [if_neg hr] at hi
        obtain ⟨args, H, hi, hk⟩ := hi
        runs [rfc1905_60, hi]
  rw [hcall, mkMessage, mkInteger]
  by_cases hr : (IntCls.integer).minVal ≤ n ∧ n ≤ (IntCls.integer).maxVal
  · rw [if_pos hr] at hi
    rw [if_pos hr]
    runs [hi]
    refine ⟨_, rfl, Kept.app hb _, ?_⟩
    refine ⟨_, _, [], .ref (h.length + 1 + 1), .ref (h.length + 1 + 2), z, hlo, get_app _ _, plain _, rfl, by omega, ?_, by simp, rfl, rfl, rfl, ?_, ?_, r.app _⟩
    · rw [List.getElem?_append_right (by omega)]; simp
    · dsimp only
      rw [Rep]
      refine ⟨_, [("value", .int n)], rfl, by omega, ?_, plain _, rfl⟩
      rw [List.getElem?_append_right (by omega), show h.length + 1 + 1 - h.length = 2 by omega]; rfl
    · dsimp only
      rw [Rep]
      refine ⟨_, [("value", .str s)], rfl, by omega, ?_, plain _, rfl⟩
      rw [List.getElem?_append_right (by omega), show h.length + 1 + 2 - h.length = 3 by omega]; rfl
  · rw [if_neg hr] at hi
    rw [if_neg hr]
    obtain ⟨args, H, hi, hk'⟩ := hi
    runs [hi]
    have := hk' hk.base hb.long
    exact ⟨_, _, rfl, hk.trans this, _, rfl⟩

end Libsnmp.Src
