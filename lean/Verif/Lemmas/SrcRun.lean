import Verif.Lemmas.SrcFin
import Verif.Lemmas.Decode

/-!
# Running `decode`
-/

namespace Libsnmp.Src
open Libsnmp

variable {cfg : Cfg}

/-- Calling a class of PDUs without arguments is calling it with zeros and an empty list. -/
theorem pdu_defaults {c : SeqCls} (hp : (Cls.seq c).isSubclass (.seq .pdu) = true ∨ (Cls.seq c).isSubclass (.seq .bulkPDU) = true) :
    ∃ k, (k = 4 ∨ k = 7 ∨ k = 8) ∧ ∀ h : Heap, call program cfg (.cls (cid (.seq c))) [] h =
      call program cfg (.cls (cid (.seq c))) [.int 0, .int 0, .int 0, .ref k] h := by
  have key : initOf (.seq c) = (.rfc1157, 138) ∨ initOf (.seq c) = (.rfc1905, 105) ∨ initOf (.seq c) = (.rfc1905, 144) := by
    cases c <;> first
      | exact .inl rfl | exact .inr (.inl rfl) | exact .inr (.inr rfl)
      | (rcases hp with hp | hp <;> cases hp)
  rcases key with hi | hi | hi
  · exact ⟨4, .inl rfl, fun h => by rw [call_cls, call_cls, hi, call_rfc1157_138_1, call_rfc1157_138]⟩
  · exact ⟨7, .inr (.inl rfl), fun h => by rw [call_cls, call_cls, hi, call_rfc1905_105_1, call_rfc1905_105]⟩
  · exact ⟨8, .inr (.inr rfl), fun h => by rw [call_cls, call_cls, hi, call_rfc1905_144_1, call_rfc1905_144]⟩

theorem mkPDU_zero {c : SeqCls} (hp : (Cls.seq c).isSubclass (.seq .pdu) = true ∨ (Cls.seq c).isSubclass (.seq .bulkPDU) = true) :
    ∃ items, mkPDU c 0 0 0 [] = .ok (.seq c items) := by
  cases c <;> first
    | exact ⟨_, rfl⟩
    | (rcases hp with hp | hp <;> cases hp)

/-- `tagDecodeDict[tag]()`. -/
theorem run_new (hc : Limits cfg) {h : Heap} (hb : Base h) {c : Cls} (hd : Decodable c = true) :
    ∃ h' attrs, call program cfg (.cls (cid c)) [] h = okR (.ref h.length) h' ∧ Kept h.length h h' ∧
      h'[h.length]? = some (.inst (cid c) attrs) ∧ Fresh c attrs := by
  have pdu : ∀ {c : SeqCls}, ((Cls.seq c).isSubclass (.seq .pdu) = true ∨ (Cls.seq c).isSubclass (.seq .bulkPDU) = true) →
      ∃ h' attrs, call program cfg (.cls (cid (.seq c))) [] h = okR (.ref h.length) h' ∧ Kept h.length h h' ∧
      h'[h.length]? = some (.inst (cid (.seq c)) attrs) ∧ Fresh (.seq c) attrs := fun {c} hp => by
    obtain ⟨k, hk, hcall⟩ := pdu_defaults (cfg := cfg) hp
    obtain ⟨items, hm⟩ := mkPDU_zero hp
    have hit : Items h (.ref k) [] := by
      rcases hk with rfl | rfl | rfl
      · exact items_of fun h' hk => hk.base.list4
      · exact items_of fun h' hk => hk.base.list7
      · exact items_of fun h' hk => hk.base.list8
    have hn := run_newPDU (cfg := cfg) hc hb hp hit (vs := []) (lo := 9) (by rw [RepAll]) (by omega) hb.long rfl 0 0 0
    rw [hm] at hn
    obtain ⟨h', h1, h2, h3⟩ := hn
    rw [Rep] at h3
    obtain ⟨a, attrs, b, l, heq, hl, ha, hp, _⟩ := h3
    cases heq
    exact ⟨h', attrs, (hcall h).trans h1, h2, ha, hp⟩
  match c, hd with
  | .int c, hd => exact ⟨_, _, run_newInt0 hc (by simpa [Decodable] using hd) h, Kept.app hb _, get_app _ _, ⟨_, rfl⟩⟩
  | .oct c, hd => exact ⟨_, _, run_newOct (by simpa [Decodable] using hd) h, Kept.app hb _, get_app _ _, ⟨_, rfl⟩⟩
  | .oid, _ => exact ⟨_, _, run_newOid h, Kept.app hb _, get_app _ _, ⟨_, rfl⟩⟩
  | .null c, _ => exact ⟨_, _, run_newNull c h, Kept.app hb _, get_app _ _, rfl⟩
  | .seq c, hd =>
    by_cases h1 : c = .sequence
    · subst h1
      exact ⟨_, _, run_newSeq h, Kept.app hb _, get_app _ _, plain [_]⟩
    · by_cases h2 : c = .trapPDU
      · subst h2
        have hcall : call program cfg (.cls (cid (.seq .trapPDU))) [] h =
            call program cfg (.cls (cid (.seq .trapPDU))) [.none, .none, .none, .none, .none, .none] h := by
          rw [call_cls, call_cls, initOf, call_rfc1157_233_1, call_rfc1157_233]
        exact ⟨_, _, hcall.trans (run_newTrap h _ _ _ _ _ _), Kept.app hb _, get_app _ _, plain [_, _, _, _, _, _, _]⟩
      · refine pdu ?_
        cases c <;> first | exact absurd rfl h1 | exact absurd rfl h2 | exact .inl rfl | exact .inr rfl | (revert hd; decide)

theorem contents_obj {D : Nat} {nested : Str → Except Exc (List Val)} {c : Cls} {data : Str} {v : Val}
    (h : contentsDig D nested c data = .ok v) (s : Str) : v ≠ .str s := by
  unfold contentsDig contentsWith at h
  rintro rfl
  repeat' split at h
  all_goals try cases h
  rcases finishSeq_ok h with ⟨h, _⟩ | ⟨_, _, _, _, _, _, _, _, _, _, _, _, _, _, _, _, _, _, h⟩ | h
  · cases h
  · obtain ⟨_, _, _, h, _⟩ := mkPDU_ok h
    cases h
  · obtain ⟨_, _, _, _, _, _, _, _, _, _, _, _, _, _, _, _, _, h⟩ := h
    cases h

theorem decodeLoop_obj {reg : Reg} {contents : Cls → Str → Except Exc Val} (hc : ∀ c d v, contents c d = .ok v → ∀ s, v ≠ .str s)
    (stream : Str) (vs : List Val) (h : decodeLoop reg contents stream = .ok vs) :
    vs.length ≤ stream.length ∧ ∀ v ∈ vs, ∀ s, v ≠ .str s := by
  generalize hn : stream.length = n
  induction n using Nat.strongRecOn generalizing stream vs with
  | ind n ih =>
  subst hn
  rw [decodeLoop] at h
  split at h
  · cases h; simp
  · split at h
    · cases h
    · rename_i hne tag s1 h1
      split at h
      · cases h
      · rename_i length s2 h2
        have l1 := decodeTag_length h1
        have l2 := decodeLength_length h2
        split at h
        · cases h
        · split at h
          · cases h
          · rename_i cls _ obj hobj
            split at h
            · cases h
            · rename_i objects hr
              cases h
              have := ih (s2.drop length).length (by simp; omega) (s2.drop length) objects hr rfl
              refine ⟨?_, ?_⟩
              · have := this.1
                simp only [List.length_drop, List.length_cons] at *
                omega
              · intro v hv
                rcases List.mem_cons.1 hv with rfl | hv
                · exact hc _ _ _ hobj
                · exact this.2 v hv

theorem attr_decode (c : Cls) (hd : Decodable c = true) : program.attr (cid c) "decode" = some (.func .rfc1155 150) := by
  rcases c with _ | c | c | _ | c | c
  · cases hd
  all_goals first | rfl | (cases c <;> first | rfl | cases hd)

theorem plain_set {attrs : List (String × V)} (hp : Plain attrs) (x : V) : Plain (setAssoc attrs "value" x) := by
  induction attrs with
  | nil => exact plain [_]
  | cons p ps ih =>
    obtain ⟨k, w⟩ := p
    have h1 : k ∈ dataNames := hp (k, w) List.mem_cons_self
    have h2 : Plain ps := fun q hq => hp q (List.mem_cons_of_mem _ hq)
    rw [setAssoc]
    split
    · intro q hq
      rcases List.mem_cons.1 hq with rfl | hq
      · exact h1
      · exact h2 q hq
    · intro q hq
      rcases List.mem_cons.1 hq with rfl | hq
      · exact h1
      · exact ih h2 q hq

theorem lookup_setAssoc (attrs : List (String × V)) (k : String) (x : V) : (setAssoc attrs k x).lookup k = some x := by
  induction attrs with
  | nil => simp [setAssoc]
  | cons p ps ih =>
    obtain ⟨b, w⟩ := p
    rw [setAssoc]
    split
    · rename_i h; subst h; simp
    · rename_i h
      rw [List.lookup_cons, beq_eq_false_iff_ne.2 (Ne.symm h)]
      exact ih

/-- `Sequence.decodeContents`. -/
theorem run_seqDec {h : Heap} (hb : Base h) {a : Nat} {c : SeqCls} {attrs : List (String × V)}
    (ha : h[a]? = some (.inst (cid (.seq c)) attrs)) (h9 : 9 ≤ a) (hp : Plain attrs) (hd : Decodable (.seq c) = true) {s : Str}
    {m : Except Exc (List Val)} (hm : DecodesAll h (call program cfg (.func .rfc1155 150) [.ref a, .str s] h) m)
    (hobj : ∀ vs, m = .ok vs → ∀ v ∈ vs, ∀ s, v ≠ .str s) :
    match (generalizing := false) m with
    | .ok vs => ∃ h1 l b, call program cfg (.func .rfc1155 842) [.ref a, .str s] h = okR (.ref a) h1 ∧
        Filled a h h1 c vs l (setAssoc attrs "value" (.ref b)) b
    | .error e => ∃ h1 x, call program cfg (.func .rfc1155 842) [.ref a, .str s] h = excR x h1 ∧ Kept a h h1 ∧ Raised h1 e x := by
  have hdec := attr_decode (.seq c) hd
  have hno : attrs.lookup "decode" = none := hp.none
  have he := isExc_cid (.seq c)
  have hlt := lt_of_get ha
  rw [call_rfc1155_842]
  cases m with
  | error e =>
    obtain ⟨h', x, hm, hk, hx⟩ := hm
    runs [rfc1155_842, ha, hno, hdec, hm]
    exact ⟨_, _, rfl, hk.mono (by omega), hx⟩
  | ok vs =>
    obtain ⟨h', b, l, hm, hk, hbl, hlist, hall⟩ := hm
    have ha' := hk.get ha h9 hlt
    have hlen := hk.len
    runs [rfc1155_842, ha, hno, hdec, hm, ha', he]
    refine ⟨_, l, b, rfl, (hk.mono (by omega)).set' h9 (Nat.le_refl _) _, List.getElem?_set_self (by omega), plain_set hp _, ?_, by omega, ?_, ?_, hobj vs rfl⟩
    · exact lookup_setAssoc _ _ _
    · rw [List.getElem?_set_ne (by omega)]; exact hlist
    · refine RepAll.congr (lo := h.length) (by omega) (fun k c hk hc => ?_) _ _ hall
      rw [List.getElem?_set_ne (by omega)]; exact hc

/-- `decodeContents` of every class that a registry may name. -/
theorem run_contents (hc : Limits cfg) {h : Heap} (hb : Base h) {a : Nat} {c : Cls} {attrs : List (String × V)}
    (ha : h[a]? = some (.inst (cid c) attrs)) (h9 : 9 ≤ a) (hf : Fresh c attrs) (hd : Decodable c = true) {s : Str}
    {nested : Str → Except Exc (List Val)}
    (hm : ∀ k, c = .seq k → DecodesAll h (call program cfg (.func .rfc1155 150) [.ref a, .str s] h) (nested s))
    (hobj : ∀ vs, nested s = .ok vs → vs.length < 10 ^ 640 ∧ ∀ v ∈ vs, ∀ s, v ≠ .str s) :
    Decodes a h (call program cfg (.func (decOf c).1 (decOf c).2) [.ref a, .str s] h) (contentsDig cfg.limit nested c s) := by
  match c, hd with
  | .int c, _ => exact run_decInt hb ha h9 hf s nested
  | .oct c, _ => exact run_decOct hb ha h9 hf s
  | .oid, _ => exact run_decOid hb ha h9 hf s
  | .null c, _ => cases hf; exact run_decNull hb ha s
  | .seq c, hd =>
    have hq := run_seqDec hb ha h9 hf hd (hm c rfl) fun vs hv => (hobj vs hv).2
    rw [contentsDig, contentsWith]
    · cases hn : nested s with
      | error e =>
        rw [hn] at hq
        obtain ⟨h1, x, hq, hk, hx⟩ := hq
        dsimp only
        have hcase : decOf (.seq c) = (.rfc1155, 842) ∨ decOf (.seq c) = (.rfc1157, 153) ∨ decOf (.seq c) = (.rfc1157, 255) ∨
            decOf (.seq c) = (.rfc1905, 164) := by
          cases c <;> first | exact .inl rfl | exact .inr (.inl rfl) | exact .inr (.inr (.inl rfl)) | exact .inr (.inr (.inr rfl))
        rcases hcase with hcase | hcase | hcase | hcase <;> rw [hcase] <;> dsimp only
        · exact ⟨_, _, hq, hk, hx⟩
        · rw [call_rfc1157_153]
          runs [rfc1157_153, hq]
          exact ⟨_, _, rfl, hk, hx⟩
        · rw [call_rfc1157_255]
          runs [rfc1157_255, hq]
          exact ⟨_, _, rfl, hk, hx⟩
        · rw [call_rfc1905_164]
          runs [rfc1905_164, hq]
          exact ⟨_, _, rfl, hk, hx⟩
      | ok vs =>
        rw [hn] at hq
        obtain ⟨h1, l, b, hq, hfill⟩ := hq
        have hlen := (hobj vs hn).1
        dsimp only
        by_cases hp : (Cls.seq c).isSubclass (.seq .pdu) = true
        · have hcase : decOf (.seq c) = (.rfc1157, 153) := by cases c <;> first | rfl | cases hp
          have hfin : finishSeq c vs = finishPDU c vs := by rw [finishSeq, hp]; rfl
          rw [hcase, hfin]
          exact run_finPDU hc h9 hp hfill hq hlen
        by_cases hp2 : (Cls.seq c).isSubclass (.seq .bulkPDU) = true
        · have hcase : decOf (.seq c) = (.rfc1905, 164) := by cases c <;> first | rfl | cases hp2
          have hfin : finishSeq c vs = finishPDU c vs := by rw [finishSeq, hp2, Bool.or_true]; rfl
          rw [hcase, hfin]
          exact run_finBulk hc h9 hp2 hfill hq hlen
        by_cases ht : c = .trapPDU
        · subst ht
          exact run_finTrap hc h9 hfill hq hlen
        · have hs : c = .sequence := by
            cases c <;> first | rfl | exact absurd rfl ht | exact absurd rfl hp | exact absurd rfl hp2 | cases hd
          subst hs
          have hfin : finishSeq .sequence vs = .ok (.seq .sequence vs) := rfl
          rw [hfin]
          refine ⟨_, _, hq, hfill.kept, ?_⟩
          rw [Rep]
          exact ⟨_, _, _, _, rfl, Nat.le_refl _, hfill.self, hfill.plain, hfill.value, hfill.le, hfill.list, rfl, hfill.all⟩
    · intro c hc; cases hc

theorem decodeTag_exc {s : Str} {e : Exc} (h : decodeTag s = .error e) : e = .indexError := by
  have hl : ∀ s t n e, decodeTagLoop s t n = .error e → e = .indexError := by
    intro s t n e h
    fun_induction decodeTagLoop s t n <;> simp_all
  unfold decodeTag at h
  repeat' split at h
  all_goals first | cases h | skip
  all_goals first | rfl | exact hl _ _ _ _ (by assumption)

theorem decodeLength_exc {s : Str} {e : Exc} (h : decodeLength s = .error e) : e = .indexError := by
  have hl : ∀ s k t n e, decodeLengthLoop s k t n = .error e → e = .indexError := by
    intro s k t n e h
    fun_induction decodeLengthLoop s k t n <;> simp_all
  unfold decodeLength at h
  repeat' split at h
  all_goals first | cases h | skip
  all_goals first | rfl | exact hl _ _ _ _ _ (by assumption)

theorem Fresh.plain {c : Cls} {attrs : List (String × V)} (hf : Fresh c attrs) : Plain attrs := by
  rcases c with _ | c | c | _ | c | c
  · obtain ⟨x, rfl⟩ := hf; exact Src.plain [_]
  · obtain ⟨x, rfl⟩ := hf; exact Src.plain [_]
  · obtain ⟨x, rfl⟩ := hf; exact Src.plain [_]
  · obtain ⟨x, rfl⟩ := hf; exact Src.plain [_]
  · cases hf; exact Src.plain []
  · exact hf

/-- How the loop of `decode` ends. -/
def Looped (h0 : Heap) (self : V) (done : List Val) (l : List V) (r : S) (m : Except Exc (List Val)) : Prop :=
  match m with
  | .ok vs => ∃ H' l' t n o d, r = some (H', [("self", some self), ("stream", some (.str [])), ("objects", some (.ref h0.length)),
        ("tag", t), ("length", n), ("objectData", o), ("decoder", d)], .next) ∧ Kept h0.length h0 H' ∧
      H'[h0.length]? = some (.list (l ++ l')) ∧ RepAll (h0.length + 1) H' (done ++ vs) (l ++ l')
  | .error e => ∃ H' env' x, r = some (H', env', .exc x) ∧ Kept h0.length h0 H' ∧ Raised H' e x

theorem run_decodeLoop (hc : Limits cfg) {reg : Reg} (hreg : ∀ n : Nat, cfg.tag n = (reg n).map cid)
    (hdec : ∀ n c, reg n = some c → Decodable c = true) {h0 : Heap} {a : Nat} {c0 : Cls} {attrs : List (String × V)}
    (ha : h0[a]? = some (.inst (cid c0) attrs)) (h9 : 9 ≤ a) (hp : Plain attrs)
    {contents : Cls → Str → Except Exc Val}
    (s : Str) (hcon : ∀ c, Decodable c = true → ∀ data : Str, data.length < s.length → ∀ h attrs', Base h → ∀ a', 9 ≤ a' →
      h[a']? = some (.inst (cid c) attrs') → Fresh c attrs' →
      Decodes a' h (call program cfg (.func (decOf c).1 (decOf c).2) [.ref a', .str data] h) (contents c data))
    {H : Heap} (hk : Kept h0.length h0 H) {l : List V} {done : List Val} (hlist : H[h0.length]? = some (.list l))
    (hall : RepAll (h0.length + 1) H done l) (t n o d : Option V) :
    Looped h0 (.ref a) done l
      (whileL program cfg .rfc1155 [("self", some (.ref a)), ("stream", some (.str s)), ("objects", some (.ref h0.length)),
        ("tag", t), ("length", n), ("objectData", o), ("decoder", d)] (.cmp .gt (.call (.glob "len") [.loc "stream"]) (.int 0))
        rfc1155_164 H)
      (decodeLoop reg contents s) := by
  generalize hn : s.length = N
  induction N using Nat.strongRecOn generalizing s H l done t n o d with
  | ind N ih =>
  subst hn
  have hlt := lt_of_get ha
  have hself := hk.get ha h9 hlt
  have n1 : attrs.lookup "decodeTag" = none := hp.none
  have n2 : attrs.lookup "decodeLength" = none := hp.none
  rw [whileL, decodeLoop]
  by_cases hs : s = []
  · subst hs
    runs []
    exact ⟨H, [], _, _, _, _, rfl, hk, by rw [List.append_nil]; exact hlist, by rw [List.append_nil, List.append_nil]; exact hall⟩
  · have hpos : (s.length : Int) > 0 := by
      have := List.length_pos_iff.2 hs
      omega
    rw [if_neg hs]
    have ht := run_decodeTag (cfg := cfg) (.ref a) s H
    split
    · rename_i e h1
      have := decodeTag_exc h1
      subst this
      simp only [h1, outR] at ht
      runs [hpos, rfc1155_164, hself, n1, ht]
      exact ⟨_, _, _, rfl, hk, ⟨_, rfl⟩⟩
    · rename_i tag s1 h1
      simp only [h1, outR] at ht
      have hl := run_decodeLength (cfg := cfg) (.ref a) s1 H
      split
      · rename_i e h2
        have := decodeLength_exc h2
        subst this
        simp only [h2, outR] at hl
        runs [hpos, rfc1155_164, hself, n1, n2, ht, hl]
        exact ⟨_, _, _, rfl, hk, ⟨_, rfl⟩⟩
      · rename_i length s2 h2
        simp only [h2, outR] at hl
        have l1 := decodeTag_length h1
        have l2 := decodeLength_length h2
        have htag := hreg tag
        split
        · rename_i hr
          rw [hr, Option.map_none] at htag
          cases hlong : tooLong cfg.digits (tag : Int) <;>
            runs [hpos, rfc1155_164, hself, n1, n2, ht, hl, htag, hlong]
          · exact ⟨_, _, _, rfl, hk, ⟨_, rfl⟩⟩
          · exact ⟨_, _, _, rfl, hk, ⟨_, rfl⟩⟩
        · rename_i cls hr
          rw [hr, Option.map_some] at htag
          have hdc := hdec _ _ hr
          obtain ⟨H1, at1, hnew, hk1, hat1, hf1⟩ := run_new (cfg := cfg) hc hk.base hdc
          have hlen := hk.len
          have hb9 := hk.base.long
          have hcon' := hcon cls hdc (s2.take length) (by simp; omega) H1 at1 hk1.base H.length hb9 hat1 hf1
          have n3 : at1.lookup "decodeContents" = none := hf1.plain.none
          have hdc' := attr_dec cls (by rintro rfl; cases hdc)
          have hbH1 := hk1.get hlist (by omega) (lt_of_get hlist)
          split
          · rename_i e hce
            rw [hce] at hcon'
            obtain ⟨H2, x, hcall, hk2, hx⟩ := hcon'
            runs [hpos, rfc1155_164, hself, n1, n2, ht, hl, htag, hnew, hbH1, hat1, n3, hdc', hcall]
            exact ⟨_, _, _, rfl, hk.trans ((hk1.mono hlen).trans (hk2.mono (by omega))), hx⟩
          · rename_i obj hce
            rw [hce] at hcon'
            obtain ⟨H2, x, hcall, hk2, hx⟩ := hcon'
            have hbH2 := hk2.get hbH1 (by omega) (lt_of_get hlist)
            have hkk : Kept h0.length h0 (H2.set h0.length (.list (l ++ [x]))) :=
              (hk.trans ((hk1.mono hlen).trans (hk2.mono (by omega)))).set' (by omega) (Nat.le_refl _) _
            have hlt2 := lt_of_get hbH2
            have hltH := lt_of_get hlist
            have hall' : RepAll (h0.length + 1) (H2.set h0.length (.list (l ++ [x]))) (done ++ [obj]) (l ++ [x]) := by
              refine RepAll.append (RepAll.congr (Nat.le_refl _) (fun k c hkl hkc => ?_) _ _ hall) ?_
              · rw [List.getElem?_set_ne (by omega)]
                have := lt_of_get hkc
                exact hk2.get (hk1.get hkc (by omega) this) (by omega) this
              · rw [RepAll]
                refine ⟨_, _, rfl, ?_, by rw [RepAll]⟩
                refine Rep.congr (lo := H.length) (by omega) (fun k c hkl hkc => ?_) _ _ hx
                rw [List.getElem?_set_ne (by omega)]; exact hkc
            have ih' := ih (s2.drop length).length (by simp; omega) (s2.drop length)
              (fun c hd data hdl => hcon c hd data (by simp at hdl; omega)) hkk (List.getElem?_set_self hlt2) hall'
              (some (.int tag)) (some (.int length)) (some (.str (s2.take length))) (some (.ref H.length)) rfl
            cases er : decodeLoop reg contents (s2.drop length) with
            | error e =>
              rw [er] at ih'
              obtain ⟨H3, env3, x3, ih', hk3, hx3⟩ := ih'
              runs [hpos, rfc1155_164, hself, n1, n2, ht, hl, htag, hnew, hbH1, hat1, n3, hdc', hcall, hbH2]
              exact ⟨_, _, _, ih', hk3, hx3⟩
            | ok vs =>
              rw [er] at ih'
              obtain ⟨H3, l3, t3, n3', o3, d3, ih', hk3, hl3, hall3⟩ := ih'
              runs [hpos, rfc1155_164, hself, n1, n2, ht, hl, htag, hnew, hbH1, hat1, n3, hdc', hcall, hbH2]
              simp only [List.append_assoc, List.singleton_append] at hl3 hall3
              exact ⟨H3, _, _, _, _, _, ih', hk3, hl3, hall3⟩

theorem decodeDig_obj {reg : Reg} {D d : Nat} {s : Str} {vs : List Val} (h : decodeDig reg D d s = .ok vs) :
    vs.length ≤ s.length ∧ ∀ v ∈ vs, ∀ s, v ≠ .str s := by
  cases d with
  | zero => cases h
  | succ d => exact decodeLoop_obj (fun _ _ _ h => contents_obj h) _ _ h

/-- `decode`: the code of the package does what the model says. -/
theorem run_decode (hc : Limits cfg) {reg : Reg} (hreg : ∀ n : Nat, cfg.tag n = (reg n).map cid)
    (hdec : ∀ n c, reg n = some c → Decodable c = true) (d : Nat) {h : Heap} (hb : Base h) {a : Nat} {c : Cls}
    {attrs : List (String × V)} (ha : h[a]? = some (.inst (cid c) attrs)) (h9 : 9 ≤ a) (hp : Plain attrs) (s : Str)
    (hd : s.length < d) (hs : s.length < 10 ^ 640) :
    DecodesAll h (call program cfg (.func .rfc1155 150) [.ref a, .str s] h) (decodeDig reg cfg.limit d s) := by
  induction d generalizing h a c attrs s with
  | zero => omega
  | succ d ih =>
    have hl := hb.long
    have hloop := run_decodeLoop (cfg := cfg) hc hreg hdec ha h9 hp (contents := contentsDig cfg.limit (decodeDig reg cfg.limit d)) s
      (fun c hdc data hlt h' attrs' hb' a' h9' ha' hf' => run_contents hc hb' ha' h9' hf' hdc
        (fun k hk => by subst hk; exact ih hb' ha' h9' hf'.plain data (by omega) (by omega))
        (fun vs hvs => by have := decodeDig_obj hvs; exact ⟨by omega, this.2⟩))
      (Kept.app hb [.list []]) (l := []) (done := []) (get_app _ _) (by rw [RepAll]) none none none none
    rw [call_rfc1155_150, decodeDig]
    cases hm : decodeLoop reg (contentsDig cfg.limit (decodeDig reg cfg.limit d)) s with
    | error e =>
      rw [hm] at hloop
      obtain ⟨H, env, x, hloop, hk, hx⟩ := hloop
      runs [rfc1155_150, hloop]
      exact ⟨_, _, rfl, hk, hx⟩
    | ok vs =>
      rw [hm] at hloop
      obtain ⟨H, l, t, n, o, e, hloop, hk, hlist, hall⟩ := hloop
      runs [rfc1155_150, hloop]
      rw [List.nil_append] at hlist hall
      exact ⟨_, _, _, rfl, hk, Nat.le_refl _, hlist, RepAll.congr (by omega) (fun _ _ _ h => h) _ _ hall⟩

end Libsnmp.Src
