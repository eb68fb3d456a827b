import Verif.Lemmas.SrcMsg

/-!
# Running `encode`
-/

namespace Libsnmp.Src
open Libsnmp

variable {cfg : Cfg}

theorem tag_of (c : Cls) (hc : c ≠ .asn1Object) : ∃ k, c.attr ownTagNumber = some k ∧ k < 31 ∧
    ((c.attr ownTagClass).getD 0 ||| (c.attr ownTagFormat).getD 0 ||| k) < 256 := by
  rcases c with _ | c | c | _ | c | c
  · exact absurd rfl hc
  all_goals first | exact ⟨_, rfl, by decide, by decide⟩ | (cases c <;> exact ⟨_, rfl, by decide, by decide⟩)

/-- `encodeIdentifier`. -/
theorem run_ident {h : Heap} {a : Nat} {c : Cls} {attrs : List (String × V)} (ha : h[a]? = some (.inst (cid c) attrs))
    (hp : Plain attrs) (hc : c ≠ .asn1Object) :
    ∃ s, c.identifier = .ok s ∧ call program cfg (.func .rfc1155 189) [.ref a] h = okR (.str s) h := by
  obtain ⟨k, hk, hlt, hsum⟩ := tag_of c hc
  have h1 := attr_tagNumber c
  rw [hk] at h1
  have n1 : attrs.lookup "asnTagNumber" = none := hp.none
  have n2 : attrs.lookup "asnTagClass" = none := hp.none
  have n3 : attrs.lookup "asnTagFormat" = none := hp.none
  refine ⟨[(c.attr ownTagClass).getD 0 ||| (c.attr ownTagFormat).getD 0 ||| k], ?_, ?_⟩
  · rw [Cls.identifier, hk]
    simp only [encodeIdentifier, if_pos hlt]
  · rw [call_rfc1155_189]
    have hl : ((k : Int) < 31) := by omega
    have hch := chr_small (c := (c.attr ownTagClass).getD 0 ||| (c.attr ownTagFormat).getD 0 ||| k) (by omega) h
    runs [rfc1155_189, ha, n1, n2, n3, h1, hl, hch]

/-- `encode`, when `encodeContents` has ended. -/
theorem run_tlv (hc : Limits cfg) {h h1 : Heap} {a : Nat} {c : Cls} {attrs attrs1 : List (String × V)} {m : Module} {k : Nat}
    {s : Str} (ha : h[a]? = some (.inst (cid c) attrs)) (hp : Plain attrs) (hc' : c ≠ .asn1Object)
    (hf : program.attr (cid c) "encodeContents" = some (.func m k))
    (hrun : call program cfg (.func m k) [.ref a] h = okR (.str s) h1)
    (ha1 : h1[a]? = some (.inst (cid c) attrs1)) (hp1 : Plain attrs1) (hs : s.length < 10 ^ 640) :
    ∃ r t, tlv c s = .ok r ∧ call program cfg (.func .rfc1155 82) [.ref a] h = okR (.str r) (h1 ++ t) := by
  have n1 : attrs.lookup "encodeContents" = none := hp.none
  have n2 : attrs1.lookup "encodeIdentifier" = none := hp1.none
  have n3 : attrs1.lookup "encodeLength" = none := hp1.none
  obtain ⟨i, hi, hir⟩ := run_ident (cfg := cfg) (h := h1 ++ [.list []]) (get_app_old ha1 _) hp1 hc'
  obtain ⟨t, ht⟩ := run_encodeLength (cfg := cfg) (.ref a) s.length (h1 ++ [.list [.str i]])
    (fun _ => hc.short (by simpa using hs))
  refine ⟨i ++ encodeLength s.length ++ s, ?_⟩
  rw [tlv, hi, call_rfc1155_82]
  have hx := @get_app_old _ _ _ ha1
  have hL := lt_of_get ha1
  runs [rfc1155_82, ha, n1, n2, n3, hf, hrun, hx, hir, ht]
  exact ⟨_, rfl⟩

/-- `encode`, when `encodeContents` has raised. -/
theorem run_tlvErr {h h1 : Heap} {a : Nat} {c : Cls} {attrs : List (String × V)} {m : Module} {k : Nat}
    {e : V} (ha : h[a]? = some (.inst (cid c) attrs)) (hp : Plain attrs)
    (hf : program.attr (cid c) "encodeContents" = some (.func m k))
    (hrun : call program cfg (.func m k) [.ref a] h = excR e h1) :
    call program cfg (.func .rfc1155 82) [.ref a] h = excR e h1 := by
  have n1 : attrs.lookup "encodeContents" = none := hp.none
  rw [call_rfc1155_82]
  runs [rfc1155_82, ha, n1, hf, hrun]

/-! ## Which values -/

theorem Rep.obj {lo : Nat} {h : Heap} {v : Val} {x : V} (r : Rep lo h v x) (ho : Obj v = true) :
    ∃ a c attrs, x = .ref a ∧ h[a]? = some (.inst (cid c) attrs) ∧ Plain attrs := by
  match v, r with
  | .integer c n, r =>
    rw [Rep] at r
    obtain ⟨a, attrs, rfl, hl, ha, hp, hv⟩ := r
    exact ⟨_, _, _, rfl, ha, hp⟩
  | .octets c n, r =>
    rw [Rep] at r
    obtain ⟨a, attrs, rfl, hl, ha, hp, hv⟩ := r
    exact ⟨_, _, _, rfl, ha, hp⟩
  | .null c, r =>
    rw [Rep] at r
    obtain ⟨a, attrs, rfl, hl, ha, hp, _⟩ := r
    exact ⟨_, _, _, rfl, ha, hp⟩
  | .oid none, r =>
    rw [Rep] at r
    obtain ⟨a, attrs, rfl, hl, ha, hp, hv⟩ := r
    exact ⟨_, _, _, rfl, ha, hp⟩
  | .oid (some ids), r =>
    rw [Rep] at r
    obtain ⟨a, attrs, b, rfl, hl, ha, hp, hv, hb, hr⟩ := r
    exact ⟨_, _, _, rfl, ha, hp⟩
  | .seq c items, r =>
    rw [Rep] at r
    obtain ⟨a, attrs, b, l, rfl, hl, ha, hp, hv, hb, hr, hf, hi⟩ := r
    exact ⟨_, _, _, rfl, ha, hp⟩

theorem enc_int (c : IntCls) : program.attr (cid (.int c)) "encodeContents" = some (.func .rfc1155 360) := by cases c <;> rfl
theorem enc_oct (c : OctCls) : program.attr (cid (.oct c)) "encodeContents" = some (.func .rfc1155 527) := by cases c <;> rfl
theorem enc_null (c : NullCls) : program.attr (cid (.null c)) "encodeContents" = some (.func .rfc1155 772) := by cases c <;> rfl
theorem enc_oid : program.attr (cid .oid) "encodeContents" = some (.func .rfc1155 663) := rfl
theorem enc_seq {c : SeqCls} (h1 : c ≠ .message) (h2 : c ≠ .message2) :
    program.attr (cid (.seq c)) "encodeContents" = some (.func .rfc1155 827) := by
  cases c <;> first | rfl | exact absurd rfl h1 | exact absurd rfl h2

/-- The variables of `Sequence.encodeContents`. -/
def encEnv (a R : Nat) (e : Option V) : Env :=
  [("self", some (.ref a)), ("resultlist", some (.ref R)), ("elem", e), ("result", none)]

/-- What the loop of `Sequence.encodeContents` must do. -/
def Looped' (h : Heap) (a : Nat) (acc : List Str) (r : S) (m : Except Exc Str) : Prop :=
  match m with
  | .ok s => ∃ t e ss, r = some (h ++ .list ((acc ++ ss).map V.str) :: t, encEnv a h.length e, .next) ∧ ss.flatten = s
  | .error e => ∃ t e', r = some (h ++ t, encEnv a h.length e', .exc (.exc (excName e) []))

/-- One element. -/
theorem run_encElem {h : Heap} {a b : Nat} {pre rest : List V} {x : V} (hb : h[b]? = some (.list (pre ++ x :: rest)))
    (acc : List Str) (T : Heap) (e : Option V) {m : Except Exc Str}
    (hx : ∃ t, eval program cfg .rfc1155 (encEnv a h.length (some x))
      (.ife (.cmp .isNot (.call (.glob "type") [.loc "elem"]) (.glob "str")) (.call (.attr (.loc "elem") "encode") []) (.loc "elem"))
      (h ++ .list (acc.map V.str) :: T) = outR m V.str (h ++ .list (acc.map V.str) :: T ++ t)) :
    ∃ t, match m with
    | .ok s => forL program cfg .rfc1155 (encEnv a h.length e) "elem" (.list b pre.length) rfc1155_834 (h ++ .list (acc.map V.str) :: T) =
        forL program cfg .rfc1155 (encEnv a h.length (some x)) "elem" (.list b (pre ++ [x]).length) rfc1155_834
          (h ++ .list ((acc ++ [s]).map V.str) :: (T ++ t))
    | .error err => forL program cfg .rfc1155 (encEnv a h.length e) "elem" (.list b pre.length) rfc1155_834 (h ++ .list (acc.map V.str) :: T) =
        some (h ++ .list (acc.map V.str) :: T ++ t, encEnv a h.length (some x), .exc (.exc (excName err) [])) := by
  obtain ⟨t, hx⟩ := hx
  refine ⟨t, ?_⟩
  have hb' := get_app_old hb (.list (acc.map V.str) :: T)
  have hx0 : (pre ++ x :: rest)[pre.length]? = some x := by simp
  cases m with
  | error err =>
    rw [outR] at hx
    dsimp only
    rw [forL]
    unfold encEnv at hx ⊢
    runs [hb', hx0, rfc1155_834, ↓hx]
  | ok s =>
    rw [outR] at hx
    dsimp only
    rw [forL]
    unfold encEnv at hx ⊢
    runs [hb', hx0, rfc1155_834, ↓hx]
    rw [List.map_append]; rfl

/-- `Sequence.encodeContents`, given what its loop does. -/
theorem run_seqEnc {h : Heap} {a b : Nat} {c : CId} {attrs : List (String × V)} {l : List V} {m : Except Exc Str}
    (ha : h[a]? = some (.inst c attrs)) (hv : attrs.lookup "value" = some (.ref b)) (hb : h[b]? = some (.list l))
    (hloop : Looped' h a [] (forL program cfg .rfc1155 (encEnv a h.length none) "elem" (.list b 0) rfc1155_834
      (h ++ [.list []])) m) :
    ∃ t, call program cfg (.func .rfc1155 827) [.ref a] h = outR m V.str (h ++ t) := by
  have ha' := get_app_old ha [.list []]
  have hb' := get_app_old hb [.list []]
  unfold encEnv at hloop
  rw [call_rfc1155_827]
  cases m with
  | error e =>
    obtain ⟨t, e', hloop⟩ := hloop
    unfold encEnv at hloop
    cases hd : cfg.debug <;> runs [rfc1155_827, hd, ha', hv, hb', hloop, outR] <;> exact ⟨_, rfl⟩
  | ok s =>
    obtain ⟨t, e', ss, hloop, rfl⟩ := hloop
    unfold encEnv at hloop
    cases hd : cfg.debug <;> runs [rfc1155_827, hd, ha', hv, hb', hloop, outR, allStr_map, pyJoin_empty] <;> exact ⟨_, rfl⟩

/-- An element that is not an object of the package. -/
theorem run_encOther {lo : Nat} {h : Heap} (a : Nat) {v : Val} {x : V} (acc : List Str) (T : Heap) (r : Rep lo h v x) (ho : ¬ Obj v = true) :
    ∃ t, eval program cfg .rfc1155 (encEnv a h.length (some x))
      (.ife (.cmp .isNot (.call (.glob "type") [.loc "elem"]) (.glob "str")) (.call (.attr (.loc "elem") "encode") []) (.loc "elem"))
      (h ++ .list (acc.map V.str) :: T) = outR v.encode V.str (h ++ .list (acc.map V.str) :: T ++ t) := by
  cases v with
  | none => rw [Rep] at r; subst r; exact ⟨[], by unfold encEnv; runs [Val.encode, outR, excName]⟩
  | int n =>
    rw [Rep] at r
    subst r
    have hg : ∀ H, getattr program H (.int n) "encode" = none := fun _ => rfl
    exact ⟨[], by unfold encEnv; runs [Val.encode, outR, excName, hg]⟩
  | str _ => rw [Rep] at r; subst r; exact ⟨[], by unfold encEnv; runs [Val.encode, outR]⟩
  | bytes _ => rw [Rep] at r; exact r.elim
  | raw _ _ => rw [Rep] at r; exact r.elim
  | integer => exact absurd rfl ho
  | octets => exact absurd rfl ho
  | oid => exact absurd rfl ho
  | null => exact absurd rfl ho
  | seq => exact absurd rfl ho

mutual
/-- `encode` on an object of the package. -/
theorem run_encode (hc : Limits cfg) {lo : Nat} {h : Heap} : ∀ (v : Val) (x : V), Rep lo h v x → Obj v = true → Sane v →
    ∃ t, call program cfg (.func .rfc1155 82) [x] h = outR v.encode V.str (h ++ t)
  | .integer c n, x, r, _, hs => by
    rw [Rep] at r
    rw [Sane] at hs
    obtain ⟨a, attrs, rfl, hl, ha, hp, hv⟩ := r
    have hg : getattr program h (.ref a) "value" = some (.int n) := by runs [ha, hv]
    obtain ⟨t, ht⟩ := run_intEncode (cfg := cfg) hg
    obtain ⟨s, u, h1, h2⟩ := run_tlv hc ha hp (by simp) (enc_int c) ht (get_app_old ha _) hp hs
    exact ⟨t ++ u, by rw [h2, Val.encode, h1, outR, List.append_assoc]⟩
  | .octets c n, x, r, _, hs => by
    rw [Rep] at r
    rw [Sane] at hs
    obtain ⟨a, attrs, rfl, hl, ha, hp, hv⟩ := r
    have ht : call program cfg (.func .rfc1155 527) [.ref a] h = okR (.str n) h := by
      rw [call_rfc1155_527]; runs [rfc1155_527, ha, hv]
    obtain ⟨s, u, h1, h2⟩ := run_tlv hc ha hp (by simp) (enc_oct c) ht ha hp hs
    exact ⟨u, by rw [h2, Val.encode, h1, outR]⟩
  | .null c, x, r, _, hs => by
    rw [Rep] at r
    obtain ⟨a, attrs, rfl, hl, ha, hp, _⟩ := r
    have ht : call program cfg (.func .rfc1155 772) [.ref a] h = okR (.str []) h := by
      rw [call_rfc1155_772]; runs [rfc1155_772]; rfl
    obtain ⟨s, u, h1, h2⟩ := run_tlv hc ha hp (by simp) (enc_null c) ht ha hp (by simp)
    exact ⟨u, by rw [h2, Val.encode, h1, outR]⟩
  | .oid none, x, r, _, hs => by
    rw [Rep] at r
    obtain ⟨a, attrs, rfl, hl, ha, hp, hv⟩ := r
    have hg : getattr program h (.ref a) "value" = some .none := by runs [ha, hv]
    obtain ⟨t, ht⟩ := run_oidEncode (cfg := cfg) (v := none) hg rfl
    rw [oidEncode, outR] at ht
    have := run_tlvErr (cfg := cfg) ha hp enc_oid ht
    exact ⟨t, by rw [this, Val.encode, oidEncode, outR]⟩
  | .oid (some ids), x, r, _, hs => by
    rw [Rep] at r
    rw [Sane] at hs
    obtain ⟨a, attrs, b, rfl, hl, ha, hp, hv, hb, hr⟩ := r
    have hg : getattr program h (.ref a) "value" = some (.ref b) := by runs [ha, hv]
    obtain ⟨t, ht⟩ := run_oidEncode (cfg := cfg) (v := some ids) hg ⟨b, rfl, hr⟩
    cases hm : oidEncode (some ids) with
    | error e =>
      rw [hm, outR] at ht
      have := run_tlvErr (cfg := cfg) ha hp enc_oid ht
      exact ⟨t, by rw [this, Val.encode, hm, outR]⟩
    | ok s =>
      rw [hm, outR] at ht
      obtain ⟨s, u, h1, h2⟩ := run_tlv hc ha hp (by simp) enc_oid ht (get_app_old ha _) hp (hs _ hm)
      exact ⟨t ++ u, by rw [h2, Val.encode, hm]; simp only [h1]; rw [outR, List.append_assoc]⟩
  | .seq c items, x, r, _, hs => by
    rw [Rep] at r
    rw [Sane] at hs
    obtain ⟨a, attrs, b, l, rfl, hl, ha, hp, hv, hb, hr, hf, hi⟩ := r
    have hloop := run_encItems hc a items hs.2.2.2 [] hr hi [] [] none
    have ht := run_seqEnc (cfg := cfg) ha hv hr hloop
    cases hm : encodeItems items with
    | error e =>
      simp only [hm, outR] at ht
      obtain ⟨t, ht⟩ := ht
      have := run_tlvErr (cfg := cfg) ha hp (enc_seq hs.1 hs.2.1) ht
      exact ⟨t, by rw [this, Val.encode, hm, outR]⟩
    | ok s =>
      simp only [hm, outR] at ht
      obtain ⟨t, ht⟩ := ht
      obtain ⟨s, u, h1, h2⟩ := run_tlv hc ha hp (by simp) (enc_seq hs.1 hs.2.1) ht (get_app_old ha _) hp (hs.2.2.1 _ hm)
      exact ⟨t ++ u, by rw [h2, Val.encode, hm]; simp only [h1]; rw [outR, List.append_assoc]⟩
/-- The loop of `Sequence.encodeContents`. -/
theorem run_encItems (hc : Limits cfg) {lo : Nat} {h : Heap} (a : Nat) {b : Nat} : ∀ (items : List Val), SaneAll items →
    ∀ (pre : List V) {rest : List V}, h[b]? = some (.list (pre ++ rest)) → RepAll lo h items rest →
    ∀ (acc : List Str) (T : Heap) (e : Option V),
    Looped' h a acc (forL program cfg .rfc1155 (encEnv a h.length e) "elem" (.list b pre.length) rfc1155_834
      (h ++ .list (acc.map V.str) :: T)) (encodeItems items)
  | [], _, pre, rest, hb, r, acc, T, e => by
    rw [RepAll] at r
    subst r
    have hb' := get_app_old hb (.list (acc.map V.str) :: T)
    have hx0 : pre[pre.length]? = none := by simp
    rw [forL, encodeItems]
    runs [hb', hx0]
    exact ⟨T, e, [], by rw [List.append_nil], rfl⟩
  | v :: vs, hs, pre, rest, hb, r, acc, T, e => by
    rw [RepAll] at r
    rw [SaneAll] at hs
    obtain ⟨x, xs, rfl, r1, r2⟩ := r
    have hel : ∃ t, eval program cfg .rfc1155 (encEnv a h.length (some x))
      (.ife (.cmp .isNot (.call (.glob "type") [.loc "elem"]) (.glob "str")) (.call (.attr (.loc "elem") "encode") []) (.loc "elem"))
      (h ++ .list (acc.map V.str) :: T) = outR v.encode V.str (h ++ .list (acc.map V.str) :: T ++ t) := by
      by_cases ho : Obj v = true
      · obtain ⟨t, ht⟩ := run_encode hc v x (r1.app (.list (acc.map V.str) :: T)) ho hs.1
        obtain ⟨a', c', attrs', rfl, ha', hp'⟩ := r1.obj ho
        have ha'' := get_app_old ha' (.list (acc.map V.str) :: T)
        have n1 : attrs'.lookup "encode" = none := hp'.none
        refine ⟨t, ?_⟩
        generalize outR v.encode V.str _ = o at ht ⊢
        unfold encEnv
        runs [ha'', n1, ht]
      · exact run_encOther a acc T r1 ho
    obtain ⟨t, hstep⟩ := run_encElem hb acc T e hel
    rw [encodeItems]
    cases hm : v.encode with
    | error err =>
      rw [hm] at hstep
      dsimp only at hstep ⊢
      rw [hstep]
      exact ⟨_, _, by rw [List.append_assoc]⟩
    | ok s =>
      rw [hm] at hstep
      dsimp only at hstep ⊢
      have ih := run_encItems hc a vs hs.2 (pre ++ [x]) (rest := xs) (by rw [List.append_assoc]; exact hb) r2 (acc ++ [s]) (T ++ t) (some x)
      rw [hstep]
      cases hm' : encodeItems vs with
      | error err =>
        rw [hm'] at ih
        exact ih
      | ok s' =>
        rw [hm'] at ih
        obtain ⟨t', e', ss, ih, hss⟩ := ih
        exact ⟨t', e', s :: ss, by rw [ih, List.append_assoc]; rfl, by rw [List.flatten_cons, hss]⟩
end

/-! ## Messages -/

theorem enc_msg {c : SeqCls} (hm : c = .message ∨ c = .message2) :
    program.attr (cid (.seq c)) "encodeContents" = some (.func .rfc1157 103) := by rcases hm with rfl | rfl <;> rfl

/-- The cell is not a message. -/
def NotMsg (c : Cell) : Prop :=
  ∀ attrs, c ≠ .inst (cid (.seq .message)) attrs ∧ c ≠ .inst (cid (.seq .message2)) attrs

theorem notMsg {c : Cls} (h1 : c ≠ .seq .message) (h2 : c ≠ .seq .message2) (attrs : List (String × V)) :
    NotMsg (.inst (cid c) attrs) := fun attrs' =>
  ⟨fun h => h1 (cid_inj (by injection h)), fun h => h2 (cid_inj (by injection h))⟩

theorem notMsg_list (l : List V) : NotMsg (.list l) := fun _ => ⟨by simp, by simp⟩

mutual
/-- An object without messages is not affected by what happens to messages. -/
theorem Rep.apart {lo : Nat} {h h' : Heap} (he : ∀ (b : Nat) (c : Cell), h[b]? = some c → NotMsg c → h'[b]? = some c) :
    ∀ (v : Val) (x : V), Sane v → Rep lo h v x → Rep lo h' v x
  | .none, _, _, r => by rw [Rep] at r ⊢; exact r
  | .int _, _, _, r => by rw [Rep] at r ⊢; exact r
  | .str _, _, _, r => by rw [Rep] at r ⊢; exact r
  | .bytes _, _, _, r => by rw [Rep] at r; exact r.elim
  | .raw _ _, _, _, r => by rw [Rep] at r; exact r.elim
  | .integer c n, x, _, r => by
    rw [Rep] at r ⊢
    obtain ⟨a, attrs, hx, hl, ha, hr⟩ := r
    exact ⟨a, attrs, hx, hl, he _ _ ha (notMsg (by simp) (by simp) _), hr⟩
  | .octets c n, x, _, r => by
    rw [Rep] at r ⊢
    obtain ⟨a, attrs, hx, hl, ha, hr⟩ := r
    exact ⟨a, attrs, hx, hl, he _ _ ha (notMsg (by simp) (by simp) _), hr⟩
  | .oid none, x, _, r => by
    rw [Rep] at r ⊢
    obtain ⟨a, attrs, hx, hl, ha, hr⟩ := r
    exact ⟨a, attrs, hx, hl, he _ _ ha (notMsg (by simp) (by simp) _), hr⟩
  | .oid (some ids), x, _, r => by
    rw [Rep] at r ⊢
    obtain ⟨a, attrs, b, hx, hl, ha, hp, hv, hb, hr⟩ := r
    exact ⟨a, attrs, b, hx, hl, he _ _ ha (notMsg (by simp) (by simp) _), hp, hv, hb, he _ _ hr (notMsg_list _)⟩
  | .null c, x, _, r => by
    rw [Rep] at r ⊢
    obtain ⟨a, attrs, hx, hl, ha, hr⟩ := r
    exact ⟨a, attrs, hx, hl, he _ _ ha (notMsg (by simp) (by simp) _), hr⟩
  | .seq c items, x, hs, r => by
    rw [Rep] at r ⊢
    rw [Sane] at hs
    obtain ⟨a, attrs, b, l, hx, hl, ha, hp, hv, hb, hr, hf, hi⟩ := r
    exact ⟨a, attrs, b, l, hx, hl, he _ _ ha (notMsg (by simpa using hs.1) (by simpa using hs.2.1) _), hp, hv, hb,
      he _ _ hr (notMsg_list _), hf, RepAll.apart he items l hs.2.2.2 hi⟩
theorem RepAll.apart {lo : Nat} {h h' : Heap} (he : ∀ (b : Nat) (c : Cell), h[b]? = some c → NotMsg c → h'[b]? = some c) :
    ∀ (vs : List Val) (l : List V), SaneAll vs → RepAll lo h vs l → RepAll lo h' vs l
  | [], _, _, r => by rw [RepAll] at r ⊢; exact r
  | v :: vs, _, hs, r => by
    rw [RepAll] at r ⊢
    rw [SaneAll] at hs
    obtain ⟨x, xs, hx, r1, r2⟩ := r
    exact ⟨x, xs, hx, Rep.apart he v x hs.1 r1, RepAll.apart he vs xs hs.2 r2⟩
end

/-- Of the object at `a`, only the attribute `value` has changed, to a new list of three. -/
def NewValue (a : Nat) (h h' : Heap) : Prop :=
  ∃ c attrs l, h[a]? = some (.inst c attrs) ∧ h'[a]? = some (.inst c (setAssoc attrs "value" (.ref h.length))) ∧
    h'[h.length]? = some (.list l) ∧ l.length = 3

/-- `Message.encode`: the octets; the message has its fields still. -/
theorem run_msgEncode' (hc : Limits cfg) {lo : Nat} {h : Heap} {m : Msg} {a : Nat} (hm : m.cls = .message ∨ m.cls = .message2)
    (r : RepMsg lo h m a) (hlo : lo ≤ h.length) (hs : SaneAll [m.version, m.community, m.data])
    (hlen : ∀ s, encodeItems [m.version, m.community, m.data] = .ok s → s.length < 10 ^ 640) :
    ∃ h', call program cfg (.func .rfc1155 82) [.ref a] h = outR m.encode V.str h' ∧
      (∀ b, b < h.length → b ≠ a → h'[b]? = h[b]?) ∧ RepMsg lo h' m a ∧ NewValue a h h' := by
  obtain ⟨attrs, b, l, x, y, z, hla, ha, hp, hv, hb, hbl, hl3, hx, hy, hz, rx, ry, rz⟩ := r
  have hex := isExc_cid (.seq m.cls)
  have hA := lt_of_get ha
  have hne : NotMsg (.inst (cid (.seq m.cls)) attrs) → False := fun hn => by
    rcases hm with hm | hm
    · exact (hn attrs).1 (by rw [hm])
    · exact (hn attrs).2 (by rw [hm])
  -- after the components have been put into the list
  let attrs1 := setAssoc attrs "value" (.ref h.length)
  let h1 : Heap := h.set a (.inst (cid (.seq m.cls)) attrs1) ++ [.list [x, y, z]]
  have hlen1 : h1.length = h.length + 1 := by simp [h1]
  have ha1 : h1[a]? = some (.inst (cid (.seq m.cls)) attrs1) := get_set hA _ _
  have hp1 : Plain attrs1 := plain_set hp _
  have hv1 : attrs1.lookup "value" = some (.ref h.length) := lookup_setAssoc _ _ _
  have hb1 : h1[h.length]? = some (.list [x, y, z]) := by
    simp only [h1]; rw [List.getElem?_append_right (by simp)]; simp
  have hap : ∀ (b : Nat) (c : Cell), h[b]? = some c → NotMsg c → h1[b]? = some c := by
    intro b c hb hn
    have : a ≠ b := by
      rintro rfl
      rw [ha] at hb
      injection hb with hb
      subst hb
      exact hne hn
    simp only [h1]
    rw [List.getElem?_append_left (by simpa using lt_of_get hb), List.getElem?_set_ne this, hb]
  have hs' := hs
  rw [SaneAll, SaneAll, SaneAll] at hs'
  have rx1 := Rep.apart hap _ _ hs'.1 rx
  have ry1 := Rep.apart hap _ _ hs'.2.1 ry
  have rz1 := Rep.apart hap _ _ hs'.2.2.1 rz
  have hall : RepAll lo h1 [m.version, m.community, m.data] [x, y, z] :=
    by rw [RepAll]; refine ⟨_, _, rfl, rx1, ?_⟩; rw [RepAll]; refine ⟨_, _, rfl, ry1, ?_⟩
       rw [RepAll]; refine ⟨_, _, rfl, rz1, ?_⟩; rw [RepAll]
  have hloop := run_encItems hc a _ hs [] hb1 hall [] [] none
  obtain ⟨t, ht⟩ := run_seqEnc (cfg := cfg) ha1 hv1 hb1 hloop
  -- the whole method
  have hcon : call program cfg (.func .rfc1157 103) [.ref a] h =
      outR (encodeItems [m.version, m.community, m.data]) V.str (h1 ++ t) := by
    rw [call_rfc1157_103]
    have hx' := hx; have hy' := hy; have hz' := hz
    have hm1 : ∀ j, (j == "value") = false → attrs1.lookup j = attrs.lookup j := fun j hj => lookup_setOther hj
    have g1 := hm1 "version" (by decide); have g2 := hm1 "community" (by decide); have g3 := hm1 "data" (by decide)
    rw [hx] at g1; rw [hy] at g2; rw [hz] at g3
    have hsa : ∀ (d : Cell) (u : Heap), (h ++ u).set a d = h.set a d ++ u := fun d u => set_old hA d u
    have hga : ∀ (u : Heap), (h.set a (.inst (cid (.seq m.cls)) attrs1) ++ u)[a]? = some (.inst (cid (.seq m.cls)) attrs1) :=
      fun u => get_set hA _ _
    have hrun : setAssoc attrs "value" (.ref h.length) = attrs1 := rfl
    generalize hO : outR (encodeItems [m.version, m.community, m.data]) V.str (h1 ++ t) = O at ht ⊢
    have hh1 : h1 = h.set a (.inst (cid (.seq m.cls)) attrs1) ++ [.list [x, y, z]] := rfl
    rw [hh1] at ht
    have ha0 := fun u => get_app_old ha u
    clear_value attrs1 h1
    runs [rfc1157_103, ha0, hex, hrun, hsa, hga, hv1, g1, g2, g3, List.length_set]
    rw [ht, ← hO]
    cases encodeItems [m.version, m.community, m.data] <;> rfl
  have hold : ∀ (u : Heap) (b : Nat), b < h.length → b ≠ a → (h1 ++ u)[b]? = h[b]? := by
    intro u b hb hne
    simp only [h1]
    rw [List.append_assoc, List.getElem?_append_left (by simpa using hb), List.getElem?_set_ne (Ne.symm hne)]
  have hrep : ∀ u, RepMsg lo (h1 ++ u) m a := fun u =>
    ⟨attrs1, h.length, [x, y, z], x, y, z, hla, get_app_old ha1 _, hp1, hv1, hlo, get_app_old hb1 _, by simp,
      by rw [← hx]; exact lookup_setOther (by decide), by rw [← hy]; exact lookup_setOther (by decide),
      by rw [← hz]; exact lookup_setOther (by decide), rx1.app _, ry1.app _, rz1.app _⟩
  have hnv : ∀ u, NewValue a h (h1 ++ u) := fun u => ⟨_, attrs, [x, y, z], ha, get_app_old ha1 _, get_app_old hb1 _, rfl⟩
  cases hme : encodeItems [m.version, m.community, m.data] with
  | error e =>
    rw [hme, outR] at hcon
    refine ⟨h1 ++ t, ?_, hold t, hrep t, hnv t⟩
    rw [run_tlvErr ha hp (enc_msg hm) hcon, Msg.encode, hme, outR]
  | ok s =>
    rw [hme, outR] at hcon
    obtain ⟨s', u, e1, e2⟩ := run_tlv hc ha hp (by simp) (enc_msg hm) hcon (get_app_old ha1 _) hp1 (hlen s hme)
    refine ⟨h1 ++ (t ++ u), ?_, hold _, hrep _, hnv _⟩
    rw [e2, Msg.encode, hme]
    simp only [e1]
    rw [outR, List.append_assoc]

theorem run_msgEncode (hc : Limits cfg) {lo : Nat} {h : Heap} {m : Msg} {a : Nat} (hm : m.cls = .message ∨ m.cls = .message2)
    (r : RepMsg lo h m a) (hlo : lo ≤ h.length) (hs : SaneAll [m.version, m.community, m.data])
    (hlen : ∀ s, encodeItems [m.version, m.community, m.data] = .ok s → s.length < 10 ^ 640) :
    ∃ h', call program cfg (.func .rfc1155 82) [.ref a] h = outR m.encode V.str h' ∧
      (∀ b, b < h.length → b ≠ a → h'[b]? = h[b]?) ∧ RepMsg lo h' m a := by
  obtain ⟨h', h1, h2, h3, -⟩ := run_msgEncode' hc hm r hlo hs hlen
  exact ⟨h', h1, h2, h3⟩

/-! ## Values that have been encoded -/

theorem tlv_len {c : Cls} {s r : Str} (h : tlv c s = .ok r) : s.length ≤ r.length := by
  unfold tlv at h
  split at h
  · cases h
  · injection h with h
    subst h
    simp only [List.length_append]
    omega

mutual
theorem sane_of_encode : ∀ (v : Val) (s : Str), v.encode = .ok s → s.length < 10 ^ 640 → NoMessage v → Sane v
  | .none, _, _, _, _ => by rw [Sane] <;> simp
  | .int _, _, _, _, _ => by rw [Sane] <;> simp
  | .str _, _, _, _, _ => by rw [Sane] <;> simp
  | .bytes _, _, _, _, _ => by rw [Sane] <;> simp
  | .raw _ _, _, _, _, _ => by rw [Sane] <;> simp
  | .null _, _, _, _, _ => by rw [Sane] <;> simp
  | .integer c n, s, h, hl, _ => by
    rw [Val.encode] at h
    rw [Sane]
    exact Nat.lt_of_le_of_lt (tlv_len h) hl
  | .octets c n, s, h, hl, _ => by
    rw [Val.encode] at h
    rw [Sane]
    exact Nat.lt_of_le_of_lt (tlv_len h) hl
  | .oid v, s, h, hl, _ => by
    rw [Val.encode] at h
    rw [Sane]
    intro t ht
    rw [ht] at h
    exact Nat.lt_of_le_of_lt (tlv_len h) hl
  | .seq c items, s, h, hl, hn => by
    rw [Val.encode] at h
    rw [Sane]
    rw [NoMessage] at hn
    cases hm : encodeItems items with
    | error e => rw [hm] at h; cases h
    | ok t =>
      rw [hm] at h
      have := Nat.lt_of_le_of_lt (tlv_len h) hl
      exact ⟨hn.1, hn.2.1, fun t' ht' => by injection ht' with ht'; subst ht'; exact this, saneAll_of_encode items t hm this hn.2.2⟩
theorem saneAll_of_encode : ∀ (vs : List Val) (s : Str), encodeItems vs = .ok s → s.length < 10 ^ 640 → NoMessages vs → SaneAll vs
  | [], _, _, _, _ => by rw [SaneAll]; trivial
  | v :: vs, s, h, hl, hn => by
    rw [encodeItems] at h
    rw [SaneAll]
    rw [NoMessages] at hn
    cases hv : v.encode with
    | error e => rw [hv] at h; cases h
    | ok t =>
      cases hvs : encodeItems vs with
      | error e => rw [hv, hvs] at h; cases h
      | ok u =>
        rw [hv, hvs] at h
        injection h with h
        subst h
        rw [List.length_append] at hl
        exact ⟨sane_of_encode v t hv (by omega) hn.1, saneAll_of_encode vs u hvs (by omega) hn.2⟩
end

end Libsnmp.Src
