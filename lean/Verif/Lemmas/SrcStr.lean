import Verif.Lemmas.SrcOidMeth
import Verif.Lemmas.StrLim
import Verif.Spec.SourceStr

/-!
# Running `str()`
-/

namespace Libsnmp.Src
open Libsnmp

variable {cfg : Cfg}

theorem tooLong_eq (D : Nat) (n : Int) : Libsnmp.tooLong D n = tooLong D n := by
  unfold Libsnmp.tooLong tooLong; rfl

theorem fmt_d : pieces ((lit "%d").length + 1) (lit "%d") = some [.conv 0 none 100] := by decide +kernel
theorem fmt_s : pieces ((lit "%s").length + 1) (lit "%s") = some [.conv 0 none 115] := by decide +kernel

/-- The method that writes objects of a class. -/
@[src] theorem str_oct (c : OctCls) : program.attr (cid (.oct c)) "__str__" = some (.func .rfc1155
    (if (Cls.oct c).isSubclass (.oct .ipAddress) then 928 else 524)) := by cases c <;> rfl
@[src] theorem str_oid : program.attr (cid .oid) "__str__" = some (.func .rfc1155 595) := rfl
theorem str_seq {c : SeqCls} (h1 : c ≠ .message) (h2 : c ≠ .message2) :
    program.attr (cid (.seq c)) "__str__" = some (.func .rfc1155 803) := by
  cases c <;> first | rfl | exact absurd rfl h1 | exact absurd rfl h2
theorem str_msg {c : SeqCls} (hm : c = .message ∨ c = .message2) :
    program.attr (cid (.seq c)) "__str__" = some (.func .rfc1157 97) := by rcases hm with rfl | rfl <;> rfl
theorem str_int (c : IntCls) (h1 : ¬ (c = .errorStatus ∨ c = .errorStatus2)) (h2 : c ≠ .genericTrap) :
    program.attr (cid (.int c)) "__str__" = some (.func .rfc1155 307) := by
  cases c <;> first | rfl | exact absurd rfl h2 | exact absurd (.inl rfl) h1 | exact absurd (.inr rfl) h1
theorem str_err {c : IntCls} (h : c = .errorStatus ∨ c = .errorStatus2) :
    program.attr (cid (.int c)) "__str__" = some (.func .rfc1157 42) := by rcases h with rfl | rfl <;> rfl
theorem err_texts {c : IntCls} (h : c = .errorStatus ∨ c = .errorStatus2) :
    program.attr (cid (.int c)) "errString" = some (.ref 1) := by rcases h with rfl | rfl <;> rfl

theorem getKey_table (d : Table) (k : Int) :
    getKey (d.map fun p => (V.int p.1, V.str p.2)) (.int k) = match d.get k with | .ok s => some (.str s) | .error _ => none := by
  unfold getKey Table.get
  induction d with
  | nil => rfl
  | cons p d ih =>
    rw [List.map_cons, List.find?_cons, List.find?_cons]
    simp only [keyEq]
    cases p.1 == k
    · exact ih
    · rfl

theorem table_error {d : Table} {k : Int} {e : Exc} (h : d.get k = .error e) : e = .keyError := by
  unfold Table.get at h
  split at h
  · injection h with h; exact h.symm
  · cases h

/-- `[str(x) for x in l]`. -/
theorem run_compStr {h : Heap} {b : Nat} {l : List Int} (hb : h[b]? = some (.list (l.map V.int))) (a : V) (x0 : Option V) :
    ∀ (pre rest : List Int), l = pre ++ rest → ∀ acc : List V,
    comp program cfg .rfc1155 [("x", x0), ("self", some a)] (.call (.glob "str") [.loc "x"]) "x" (.list b pre.length) acc h =
      match numStrs cfg.digits rest with
      | .ok ss => okR (acc ++ ss.map V.str) h
      | .error e => excR (.exc (excName e) []) h := by
  intro pre rest
  induction rest generalizing pre x0 with
  | nil =>
    intro hl acc
    have hx : (l.map V.int)[pre.length]? = none := by simp [hl]
    rw [comp, numStrs]
    runs [hb, hx]
  | cons n rest ih =>
    intro hl acc
    have hx : (l.map V.int)[pre.length]? = some (.int n) := by simp [hl]
    rw [comp, numStrs]
    have hlen : pre.length + 1 = (pre ++ [n]).length := by simp
    cases ht : tooLong cfg.digits n
    · have h1 : numStr cfg.digits n = .ok (pyStrInt n) := numStr_short ((tooLong_eq _ _).trans ht)
      rw [h1]
      runs [hb, hx, toStr, ht]
      rw [hlen, ih x0 (pre ++ [n]) (by rw [hl]; simp)]
      cases numStrs cfg.digits rest <;> simp
    · have h1 : numStr cfg.digits n = .error .valueError := by unfold numStr; rw [tooLong_eq, ht]; rfl
      rw [h1]
      runs [hb, hx, toStr, ht, excName]

/-- `str()` of an object, given what its method does. -/
theorem run_toStr {h : Heap} {a : Nat} {c : CId} {attrs : List (String × V)} (ha : h[a]? = some (.inst c attrs)) {m : Module} {l : Nat}
    (hm : program.attr c "__str__" = some (.func m l)) {r : Except Exc Str} {h' : Heap}
    (hc : call program cfg (.func m l) [.ref a] h = outR r V.str h') : toStr program cfg (.ref a) h = outS r h' := by
  rw [toStr]
  cases r <;> (rw [outR] at hc; runs [kind, ha, hm, ↓hc, outS])

theorem run_strOid {h : Heap} {a b : Nat} {attrs : List (String × V)} {l : List Int} (ha : h[a]? = some (.inst (cid .oid) attrs))
    (hv : attrs.lookup "value" = some (.ref b)) (hb : h[b]? = some (.list (l.map V.int))) :
    ∃ t, call program cfg (.func .rfc1155 595) [.ref a] h =
      outR ((numStrs cfg.digits l).map fun l => lit "." ++ pyJoin (lit ".") l) V.str (h ++ t) := by
  have h1 := run_compStr (cfg := cfg) hb (.ref a) none [] l rfl []
  simp only [List.length_nil, List.nil_append] at h1
  rw [call_rfc1155_595]
  cases hn : numStrs cfg.digits l with
  | ok ss =>
    rw [hn] at h1
    runs [rfc1155_595, ha, hv, hb, ↓h1, allStr_map, outR, Except.map]
    exact ⟨_, rfl⟩
  | error e =>
    rw [hn] at h1
    runs [rfc1155_595, ha, hv, hb, ↓h1, allStr_map, outR, Except.map]
    exact ⟨[], by simp⟩

theorem run_strOidNone {h : Heap} {a : Nat} {attrs : List (String × V)} (ha : h[a]? = some (.inst (cid .oid) attrs))
    (hv : attrs.lookup "value" = some .none) : call program cfg (.func .rfc1155 595) [.ref a] h = okR (.str []) h := by
  rw [call_rfc1155_595]
  runs [rfc1155_595, ha, hv]
  rfl

theorem run_strInt {h : Heap} {a : Nat} {c : CId} {attrs : List (String × V)} {n : Int} (ha : h[a]? = some (.inst c attrs))
    (hv : attrs.lookup "value" = some (.int n)) :
    call program cfg (.func .rfc1155 307) [.ref a] h = outR (numStr cfg.digits n) V.str h := by
  rw [call_rfc1155_307]
  cases ht : tooLong cfg.digits n
  · rw [numStr_short ((tooLong_eq _ _).trans ht)]
    runs [rfc1155_307, ha, hv, fmt_d, ht, outR, padLeft_zero]
  · rw [show numStr cfg.digits n = .error .valueError by unfold numStr; rw [tooLong_eq, ht]; rfl]
    runs [rfc1155_307, ha, hv, fmt_d, ht, outR, excName]

theorem fmt_err : pieces ((lit "%d: %s").length + 1) (lit "%d: %s") = some [.conv 0 none 100, .text (lit ": "), .conv 0 none 115] := by
  decide +kernel
theorem fmt_trap : pieces ((lit "%s: %d (%s)").length + 1) (lit "%s: %d (%s)") =
    some [.conv 0 none 115, .text (lit ": "), .conv 0 none 100, .text (lit " ("), .conv 0 none 115, .text (lit ")")] := by
  decide +kernel

theorem run_strErr {d : Table} {h : Heap} (ht : Texts d h) {a : Nat} {c : IntCls} (hc : c = .errorStatus ∨ c = .errorStatus2)
    {attrs : List (String × V)} {n : Int} (ha : h[a]? = some (.inst (cid (.int c)) attrs)) (hp : Plain attrs)
    (hv : attrs.lookup "value" = some (.int n)) :
    call program cfg (.func .rfc1157 42) [.ref a] h = outR (errorStatusStrDig cfg.digits d n) V.str h := by
  have h1 := ht.errors
  have hn := hp.none (a := "errString")
  have hm := err_texts hc
  have hk := getKey_table d n
  unfold dictOfTable at h1
  rw [call_rfc1157_42]
  unfold errorStatusStrDig
  cases hd : d.get n with
  | error e =>
    rw [hd] at hk
    have := table_error hd
    subst this
    runs [rfc1157_42, ha, hv, hn, hm, h1, hk, outR, excName]
  | ok s =>
    rw [hd] at hk
    cases hl : tooLong cfg.digits n
    · rw [numStr_short ((tooLong_eq _ _).trans hl)]
      runs [rfc1157_42, ha, hv, hn, hm, h1, hk, fmt_err, hl, toStr, outR, padLeft_zero, ↓convStr, Except.map]
    · rw [show numStr cfg.digits n = .error .valueError by unfold numStr; rw [tooLong_eq, hl]; rfl]
      runs [rfc1157_42, ha, hv, hn, hm, h1, hk, fmt_err, hl, outR, excName, Except.map]

theorem run_strTrap {d : Table} {h : Heap} (ht : Texts d h) {a : Nat}
    {attrs : List (String × V)} {n : Int} (ha : h[a]? = some (.inst (cid (.int .genericTrap)) attrs)) (hp : Plain attrs)
    (hv : attrs.lookup "value" = some (.int n)) :
    call program cfg (.func .rfc1157 211) [.ref a] h = outR (genericTrapStrDig cfg.digits n) V.str h := by
  have h1 := ht.traps
  have hn := hp.none (a := "genericTraps")
  have hn' := hp.none (a := "__class__")
  have hm : program.attr (cid (.int .genericTrap)) "genericTraps" = some (.ref 5) := rfl
  have hk := getKey_table genericTraps n
  have hname : getattr program h (.cls (cid (.int .genericTrap))) "__name__" = some (.str (lit "GenericTrap")) := rfl
  unfold dictOfTable at h1
  rw [call_rfc1157_211]
  unfold genericTrapStrDig
  cases hd : genericTraps.get n with
  | error e =>
    rw [hd] at hk
    have := table_error hd
    subst this
    runs [rfc1157_211, ha, hv, hn, hn', hm, h1, hk, ↓hname, outR, excName]
  | ok s =>
    rw [hd] at hk
    cases hl : tooLong cfg.digits n
    · rw [numStr_short ((tooLong_eq _ _).trans hl)]
      runs [rfc1157_211, ha, hv, hn, hn', hm, h1, hk, ↓hname, fmt_trap, hl, toStr, outR, padLeft_zero, ↓convStr, Except.map]
      simp [lit]
    · rw [show numStr cfg.digits n = .error .valueError by unfold numStr; rw [tooLong_eq, hl]; rfl]
      runs [rfc1157_211, ha, hv, hn, hn', hm, h1, hk, ↓hname, fmt_trap, toStr, hl, outR, excName, Except.map]

theorem run_strOct {h : Heap} {a : Nat} {c : CId} {attrs : List (String × V)} {s : Str} (ha : h[a]? = some (.inst c attrs))
    (hv : attrs.lookup "value" = some (.str s)) : call program cfg (.func .rfc1155 524) [.ref a] h = okR (.str s) h := by
  rw [call_rfc1155_524]
  runs [rfc1155_524, ha, hv]

/-- The loop of `IPAddress.__str__`. -/
theorem run_ipLoop (h : Heap) (a : V) : ∀ (s : Str) (acc : List Str) (i : Option V),
    match numStrs cfg.digits (s.map fun (c : Nat) => (c : Int)) with
    | .ok ss => ∃ i', forL program cfg .rfc1155 [("self", some a), ("result", some (.ref h.length)), ("item", i)] "item"
        (.vals (s.map fun c => .str [c])) rfc1155_930 (h ++ [.list (acc.map V.str)]) =
        some (h ++ [.list ((acc ++ ss).map V.str)], [("self", some a), ("result", some (.ref h.length)), ("item", i')], .next)
    | .error e => ∃ t env, forL program cfg .rfc1155 [("self", some a), ("result", some (.ref h.length)), ("item", i)] "item"
        (.vals (s.map fun c => .str [c])) rfc1155_930 (h ++ [.list (acc.map V.str)]) =
        some (h ++ t, env, .exc (.exc (excName e) [])) := by
  intro s
  induction s with
  | nil =>
    intro acc i
    rw [List.map_nil, numStrs]
    refine ⟨i, ?_⟩
    rw [forL]
    runs [List.map_nil, List.append_nil]
  | cons c s ih =>
    intro acc i
    rw [List.map_cons, numStrs]
    cases ht : tooLong cfg.digits (c : Int)
    · rw [numStr_short ((tooLong_eq _ _).trans ht)]
      have hstep : forL program cfg .rfc1155 [("self", some a), ("result", some (.ref h.length)), ("item", i)] "item"
          (.vals ((c :: s).map fun c => .str [c])) rfc1155_930 (h ++ [.list (acc.map V.str)]) =
          forL program cfg .rfc1155 [("self", some a), ("result", some (.ref h.length)), ("item", some (.str [c]))] "item"
          (.vals (s.map fun c => .str [c])) rfc1155_930 (h ++ [.list ((acc ++ [pyStrInt c]).map V.str)]) := by
        rw [forL]
        runs [List.map_cons, rfc1155_930, fmt_d, ht, padLeft_zero]
        rw [List.map_append]; rfl
      have ih := ih (acc ++ [pyStrInt c]) (some (.str [c]))
      dsimp only
      rw [hstep]
      cases hn : numStrs cfg.digits (s.map fun (c : Nat) => (c : Int)) with
      | error e => rw [hn] at ih; exact ih
      | ok ss =>
        rw [hn] at ih
        obtain ⟨i', ih⟩ := ih
        exact ⟨i', by rw [ih]; simp⟩
    · rw [show numStr cfg.digits c = .error .valueError by unfold numStr; rw [tooLong_eq, ht]; rfl]
      refine ⟨[.list (acc.map V.str)], [("self", some a), ("result", some (.ref h.length)), ("item", some (.str [c]))], ?_⟩
      rw [forL]
      runs [List.map_cons, rfc1155_930, fmt_d, ht, excName]

theorem run_strIp {h : Heap} {a : Nat} {c : CId} {attrs : List (String × V)} {s : Str} (ha : h[a]? = some (.inst c attrs))
    (hv : attrs.lookup "value" = some (.str s)) :
    ∃ t, call program cfg (.func .rfc1155 928) [.ref a] h =
      outR ((numStrs cfg.digits (s.map fun (c : Nat) => (c : Int))).map (pyJoin (lit "."))) V.str (h ++ t) := by
  have h1 := run_ipLoop (cfg := cfg) h (.ref a) s [] none
  have ha' := get_app_old ha [.list []]
  rw [call_rfc1155_928]
  cases hn : numStrs cfg.digits (s.map fun (c : Nat) => (c : Int)) with
  | ok ss =>
    rw [hn] at h1
    obtain ⟨i', h1⟩ := h1
    simp only [List.map_nil, List.nil_append] at h1
    runs [rfc1155_928, ha', hv, ↓h1, allStr_map, outR, Except.map]
    exact ⟨_, rfl⟩
  | error e =>
    rw [hn] at h1
    obtain ⟨t, env, h1⟩ := h1
    simp only [List.map_nil] at h1
    runs [rfc1155_928, ha', hv, ↓h1, outR, Except.map]
    exact ⟨_, rfl⟩

/-- `'%s' % x`. -/
theorem format_s {x : V} {h h' : Heap} {r : Except Exc Str} (hx : toStr program cfg x h = outS r h') :
    format program cfg [.conv 0 none 115] [x] h = outS r h' := by
  rw [format.eq_def]
  cases r <;> (rw [outS] at hx; simp only [if_true]; rw [hx]; runs [outS, ↓convStr, padLeft_zero]) <;> rw [format] <;> runs [List.append_nil]

/-- The variables of `Sequence.__str__`. -/
def strEnv (a : V) (R : Nat) (i : Option V) : Env :=
  [("self", some a), ("result", some (.str (lit "["))), ("res", some (.ref R)), ("item", i)]

/-- What the loop of `Sequence.__str__` must do. -/
def LoopedS (h : Heap) (a : V) (acc : List Str) (r : S) (m : Except Exc (List Str)) : Prop :=
  match m with
  | .ok ss => ∃ t i, r = some (h ++ .list ((acc ++ ss).map V.str) :: t, strEnv a h.length i, .next)
  | .error e => ∃ t i, r = some (h ++ t, strEnv a h.length i, .exc (.exc (excName e) []))

/-- One element. -/
theorem run_strElem {h : Heap} {a : V} {b : Nat} {pre rest : List V} {x : V} (hb : h[b]? = some (.list (pre ++ x :: rest)))
    (acc : List Str) (T : Heap) (i : Option V) {m : Except Exc Str}
    (hx : ∃ t, toStr program cfg x (h ++ .list (acc.map V.str) :: T) = outS m (h ++ .list (acc.map V.str) :: T ++ t))
    (hnt : ∀ l, x ≠ .tuple l) :
    ∃ t, match m with
    | .ok s => forL program cfg .rfc1155 (strEnv a h.length i) "item" (.list b pre.length) rfc1155_806 (h ++ .list (acc.map V.str) :: T) =
        forL program cfg .rfc1155 (strEnv a h.length (some x)) "item" (.list b (pre ++ [x]).length) rfc1155_806
          (h ++ .list ((acc ++ [s]).map V.str) :: (T ++ t))
    | .error err => forL program cfg .rfc1155 (strEnv a h.length i) "item" (.list b pre.length) rfc1155_806 (h ++ .list (acc.map V.str) :: T) =
        some (h ++ .list (acc.map V.str) :: T ++ t, strEnv a h.length (some x), .exc (.exc (excName err) [])) := by
  obtain ⟨t, hx⟩ := hx
  refine ⟨t, ?_⟩
  have hb' := get_app_old hb (.list (acc.map V.str) :: T)
  have hx0 : (pre ++ x :: rest)[pre.length]? = some x := by simp
  have hf := format_s hx
  cases m with
  | error err =>
    rw [outS] at hf
    dsimp only
    rw [forL]
    unfold strEnv
    runs [hb', hx0, rfc1155_806, fmt_s, ↓hf]
  | ok s =>
    rw [outS] at hf
    dsimp only
    rw [forL]
    unfold strEnv
    runs [hb', hx0, rfc1155_806, fmt_s, ↓hf]
    rw [List.map_append]; rfl

theorem Texts.app {d : Table} {h : Heap} (ht : Texts d h) (t : Heap) : Texts d (h ++ t) :=
  ⟨get_app_old ht.errors t, get_app_old ht.traps t⟩

theorem str_null (c : NullCls) : program.attr (cid (.null c)) "__str__" = some (match c with
    | .null => .func .rfc1155 769 | .noSuchObject => .func .rfc1905 32 | .noSuchInstance => .func .rfc1905 38
    | .endOfMibView => .func .rfc1905 44) := by cases c <;> rfl

/-- `Sequence.__str__`, given what its loop does. -/
theorem run_seqStr {h : Heap} {a b : Nat} {c : CId} {attrs : List (String × V)} {l : List V} {m : Except Exc (List Str)}
    (ha : h[a]? = some (.inst c attrs)) (hv : attrs.lookup "value" = some (.ref b)) (hb : h[b]? = some (.list l))
    (hloop : LoopedS h (.ref a) [] (forL program cfg .rfc1155 (strEnv (.ref a) h.length none) "item" (.list b 0) rfc1155_806
      (h ++ [.list []])) m) :
    ∃ t, call program cfg (.func .rfc1155 803) [.ref a] h =
      outR (m.map fun ts => lit "[" ++ pyJoin (lit ", ") ts ++ lit "]") V.str (h ++ t) := by
  have ha' := get_app_old ha [.list []]
  have hb' := get_app_old hb [.list []]
  unfold strEnv at hloop
  rw [call_rfc1155_803]
  cases m with
  | error e =>
    obtain ⟨t, i, hloop⟩ := hloop
    unfold strEnv at hloop
    runs [rfc1155_803, ha', hv, hb', hloop, outR, Except.map]
    exact ⟨_, rfl⟩
  | ok ss =>
    obtain ⟨t, i, hloop⟩ := hloop
    unfold strEnv at hloop
    runs [rfc1155_803, ha', hv, hb', hloop, outR, Except.map, allStr_map, List.nil_append]
    exact ⟨_, rfl⟩

mutual
/-- `str(x)`. -/
theorem run_str {lo : Nat} {d : Table} : ∀ (v : Val) {h : Heap} {x : V}, Texts d h → Rep lo h v x → NoMessage v →
    ∃ t, toStr program cfg x h = outS (valStrDig cfg.digits d v) (h ++ t)
  | .none, h, x, ht, r, _ => by
    rw [Rep] at r; subst r
    exact ⟨[], by rw [toStr, valStrDig, valStr, List.append_nil]; rfl; all_goals intros; simp_all⟩
  | .int n, h, x, ht, r, _ => by
    rw [Rep] at r; subst r
    refine ⟨[], ?_⟩
    rw [toStr, valStrDig, List.append_nil]
    unfold numStr
    rw [tooLong_eq]
    cases tooLong cfg.digits n <;> rfl
  | .str s, h, x, ht, r, _ => by
    rw [Rep] at r; subst r
    exact ⟨[], by rw [toStr, valStrDig, valStr, List.append_nil]; rfl; all_goals intros; simp_all⟩
  | .bytes _, h, x, ht, r, _ => by rw [Rep] at r; exact r.elim
  | .raw _ _, h, x, ht, r, _ => by rw [Rep] at r; exact r.elim
  | .integer c n, h, x, ht, r, _ => by
    rw [Rep] at r
    obtain ⟨a, attrs, rfl, hl, ha, hp, hv⟩ := r
    refine ⟨[], ?_⟩
    rw [List.append_nil, valStrDig]
    by_cases h1 : c = .errorStatus ∨ c = .errorStatus2
    · rw [if_pos h1]
      exact run_toStr ha (str_err h1) (run_strErr ht h1 ha hp hv)
    · rw [if_neg h1]
      by_cases h2 : c = .genericTrap
      · subst h2
        rw [if_pos rfl]
        exact run_toStr ha (show program.attr (cid (.int .genericTrap)) "__str__" = some (.func .rfc1157 211) from rfl)
          (run_strTrap ht ha hp hv)
      · rw [if_neg h2]
        exact run_toStr ha (str_int c h1 h2) (run_strInt ha hv)
  | .octets c s, h, x, ht, r, _ => by
    rw [Rep] at r
    obtain ⟨a, attrs, rfl, hl, ha, hp, hv⟩ := r
    have hm := str_oct c
    rw [valStrDig]
    by_cases hi : (Cls.oct c).isSubclass (.oct .ipAddress) = true
    · rw [if_pos hi] at hm ⊢
      obtain ⟨t, hs⟩ := run_strIp (cfg := cfg) ha hv
      exact ⟨t, run_toStr ha hm hs⟩
    · rw [if_neg hi] at hm ⊢
      exact ⟨[], by rw [List.append_nil]; exact run_toStr ha hm (run_strOct ha hv)⟩
  | .oid none, h, x, ht, r, _ => by
    rw [Rep] at r
    obtain ⟨a, attrs, rfl, hl, ha, hp, hv⟩ := r
    refine ⟨[], ?_⟩
    rw [List.append_nil, show valStrDig cfg.digits d (.oid none) = .ok [] by rw [valStrDig] <;> first | rfl | (intros; simp_all)]
    exact run_toStr ha str_oid (run_strOidNone ha hv)
  | .oid (some ids), h, x, ht, r, _ => by
    rw [Rep] at r
    obtain ⟨a, attrs, b, rfl, hl, ha, hp, hv, hb, hr⟩ := r
    obtain ⟨t, hs⟩ := run_strOid (cfg := cfg) ha hv hr
    exact ⟨t, by rw [valStrDig]; exact run_toStr ha str_oid hs⟩
  | .null c, h, x, ht, r, _ => by
    rw [Rep] at r
    obtain ⟨a, attrs, rfl, hl, ha, hp, hv⟩ := r
    refine ⟨[], ?_⟩
    rw [List.append_nil]
    have hm := str_null c
    have hd : valStrDig cfg.digits d (.null c) = valStr d (.null c) := by rw [valStrDig] <;> (intros; simp_all)
    rw [hd]
    cases c
    · exact run_toStr ha hm (by rw [call_rfc1155_769]; runs [rfc1155_769, outR, valStr])
    · exact run_toStr ha hm (by rw [call_rfc1905_32]; runs [rfc1905_32, outR, valStr])
    · exact run_toStr ha hm (by rw [call_rfc1905_38]; runs [rfc1905_38, outR, valStr])
    · exact run_toStr ha hm (by rw [call_rfc1905_44]; runs [rfc1905_44, outR, valStr])
  | .seq c items, h, x, ht, r, hn => by
    rw [Rep] at r
    rw [NoMessage] at hn
    obtain ⟨a, attrs, b, l, rfl, hl, ha, hp, hv, hb, hr, hf, hi⟩ := r
    have hloop := run_strItems (a := .ref a) ht items hn.2.2 [] hr hi [] [] none
    obtain ⟨t, hs⟩ := run_seqStr (cfg := cfg) ha hv hr hloop
    refine ⟨t, ?_⟩
    rw [valStrDig, run_toStr ha (str_seq hn.1 hn.2.1) hs]
    cases itemsStrDig cfg.digits d items <;> rfl
/-- The loop of `Sequence.__str__`. -/
theorem run_strItems {lo : Nat} {d : Table} {h : Heap} {a : V} {b : Nat} (ht : Texts d h) : ∀ (items : List Val), NoMessages items →
    ∀ (pre : List V) {rest : List V}, h[b]? = some (.list (pre ++ rest)) → RepAll lo h items rest →
    ∀ (acc : List Str) (T : Heap) (i : Option V),
    LoopedS h a acc (forL program cfg .rfc1155 (strEnv a h.length i) "item" (.list b pre.length) rfc1155_806
      (h ++ .list (acc.map V.str) :: T)) (itemsStrDig cfg.digits d items)
  | [], _, pre, rest, hb, r, acc, T, i => by
    rw [RepAll] at r
    subst r
    have hb' := get_app_old hb (.list (acc.map V.str) :: T)
    have hx0 : pre[pre.length]? = none := by simp
    rw [forL, itemsStrDig]
    runs [hb', hx0]
    exact ⟨T, i, by rw [List.append_nil]⟩
  | v :: vs, hs, pre, rest, hb, r, acc, T, i => by
    rw [RepAll] at r
    rw [NoMessages] at hs
    obtain ⟨x, xs, rfl, r1, r2⟩ := r
    have hel := run_str v (ht.app (.list (acc.map V.str) :: T)) (r1.app (.list (acc.map V.str) :: T)) hs.1
    have hnt : ∀ l, x ≠ .tuple l := by
      have hc := r1.cell
      intro l hx
      subst hx
      split at hc
      · obtain ⟨a, attrs, hc, -⟩ := hc; cases hc
      · rcases hc with ⟨_, hc⟩ | ⟨_, _, hc⟩ | ⟨_, _, hc⟩ <;> cases hc
    obtain ⟨t, hstep⟩ := run_strElem (a := a) hb acc T i hel hnt
    rw [itemsStrDig]
    cases hm : valStrDig cfg.digits d v with
    | error err =>
      rw [hm] at hstep
      dsimp only at hstep ⊢
      rw [hstep]
      exact ⟨_, _, by rw [List.append_assoc]⟩
    | ok s =>
      rw [hm] at hstep
      dsimp only at hstep ⊢
      have ih := run_strItems (a := a) ht vs hs.2 (pre ++ [x]) (rest := xs) (by rw [List.append_assoc]; exact hb) r2 (acc ++ [s]) (T ++ t) (some x)
      rw [hstep]
      cases hm' : itemsStrDig cfg.digits d vs with
      | error err =>
        rw [hm'] at ih
        exact ih
      | ok s' =>
        rw [hm'] at ih
        obtain ⟨t', e', ih⟩ := ih
        exact ⟨t', e', by rw [ih, List.append_assoc]; rfl⟩
end

end Libsnmp.Src
