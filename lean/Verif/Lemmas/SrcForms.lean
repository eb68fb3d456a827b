import Verif.Lemmas.SrcStr
import Verif.Model.Forms

/-!
# Running `Message.__str__`, `__hex__`, `__oct__`, `__call__`, `toObjectID` and the names of traps
-/

namespace Libsnmp.Src
open Libsnmp

variable {cfg : Cfg}

theorem fmt_m1 : pieces ((lit "[%s, ").length + 1) (lit "[%s, ") = some [.text (lit "["), .conv 0 none 115, .text (lit ", ")] := by
  decide +kernel
theorem fmt_m2 : pieces ((lit "%s, ").length + 1) (lit "%s, ") = some [.conv 0 none 115, .text (lit ", ")] := by decide +kernel
theorem fmt_m3 : pieces ((lit "%s]").length + 1) (lit "%s]") = some [.conv 0 none 115, .text (lit "]")] := by decide +kernel

/-- `'...%s...' % x`. -/
theorem format_st {x : V} {h h' : Heap} {r : Except Exc Str} (hx : toStr program cfg x h = outS r h') (u : Str) :
    format program cfg [.conv 0 none 115, .text u] [x] h = outS (r.map (· ++ u)) h' := by
  rw [format.eq_def]
  cases r <;> (rw [outS] at hx; simp only [if_true]; rw [hx]; runs [outS, ↓convStr, padLeft_zero, Except.map]) <;> rw [format] <;>
    runs [List.append_nil] <;> rw [format] <;> runs [List.append_nil]

theorem format_tst {x : V} {h h' : Heap} {r : Except Exc Str} (hx : toStr program cfg x h = outS r h') (t u : Str) :
    format program cfg [.text t, .conv 0 none 115, .text u] [x] h = outS (r.map fun s => t ++ (s ++ u)) h' := by
  have h1 := format_st hx u
  rw [format.eq_def]
  cases r <;> (rw [outS] at hx; simp only [Except.map, outS] at h1 ⊢; rw [h1]; runs [])

/-- `str(message)`. -/
theorem run_msgStr {lo : Nat} {d : Table} {h : Heap} {m : Msg} {a : Nat} (hm : m.cls = .message ∨ m.cls = .message2)
    (r : RepMsg lo h m a) (ht : Texts d h) (hn : NoMessages [m.version, m.community, m.data]) :
    ∃ t, toStr program cfg (.ref a) h = outS (msgStrDig cfg.digits d m) (h ++ t) := by
  obtain ⟨attrs, b, l, x, y, z, hla, ha, hp, hv, hb, hbl, hl3, hx, hy, hz, rx, ry, rz⟩ := r
  simp only [NoMessages] at hn
  obtain ⟨n1, n2, n3, -⟩ := hn
  have hnt : ∀ {v : Val} {x : V}, Rep lo h v x → ∀ l, x ≠ .tuple l := by
    intro v x r l hx
    have hc := r.cell
    subst hx
    split at hc
    · obtain ⟨a, attrs, hc, -⟩ := hc; cases hc
    · rcases hc with ⟨_, hc⟩ | ⟨_, _, hc⟩ | ⟨_, _, hc⟩ <;> cases hc
  have t1 := hnt rx; have t2 := hnt ry; have t3 := hnt rz
  have hs : ∃ t, call program cfg (.func .rfc1157 97) [.ref a] h = outR (msgStrDig cfg.digits d m) V.str (h ++ t) := by
    obtain ⟨u1, e1⟩ := run_str (cfg := cfg) m.version ht rx n1
    obtain ⟨u2, e2⟩ := run_str (cfg := cfg) m.community (ht.app u1) (ry.app u1) n2
    obtain ⟨u3, e3⟩ := run_str (cfg := cfg) m.data ((ht.app u1).app u2) ((rz.app u1).app u2) n3
    have g1 := format_tst e1 (lit "[") (lit ", ")
    have g2 := format_st e2 (lit ", ")
    have g3 := format_st e3 (lit "]")
    have a1 := get_app_old ha u1
    have a2 := get_app_old a1 u2
    simp only [List.append_assoc] at a2 g3 g2
    rw [call_rfc1157_97]
    unfold msgStrDig
    cases v1 : valStrDig cfg.digits d m.version with
    | error e =>
      rw [v1] at g1
      simp only [Except.map, outS] at g1
      runs [rfc1157_97, ha, hx, fmt_m1, ↓g1, outR]
      exact ⟨_, rfl⟩
    | ok s1 =>
      rw [v1] at g1
      simp only [Except.map, outS] at g1
      cases v2 : valStrDig cfg.digits d m.community with
      | error e =>
        rw [v2] at g2
        simp only [Except.map, outS] at g2
        runs [rfc1157_97, ha, hx, fmt_m1, ↓g1, a1, hy, fmt_m2, ↓g2, outR]
        exact ⟨u1 ++ u2, rfl⟩
      | ok s2 =>
        rw [v2] at g2
        simp only [Except.map, outS] at g2
        cases v3 : valStrDig cfg.digits d m.data with
        | error e =>
          rw [v3] at g3
          simp only [Except.map, outS] at g3
          runs [rfc1157_97, ha, hx, fmt_m1, ↓g1, a1, hy, fmt_m2, ↓g2, a2, hz, fmt_m3, ↓g3, outR]
          exact ⟨u1 ++ (u2 ++ u3), rfl⟩
        | ok s3 =>
          rw [v3] at g3
          simp only [Except.map, outS] at g3
          runs [rfc1157_97, ha, hx, fmt_m1, ↓g1, a1, hy, fmt_m2, ↓g2, a2, hz, fmt_m3, ↓g3, outR]
          exact ⟨u1 ++ (u2 ++ u3), rfl⟩
  obtain ⟨t, hs⟩ := hs
  exact ⟨t, run_toStr ha (str_msg hm) hs⟩

/-! ## Numbers -/

theorem run_intHex {h : Heap} {a : Nat} {c : CId} {attrs : List (String × V)} {n : Int} (ha : h[a]? = some (.inst c attrs))
    (hv : attrs.lookup "value" = some (.int n)) :
    call program cfg (.func .rfc1155 319) [.ref a] h = okR (.str (pyHexInt n)) h := by
  rw [call_rfc1155_319]
  unfold pyHexInt
  by_cases hn : 0 ≤ n
  · have h1 : n.toNat = n.natAbs := by omega
    runs [rfc1155_319, ha, hv, hn, if_neg (Int.not_lt.2 hn), h1]
  · runs [rfc1155_319, ha, hv, hn, if_pos (Int.not_le.1 hn)]
    first | done | rfl

theorem run_intOct {h : Heap} {a : Nat} {c : CId} {attrs : List (String × V)} {n : Int} (ha : h[a]? = some (.inst c attrs))
    (hv : attrs.lookup "value" = some (.int n)) :
    call program cfg (.func .rfc1155 322) [.ref a] h = okR (.str (pyOctInt n)) h := by
  rw [call_rfc1155_322]
  unfold pyOctInt
  by_cases hn : 0 ≤ n
  · have h1 : n.toNat = n.natAbs := by omega
    runs [rfc1155_322, ha, hv, hn, if_neg (Int.not_lt.2 hn), h1]
  · runs [rfc1155_322, ha, hv, hn, if_pos (Int.not_le.1 hn)]
    first | done | rfl

theorem run_intCall {h : Heap} {a : Nat} {c : IntCls} {attrs : List (String × V)} {n : Int} (ha : h[a]? = some (.inst (cid (.int c)) attrs))
    (hv : attrs.lookup "value" = some (.int n)) : call program cfg (.ref a) [] h = okR (.int n) h := by
  have hm : program.attr (cid (.int c)) "__call__" = some (.func .rfc1155 325) := by cases c <;> rfl
  rw [call]
  runs [kind, ha, hm]
  rw [call_rfc1155_325]
  runs [rfc1155_325, ha, hv]

/-! ## Octets -/

/-- `[f(x) for x in s]`. -/
theorem run_compChars {m : Module} {elt : Expr} {env : Env} {f : Nat → V}
    (he : ∀ (c : Nat) (h : Heap), eval program cfg m (("x", some (.str [c])) :: env) elt h = okR (f c) h) (x0 : Option V) (h : Heap) :
    ∀ (s : Str) (acc : List V), comp program cfg m (("x", x0) :: env) elt "x" (.vals (s.map fun c => .str [c])) acc h =
      okR (acc ++ s.map f) h := by
  intro s
  induction s with
  | nil => intro acc; rw [comp]; runs [List.map_nil, List.append_nil]
  | cons c s ih =>
    intro acc
    rw [comp]
    have h1 : Env.set (("x", x0) :: env) "x" (.str [c]) = ("x", some (.str [c])) :: env := by simp [Env.set]
    runs [List.map_cons, ↓h1, ↓he]
    rw [ih]
    simp

theorem fmt_X : pieces ((lit "%.2X").length + 1) (lit "%.2X") = some [.conv 0 (some 2) 88] := by decide +kernel
theorem fmt_o : pieces ((lit "%3o").length + 1) (lit "%3o") = some [.conv 3 none 111] := by decide +kernel

theorem join_flat (s : Str) (f : Nat → Str) : pyJoin (lit "") (s.map f) = s.flatMap f := by
  rw [join_lit, List.flatMap]

theorem allStr_each (s : Str) (f : Nat → Str) : allStr (s.map fun c => V.str (f c)) = some (s.map f) := by
  rw [← allStr_map (s.map f), List.map_map]; rfl

theorem run_octHex {h : Heap} {a : Nat} {c : CId} {attrs : List (String × V)} {s : Str} (ha : h[a]? = some (.inst c attrs))
    (hv : attrs.lookup "value" = some (.str s)) :
    call program cfg (.func .rfc1155 538) [.ref a] h = okR (.str (s.flatMap hex2Upper)) (h ++ [.list (s.map fun c => .str (hex2Upper c))]) := by
  have h1 := run_compChars (cfg := cfg) (m := .rfc1155) (elt := .bin .mod (.str (lit "%.2X")) (.call (.glob "ord") [.loc "x"]))
    (env := [("self", some (.ref a))]) (f := fun c => .str (hex2Upper c))
    (fun c h => by
      have hc : (0 : Int) ≤ c := by omega
      runs [fmt_X, pyOrd, basedDigits, padLeft_zero, hc, Int.toNat_natCast, if_true, Option.getD]
      first | done | rfl) none h s []
  rw [call_rfc1155_538]
  rw [List.nil_append] at h1
  runs [rfc1155_538, ha, hv, ↓h1, allStr_each, join_flat]

theorem run_octOct {h : Heap} {a : Nat} {c : CId} {attrs : List (String × V)} {s : Str} (ha : h[a]? = some (.inst c attrs))
    (hv : attrs.lookup "value" = some (.str s)) :
    call program cfg (.func .rfc1155 541) [.ref a] h = okR (.str (s.flatMap oct3)) (h ++ [.list (s.map fun c => .str (oct3 c))]) := by
  have h1 := run_compChars (cfg := cfg) (m := .rfc1155) (elt := .bin .mod (.str (lit "%3o")) (.call (.glob "ord") [.loc "x"]))
    (env := [("self", some (.ref a))]) (f := fun c => .str (oct3 c))
    (fun c h => by
      have hc : (0 : Int) ≤ c := by omega
      runs [fmt_o, pyOrd, basedDigits, padLeft_zero, hc, Int.toNat_natCast, if_true, Option.getD]
      first | done | rfl) none h s []
  rw [call_rfc1155_541]
  rw [List.nil_append] at h1
  runs [rfc1155_541, ha, hv, ↓h1, allStr_each, join_flat]

/-! ## `toObjectID` -/

theorem run_octToOid {h : Heap} {a : Nat} {c : CId} {attrs : List (String × V)} {s : Str} (ha : h[a]? = some (.inst c attrs))
    (hv : attrs.lookup "value" = some (.str s)) (l : Nat) (hl : l = 544 ∨ l = 937) :
    ∃ t, call program cfg (.func .rfc1155 l) [.ref a] h = okR (.ref (h.length + 1)) (h ++ t) ∧
      Rep h.length (h ++ t) (.oid (some (s.map fun (c : Nat) => (c : Int)))) (.ref (h.length + 1)) := by
  have h1 := run_compChars (cfg := cfg) (m := .rfc1155) (elt := .call (.glob "ord") [.loc "x"])
    (env := [("self", some (.ref a))]) (f := fun (c : Nat) => V.int (c : Int)) (fun c h => by runs [pyOrd]) none h s []
  rw [List.nil_append] at h1
  have hn := run_newOidList (cfg := cfg) (h := h ++ [.list (s.map fun (c : Nat) => V.int (c : Int))]) (b := h.length) (get_app _ _)
  have h2 : call program cfg (.cls (.rfc1155, 550)) [.ref h.length] (h ++ [.list (s.map fun (c : Nat) => V.int (c : Int))]) = _ := hn
  refine ⟨[.list (s.map fun (c : Nat) => V.int (c : Int)), .inst (cid .oid) [("value", .ref (h.length + 2))], .list (s.map fun (c : Nat) => V.int (c : Int))], ?_, ?_⟩
  · rcases hl with rfl | rfl
    · rw [call_rfc1155_544]
      runs [rfc1155_544, ha, hv, ↓h1, ↓h2]
    · rw [call_rfc1155_937]
      runs [rfc1155_937, ha, hv, ↓h1, ↓h2]
  · rw [Rep]
    refine ⟨_, [("value", .ref (h.length + 2))], h.length + 2, rfl, by omega, ?_, plain _, rfl, by omega, ?_⟩
    · rw [List.getElem?_append_right (by omega)]; simp
    · rw [List.getElem?_append_right (by omega)]; simp

theorem run_intToOid {h : Heap} {a : Nat} {c : CId} {attrs : List (String × V)} {n : Int} (ha : h[a]? = some (.inst c attrs))
    (hv : attrs.lookup "value" = some (.int n)) :
    ∃ t, call program cfg (.func .rfc1155 507) [.ref a] h = okR (.ref (h.length + 1)) (h ++ t) ∧
      Rep h.length (h ++ t) (.oid (some [n])) (.ref (h.length + 1)) := by
  have hn := run_newOidList (cfg := cfg) (h := h ++ [.list [.int n]]) (b := h.length) (get_app _ _)
  have h2 : call program cfg (.cls (.rfc1155, 550)) [.ref h.length] (h ++ [.list [.int n]]) = _ := hn
  refine ⟨[.list [.int n], .inst (cid .oid) [("value", .ref (h.length + 2))], .list [.int n]], ?_, ?_⟩
  · rw [call_rfc1155_507]
    runs [rfc1155_507, ha, hv, ↓h2]
  · rw [Rep]
    refine ⟨_, [("value", .ref (h.length + 2))], h.length + 2, rfl, by omega, ?_, plain _, rfl, by omega, ?_⟩
    · rw [List.getElem?_append_right (by omega)]; simp
    · rw [List.getElem?_append_right (by omega)]; simp

/-! ## The names of traps and errors -/

theorem run_trapEnum {d : Table} {h : Heap} (ht : Texts d h) {a : Nat}
    {attrs : List (String × V)} {n : Int} (ha : h[a]? = some (.inst (cid (.int .genericTrap)) attrs)) (hp : Plain attrs)
    (hv : attrs.lookup "value" = some (.int n)) (num : Option Int) :
    call program cfg (.func .rfc1157 216) [.ref a, match num with | some k => .int k | none => .none] h =
      outR (genericTrapEnum n num) V.str h := by
  have h1 := ht.traps
  have hn := hp.none (a := "genericTraps")
  have hm : program.attr (cid (.int .genericTrap)) "genericTraps" = some (.ref 5) := rfl
  unfold dictOfTable at h1
  rw [call_rfc1157_216]
  unfold genericTrapEnum
  cases num with
  | none =>
    have hk := getKey_table genericTraps n
    rw [Option.getD_none]
    cases hd : genericTraps.get n with
    | error e =>
      have := table_error hd
      subst this
      rw [hd] at hk
      runs [rfc1157_216, ha, hv, hn, hm, h1, hk, outR, excName]
    | ok s =>
      rw [hd] at hk
      runs [rfc1157_216, ha, hv, hn, hm, h1, hk, outR]
  | some k =>
    have hk := getKey_table genericTraps k
    rw [Option.getD_some]
    cases hd : genericTraps.get k with
    | error e =>
      have := table_error hd
      subst this
      rw [hd] at hk
      runs [rfc1157_216, ha, hv, hn, hm, h1, hk, outR, excName]
    | ok s =>
      rw [hd] at hk
      runs [rfc1157_216, ha, hv, hn, hm, h1, hk, outR]

end Libsnmp.Src
