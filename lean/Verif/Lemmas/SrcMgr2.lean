import Verif.Lemmas.SrcMgr1

/-!
# Running the code that makes messages: v1.py, v2.py
-/

namespace Libsnmp.Src
open Libsnmp

variable {cfg : Cfg} {nm : Names} {env : Libsnmp.Env} {k : Libsnmp.Kind}

section
variable {h : Heap} {a q d : Nat} {s : Mgr k} {attrs : List (String × V)}

/-- `Message(community=x, data=z)`. -/
theorem run_msgAt (hc : Limits cfg) (hb : Base h) (r : MgrAt nm env h a s attrs q d) {c : SeqCls} (hm : c = .message ∨ c = .message2)
    (n : Int) (t : Str) {v : Val} {z : V} (rz : Rep 9 h v z) :
    ∃ h', Own a q d h h' ∧ MgrAt nm env h' a s attrs q d ∧ Kept h.length h h' ∧
      Outcome IsMsg h' (call program cfg (.cls (cid (.seq c))) [.int n, .str t, z] h) (mkMessage c n t v) := by
  have hm := run_newMsg (cfg := cfg) hc hb hm n t (Nat.le_refl 9) hb.long rz
  cases hmk : mkMessage c n t v with
  | ok v =>
    rw [hmk] at hm
    obtain ⟨h', h1, h2, _, h3⟩ := hm
    exact ⟨h', (Own.refl hb _ _ _).kept h2 (Nat.le_refl _), r.kept h2 (Nat.le_refl _), h2, _, h1, _, rfl, h3⟩
  | error e =>
    rw [hmk] at hm
    obtain ⟨h', x, h1, h2, h3⟩ := hm
    exact ⟨h', (Own.refl hb _ _ _).kept h2 (Nat.le_refl _), r.kept h2 (Nat.le_refl _), h2, _, h1, h3⟩

/-- v1.py:81-85. -/
theorem run_v1_81 (hc : Limits cfg) (hb : Base h) (r : MgrAt nm env h a s attrs q d) (t : Str) {v : Val} {z : V} (rz : Rep 9 h v z) :
    Runs nm env a q d IsMsg h (call program cfg (.func .v1 81) [.ref a, z, .str t] h)
      ((M.lift (mkMessage .message 0 t v) : M k Msg) s) := by
  obtain ⟨h', o1, r2, hk, out⟩ := run_msgAt (cfg := cfg) hc hb r (c := .message) (.inl rfl) 0 t rz
  have hpl := place_msg (c := .message) (.inl rfl) (.str t) z
  rw [show cid (.seq .message) = (.rfc1157, 87) from rfl] at hpl out
  refine ⟨h', attrs, o1, r2, ?_⟩
  change Outcome IsMsg h' _ (mkMessage .message 0 t v)
  rw [call_v1_81]
  cases hmk : mkMessage .message 0 t v with
  | ok v =>
    rw [hmk] at out
    obtain ⟨y, out, ry⟩ := out
    refine ⟨y, ?_, ry⟩
    runs [v1_81, ↓hpl, ↓out]
  | error e =>
    rw [hmk] at out
    obtain ⟨y, out, ry⟩ := out
    refine ⟨y, ?_, ry⟩
    runs [v1_81, ↓hpl, ↓out]

/-- v2.py:59-63. -/
theorem run_v2_59 (hc : Limits cfg) (hb : Base h) (r : MgrAt nm env h a s attrs q d) (t : Str) {v : Val} {z : V} (rz : Rep 9 h v z) :
    Runs nm env a q d IsMsg h (call program cfg (.func .v2 59) [.ref a, z, .str t] h)
      ((M.lift (mkMessage .message2 1 t v) : M k Msg) s) := by
  obtain ⟨h', o1, r2, hk, out⟩ := run_msgAt (cfg := cfg) hc hb r (c := .message2) (.inr rfl) 1 t rz
  have hpl := place_msg (c := .message2) (.inr rfl) (.str t) z
  rw [show cid (.seq .message2) = (.rfc1905, 58) from rfl] at hpl out
  refine ⟨h', attrs, o1, r2, ?_⟩
  change Outcome IsMsg h' _ (mkMessage .message2 1 t v)
  rw [call_v2_59]
  cases hmk : mkMessage .message2 1 t v with
  | ok v =>
    rw [hmk] at out
    obtain ⟨y, out, ry⟩ := out
    refine ⟨y, ?_, ry⟩
    runs [v2_59, ↓hpl, ↓out]
  | error e =>
    rw [hmk] at out
    obtain ⟨y, out, ry⟩ := out
    refine ⟨y, ?_, ry⟩
    runs [v2_59, ↓hpl, ↓out]

/-- `VarBind(objID, Null())`. -/
theorem run_bindNull {h : Heap} {lo : Nat} (hl : lo ≤ h.length) {ids : Option (List Int)} {x : V} (rx : Rep lo h (.oid ids) x) {c : SeqCls}
    (hv : c = .varBind ∨ c = .varBind2) :
    call program cfg (.cls (cid (.seq c))) [x, .ref h.length] (h ++ [.inst (cid (.null .null)) []]) = okR (.ref (h.length + 1))
      (h ++ [.inst (cid (.null .null)) [],
        .inst (cid (.seq c)) [("objectID", x), ("objectValue", .ref h.length), ("value", .ref (h.length + 2))],
        .list [x, .ref h.length]]) ∧
    Rep lo (h ++ [.inst (cid (.null .null)) [],
        .inst (cid (.seq c)) [("objectID", x), ("objectValue", .ref h.length), ("value", .ref (h.length + 2))],
        .list [x, .ref h.length]]) (.seq c [.oid ids, .null .null]) (.ref (h.length + 1)) ∧
    mkVarBind c (.oid ids) (.null .null) = .ok (.seq c [.oid ids, .null .null]) := by
  have rn : Rep lo (h ++ [.inst (cid (.null .null)) []]) (.null .null) (.ref h.length) := by
    rw [Rep]; exact ⟨_, _, rfl, hl, get_app _ _, fun p hp => (by cases hp), rfl⟩
  have h1 := run_newVarBind (cfg := cfg) (rx.app [.inst (cid (.null .null)) []]) rn hv
  have hm : mkVarBind c (.oid ids) (.null .null) = .ok (.seq c [.oid ids, .null .null]) := by
    simp [mkVarBind, Val.isInstance, Val.cls?, show Cls.isSubclass .oid .oid = true from by decide,
      show Cls.isSubclass (.null .null) .asn1Object = true from by decide]
  rw [hm] at h1
  refine ⟨?_, ?_, hm⟩
  · have := h1.2
    simpa using this
  · have r1 := rx.app [.inst (cid (.null .null)) [],
        .inst (cid (.seq c)) [("objectID", x), ("objectValue", .ref h.length), ("value", .ref (h.length + 2))],
        .list [x, .ref h.length]]
    have r2 := rn.app [
        .inst (cid (.seq c)) [("objectID", x), ("objectValue", .ref h.length), ("value", .ref (h.length + 2))],
        .list [x, .ref h.length]]
    rw [List.append_assoc] at r2
    have g1 := get_app_add h [.inst (cid (.null .null)) [],
        .inst (cid (.seq c)) [("objectID", x), ("objectValue", .ref h.length), ("value", .ref (h.length + 2))],
        .list [x, .ref h.length]] 1
    have g2 := get_app_add h [.inst (cid (.null .null)) [],
        .inst (cid (.seq c)) [("objectID", x), ("objectValue", .ref h.length), ("value", .ref (h.length + 2))],
        .list [x, .ref h.length]] 2
    rw [Rep]
    refine ⟨_, _, _, _, rfl, by omega, g1, plain _, rfl, by omega, g2, ?_, ?_⟩
    · rcases hv with rfl | rfl <;> rfl
    · rw [RepAll]
      refine ⟨_, _, rfl, r1, ?_⟩
      rw [RepAll]
      refine ⟨_, _, rfl, r2, ?_⟩
      rw [RepAll]

/-- `VarBindList(x)`, for any values. -/
theorem run_makeVBL (hc : Limits cfg) {h : Heap} (hb : Base h) {c : SeqCls} (hcl : c = .varBindList ∨ c = .varBindList2)
    {vs : List Val} {x : V} (hv : RepVbs h vs x) :
    ∃ h', Kept h.length h h' ∧ Outcome (Rep 9) h' (call program cfg (.cls (cid (.seq c))) [x] h) (mkVarBindList c vs) := by
  have hl9 := hb.long
  obtain ⟨l, hi, hr⟩ := hv.items
  have hll := hr.length
  cases hall : vs.all (·.isInstance (.seq .varBind)) with
  | false =>
    obtain ⟨args, h', h1, h2⟩ := run_newVBL_bad (cfg := cfg) hc hi hcl hr (Nat.le_refl 9) hall h (Kept.refl hb _)
    have : mkVarBindList c vs = .error .valueError := by
      rw [mkVarBindList, hall]; split <;> rfl
    rw [this]
    exact ⟨h', h2, _, h1, args, rfl⟩
  | true =>
    have hx : ∀ h', Kept h.length h h' → ∀ y ∈ l, isInst program h' y (.cls (cid (.seq .varBind))) = some true := all_varBind' hr (Nat.le_refl _) hall
    have rep : Rep 9 (h ++ [.inst (cid (.seq c)) (vblAttrs (h.length + 2)), .list [], .list l]) (.seq c vs) (.ref h.length) := by
      rw [Rep]
      refine ⟨_, _, _, _, rfl, by omega, get_app _ _, plain _ (by simp only [vblAttrs, List.map]; decide), rfl, by omega,
        get_app_add h [.inst (cid (.seq c)) (vblAttrs (h.length + 2)), .list [], .list l] 2, ?_, hr.app _⟩
      rcases hcl with rfl | rfl <;> rfl
    rcases hcl with rfl | rfl
    · rw [show mkVarBindList .varBindList vs = .ok (.seq .varBindList vs) by
        rw [mkVarBindList, hall]; simp [show (Cls.seq .varBindList).isSubclass (.seq .varBindList2) = false from by decide]]
      exact ⟨_, Kept.app hb _, _, run_newVBL (Kept.refl hb _) hi hx, rep⟩
    · have hs : (Cls.seq .varBindList2).isSubclass (.seq .varBindList2) = true := by decide
      by_cases hlen : 2147483647 < vs.length
      · obtain ⟨args, h1⟩ := run_newVBL2_long (cfg := cfg) hc hi (by omega)
        rw [show mkVarBindList .varBindList2 vs = .error .valueError by
          rw [mkVarBindList, hs]; simp [hlen]]
        exact ⟨_, Kept.app hb _, _, h1 h (Kept.refl hb _), args, rfl⟩
      · rw [show mkVarBindList .varBindList2 vs = .ok (.seq .varBindList2 vs) by
          rw [mkVarBindList, hs, hall]; simp [hlen]]
        exact ⟨_, Kept.app hb _, _, run_newVBL2 (Kept.refl hb _) hi hx (by omega), rep⟩

end

theorem M.at_ok {α β : Type} {x : M k α} {f : α → M k β} {s s' : Mgr k} {v : α} (h : x s = (.ok v, s')) : (x >>= f) s = f v s' := by
  simp only [Bind.bind, h]

theorem M.at_error {α β : Type} {x : M k α} {f : α → M k β} {s s' : Mgr k} {e : Exc} (h : x s = (.error e, s')) :
    (x >>= f) s = (.error e, s') := by
  simp only [Bind.bind, h]

theorem Runs.own {h h' : Heap} {a q d : Nat} {α : Type} {T : Heap → α → V → Prop} {o : R V} {m : Except Exc α × Mgr k}
    (h1 : Own a q d h h') (h2 : Runs nm env a q d T h' o m) : Runs nm env a q d T h o m := by
  obtain ⟨h'', attrs, o1, r1, out⟩ := h2
  exact ⟨h'', attrs, h1.trans o1, r1, out⟩

/-- A PDU is made and put into a message. -/
theorem Runs.message (hc : Limits cfg) {h : Heap} {a q d : Nat} {s : Mgr k} {o : R V} {x : M k Val}
    (h1 : Runs nm env a q d (Rep 9) h o (x s)) {c : SeqCls} (hm : c = .message ∨ c = .message2) (n : Int) (t : Str) {o' : R V}
    (hok : ∀ y h' y' h'', o = okR y h' → call program cfg (.cls (cid (.seq c))) [.int n, .str t, y] h' = okR y' h'' → o' = okR y' h'')
    (hex : ∀ y h' y' h'', o = okR y h' → call program cfg (.cls (cid (.seq c))) [.int n, .str t, y] h' = excR y' h'' → o' = excR y' h'')
    (her : ∀ y h', o = excR y h' → o' = excR y h') :
    Runs nm env a q d IsMsg h o' ((do let pdu ← x; M.lift (mkMessage c n t pdu) : M k Msg) s) := by
  obtain ⟨h', attrs', o1, r1, out⟩ := h1
  rcases hx : x s with ⟨res, s'⟩
  rw [hx] at out r1
  cases res with
  | error e =>
    obtain ⟨y, e1, e2⟩ := out
    rw [M.at_error hx]
    exact ⟨h', attrs', o1, r1, y, her _ _ e1, e2⟩
  | ok v =>
    obtain ⟨y, e1, e2⟩ := out
    obtain ⟨h'', o2, r2, hk, out⟩ := run_msgAt (cfg := cfg) hc o1.base r1 hm n t e2
    rw [M.at_ok hx]
    refine ⟨h'', attrs', o1.trans o2, r2, ?_⟩
    change Outcome IsMsg h'' o' (mkMessage c n t v)
    cases hmk : mkMessage c n t v with
    | error e =>
      rw [hmk] at out
      obtain ⟨y', out, ry⟩ := out
      exact ⟨y', hex _ _ _ _ e1 out, ry⟩
    | ok m =>
      rw [hmk] at out
      obtain ⟨y', out, ry⟩ := out
      exact ⟨y', hok _ _ _ _ e1 out, ry⟩

/-- v1.py:74-79. -/
theorem run_v1_74 (hc : Limits cfg) {h : Heap} {a q d : Nat} {s : Mgr .v1} {attrs : List (String × V)} (hb : Base h)
    (r : MgrAt nm env h a s attrs q d) {vs : List Val} {x : V} (hv : RepVbs h vs x) (t : Str) :
    Runs nm env a q d IsMsg h (call program cfg (.func .v1 74) [.ref a, x, .str t] h) (v1CreateGetNextRequestMessage vs t s) := by
  have hm := r.meth (name := "createGetNextRequestPDU") (m := .v1) (l := 59) rfl
  have hpl := fun z => place_msg (c := .message) (.inl rfl) (.str t) z
  refine (run_v1_59 (cfg := cfg) hc hb r hv).message hc (.inl rfl) 0 t ?_ ?_ ?_ <;>
    intros
  · rename_i e1 e2
    rw [show cid (.seq .message) = (.rfc1157, 87) from rfl] at hpl e2
    rw [call_v1_74]
    runs [v1_74, ↓hm, ↓e1, ↓hpl, ↓e2]
  · rename_i e1 e2
    rw [show cid (.seq .message) = (.rfc1157, 87) from rfl] at hpl e2
    rw [call_v1_74]
    runs [v1_74, ↓hm, ↓e1, ↓hpl, ↓e2]
  · rename_i e1
    rw [call_v1_74]
    runs [v1_74, ↓hm, ↓e1]

/-- `Short` for the numerals in an argument that is a text. -/
def ShortArg (cfg : Cfg) (arg : Arg) : Prop := ∀ s, arg = .str s → Short cfg s

theorem RepArg.same {h h' : Heap} (hs : Same h h') {arg : Arg} {x : V} (h9 : ∀ b, x = .ref b → 9 ≤ b) (r : RepArg 9 h arg x) :
    RepArg 9 h' arg x := by
  cases arg with
  | list l =>
    obtain ⟨b, hx, hb⟩ := r
    exact ⟨b, hx, hs _ _ (h9 _ hx) trivial hb⟩
  | obj v => exact ⟨r.1, r.2.same hs⟩
  | _ => exact r

/-- The cells of `VarBind(objID, Null())`. -/
def bindCells (n : Nat) (c : SeqCls) (x : V) : Heap :=
  [.inst (cid (.null .null)) [], .inst (cid (.seq c)) [("objectID", x), ("objectValue", .ref n), ("value", .ref (n + 2))],
    .list [x, .ref n]]

theorem pyInt_errs {t : Str} {e : Exc} (h : pyInt t = .error e) : e = .valueError := by
  unfold pyInt at h
  repeat' split at h
  all_goals cases h
  all_goals rfl

theorem oidParse_errs {l : List Str} {e : Exc} (h : oidParse l = .error e) : e = .valueError := by
  induction l with
  | nil => cases h
  | cons x l ih =>
    rw [oidParse] at h
    split at h
    · rename_i h1
      cases h
      exact pyInt_errs h1
    · split at h
      · cases h; rfl
      · split at h
        · rename_i h1
          cases h
          exact ih h1
        · cases h

theorem mkOid_errs {arg : Arg} {e : Exc} (h : mkOid arg = .error e) : e = .valueError ∨ e = .typeError := by
  unfold mkOid at h
  split at h
  · split at h
    · rename_i h1
      cases h
      exact .inl (oidParse_errs h1)
    · cases h
  all_goals cases h
  all_goals exact .inr rfl

/-- `VarBindList([VarBind(ObjectID(oid), Null())])`. -/
theorem run_oidVBL (hc : Limits cfg) {h : Heap} (hb : Base h) {arg : Arg} {x : V} (hx : RepArg 9 h arg x) (hsh : ShortArg cfg arg)
    {c cl : SeqCls} (hv : c = .varBind ∨ c = .varBind2) (hcl : cl = .varBindList ∨ cl = .varBindList2) :
    (∃ e y h', mkOid arg = .error e ∧ call program cfg (.cls (cid .oid)) [x] h = excR y h' ∧ Kept h.length h h' ∧ Raised h' e y) ∨
    ∃ ids x1 h1 y h', mkOid arg = .ok ids ∧ call program cfg (.cls (cid .oid)) [x] h = okR x1 h1 ∧
      call program cfg (.cls (cid (.seq c))) [x1, .ref h1.length] (h1 ++ [.inst (cid (.null .null)) []]) =
        okR (.ref (h1.length + 1)) (h1 ++ [.inst (cid (.null .null)) [],
        .inst (cid (.seq c)) [("objectID", x1), ("objectValue", .ref h1.length), ("value", .ref (h1.length + 2))],
        .list [x1, .ref h1.length]]) ∧
      call program cfg (.cls (cid (.seq cl))) [.ref (h1.length + 3)] (h1 ++ [.inst (cid (.null .null)) [],
        .inst (cid (.seq c)) [("objectID", x1), ("objectValue", .ref h1.length), ("value", .ref (h1.length + 2))],
        .list [x1, .ref h1.length], .list [.ref (h1.length + 1)]]) = okR y h' ∧
      Kept h.length h h' ∧ Rep 9 h' (.seq cl [.seq c [.oid ids, .null .null]]) y ∧
      mkVarBind c (.oid ids) (.null .null) = .ok (.seq c [.oid ids, .null .null]) ∧
      mkVarBindList cl [.seq c [.oid ids, .null .null]] = .ok (.seq cl [.seq c [.oid ids, .null .null]]) := by
  have h1 := run_mkOid (cfg := cfg) hb hx hsh
  cases hm : mkOid arg with
  | error e =>
    rw [hm] at h1
    obtain ⟨h', args, e1, e2⟩ := h1
    refine .inl ⟨e, _, h', rfl, e1, e2, ?_⟩
    rcases mkOid_errs hm with rfl | rfl <;> exact ⟨args, rfl⟩
  | ok ids =>
    rw [hm] at h1
    obtain ⟨h1, x1, e1, k1, r1⟩ := h1
    have hl := hb.long
    have r1 := r1.congr hl (fun _ _ _ h => h)
    obtain ⟨e2, r2, m2⟩ := run_bindNull (cfg := cfg) k1.base.long r1 hv
    have hle := k1.len
    have r3 := r2.app [.list [.ref (h1.length + 1)]]
    rw [List.append_assoc] at r3
    have hvb : RepVbs (h1 ++ [.inst (cid (.null .null)) [],
        .inst (cid (.seq c)) [("objectID", x1), ("objectValue", .ref h1.length), ("value", .ref (h1.length + 2))],
        .list [x1, .ref h1.length], .list [.ref (h1.length + 1)]]) [.seq c [.oid ids, .null .null]] (.ref (h1.length + 3)) := by
      refine .inl ⟨_, _, rfl, by omega, get_app_add _ _ 3, ?_⟩
      rw [RepAll]
      refine ⟨_, _, rfl, r3, ?_⟩
      rw [RepAll]
    have hbb := (Kept.app k1.base [.inst (cid (.null .null)) [],
        .inst (cid (.seq c)) [("objectID", x1), ("objectValue", .ref h1.length), ("value", .ref (h1.length + 2))],
        .list [x1, .ref h1.length], .list [.ref (h1.length + 1)]])
    obtain ⟨h', k3, out⟩ := run_makeVBL (cfg := cfg) hc hbb.base hcl hvb
    have mv : mkVarBindList cl [.seq c [.oid ids, .null .null]] = .ok (.seq cl [.seq c [.oid ids, .null .null]]) := by
      rcases hv with rfl | rfl <;> rcases hcl with rfl | rfl <;> rfl
    rw [mv] at out
    obtain ⟨y, e3, r4⟩ := out
    refine .inr ⟨ids, x1, h1, y, h', rfl, e1, e2, e3, k1.trans ((hbb.mono hle).trans (k3.mono ?_)), r4, m2, mv⟩
    simp; omega

/-- v1.py:64-72. -/
theorem run_v1_64 (hc : Limits cfg) {h : Heap} {a q d : Nat} {s : Mgr .v1} {attrs : List (String × V)} (hb : Base h)
    (r : MgrAt nm env h a s attrs q d) {arg : Arg} {x : V} (hx : RepArg 9 h arg x) (hsh : ShortArg cfg arg) (t : Str) :
    Runs nm env a q d IsMsg h (call program cfg (.func .v1 64) [.ref a, x, .str t] h) (v1CreateGetRequestMessage arg t s) := by
  have hnull := fun h => run_newNull (cfg := cfg) .null h
  rcases run_oidVBL (cfg := cfg) hc hb hx hsh (c := .varBind) (cl := .varBindList) (.inl rfl) (.inl rfl) with
    ⟨e, y, h', hm, e1, k1, hr⟩ | ⟨ids, x1, h1, y, h', hm, e1, e2, e3, k1, ry, m1, m2⟩
  · have hmod : v1CreateGetRequestMessage arg t s = (.error e, s) := by
      rw [v1CreateGetRequestMessage, M.at_error (x := M.lift (mkOid arg)) (show _ = (Except.error e, s) by rw [hm]; rfl)]
    rw [hmod]
    refine ⟨h', attrs, (Own.refl hb _ _ _).kept k1 (Nat.le_refl _), r.kept k1 (Nat.le_refl _), y, ?_, hr⟩
    rw [cid_oid] at e1
    rw [call_v1_64]
    runs [v1_64, ↓e1]
  · have hmod : v1CreateGetRequestMessage arg t s = (do
          let pdu ← v1CreateGetRequestPDU [.seq .varBind [.oid ids, .null .null]]
          M.lift (mkMessage .message 0 t pdu) : M .v1 Msg) s := by
      rw [v1CreateGetRequestMessage, M.at_ok (x := M.lift (mkOid arg)) (show _ = (Except.ok ids, s) by rw [hm]; rfl),
        M.at_ok (x := M.lift (mkVarBind _ _ _)) (show _ = (Except.ok _, s) by rw [m1]; rfl),
        M.at_ok (x := M.lift (mkVarBindList _ _)) (show _ = (Except.ok _, s) by rw [m2]; rfl)]
      rfl
    rw [hmod]
    have r1 := r.kept k1 (Nat.le_refl _)
    have o1 := (Own.refl hb a q d).kept k1 (Nat.le_refl _)
    have h54 := run_v1_54 (cfg := cfg) hc k1.base r1 (.inr ⟨_, ry⟩)
    have hmeth := r1.meth (name := "createGetRequestPDU") (m := .v1) (l := 54) rfl
    have hpl := fun z => place_msg (c := .message) (.inl rfl) (.str t) z
    simp only [cids, show cid (.null .null) = (.rfc1155, 762) from rfl] at e1 e2 e3 hnull
    rw [show cid (.seq .message) = (.rfc1157, 87) from rfl] at hpl
    refine Runs.own o1 (h54.message hc (.inl rfl) 0 t ?_ ?_ ?_)
    · intro z h2 z' h3 e4 e5
      rw [show cid (.seq .message) = (.rfc1157, 87) from rfl] at e5
      rw [call_v1_64]
      runs [v1_64, ↓e1, ↓e2, ↓e3, ↓hmeth, ↓e4, ↓hpl, ↓e5, ↓hnull]
    · intro z h2 z' h3 e4 e5
      rw [show cid (.seq .message) = (.rfc1157, 87) from rfl] at e5
      rw [call_v1_64]
      runs [v1_64, ↓e1, ↓e2, ↓e3, ↓hmeth, ↓e4, ↓hpl, ↓e5, ↓hnull]
    · intro z h2 e4
      rw [call_v1_64]
      runs [v1_64, ↓e1, ↓e2, ↓e3, ↓hmeth, ↓e4, ↓hpl, ↓hnull]

end Libsnmp.Src
