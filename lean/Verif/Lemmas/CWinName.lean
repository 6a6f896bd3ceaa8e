import Verif.Lemmas.CWinSym

/-!
Lemmas: what `_gdo_sym`, `gdo_load_symbol_name` and the functions that load the library and
its symbols do when the generated C code is compiled for Windows.
-/

set_option maxRecDepth 10000

namespace Gdo.Cc.W
open Gdo Tmpl Win Rename
open Gdo.Rt (Ptr Ev nameMatches findName foundName strncmpEq plus)

section
variable (u l : Str) (L : Loader) (c : Cfg) (B : Nat) (isFn : Str → Bool) (other : Str → List V → M World → R World V) (lim : Nat) (I : Insts)

theorem run_sym (n : Str) (h : Ptr) (s : St) (hs : s.handle = some h) (hp : List Block) (fr : List Frame) :
    ((fnOf C.fn_gdo_sym).inst I).call (kctx u l L c B isFn other lim 2) [.str n, .str n] ⟨⟨s, hp⟩, fr⟩ = okP (gdoSym L h n s) hp fr := by
  have e : ((Expr.call (.fixed (str% "_gdo_call_dlsym")) [.field (.id (.fixed (str% "gdo_hndl"))) (str% "handle"), .id (.fixed (str% "symbol"))]).eval
      (kctx u l L c B isFn other lim 2) ⟨⟨s, hp⟩, ⟨str% "_gdo_sym", [(str% "symbol", some (.str n)), (str% "msg", some (.str n))]⟩ :: fr⟩) =
      .ok (.ofPtr (L.sym s.clock h n).1) ⟨⟨{ s with clock := s.clock + 1, sysErr := (L.sym s.clock h n).2, log := s.log ++ [.sym h n (L.sym s.clock h n).1] }, hp⟩,
        ⟨str% "_gdo_sym", [(str% "symbol", some (.str n)), (str% "msg", some (.str n))]⟩ :: fr⟩ := by
    obtain ⟨handle⟩ := s
    cases hs
    rfl
  refine (call_of _ (F := ⟨str% "_gdo_sym", [(str% "ptr", some (.ofPtr (L.sym s.clock h n).1)), (str% "symbol", some (.str n)), (str% "msg", some (.str n))]⟩) rfl rfl rfl rfl
    (f := (fnOf C.fn_gdo_sym).inst I) (args := [.str n, .str n]) (g' := ⟨(gdoSym L h n s).2, hp⟩) (v := .ofPtr (L.sym s.clock h n).1) ((exec_next _ (exec_decl e rfl)).trans ?_)).trans ?_
  · unfold gdoSym
    generalize L.sym s.clock h n = r
    obtain ⟨p, x⟩ := r
    cases p <;> rfl
  · unfold gdoSym okP
    generalize L.sym s.clock h n = r
    obtain ⟨p, x⟩ := r
    cases p <;> rfl

theorem test_nameCond (name n : Str) (s : St) (hp : List Block) (fr : List Frame) :
    nameCond.test (kctx u l L c B isFn other lim 3) ⟨⟨s, hp⟩, ⟨str% "gdo_load_symbol_name", nameVars c.toCfg name (some (.int n.length)) (some (.str n))⟩ :: fr⟩ =
      match nameMatches name n c.pfx.length with
      | some b => .ok b ⟨⟨s, hp⟩, ⟨str% "gdo_load_symbol_name", nameVars c.toCfg name (some (.int n.length)) (some (.str n))⟩ :: fr⟩
      | none => .ub := by
  have e1 : (Expr.bin (str% "==") (.id (.fixed (str% "len"))) (.id (.fixed (str% "curr_len")))).eval (kctx u l L c B isFn other lim 3)
      ⟨⟨s, hp⟩, ⟨str% "gdo_load_symbol_name", nameVars c.toCfg name (some (.int n.length)) (some (.str n))⟩ :: fr⟩ =
      .ok (.ofBool (decide ((name.length : Int) = n.length)))
        ⟨⟨s, hp⟩, ⟨str% "gdo_load_symbol_name", nameVars c.toCfg name (some (.int n.length)) (some (.str n))⟩ :: fr⟩ := rfl
  have e2 := eval_and _ (b := (.bin (str% "==") (.call (.fixed (str% "strcmp")) [.bin (str% "+") (.id (.fixed (str% "symbol"))) (.id (.fixed (str% "pfxlen"))),
      .bin (str% "+") (.id (.fixed (str% "curr"))) (.id (.fixed (str% "pfxlen")))]) (.id (.fixed (str% "0"))))) e1
  have e3 : ∀ m : M World, m = ⟨⟨s, hp⟩, ⟨str% "gdo_load_symbol_name", nameVars c.toCfg name (some (.int n.length)) (some (.str n))⟩ :: fr⟩ →
      (Expr.bin (str% "==") (.call (.fixed (str% "strcmp")) [.bin (str% "+") (.id (.fixed (str% "symbol"))) (.id (.fixed (str% "pfxlen"))),
      .bin (str% "+") (.id (.fixed (str% "curr"))) (.id (.fixed (str% "pfxlen")))]) (.id (.fixed (str% "0")))).eval (kctx u l L c B isFn other lim 3) m =
      (((R.of m (if c.pfx.length ≤ name.length then some (V.str (name.drop c.pfx.length)) else none)).bind fun v m =>
        ((R.of m (if c.pfx.length ≤ n.length then some (V.str (n.drop c.pfx.length)) else none)).bind fun w m => .ok [w] m).bind fun vs m => .ok (v :: vs) m).bind
          fun vs m => sysStrcmp vs m).bind fun x m =>
          (((.id (.fixed (str% "0"))) : Expr).eval (kctx u l L c B isFn other lim 3) m).bind fun y m => .of m (binary (str% "==") x y) := by
    intro m hm
    have h1 : (Expr.bin (str% "+") (.id (.fixed (str% "symbol"))) (.id (.fixed (str% "pfxlen")))).eval (kctx u l L c B isFn other lim 3) m =
        R.of m (if c.pfx.length ≤ name.length then some (V.str (name.drop c.pfx.length)) else none) := by subst hm; rfl
    have h2 : (Expr.bin (str% "+") (.id (.fixed (str% "curr"))) (.id (.fixed (str% "pfxlen")))).eval (kctx u l L c B isFn other lim 3) m =
        R.of m (if c.pfx.length ≤ n.length then some (V.str (n.drop c.pfx.length)) else none) := by subst hm; rfl
    have h3 : ∀ a b, (Expr.bin (str% "==") (.call (.fixed (str% "strcmp")) [a, b]) (.id (.fixed (str% "0")))).eval (kctx u l L c B isFn other lim 3) m =
        (((a.eval (kctx u l L c B isFn other lim 3) m).bind fun v m =>
          ((b.eval (kctx u l L c B isFn other lim 3) m).bind fun w m => .ok [w] m).bind fun vs m => .ok (v :: vs) m).bind
          fun vs m => sysStrcmp vs m).bind fun x m =>
          (((.id (.fixed (str% "0"))) : Expr).eval (kctx u l L c B isFn other lim 3) m).bind fun y m => .of m (binary (str% "==") x y) := fun _ _ => rfl
    rw [h3, h1]
    by_cases hp : c.pfx.length ≤ name.length
    · rw [if_pos hp]
      show R.bind (R.bind (R.bind (R.bind (Expr.eval _ _ m) _) _) _) _ = _
      rw [h2]
      rfl
    · rw [if_neg hp]
      rfl
  unfold nameMatches
  by_cases hl : name.length = n.length
  · rw [if_pos (by rw [decide_eq_true_iff]; omega), e3 _ rfl, ← hl] at e2
    rw [if_pos hl, ← hl]
    unfold Expr.test
    unfold nameCond
    rw [e2]
    by_cases hp : c.pfx.length ≤ name.length
    · simp only [plus, if_pos hp]
      rw [if_pos (hl ▸ hp)]
      show R.bind (R.bind (R.of _ (binary (str% "==") (.int (if name.drop c.pfx.length = n.drop c.pfx.length then 0 else 1)) (.int 0))) _) _ = _
      by_cases hd : name.drop c.pfx.length = n.drop c.pfx.length
      · rw [if_pos hd]
        simp [hd]
        rfl
      · rw [if_neg hd]
        simp [hd]
        rfl
    · simp only [plus, if_neg hp]
      rfl
  · rw [if_neg (by rw [decide_eq_true_iff]; omega)] at e2
    rw [if_neg hl]
    exact test_of _ e2 rfl

theorem run_nameRow {t n : Str} {i : Nat} (hi : rtGlued c.toCfg (str% "GDO_RAWPTR_") n = some (.sym i)) (h : Ptr) (s : St) (hs : s.handle = some h) (name : Str)
    (cl cu : Option V) (fr : List Frame) (rest : List Stmt) :
    Stmt.execAll (kctx u l L c B isFn other lim 3) (Stmt.instAll I (symbolValues t n) nameStmts ++ rest)
      ⟨⟨s, hp⟩, ⟨str% "gdo_load_symbol_name", nameVars c.toCfg name cl cu⟩ :: fr⟩ =
    match nameMatches name n c.pfx.length with
    | none => .ub
    | some true => .ok (.ret (.ofBool (loadOne L h i n s).1))
        ⟨⟨(loadOne L h i n s).2, hp⟩, ⟨str% "gdo_load_symbol_name", nameVars c.toCfg name (some (.int n.length)) (some (.str n))⟩ :: fr⟩
    | some false => Stmt.execAll (kctx u l L c B isFn other lim 3) rest
        ⟨⟨s, hp⟩, ⟨str% "gdo_load_symbol_name", nameVars c.toCfg name (some (.int n.length)) (some (.str n))⟩ :: fr⟩ := by
  have e1 : Stmt.execAll (kctx u l L c B isFn other lim 3) (Stmt.instAll I (symbolValues t n) nameStmts ++ rest)
      ⟨⟨s, hp⟩, ⟨str% "gdo_load_symbol_name", nameVars c.toCfg name cl cu⟩ :: fr⟩ =
      Stmt.execAll (kctx u l L c B isFn other lim 3) (.if1 nameCond (Stmt.instAll I (symbolValues t n) oneStmts) :: rest)
      ⟨⟨s, hp⟩, ⟨str% "gdo_load_symbol_name", nameVars c.toCfg name (some (.int (n.length + 1 - 1))) (some (.str n))⟩ :: fr⟩ := rfl
  rw [e1, Int.add_sub_cancel]
  have e2 := test_nameCond u l L c B isFn other lim name n s hp fr
  cases hm : nameMatches name n c.pfx.length with
  | none =>
    rw [hm] at e2
    exact exec_ub (if1_ub e2)
  | some b =>
    rw [hm] at e2
    cases b with
    | false => exact exec_next _ (if1_false _ e2)
    | true =>
      have e3 := run_one u l L c B isFn other lim I (hp := hp) (t := t) hi h s hs (str% "gdo_load_symbol_name") (nameVars c.toCfg name (some (.int n.length)) (some (.str n))) rfl fr []
      rw [List.append_nil] at e3
      exact exec_ret _ (if1_true _ e2 e3)

theorem run_nameLoop (h : Ptr) (s : St) (hs : s.handle = some h) (name : Str) (fr : List Frame) :
    ∀ (rows : List (Str × Str)) (i : Nat) (_ : RowsFrom c.toCfg i rows) (cl cu : Option V), ∃ cl' cu',
      Stmt.execAll (kctx u l L c B isFn other lim 3) ((rows.map fun r => symbolValues r.1 r.2).flatMap fun v => Stmt.instAll I v nameStmts)
        ⟨⟨s, hp⟩, ⟨str% "gdo_load_symbol_name", nameVars c.toCfg name cl cu⟩ :: fr⟩ =
      match findName name c.pfx.length i (rows.map (·.2)) with
      | none => .ub
      | some none => .ok .next ⟨⟨s, hp⟩, ⟨str% "gdo_load_symbol_name", nameVars c.toCfg name cl' cu'⟩ :: fr⟩
      | some (some (k, cur)) => .ok (.ret (.ofBool (loadOne L h k cur s).1)) ⟨⟨(loadOne L h k cur s).2, hp⟩, ⟨str% "gdo_load_symbol_name", nameVars c.toCfg name cl' cu'⟩ :: fr⟩ := by
  intro rows
  induction rows with
  | nil => intro i _ cl cu; exact ⟨cl, cu, rfl⟩
  | cons y t ih =>
    intro i hr cl cu
    obtain ⟨cl', cu', e⟩ := ih (i + 1) hr.2.2 (some (.int y.2.length)) (some (.str y.2))
    rw [List.map_cons, List.flatMap_cons, run_nameRow u l L c B isFn other lim I hr.1 h s hs]
    simp only [List.map_cons, findName]
    cases hm : nameMatches name y.2 c.pfx.length with
    | none => exact ⟨cl, cu, rfl⟩
    | some b =>
      cases b with
      | true => exact ⟨_, _, rfl⟩
      | false => exact ⟨cl', cu', e⟩

theorem sys_unknown_symbol (name : Str) (m : M World) :
    sysSnprintf c [.buf (str% "errbuf"), .str (str% "unknown symbol: %s"), .str name] m =
      .ok (.int ((str% "unknown symbol: " ++ name).length)) { m with g := { m.g with s := { m.g.s with errbuf := fit (str% "unknown symbol: " ++ name) } } } := by
  have : format (text m.g) (str% "unknown symbol: %s") [.str name] = some (str% "unknown symbol: " ++ name) := by
    simp [format, text]
  have hb : isBuf (str% "errbuf") = true ∧ V.buf (str% "errbuf") ∉ [V.str name] := ⟨by decide, by simp⟩
  simp only [sysSnprintf, printTo, if_pos hb, this]
  rfl

theorem run_nameFail (name : Str) (s : St) (hp : List Block) (fr : List Frame) :
    Stmt.execAll (kctx u l L c B isFn other lim 3) (((fnOf C.gdo_load_symbol_name).inst I).body.drop 6)
      ⟨⟨s, hp⟩, ⟨str% "gdo_load_symbol_name", outerVars c.toCfg name⟩ :: fr⟩ =
      .ok (.ret (.int 0)) ⟨⟨{ setErrno errNotFound s with errbuf := fit (str% "unknown symbol: " ++ name) }, hp⟩, ⟨str% "gdo_load_symbol_name", outerVars c.toCfg name⟩ :: fr⟩ := by
  have e : Stmt.execAll (kctx u l L c B isFn other lim 3) (((fnOf C.gdo_load_symbol_name).inst I).body.drop 6)
      ⟨⟨s, hp⟩, ⟨str% "gdo_load_symbol_name", outerVars c.toCfg name⟩ :: fr⟩ =
      ((sysSnprintf c [.buf (str% "errbuf"), .str (str% "unknown symbol: %s"), .str name]
        ⟨⟨setErrno errNotFound s, hp⟩, ⟨str% "gdo_load_symbol_name", outerVars c.toCfg name⟩ :: fr⟩).bind fun _ m => .ok Flow.next m).bind fun fl m =>
          match fl with
          | Flow.next => Stmt.execAll (kctx u l L c B isFn other lim 3) (((fnOf C.gdo_load_symbol_name).inst I).body.drop 8) m
          | fl => .ok fl m := rfl
  rw [e, sys_unknown_symbol]
  rfl

theorem test_pfxCond (name : Str) (s : St) (hp : List Block) (fr : List Frame) :
    pfxCond.test (kctx u l L c B isFn other lim 3) ⟨⟨s, hp⟩, ⟨str% "gdo_load_symbol_name", outerVars c.toCfg name⟩ :: fr⟩ =
      .ok (decide (c.pfx.length = 0 ∨ strncmpEq name c.pfx c.pfx.length)) ⟨⟨s, hp⟩, ⟨str% "gdo_load_symbol_name", outerVars c.toCfg name⟩ :: fr⟩ := by
  have e1 : (Expr.bin (str% "==") (.id (.fixed (str% "pfxlen"))) (.id (.fixed (str% "0")))).eval (kctx u l L c B isFn other lim 3)
      ⟨⟨s, hp⟩, ⟨str% "gdo_load_symbol_name", outerVars c.toCfg name⟩ :: fr⟩ =
      .ok (.ofBool (decide ((c.pfx.length : Int) = 0))) ⟨⟨s, hp⟩, ⟨str% "gdo_load_symbol_name", outerVars c.toCfg name⟩ :: fr⟩ := rfl
  have e2 := eval_or _ (b := (.bin (str% "==") (.call (.fixed (str% "strncmp")) [.id (.fixed (str% "symbol")), .id (.fixed (str% "pfx")), .id (.fixed (str% "pfxlen"))])
    (.id (.fixed (str% "0"))))) e1
  have e3 : (Expr.bin (str% "==") (.call (.fixed (str% "strncmp")) [.id (.fixed (str% "symbol")), .id (.fixed (str% "pfx")), .id (.fixed (str% "pfxlen"))])
      (.id (.fixed (str% "0")))).eval (kctx u l L c B isFn other lim 3) ⟨⟨s, hp⟩, ⟨str% "gdo_load_symbol_name", outerVars c.toCfg name⟩ :: fr⟩ =
      R.of ⟨⟨s, hp⟩, ⟨str% "gdo_load_symbol_name", outerVars c.toCfg name⟩ :: fr⟩
        (binary (str% "==") (.int (if name.take c.pfx.length = c.pfx.take c.pfx.length then 0 else 1)) (.int 0)) := rfl
  rw [strncmpEq_take]
  by_cases h0 : c.pfx.length = 0
  · rw [if_pos (by rw [decide_eq_true_iff]; omega)] at e2
    rw [decide_eq_true (Or.inl h0)]
    exact test_of _ e2 rfl
  · rw [if_neg (by rw [decide_eq_true_iff]; omega), e3] at e2
    by_cases hp : name.take c.pfx.length = c.pfx.take c.pfx.length
    · rw [if_pos hp] at e2
      rw [decide_eq_true (Or.inr (decide_eq_true hp))]
      exact test_of _ e2 rfl
    · rw [if_neg hp] at e2
      rw [decide_eq_false (by rintro (h | h); exact h0 h; exact hp (of_decide_eq_true h))]
      exact test_of _ e2 rfl

/-- `gdo_load_symbol_name` with a name. -/
theorem run_load_symbol_name {rows : List (Str × Str)} (h : Rows I c.toCfg rows) (arg : V) (sym : Option Str) (ha : optStr arg = some sym) (s : St) (hp : List Block) (fr : List Frame) :
    ((fnOf C.gdo_load_symbol_name).inst I).call (kctx u l L c B isFn other lim 3) [arg] ⟨⟨s, hp⟩, fr⟩ =
      match loadSymbolName L c sym s with
      | some r => okB r hp fr
      | none => .ub := by
  cases hs : s.handle with
  | none =>
    obtain ⟨handle⟩ := s
    cases hs
    cases arg <;> cases ha <;> rfl
  | some x =>
    have hc : (clearError s).handle = some x := hs
    cases arg with
    | null =>
      obtain ⟨handle⟩ := s
      cases hs
      cases ha
      rfl
    | str name =>
      cases ha
      cases name with
      | nil =>
        obtain ⟨handle⟩ := s
        cases hs
        rfl
      | cons d r =>
        have em : loadSymbolName L c (some (d :: r)) s = (foundName c.toCfg (d :: r)).map (loadFound L x (d :: r) (clearError s)) := by
          obtain ⟨handle⟩ := s
          cases hs
          rfl
        rw [em]
        generalize hname : d :: r = name
        have e1 : Stmt.execAll (kctx u l L c B isFn other lim 3) ((fnOf C.gdo_load_symbol_name).inst I).body
            ⟨⟨s, hp⟩, ⟨str% "gdo_load_symbol_name", [(str% "symbol", some (.str name))]⟩ :: fr⟩ =
            Stmt.execAll (kctx u l L c B isFn other lim 3) (((fnOf C.gdo_load_symbol_name).inst I).body.drop 5)
            ⟨⟨clearError s, hp⟩, ⟨str% "gdo_load_symbol_name", [(str% "pfxlen", some (.int (c.pfx.length + 1 - 1))), (str% "pfx", some (.arr c.pfx)),
              (str% "symbol", some (.str name))]⟩ :: fr⟩ := by
          subst hname
          obtain ⟨handle⟩ := s
          cases hs
          rfl
        rw [Int.add_sub_cancel] at e1
        have e2 := test_pfxCond u l L c B isFn other lim name (clearError s) hp fr
        have fail := run_nameFail u l L c B isFn other lim I name (clearError s) hp fr
        unfold foundName
        by_cases hq : c.pfx.length = 0 ∨ strncmpEq name c.pfx c.pfx.length
        · rw [decide_eq_true hq] at e2
          rw [if_pos hq]
          obtain ⟨cl', cu', e3⟩ := run_nameLoop u l L c B isFn other lim I x (clearError s) hc name fr rows 0 h.from none none
          rw [h.names, ← h.insts] at e3
          have e4 : ∀ y : List Stmt, y = [.decl [w! "const", w! "size_t"] (str% "len") [] (some (.call (n! "strlen") [id! "symbol"])) [],
              .decl [w! "const", w! "char", p! "*"] (str% "curr") [] none [], .decl [w! "size_t"] (str% "curr_len") [] none []] →
              Stmt.execAll (kctx u l L c B isFn other lim 3) (y ++ (I .symbol).flatMap (fun v => Stmt.instAll I v nameStmts))
                ⟨⟨clearError s, hp⟩, ⟨str% "gdo_load_symbol_name", outerVars c.toCfg name⟩ :: fr⟩ =
              Stmt.execAll (kctx u l L c B isFn other lim 3) ((I .symbol).flatMap fun v => Stmt.instAll I v nameStmts)
                ⟨⟨clearError s, hp⟩, ⟨str% "gdo_load_symbol_name", nameVars c.toCfg name none none⟩ :: fr⟩ := by
            rintro y rfl
            rfl
          have e4 := (e4 _ rfl).trans e3
          have hb : ((fnOf C.gdo_load_symbol_name).inst I).body.drop 5 =
              .if1 pfxCond ([.decl [w! "const", w! "size_t"] (str% "len") [] (some (.call (n! "strlen") [id! "symbol"])) [],
              .decl [w! "const", w! "char", p! "*"] (str% "curr") [] none [], .decl [w! "size_t"] (str% "curr_len") [] none []] ++
                (I .symbol).flatMap (fun v => Stmt.instAll I v nameStmts)) :: ((fnOf C.gdo_load_symbol_name).inst I).body.drop 6 := by
            conv => rhs; rw [← List.append_nil (List.flatMap _ _)]
            rfl
          rw [hb] at e1
          cases hf : findName name c.pfx.length 0 c.syms with
          | none =>
            rw [hf] at e4
            exact call_ub rfl rfl rfl rfl (e1.trans (exec_ub (if1_in_ub e2 e4)))
          | some o =>
            rw [hf] at e4
            cases o with
            | none =>
              have e5 := if1_true _ e2 e4
              exact call_of _ (F := ⟨str% "gdo_load_symbol_name", outerVars c.toCfg name⟩) rfl rfl rfl rfl (e1.trans ((exec_next _ e5).trans fail))
            | some k =>
              have e5 := if1_true _ e2 e4
              exact call_of _ (F := ⟨str% "gdo_load_symbol_name", outerVars c.toCfg name⟩) rfl rfl rfl rfl (e1.trans (exec_ret _ e5))
        · rw [decide_eq_false hq] at e2
          rw [if_neg hq]
          exact call_of _ (F := ⟨str% "gdo_load_symbol_name", outerVars c.toCfg name⟩) rfl rfl rfl rfl (e1.trans ((exec_next _ (if1_false _ e2)).trans fail))
    | _ => cases ha

/-! ### The library and its symbols -/

theorem andSymbols_ret (r : Nat) (e : Expr) (x : Bool × St) (m : M World) (hp : List Block) (F : Frame) (fr : List Frame)
    (he : e.eval (kctx u l L c B isFn other lim r) m = .ok (.ofBool x.1) ⟨⟨x.2, hp⟩, F :: fr⟩)
    (ec : (Expr.call (.fixed (str% "gdo_load_all_symbols")) []).eval (kctx u l L c B isFn other lim r) ⟨⟨x.2, hp⟩, F :: fr⟩ =
      okB (loadAllSymbols L c x.2) hp (F :: fr)) :
    (Expr.paren (.bin (str% "&&") e (.call (.fixed (str% "gdo_load_all_symbols")) []))).eval (kctx u l L c B isFn other lim r) m =
      .ok (.ofBool (andSymbols L c x).1) ⟨⟨(andSymbols L c x).2, hp⟩, F :: fr⟩ := by
  show (Expr.bin (str% "&&") e (.call (.fixed (str% "gdo_load_all_symbols")) [])).eval (kctx u l L c B isFn other lim r) m = _
  rw [eval_and _ he, ec]
  unfold andSymbols
  cases x.1 with
  | false => rfl
  | true =>
    rw [if_pos rfl, if_pos rfl]
    simp only [okB, R.bind, truth_ofBool, R.of]

theorem run_load_lib_name_and_symbols (name : Option Str) (s : St) (hp : List Block) (fr : List Frame) (hn : ∀ n, name = some n → n.length < B) :
    ((fnOf C.gdo_load_lib_name_and_symbols).inst I).call (kctx u l L c B isFn other lim 5) [.ofStr name] ⟨⟨s, hp⟩, fr⟩ =
      okB (andSymbols L c (loadLibName L c name s)) hp fr := by
  have e1 : (Expr.call (.fixed (str% "gdo_load_lib_name")) [.id (.fixed (str% "filename"))]).eval (kctx u l L c B isFn other lim 5)
      ⟨⟨s, hp⟩, ⟨str% "gdo_load_lib_name_and_symbols", [(str% "filename", some (.ofStr name))]⟩ :: fr⟩ =
      .ok (.ofBool (loadLibName L c name s).1) ⟨⟨(loadLibName L c name s).2, hp⟩, ⟨str% "gdo_load_lib_name_and_symbols", [(str% "filename", some (.ofStr name))]⟩ :: fr⟩ := by
    cases name with
    | none => rfl
    | some n =>
      have e : (Expr.call (.fixed (str% "gdo_load_lib_name")) [.id (.fixed (str% "filename"))]).eval (kctx u l L c B isFn other lim 5)
          ⟨⟨s, hp⟩, ⟨str% "gdo_load_lib_name_and_symbols", [(str% "filename", some (.str n))]⟩ :: fr⟩ =
          (if n.length < B then some (okB (loadLibName L c (some n) s) hp (⟨str% "gdo_load_lib_name_and_symbols", [(str% "filename", some (.str n))]⟩ :: fr)) else none).getD
            (other (str% "gdo_load_lib_name") [.str n] ⟨⟨s, hp⟩, ⟨str% "gdo_load_lib_name_and_symbols", [(str% "filename", some (.str n))]⟩ :: fr⟩) := rfl
      refine Eq.trans e ?_
      rw [if_pos (hn n rfl)]
      rfl
  have e := andSymbols_ret u l L c B isFn other lim 5 (.call (.fixed (str% "gdo_load_lib_name")) [.id (.fixed (str% "filename"))]) (loadLibName L c name s)
    ⟨⟨s, hp⟩, ⟨str% "gdo_load_lib_name_and_symbols", [(str% "filename", some (.ofStr name))]⟩ :: fr⟩ hp
    ⟨str% "gdo_load_lib_name_and_symbols", [(str% "filename", some (.ofStr name))]⟩ fr e1 rfl
  exact call_of _ (F := ⟨str% "gdo_load_lib_name_and_symbols", [(str% "filename", some (.ofStr name))]⟩) rfl rfl rfl rfl (exec_ret _ (ret_of e))

theorem run_load_lib_and_symbols (s : St) (hp : List Block) (fr : List Frame) :
    ((fnOf C.gdo_load_lib_and_symbols).inst I).call (kctx u l L c B isFn other lim 6) [] ⟨⟨s, hp⟩, fr⟩ = okB (andSymbols L c (loadLib L c s)) hp fr := by
  have e := andSymbols_ret u l L c B isFn other lim 6 (.call (.fixed (str% "gdo_load_lib")) []) (loadLib L c s)
    ⟨⟨s, hp⟩, ⟨str% "gdo_load_lib_and_symbols", []⟩ :: fr⟩ hp ⟨str% "gdo_load_lib_and_symbols", []⟩ fr rfl rfl
  exact call_of _ (F := ⟨str% "gdo_load_lib_and_symbols", []⟩) rfl rfl rfl rfl (exec_ret _ (ret_of e))

/-! ### The path of the library -/

/-- The frame of `_gdo_library_path`. -/
def pathFrame (C : Cfg) (more : List (Str × Option V)) : Frame := ⟨str% "_gdo_library_path", more ++ [(str% "msg", some (.str (fileNameMsg C)))]⟩

/-- The result of `GetModuleFileName`. -/
def nSize : Option Str → Nat
  | none => 0
  | some p => if p.length < bufLen then p.length else bufLen

/-- The state behind the call of `GetModuleFileName`. -/
def afterName (L : Loader) (h : Ptr) (s : St) : St :=
  let a := L.fileName s.clock h
  let s := { s with clock := s.clock + 1, sysErr := a.2, log := s.log ++ [.info h] }
  match a.1 with
  | none => s
  | some p => if p.length < bufLen then { s with libpath := p, log := if p = [] then s.log else s.log ++ [.path p] } else { s with libpath := fit p }

theorem eval_fileName (h : Ptr) (s : St) (hs : s.handle = some h) (hp : List Block) (fr : List Frame) :
    (Expr.call (.fixed (str% "GetModuleFileName")) [.field (.id (.fixed (str% "gdo_hndl"))) (str% "handle"), .field (.id (.fixed (str% "gdo_hndl"))) (str% "libpath"),
      .id (.fixed (str% "GDO_BUFLEN"))]).eval (kctx u l L c B isFn other lim 2) ⟨⟨s, hp⟩, pathFrame c [] :: fr⟩ =
      .ok (.int (nSize (L.fileName s.clock h).1)) ⟨⟨afterName L h s, hp⟩, pathFrame c [] :: fr⟩ := by
  obtain ⟨handle⟩ := s
  cases hs
  refine Eq.trans (show _ = sysFileName L [.ptr h, .buf (str% "libpath"), .int bufLen] _ from rfl) ?_
  unfold sysFileName afterName nSize
  dsimp only
  rw [if_pos ⟨rfl, rfl⟩]
  generalize L.fileName _ h = a
  obtain ⟨o, x⟩ := a
  cases o with
  | none => rfl
  | some p =>
    dsimp only
    by_cases hl : p.length < bufLen
    · rw [if_pos hl, if_pos hl, if_pos hl]
    · rw [if_neg hl, if_neg hl, if_neg hl]

theorem queryPath_eq (h : Ptr) (s : St) :
    queryPath L c h s = if nSize (L.fileName s.clock h).1 = 0 ∨ nSize (L.fileName s.clock h).1 = bufLen then (false, saveError (fileNameMsg c) (afterName L h s))
      else (true, afterName L h s) := by
  unfold queryPath nSize afterName
  dsimp only
  generalize L.fileName s.clock h = a
  obtain ⟨o, x⟩ := a
  cases o with
  | none => rfl
  | some p =>
    dsimp only
    by_cases hl : p.length < bufLen
    · simp only [if_pos hl]
      cases p with
      | nil => rfl
      | cons d t =>
        rw [if_neg (by simp only [List.length_cons] at hl ⊢; omega), if_neg (by simp only [List.length_cons] at hl ⊢; omega)]
        rfl
    · simp only [if_neg hl]
      rw [if_pos (Or.inr (by omega)), if_pos (Or.inr trivial)]

theorem run_query_path (w : Bool) (h : Ptr) (s : St) (hs : s.handle = some h) (hp : List Block) (fr : List Frame) :
    ((fnOf (C.fn_gdo_library_path w true)).inst I).call (kctx u l L c B isFn other lim 2) [] ⟨⟨s, hp⟩, fr⟩ = okB (queryPath L c h s) hp fr := by
  have e1 := eval_fileName u l L c B isFn other lim h s hs hp fr
  rw [queryPath_eq]
  generalize nSize (L.fileName s.clock h).1 = n at e1 ⊢
  generalize afterName L h s = s2 at e1 ⊢
  have e0 : Stmt.execAll (kctx u l L c B isFn other lim 2) ((fnOf (C.fn_gdo_library_path w true)).inst I).body ⟨⟨s, hp⟩, ⟨str% "_gdo_library_path", []⟩ :: fr⟩ =
      Stmt.execAll (kctx u l L c B isFn other lim 2) (((fnOf (C.fn_gdo_library_path w true)).inst I).body.drop 1) ⟨⟨s, hp⟩, pathFrame c [] :: fr⟩ := by
    unfold pathFrame fileNameMsg
    show Stmt.execAll _ (_ :: _) _ = _
    cases hw : c.wide with
    | true => 
      refine exec_next _ (exec_decl (v := .str (str% "GetModuleFileNameW()")) (m1 := ⟨⟨s, hp⟩, ⟨str% "_gdo_library_path", []⟩ :: fr⟩) ?_ rfl)
      show ((R.of _ (binary (str% "==") (.int (charSize c)) (.int 1))).bind _) = _
      unfold charSize
      rw [hw]
      rfl
    | false =>
      refine exec_next _ (exec_decl (v := .str (str% "GetModuleFileNameA()")) (m1 := ⟨⟨s, hp⟩, ⟨str% "_gdo_library_path", []⟩ :: fr⟩) ?_ rfl)
      show ((R.of _ (binary (str% "==") (.int (charSize c)) (.int 1))).bind _) = _
      unfold charSize
      rw [hw]
      rfl
  have e2 := e0.trans (exec_next _ (exec_decl (ty := [w! "DWORD"]) (x := str% "nSize") (m' := ⟨⟨s2, hp⟩, pathFrame c [(str% "nSize", some (.int n))] :: fr⟩) e1 rfl))
  have e3 : (Expr.bin (str% "==") (.id (.fixed (str% "nSize"))) (.id (.fixed (str% "0")))).eval (kctx u l L c B isFn other lim 2)
      ⟨⟨s2, hp⟩, pathFrame c [(str% "nSize", some (.int n))] :: fr⟩ =
      .ok (.ofBool (decide ((n : Int) = 0))) ⟨⟨s2, hp⟩, pathFrame c [(str% "nSize", some (.int n))] :: fr⟩ := rfl
  have e4 : (Expr.bin (str% "==") (.id (.fixed (str% "nSize"))) (.id (.fixed (str% "GDO_BUFLEN")))).eval (kctx u l L c B isFn other lim 2)
      ⟨⟨s2, hp⟩, pathFrame c [(str% "nSize", some (.int n))] :: fr⟩ =
      .ok (.ofBool (decide ((n : Int) = bufLen))) ⟨⟨s2, hp⟩, pathFrame c [(str% "nSize", some (.int n))] :: fr⟩ := rfl
  have e5 : (Expr.bin (str% "||") (.bin (str% "==") (.id (.fixed (str% "nSize"))) (.id (.fixed (str% "0"))))
      (.bin (str% "==") (.id (.fixed (str% "nSize"))) (.id (.fixed (str% "GDO_BUFLEN"))))).test (kctx u l L c B isFn other lim 2)
      ⟨⟨s2, hp⟩, pathFrame c [(str% "nSize", some (.int n))] :: fr⟩ =
      .ok (decide (n = 0 ∨ n = bufLen)) ⟨⟨s2, hp⟩, pathFrame c [(str% "nSize", some (.int n))] :: fr⟩ := by
    have e6 := eval_or _ (b := .bin (str% "==") (.id (.fixed (str% "nSize"))) (.id (.fixed (str% "GDO_BUFLEN")))) e3
    rw [e4] at e6
    by_cases h0 : n = 0
    · rw [if_pos (by rw [decide_eq_true_iff]; omega)] at e6
      rw [decide_eq_true (Or.inl h0)]
      exact test_of _ e6 rfl
    · rw [if_neg (by rw [decide_eq_true_iff]; omega)] at e6
      by_cases hb : n = bufLen
      · rw [decide_eq_true (by omega)] at e6
        rw [decide_eq_true (Or.inr hb)]
        exact test_of _ e6 rfl
      · rw [decide_eq_false (by omega)] at e6
        rw [decide_eq_false (by omega)]
        exact test_of _ e6 rfl
  by_cases hn : n = 0 ∨ n = bufLen
  · rw [decide_eq_true hn] at e5
    rw [if_pos hn]
    exact call_of _ (F := pathFrame c [(str% "nSize", some (.int n))]) (v := .int 0) rfl rfl rfl rfl (e2.trans (exec_ret _ (if1_to
      (a := [.expr (.call (.fixed (str% "_gdo_save_error")) [.id (.fixed (str% "msg"))]), .ret (some (.id (.fixed (str% "false"))))])
      (m2 := ⟨⟨saveError (fileNameMsg c) s2, hp⟩, pathFrame c [(str% "nSize", some (.int n))] :: fr⟩) e5 rfl rfl)))
  · rw [decide_eq_false hn] at e5
    rw [if_neg hn]
    exact call_of _ (F := pathFrame c [(str% "nSize", some (.int n))]) (v := .int 1) rfl rfl rfl rfl (e2.trans ((exec_next _ (if1_false _ e5)).trans rfl))

theorem run_library_path (s : St) (hp : List Block) (fr : List Frame) :
    ((fnOf (C.gdo_library_path false false false true)).inst I).call (kctx u l L c B isFn other lim 3) [] ⟨⟨s, hp⟩, fr⟩ =
      .ok (match (libraryPath L c s).1 with
        | some _ => .buf (str% "libpath")
        | none => .null) ⟨⟨(libraryPath L c s).2, hp⟩, fr⟩ := by
  unfold libraryPath
  cases hs : s.handle with
  | none =>
    obtain ⟨handle⟩ := s
    cases hs
    rfl
  | some h =>
    have hc : (clearError s).handle = some h := hs
    dsimp only
    rw [hc]
    dsimp only
    cases hl : (clearError s).libpath with
    | cons d t =>
      have e : ((fnOf (C.gdo_library_path false false false true)).inst I).call (kctx u l L c B isFn other lim 3) [] ⟨⟨s, hp⟩, fr⟩ =
          .ok (.buf (str% "libpath")) ⟨⟨clearError s, hp⟩, fr⟩ := by
        obtain ⟨handle, p, q⟩ := s
        cases hs
        cases hl
        rfl
      exact e
    | nil =>
      have e1 : Stmt.execAll (kctx u l L c B isFn other lim 3) ((fnOf (C.gdo_library_path false false false true)).inst I).body
          ⟨⟨s, hp⟩, ⟨str% "gdo_library_path", []⟩ :: fr⟩ =
          Stmt.execAll (kctx u l L c B isFn other lim 3) (((fnOf (C.gdo_library_path false false false true)).inst I).body.drop 3)
          ⟨⟨clearError s, hp⟩, ⟨str% "gdo_library_path", []⟩ :: fr⟩ := by
        obtain ⟨handle, p, q⟩ := s
        cases hs
        cases hl
        rfl
      have e2 : (Expr.call (.fixed (str% "_gdo_library_path")) []).eval (kctx u l L c B isFn other lim 3) ⟨⟨clearError s, hp⟩, ⟨str% "gdo_library_path", []⟩ :: fr⟩ =
          okB (queryPath L c h (clearError s)) hp (⟨str% "gdo_library_path", []⟩ :: fr) := by
        obtain ⟨handle, p, q⟩ := s
        cases hs
        rfl
      generalize queryPath L c h (clearError s) = r at e2 ⊢
      obtain ⟨b, s2⟩ := r
      have e3 := test_of _ e2 (truth_ofBool b)
      cases b with
      | true =>
        exact call_of _ (F := ⟨str% "gdo_library_path", []⟩) (v := .buf (str% "libpath")) rfl rfl rfl rfl (e1.trans (exec_ret _ (if1_to
          (a := [.ret (some (.field (.id (.fixed (str% "gdo_hndl"))) (str% "libpath")))])
          (m2 := ⟨⟨s2, hp⟩, ⟨str% "gdo_library_path", []⟩ :: fr⟩) e3 rfl rfl)))
      | false =>
        exact call_of _ (F := ⟨str% "gdo_library_path", []⟩) (v := .null) rfl rfl rfl rfl (e1.trans ((exec_next _ (if1_false _ e3)).trans rfl))

end

end Gdo.Cc.W
