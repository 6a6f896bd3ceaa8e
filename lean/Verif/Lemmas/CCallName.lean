import Verif.Lemmas.CCallSym

/-!
Lemmas: what `gdo_load_symbol_name` of the generated C code does.
-/

set_option maxRecDepth 10000

namespace Gdo.Cc
open Gdo Tmpl Rt Rename

theorem strncmpEq_take : ∀ (a b : Str) (n : Nat), strncmpEq a b n = decide (a.take n = b.take n)
  | _, _, 0 => by simp [strncmpEq]
  | [], [], n + 1 => by simp [strncmpEq]
  | [], _ :: _, n + 1 => by simp [strncmpEq]
  | _ :: _, [], n + 1 => by simp [strncmpEq]
  | a :: r, b :: t, n + 1 => by simp [strncmpEq, strncmpEq_take r t n]

section
variable (u l : Str) (L : Loader) (c : Cfg) (isFn : Str → Bool) (other : Str → List V → M St → R St V) (lim : Nat) (I : Insts)

/-- The local variables in the inner block. -/
def nameVars (name : Str) (cl cu : Option V) : List (Str × Option V) :=
  [(str% "curr_len", cl), (str% "curr", cu), (str% "len", some (.int name.length)), (str% "pfxlen", some (.int c.pfx.length)),
    (str% "pfx", some (.arr c.pfx)), (str% "symbol", some (.str name))]

/-- The condition for a symbol. -/
def nameCond : Expr :=
  .bin (str% "&&") (.bin (str% "==") (.id (.fixed (str% "len"))) (.id (.fixed (str% "curr_len"))))
    (.bin (str% "==") (.call (.fixed (str% "strcmp")) [.bin (str% "+") (.id (.fixed (str% "symbol"))) (.id (.fixed (str% "pfxlen"))),
      .bin (str% "+") (.id (.fixed (str% "curr"))) (.id (.fixed (str% "pfxlen")))]) (.id (.fixed (str% "0"))))

/-- The statements for a symbol. -/
def nameStmts : List Stmt :=
  [.expr (.assign (.id (.fixed (str% "curr"))) (.str (.hole (str% "") (str% "symbol")))),
    .expr (.assign (.id (.fixed (str% "curr_len"))) (.bin (str% "-") (.sizeof (.str (.hole (str% "") (str% "symbol")))) (.id (.fixed (str% "1"))))),
    .if1 nameCond oneStmts]

theorem test_nameCond (name n : Str) (s : St) (fr : List Frame) :
    nameCond.test (kctx u l L c isFn other lim 3) ⟨s, ⟨str% "gdo_load_symbol_name", nameVars c name (some (.int n.length)) (some (.str n))⟩ :: fr⟩ =
      match nameMatches name n c.pfx.length with
      | some b => .ok b ⟨s, ⟨str% "gdo_load_symbol_name", nameVars c name (some (.int n.length)) (some (.str n))⟩ :: fr⟩
      | none => .ub := by
  have e1 : (Expr.bin (str% "==") (.id (.fixed (str% "len"))) (.id (.fixed (str% "curr_len")))).eval (kctx u l L c isFn other lim 3)
      ⟨s, ⟨str% "gdo_load_symbol_name", nameVars c name (some (.int n.length)) (some (.str n))⟩ :: fr⟩ =
      .ok (.ofBool (decide ((name.length : Int) = n.length)))
        ⟨s, ⟨str% "gdo_load_symbol_name", nameVars c name (some (.int n.length)) (some (.str n))⟩ :: fr⟩ := rfl
  have e2 := eval_and _ (b := (.bin (str% "==") (.call (.fixed (str% "strcmp")) [.bin (str% "+") (.id (.fixed (str% "symbol"))) (.id (.fixed (str% "pfxlen"))),
      .bin (str% "+") (.id (.fixed (str% "curr"))) (.id (.fixed (str% "pfxlen")))]) (.id (.fixed (str% "0"))))) e1
  have e3 : ∀ m : M St, m = ⟨s, ⟨str% "gdo_load_symbol_name", nameVars c name (some (.int n.length)) (some (.str n))⟩ :: fr⟩ →
      (Expr.bin (str% "==") (.call (.fixed (str% "strcmp")) [.bin (str% "+") (.id (.fixed (str% "symbol"))) (.id (.fixed (str% "pfxlen"))),
      .bin (str% "+") (.id (.fixed (str% "curr"))) (.id (.fixed (str% "pfxlen")))]) (.id (.fixed (str% "0")))).eval (kctx u l L c isFn other lim 3) m =
      (((R.of m (if c.pfx.length ≤ name.length then some (V.str (name.drop c.pfx.length)) else none)).bind fun v m =>
        ((R.of m (if c.pfx.length ≤ n.length then some (V.str (n.drop c.pfx.length)) else none)).bind fun w m => .ok [w] m).bind fun vs m => .ok (v :: vs) m).bind
          fun vs m => sysStrcmp rtText vs m).bind fun x m =>
          (((.id (.fixed (str% "0"))) : Expr).eval (kctx u l L c isFn other lim 3) m).bind fun y m => .of m (binary (str% "==") x y) := by
    intro m hm
    have h1 : (Expr.bin (str% "+") (.id (.fixed (str% "symbol"))) (.id (.fixed (str% "pfxlen")))).eval (kctx u l L c isFn other lim 3) m =
        R.of m (if c.pfx.length ≤ name.length then some (V.str (name.drop c.pfx.length)) else none) := by subst hm; rfl
    have h2 : (Expr.bin (str% "+") (.id (.fixed (str% "curr"))) (.id (.fixed (str% "pfxlen")))).eval (kctx u l L c isFn other lim 3) m =
        R.of m (if c.pfx.length ≤ n.length then some (V.str (n.drop c.pfx.length)) else none) := by subst hm; rfl
    have h3 : ∀ a b, (Expr.bin (str% "==") (.call (.fixed (str% "strcmp")) [a, b]) (.id (.fixed (str% "0")))).eval (kctx u l L c isFn other lim 3) m =
        (((a.eval (kctx u l L c isFn other lim 3) m).bind fun v m =>
          ((b.eval (kctx u l L c isFn other lim 3) m).bind fun w m => .ok [w] m).bind fun vs m => .ok (v :: vs) m).bind
          fun vs m => sysStrcmp rtText vs m).bind fun x m =>
          (((.id (.fixed (str% "0"))) : Expr).eval (kctx u l L c isFn other lim 3) m).bind fun y m => .of m (binary (str% "==") x y) := fun _ _ => rfl
    rw [h3, h1]
    by_cases hp : c.pfx.length ≤ name.length
    · rw [if_pos hp]
      show R.bind (R.bind (R.bind (R.bind (Expr.eval _ _ m) _) _) _) _ = _
      rw [h2]
      rfl
    · rw [if_neg hp]
      rfl
  unfold nameMatches
  by_cases hl : name.length = n.length
  · rw [if_pos (by rw [decide_eq_true_iff]; omega), e3 _ rfl, ← hl] at e2
    rw [if_pos hl, ← hl]
    unfold Expr.test
    unfold nameCond
    rw [e2]
    by_cases hp : c.pfx.length ≤ name.length
    · simp only [plus, if_pos hp]
      rw [if_pos (hl ▸ hp)]
      show R.bind (R.bind (R.of _ (binary (str% "==") (.int (if name.drop c.pfx.length = n.drop c.pfx.length then 0 else 1)) (.int 0))) _) _ = _
      by_cases hd : name.drop c.pfx.length = n.drop c.pfx.length
      · rw [if_pos hd]
        simp [hd]
        rfl
      · rw [if_neg hd]
        simp [hd]
        rfl
    · simp only [plus, if_neg hp]
      rfl
  · rw [if_neg (by rw [decide_eq_true_iff]; omega)] at e2
    rw [if_neg hl]
    exact test_of _ e2 rfl

theorem if1_ub {K : Ctx σ} {c : Expr} {a : List Stmt} {m : M σ} (hc : c.test K m = .ub) : (Stmt.if1 c a).exec K m = .ub := by
  simp only [Stmt.exec, hc, R.bind]

theorem exec_ub {K : Ctx σ} {s : Stmt} {r : List Stmt} {m : M σ} (h : s.exec K m = .ub) : Stmt.execAll K (s :: r) m = .ub := by
  simp only [Stmt.execAll, h, R.bind]

theorem if1_in_ub {K : Ctx σ} {c : Expr} {a : List Stmt} {m m1 : M σ} (hc : c.test K m = .ok true m1) (ha : Stmt.execAll K a m1 = .ub) :
    (Stmt.if1 c a).exec K m = .ub := by
  simp only [Stmt.exec, hc, R.bind, if_true, block, ha]

theorem call_ub {K : Ctx σ} {f : Fn} {args : List V} {vars : List (Str × Option V)} {g : σ} {fr : List Frame} {body : List Stmt} {fn : Str}
    (hb : f.body = body) (hf : f.name = fn) (hl : args.length = f.params.length) (hv : (f.params.zip args).map (fun p => (p.1.2, some p.2)) = vars)
    (h : Stmt.execAll K body ⟨g, ⟨fn, vars⟩ :: fr⟩ = .ub) : f.call K args ⟨g, fr⟩ = .ub := by
  subst hb hv hf
  unfold Fn.call
  rw [if_pos hl, h]
  rfl

theorem run_nameRow {t n : Str} {i : Nat} (hi : rtGlued c (str% "GDO_RAWPTR_") n = some (.sym i)) (h : Ptr) (s : St) (hs : s.handle = some h) (name : Str)
    (cl cu : Option V) (fr : List Frame) (rest : List Stmt) :
    Stmt.execAll (kctx u l L c isFn other lim 3) (Stmt.instAll I (symbolValues t n) nameStmts ++ rest)
      ⟨s, ⟨str% "gdo_load_symbol_name", nameVars c name cl cu⟩ :: fr⟩ =
    match nameMatches name n c.pfx.length with
    | none => .ub
    | some true => .ok (.ret (.ofBool (loadOne L h i n s).1))
        ⟨(loadOne L h i n s).2, ⟨str% "gdo_load_symbol_name", nameVars c name (some (.int n.length)) (some (.str n))⟩ :: fr⟩
    | some false => Stmt.execAll (kctx u l L c isFn other lim 3) rest
        ⟨s, ⟨str% "gdo_load_symbol_name", nameVars c name (some (.int n.length)) (some (.str n))⟩ :: fr⟩ := by
  have e1 : Stmt.execAll (kctx u l L c isFn other lim 3) (Stmt.instAll I (symbolValues t n) nameStmts ++ rest)
      ⟨s, ⟨str% "gdo_load_symbol_name", nameVars c name cl cu⟩ :: fr⟩ =
      Stmt.execAll (kctx u l L c isFn other lim 3) (.if1 nameCond (Stmt.instAll I (symbolValues t n) oneStmts) :: rest)
      ⟨s, ⟨str% "gdo_load_symbol_name", nameVars c name (some (.int (n.length + 1 - 1))) (some (.str n))⟩ :: fr⟩ := rfl
  rw [e1, Int.add_sub_cancel]
  have e2 := test_nameCond u l L c isFn other lim name n s fr
  cases hm : nameMatches name n c.pfx.length with
  | none =>
    rw [hm] at e2
    exact exec_ub (if1_ub e2)
  | some b =>
    rw [hm] at e2
    cases b with
    | false => exact exec_next _ (if1_false _ e2)
    | true =>
      have e3 := run_one u l L c isFn other lim I (t := t) hi h s hs (str% "gdo_load_symbol_name") (nameVars c name (some (.int n.length)) (some (.str n))) rfl fr []
      rw [List.append_nil] at e3
      exact exec_ret _ (if1_true _ e2 e3)

theorem run_nameLoop (h : Ptr) (s : St) (hs : s.handle = some h) (name : Str) (fr : List Frame) :
    ∀ (rows : List (Str × Str)) (i : Nat) (_ : RowsFrom c i rows) (cl cu : Option V), ∃ cl' cu',
      Stmt.execAll (kctx u l L c isFn other lim 3) ((rows.map fun r => symbolValues r.1 r.2).flatMap fun v => Stmt.instAll I v nameStmts)
        ⟨s, ⟨str% "gdo_load_symbol_name", nameVars c name cl cu⟩ :: fr⟩ =
      match findName name c.pfx.length i (rows.map (·.2)) with
      | none => .ub
      | some none => .ok .next ⟨s, ⟨str% "gdo_load_symbol_name", nameVars c name cl' cu'⟩ :: fr⟩
      | some (some (k, cur)) => .ok (.ret (.ofBool (loadOne L h k cur s).1)) ⟨(loadOne L h k cur s).2, ⟨str% "gdo_load_symbol_name", nameVars c name cl' cu'⟩ :: fr⟩ := by
  intro rows
  induction rows with
  | nil => intro i _ cl cu; exact ⟨cl, cu, rfl⟩
  | cons y t ih =>
    intro i hr cl cu
    obtain ⟨cl', cu', e⟩ := ih (i + 1) hr.2.2 (some (.int y.2.length)) (some (.str y.2))
    rw [List.map_cons, List.flatMap_cons, run_nameRow u l L c isFn other lim I hr.1 h s hs]
    simp only [List.map_cons, findName]
    cases hm : nameMatches name y.2 c.pfx.length with
    | none => exact ⟨cl, cu, rfl⟩
    | some b =>
      cases b with
      | true => exact ⟨_, _, rfl⟩
      | false => exact ⟨cl', cu', e⟩

theorem sys_unknown_symbol (name : Str) (m : M St) :
    sysSnprintf rtText [.buf (str% "errbuf"), .str (str% "unknown symbol: %s"), .str name] m =
      .ok (.int ((str% "unknown symbol: " ++ name).length)) { m with g := { m.g with errbuf := fit (str% "unknown symbol: " ++ name) } } := by
  have : format (rtText m.g) (str% "unknown symbol: %s") [.str name] = some (str% "unknown symbol: " ++ name) := by
    simp [format, rtText]
  have hb : rtBuf (str% "errbuf") = true ∧ V.buf (str% "errbuf") ∉ [V.str name] := ⟨by decide, by simp⟩
  simp only [sysSnprintf, if_pos hb, this]
  rfl

/-- The variables outside of the inner block. -/
def outerVars (name : Str) : List (Str × Option V) :=
  [(str% "pfxlen", some (.int c.pfx.length)), (str% "pfx", some (.arr c.pfx)), (str% "symbol", some (.str name))]

theorem run_nameFail (name : Str) (s : St) (fr : List Frame) :
    Stmt.execAll (kctx u l L c isFn other lim 3) (((fnOf C.gdo_load_symbol_name).inst I).body.drop 6)
      ⟨s, ⟨str% "gdo_load_symbol_name", outerVars c name⟩ :: fr⟩ =
      .ok (.ret (.int 0)) ⟨{ s with errbuf := fit (str% "unknown symbol: " ++ name) }, ⟨str% "gdo_load_symbol_name", outerVars c name⟩ :: fr⟩ := by
  have e : Stmt.execAll (kctx u l L c isFn other lim 3) (((fnOf C.gdo_load_symbol_name).inst I).body.drop 6)
      ⟨s, ⟨str% "gdo_load_symbol_name", outerVars c name⟩ :: fr⟩ =
      ((sysSnprintf rtText [.buf (str% "errbuf"), .str (str% "unknown symbol: %s"), .str name]
        ⟨s, ⟨str% "gdo_load_symbol_name", outerVars c name⟩ :: fr⟩).bind fun _ m => .ok Flow.next m).bind fun fl m =>
          match fl with
          | Flow.next => Stmt.execAll (kctx u l L c isFn other lim 3) (((fnOf C.gdo_load_symbol_name).inst I).body.drop 8) m
          | fl => .ok fl m := rfl
  rw [e, sys_unknown_symbol]
  rfl

/-- The condition around the inner block. -/
def pfxCond : Expr :=
  .bin (str% "||") (.bin (str% "==") (.id (.fixed (str% "pfxlen"))) (.id (.fixed (str% "0"))))
    (.bin (str% "==") (.call (.fixed (str% "strncmp")) [.id (.fixed (str% "symbol")), .id (.fixed (str% "pfx")), .id (.fixed (str% "pfxlen"))]) (.id (.fixed (str% "0"))))

theorem test_pfxCond (name : Str) (s : St) (fr : List Frame) :
    pfxCond.test (kctx u l L c isFn other lim 3) ⟨s, ⟨str% "gdo_load_symbol_name", outerVars c name⟩ :: fr⟩ =
      .ok (decide (c.pfx.length = 0 ∨ strncmpEq name c.pfx c.pfx.length)) ⟨s, ⟨str% "gdo_load_symbol_name", outerVars c name⟩ :: fr⟩ := by
  have e1 : (Expr.bin (str% "==") (.id (.fixed (str% "pfxlen"))) (.id (.fixed (str% "0")))).eval (kctx u l L c isFn other lim 3)
      ⟨s, ⟨str% "gdo_load_symbol_name", outerVars c name⟩ :: fr⟩ =
      .ok (.ofBool (decide ((c.pfx.length : Int) = 0))) ⟨s, ⟨str% "gdo_load_symbol_name", outerVars c name⟩ :: fr⟩ := rfl
  have e2 := eval_or _ (b := (.bin (str% "==") (.call (.fixed (str% "strncmp")) [.id (.fixed (str% "symbol")), .id (.fixed (str% "pfx")), .id (.fixed (str% "pfxlen"))])
    (.id (.fixed (str% "0"))))) e1
  have e3 : (Expr.bin (str% "==") (.call (.fixed (str% "strncmp")) [.id (.fixed (str% "symbol")), .id (.fixed (str% "pfx")), .id (.fixed (str% "pfxlen"))])
      (.id (.fixed (str% "0")))).eval (kctx u l L c isFn other lim 3) ⟨s, ⟨str% "gdo_load_symbol_name", outerVars c name⟩ :: fr⟩ =
      R.of ⟨s, ⟨str% "gdo_load_symbol_name", outerVars c name⟩ :: fr⟩
        (binary (str% "==") (.int (if name.take c.pfx.length = c.pfx.take c.pfx.length then 0 else 1)) (.int 0)) := rfl
  rw [strncmpEq_take]
  by_cases h0 : c.pfx.length = 0
  · rw [if_pos (by rw [decide_eq_true_iff]; omega)] at e2
    rw [decide_eq_true (Or.inl h0)]
    exact test_of _ e2 rfl
  · rw [if_neg (by rw [decide_eq_true_iff]; omega), e3] at e2
    by_cases hp : name.take c.pfx.length = c.pfx.take c.pfx.length
    · rw [if_pos hp] at e2
      rw [decide_eq_true (Or.inr (decide_eq_true hp))]
      exact test_of _ e2 rfl
    · rw [if_neg hp] at e2
      rw [decide_eq_false (by rintro (h | h); exact h0 h; exact hp (of_decide_eq_true h))]
      exact test_of _ e2 rfl

/-- `gdo_load_symbol_name` with a name. -/
theorem run_load_symbol_name {rows : List (Str × Str)} (h : Rows I c rows) (arg : V) (sym : Option Str) (ha : optStr arg = some sym) (s : St) (fr : List Frame) :
    ((fnOf C.gdo_load_symbol_name).inst I).call (kctx u l L c isFn other lim 3) [arg] ⟨s, fr⟩ =
      match loadSymbolName L c sym s with
      | some r => okB r fr
      | none => .ub := by
  cases hs : s.handle with
  | none =>
    obtain ⟨handle, p, q, eb, reg, clock, de, log, hd, se⟩ := s
    cases hs
    cases arg <;> cases ha <;> rfl
  | some x =>
    have hc : (clearError s).handle = some x := hs
    cases arg with
    | null =>
      obtain ⟨handle, p, q, eb, reg, clock, de, log, hd, se⟩ := s
      cases hs
      cases ha
      rfl
    | str name =>
      cases ha
      cases name with
      | nil =>
        obtain ⟨handle, p, q, eb, reg, clock, de, log, hd, se⟩ := s
        cases hs
        rfl
      | cons d r =>
        have em : loadSymbolName L c (some (d :: r)) s = (foundName c (d :: r)).map (loadFound L x (d :: r) (clearError s)) := by
          obtain ⟨handle, p, q, eb, reg, clock, de, log, hd, se⟩ := s
          cases hs
          rfl
        rw [em]
        generalize hname : d :: r = name
        have e1 : Stmt.execAll (kctx u l L c isFn other lim 3) ((fnOf C.gdo_load_symbol_name).inst I).body
            ⟨s, ⟨str% "gdo_load_symbol_name", [(str% "symbol", some (.str name))]⟩ :: fr⟩ =
            Stmt.execAll (kctx u l L c isFn other lim 3) (((fnOf C.gdo_load_symbol_name).inst I).body.drop 5)
            ⟨clearError s, ⟨str% "gdo_load_symbol_name", [(str% "pfxlen", some (.int (c.pfx.length + 1 - 1))), (str% "pfx", some (.arr c.pfx)),
              (str% "symbol", some (.str name))]⟩ :: fr⟩ := by
          subst hname
          obtain ⟨handle, p, q, eb, reg, clock, de, log, hd, se⟩ := s
          cases hs
          rfl
        rw [Int.add_sub_cancel] at e1
        have e2 := test_pfxCond u l L c isFn other lim name (clearError s) fr
        have fail := run_nameFail u l L c isFn other lim I name (clearError s) fr
        unfold foundName
        by_cases hp : c.pfx.length = 0 ∨ strncmpEq name c.pfx c.pfx.length
        · rw [decide_eq_true hp] at e2
          rw [if_pos hp]
          obtain ⟨cl', cu', e3⟩ := run_nameLoop u l L c isFn other lim I x (clearError s) hc name fr rows 0 h.from none none
          rw [h.names, ← h.insts] at e3
          have e4 : ∀ y : List Stmt, y = [.decl [w! "const", w! "size_t"] (str% "len") [] (some (.call (n! "strlen") [id! "symbol"])) [],
              .decl [w! "const", w! "char", p! "*"] (str% "curr") [] none [], .decl [w! "size_t"] (str% "curr_len") [] none []] →
              Stmt.execAll (kctx u l L c isFn other lim 3) (y ++ (I .symbol).flatMap (fun v => Stmt.instAll I v nameStmts))
                ⟨clearError s, ⟨str% "gdo_load_symbol_name", outerVars c name⟩ :: fr⟩ =
              Stmt.execAll (kctx u l L c isFn other lim 3) ((I .symbol).flatMap fun v => Stmt.instAll I v nameStmts)
                ⟨clearError s, ⟨str% "gdo_load_symbol_name", nameVars c name none none⟩ :: fr⟩ := by
            rintro y rfl
            rfl
          have e4 := (e4 _ rfl).trans e3
          have hb : ((fnOf C.gdo_load_symbol_name).inst I).body.drop 5 =
              .if1 pfxCond ([.decl [w! "const", w! "size_t"] (str% "len") [] (some (.call (n! "strlen") [id! "symbol"])) [],
              .decl [w! "const", w! "char", p! "*"] (str% "curr") [] none [], .decl [w! "size_t"] (str% "curr_len") [] none []] ++
                (I .symbol).flatMap (fun v => Stmt.instAll I v nameStmts)) :: ((fnOf C.gdo_load_symbol_name).inst I).body.drop 6 := by
            conv => rhs; rw [← List.append_nil (List.flatMap _ _)]
            rfl
          rw [hb] at e1
          cases hf : findName name c.pfx.length 0 c.syms with
          | none =>
            rw [hf] at e4
            exact call_ub rfl rfl rfl rfl (e1.trans (exec_ub (if1_in_ub e2 e4)))
          | some o =>
            rw [hf] at e4
            cases o with
            | none =>
              have e5 := if1_true _ e2 e4
              exact call_of _ (F := ⟨str% "gdo_load_symbol_name", outerVars c name⟩) rfl rfl rfl rfl (e1.trans ((exec_next _ e5).trans fail))
            | some k =>
              have e5 := if1_true _ e2 e4
              exact call_of _ (F := ⟨str% "gdo_load_symbol_name", outerVars c name⟩) rfl rfl rfl rfl (e1.trans (exec_ret _ e5))
        · rw [decide_eq_false hp] at e2
          rw [if_neg hp]
          exact call_of _ (F := ⟨str% "gdo_load_symbol_name", outerVars c name⟩) rfl rfl rfl rfl (e1.trans ((exec_next _ (if1_false _ e2)).trans fail))
    | _ => cases ha

end

end Gdo.Cc
