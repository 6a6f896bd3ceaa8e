import Verif.Lemmas.CCallAddr

/-!
Lemmas: what `_gdo_wrap_check_loaded` of the generated C code does.
-/

set_option maxRecDepth 10000

namespace Gdo.Cc
open Gdo Tmpl Rt Rename

theorem format_printfS (text : V → Option Str) (hi : ∀ n, text (.int n) = none) (f : Str) (vs : List V) :
    ∀ ss : List Str, vs.map text = ss.map some → format text f vs = printfS f ss := by
  induction f, vs using format.induct with
  | case1 vs => intro ss _; simp [format, printfS]
  | case2 r vs ih => intro ss h; simp [format, printfS, ih ss h]
  | case3 r v vs ih =>
    intro ss h
    cases ss with
    | nil => cases h
    | cons t ss =>
      simp only [List.map_cons, List.cons.injEq] at h
      simp [format, printfS, ih ss h.2, h.1]
  | case4 r n vs _ =>
    intro ss h
    cases ss with
    | nil => cases h
    | cons t ss =>
      simp only [List.map_cons, List.cons.injEq, hi] at h
      cases h.1
  | case5 r n vs _ =>
    intro ss h
    cases ss with
    | nil => cases h
    | cons t ss =>
      simp only [List.map_cons, List.cons.injEq, hi] at h
      cases h.1
  | case6 tail vs h1 h2 h3 h4 =>
    intro ss h
    rw [format, printfS]
    · exact h1
    · intro r t ss' e e2
      subst e
      cases vs with
      | nil => cases h
      | cons v vs => exact h2 r v vs rfl e2
    · exact h1
    · exact h2
    · exact h3
    · exact h4
  | case7 d r vs h1 h2 h3 h4 h5 ih =>
    intro ss h
    rw [format, printfS, ih ss h]
    all_goals first | exact h5 | (intros; exact h5 (by assumption)) | skip

theorem search_strstr (needle : Str) : ∀ hay : Str, (search needle hay).isSome = strstr hay needle
  | [] => by
    unfold search strstr
    cases needle <;> simp
  | d :: r => by
    unfold search strstr
    by_cases h : needle.isPrefixOf (d :: r)
    · simp [h]
    · rw [if_neg h, search_strstr needle r]
      simp [h]

theorem lastError_text (s : St) : (lastError s).1 = (lastError s).2.errbuf := by
  unfold lastError
  dsimp only

section
variable (u l : Str) (L : Loader) (c : Cfg) (isFn : Str → Bool) (other : Str → List V → M St → R St V) (lim : Nat) (I : Insts)

theorem run_print_error (b : Bool) (f n msg : Str) (v : V) (s : St) (hv : rtText s v = some msg) (fr : List Frame) :
    ((fnOf (C.fn_gdo_print_error b false)).inst I).call (kctx u l L c isFn other lim 5) [.str f, .str n, v] ⟨s, fr⟩ =
      match printError f n msg s with
      | some s => ok0 s fr
      | none => .ub := by
  have e : Stmt.execAll (kctx u l L c isFn other lim 5) ((fnOf (C.fn_gdo_print_error b false)).inst I).body
      ⟨s, ⟨str% "_gdo_print_error", [(str% "fmt", some (.str f)), (str% "sym", some (.str n)), (str% "msg", some v)]⟩ :: fr⟩ =
      ((sysFprintf rtText [.obj (str% "stderr"), .str f, .str n, v] ⟨s, ⟨str% "_gdo_print_error", [(str% "fmt", some (.str f)), (str% "sym", some (.str n)),
        (str% "msg", some v)]⟩ :: fr⟩).bind fun _ m => .ok Flow.next m).bind fun fl m =>
          match fl with
          | Flow.next => Stmt.execAll (kctx u l L c isFn other lim 5) (((fnOf (C.fn_gdo_print_error b false)).inst I).body.drop 1) m
          | fl => .ok fl m := by
    cases v <;> first | rfl | cases hv
  have ef : format (rtText s) f [.str n, v] = printfS f [n, msg] :=
    format_printfS (rtText s) (fun _ => rfl) f _ _ (by simp only [List.map_cons, List.map_nil, hv]; rfl)
  have es : sysFprintf rtText [.obj (str% "stderr"), .str f, .str n, v] ⟨s, ⟨str% "_gdo_print_error", [(str% "fmt", some (.str f)), (str% "sym", some (.str n)),
      (str% "msg", some v)]⟩ :: fr⟩ =
      match printfS f [n, msg] with
      | some t => .ok (.int t.length) ⟨{ s with stderr := s.stderr ++ t }, ⟨str% "_gdo_print_error", [(str% "fmt", some (.str f)), (str% "sym", some (.str n)),
        (str% "msg", some v)]⟩ :: fr⟩
      | none => .ub := by
    rw [← ef]
    rfl
  rw [es] at e
  unfold printError
  cases hp : printfS f [n, msg] with
  | none =>
    rw [hp] at e
    exact call_ub rfl rfl rfl rfl e
  | some t =>
    rw [hp] at e
    exact call_end _ (F := ⟨str% "_gdo_print_error", [(str% "fmt", some (.str f)), (str% "sym", some (.str n)), (str% "msg", some v)]⟩) rfl rfl rfl rfl (e.trans rfl)

/-! ### `_gdo_wrap_check_loaded` -/

/-- What becomes of a call, with the functions that are called at the end of the program. -/
def done : R St V → Option (Out Unit)
  | .ok .void m => some (.ret () m.g)
  | .ok _ _ => none
  | .exit n m => some (.exit n.toNat (runHandlers L c m.g.handlers m.g))
  | .abort m => some (.abort m.g)
  | .ub => some .ub
  | .thrown _ _ _ => none
  | .fuel => none

/-- The frame of `_gdo_wrap_check_loaded`. -/
def wrapFrame (msg : Option V) (i : Nat) (sym : Str) : Frame :=
  ⟨str% "_gdo_wrap_check_loaded", [(str% "msg", msg), (str% "symptr", some .null), (str% "load", some (.int i)), (str% "sym", some (.str sym))]⟩

theorem run_wrap_some (a z : Bool) (p : Ptr) (i : Nat) (sym : Str) (s : St) (fr : List Frame) :
    ((fnOf (C.fn_gdo_wrap_check_loaded a z)).inst I).call (kctx u l L c isFn other lim 6) [.ptr p, .int i, .str sym] ⟨s, fr⟩ = ok0 s fr := by
  cases a <;> cases z <;> rfl

theorem run_wrap_abort (z : Bool) (i : Nat) (sym : Str) (s : St) (fr : List Frame) :
    done L c (((fnOf (C.fn_gdo_wrap_check_loaded false z)).inst I).call (kctx u l L c isFn other lim 6) [.null, .int i, .str sym] ⟨s, fr⟩) =
      some (match printError (str% "fatal error: %s: %s") sym (if libIsLoaded s then str% "symbol not loaded" else str% "library not loaded") s with
        | none => .ub
        | some s => .abort s) := by
  obtain ⟨handle, p, q, eb, reg, clock, de, log, hd, se⟩ := s
  cases handle <;> rfl

theorem exec_exit {K : Ctx σ} {s : Stmt} {r : List Stmt} {m m' : M σ} {n : Int} (h : s.exec K m = .exit n m') : Stmt.execAll K (s :: r) m = .exit n m' := by
  simp only [Stmt.execAll, h, R.bind]

theorem call_exit {K : Ctx σ} {f : Fn} {args : List V} {vars : List (Str × Option V)} {g : σ} {fr : List Frame} {m' : M σ} {n : Int} {body : List Stmt} {fn : Str}
    (hb : f.body = body) (hf : f.name = fn) (hl : args.length = f.params.length) (hv : (f.params.zip args).map (fun p => (p.1.2, some p.2)) = vars)
    (h : Stmt.execAll K body ⟨g, ⟨fn, vars⟩ :: fr⟩ = .exit n m') : f.call K args ⟨g, fr⟩ = .exit n m' := by
  subst hb hv hf
  unfold Fn.call
  rw [if_pos hl, h]
  rfl

theorem expr_ub {K : Ctx σ} {e : Expr} {m : M σ} (h : e.eval K m = .ub) : (Stmt.expr e).exec K m = .ub := by
  simp only [Stmt.exec, h, R.bind]

/-- The statements that print the message. -/
def printStmts : List Stmt :=
  [.if2 (.call (.fixed (str% "_gdo_tcsstr")) [.id (.fixed (str% "msg")), .id (.fixed (str% "GDO_DEFAULT_LIB"))])
    [.expr (.call (.fixed (str% "_gdo_print_error")) [.call (.fixed (str% "_T")) [.str (.fixed (str% "error: %s: %s"))], .id (.fixed (str% "sym")), .id (.fixed (str% "msg"))])]
    [.expr (.call (.fixed (str% "_gdo_print_error")) [.cat [.call (.fixed (str% "_T")) [.str (.fixed (str% "error: "))], .id (.fixed (str% "GDO_DEFAULT_LIB")),
      .call (.fixed (str% "_T")) [.str (.fixed (str% ": %s: %s"))]], .id (.fixed (str% "sym")), .id (.fixed (str% "msg"))])]]

theorem if2_in_ub {K : Ctx σ} {c : Expr} {a b : List Stmt} {m m1 : M σ} {x : Bool} (hc : c.test K m = .ok x m1)
    (ha : Stmt.execAll K (if x then a else b) m1 = .ub) : (Stmt.if2 c a b).exec K m = .ub := by
  cases x <;> simp_all [Stmt.exec, R.bind, block]

theorem truth_ofStr (t : Option Str) : (V.ofStr t).truth = some t.isSome := by cases t <;> rfl

theorem exec_print (i : Nat) (sym : Str) (s : St) (fr : List Frame) :
    Stmt.execAll (kctx u l L c isFn other lim 6) printStmts ⟨s, wrapFrame (some (.buf (str% "errbuf"))) i sym :: fr⟩ =
      match printError (if strstr s.errbuf c.lib then str% "error: %s: %s" else str% "error: " ++ c.lib ++ str% ": %s: %s") sym s.errbuf s with
      | none => .ub
      | some s => .ok .next ⟨s, wrapFrame (some (.buf (str% "errbuf"))) i sym :: fr⟩ := by
  have hc : (Expr.call (.fixed (str% "_gdo_tcsstr")) [.id (.fixed (str% "msg")), .id (.fixed (str% "GDO_DEFAULT_LIB"))]).eval (kctx u l L c isFn other lim 6)
      ⟨s, wrapFrame (some (.buf (str% "errbuf"))) i sym :: fr⟩ =
      .ok (.ofStr (search c.lib s.errbuf)) ⟨s, wrapFrame (some (.buf (str% "errbuf"))) i sym :: fr⟩ := rfl
  have ht := test_of _ hc (truth_ofStr _)
  rw [search_strstr] at ht
  have e1 : (Expr.call (.fixed (str% "_gdo_print_error")) [.call (.fixed (str% "_T")) [.str (.fixed (str% "error: %s: %s"))], .id (.fixed (str% "sym")), .id (.fixed (str% "msg"))]).eval
      (kctx u l L c isFn other lim 6) ⟨s, wrapFrame (some (.buf (str% "errbuf"))) i sym :: fr⟩ =
      match printError (str% "error: %s: %s") sym s.errbuf s with
      | some s => ok0 s (wrapFrame (some (.buf (str% "errbuf"))) i sym :: fr)
      | none => .ub := rfl
  have e2 : (Expr.call (.fixed (str% "_gdo_print_error")) [.cat [.call (.fixed (str% "_T")) [.str (.fixed (str% "error: "))], .id (.fixed (str% "GDO_DEFAULT_LIB")),
      .call (.fixed (str% "_T")) [.str (.fixed (str% ": %s: %s"))]], .id (.fixed (str% "sym")), .id (.fixed (str% "msg"))]).eval
      (kctx u l L c isFn other lim 6) ⟨s, wrapFrame (some (.buf (str% "errbuf"))) i sym :: fr⟩ =
      match printError (str% "error: " ++ c.lib ++ str% ": %s: %s") sym s.errbuf s with
      | some s => ok0 s (wrapFrame (some (.buf (str% "errbuf"))) i sym :: fr)
      | none => .ub := by
    have : str% "error: " ++ c.lib ++ str% ": %s: %s" = str% "error: " ++ (c.lib ++ str% ": %s: %s") := List.append_assoc ..
    rw [this]
    rfl
  unfold printStmts
  cases hx : strstr s.errbuf c.lib with
  | true =>
    rw [hx] at ht
    rw [if_pos rfl]
    cases hp : printError (str% "error: %s: %s") sym s.errbuf s with
    | none =>
      rw [hp] at e1
      exact exec_ub (if2_in_ub ht (exec_ub (expr_ub e1)))
    | some s' =>
      rw [hp] at e1
      exact exec_one _ (if2_true _ ht (exec_one _ (exec_expr _ e1)))
  | false =>
    rw [hx] at ht
    rw [if_neg (by decide)]
    cases hp : printError (str% "error: " ++ c.lib ++ str% ": %s: %s") sym s.errbuf s with
    | none =>
      rw [hp] at e2
      exact exec_ub (if2_in_ub ht (exec_ub (expr_ub e2)))
    | some s' =>
      rw [hp] at e2
      exact exec_one _ (if2_false _ ht (exec_one _ (exec_expr _ e2)))

/-- What is done when nothing could be loaded. -/
def failedStmts : List Stmt :=
  .expr (.assign (.id (.fixed (str% "msg"))) (.call (.fixed (str% "gdo_last_error")) [])) ::
    (printStmts ++ [.expr (.call (.fixed (str% "gdo_force_free_lib")) []), .expr (.call (.fixed (str% "exit")) [.id (.fixed (str% "1"))])])

/-- The result of executing the body of a function, the functions that are called at the
    end included. -/
def doneFlow (r : R St Flow) : Option (Out Unit) := done L c (r.bind return_)

theorem done_call {K : Ctx St} {f : Fn} {args : List V} {vars : List (Str × Option V)} {g : St} {fr : List Frame} {body : List Stmt} {fn : Str}
    (hb : f.body = body) (hf : f.name = fn) (hl : args.length = f.params.length) (hv : (f.params.zip args).map (fun p => (p.1.2, some p.2)) = vars) :
    done L c (f.call K args ⟨g, fr⟩) = doneFlow L c (Stmt.execAll K body ⟨g, ⟨fn, vars⟩ :: fr⟩) := by
  subst hb hv hf
  unfold Fn.call
  rw [if_pos hl]
  unfold doneFlow
  cases hr : (Stmt.execAll K f.body _).bind return_ <;> rfl

theorem run_failed (i : Nat) (sym : Str) (s : St) (fr : List Frame) :
    doneFlow L c (Stmt.execAll (kctx u l L c isFn other lim 6) failedStmts ⟨s, wrapFrame none i sym :: fr⟩) = some (autoloadFailed L c sym s) := by
  have e1 : (Stmt.expr (.assign (.id (.fixed (str% "msg"))) (.call (.fixed (str% "gdo_last_error")) []))).exec (kctx u l L c isFn other lim 6) ⟨s, wrapFrame none i sym :: fr⟩ =
      .ok .next ⟨(lastError s).2, wrapFrame (some (.buf (str% "errbuf"))) i sym :: fr⟩ := rfl
  have e2 := exec_print u l L c isFn other lim i sym (lastError s).2 fr
  have hm : autoloadFailed L c sym s =
      match printError (if strstr (lastError s).2.errbuf c.lib then str% "error: %s: %s" else str% "error: " ++ c.lib ++ str% ": %s: %s") sym (lastError s).2.errbuf (lastError s).2 with
      | none => .ub
      | some s => .exit 1 (runHandlers L c (forceFreeLib L c s).handlers (forceFreeLib L c s)) := by
    rw [← lastError_text]
    rfl
  rw [hm]
  unfold failedStmts
  rw [exec_next _ e1]
  cases hp : printError (if strstr (lastError s).2.errbuf c.lib then str% "error: %s: %s" else str% "error: " ++ c.lib ++ str% ": %s: %s") sym (lastError s).2.errbuf (lastError s).2 with
  | none =>
    rw [hp] at e2
    rw [execAll_append, e2]
    rfl
  | some s' =>
    rw [hp] at e2
    rw [execAll_next _ _ e2]
    have e3 : Stmt.execAll (kctx u l L c isFn other lim 6) [.expr (.call (.fixed (str% "gdo_force_free_lib")) []), .expr (.call (.fixed (str% "exit")) [.id (.fixed (str% "1"))])]
        ⟨s', wrapFrame (some (.buf (str% "errbuf"))) i sym :: fr⟩ = .exit 1 ⟨forceFreeLib L c s', wrapFrame (some (.buf (str% "errbuf"))) i sym :: fr⟩ := rfl
    rw [e3]
    rfl

/-- The loading of the library and of one or all symbols. -/
def autoStmts (z : Bool) : List Stmt :=
  (if z then [.if1 (.call (.fixed (str% "gdo_load_symbol")) [.id (.fixed (str% "load"))]) [.ret none]]
    else [.expr (.call (.fixed (str% "GDO_UNUSED_REF")) [.id (.fixed (str% "load"))]), .if1 (.call (.fixed (str% "gdo_load_all_symbols")) []) [.ret none]]) ++ failedStmts

theorem run_auto (z : Bool) (i : Nat) (sym : Str) (s : St) (fr : List Frame) :
    let r := if z then loadSymbol L c i s else loadAllSymbols L c s
    doneFlow L c (Stmt.execAll (kctx u l L c isFn other lim 6) (autoStmts z) ⟨s, wrapFrame none i sym :: fr⟩) =
        some (if r.1 then .ret () r.2 else autoloadFailed L c sym r.2) := by
  have key : ∀ (e : Expr) (r : Bool × St), e.eval (kctx u l L c isFn other lim 6) ⟨s, wrapFrame none i sym :: fr⟩ = okB r (wrapFrame none i sym :: fr) →
      doneFlow L c (Stmt.execAll (kctx u l L c isFn other lim 6) (.if1 e [.ret none] :: failedStmts) ⟨s, wrapFrame none i sym :: fr⟩) =
        some (if r.1 then .ret () r.2 else autoloadFailed L c sym r.2) := by
    intro e r he
    have ht := test_of _ he (truth_ofBool r.1)
    cases hr : r.1 with
    | true =>
      rw [hr] at ht
      have := if1_true (a := [.ret none]) _ ht rfl
      rw [exec_ret _ this, if_pos rfl]
      rfl
    | false =>
      rw [hr] at ht
      rw [exec_next _ (if1_false _ ht), if_neg (by decide)]
      exact run_failed u l L c isFn other lim i sym r.2 fr
  cases z with
  | true => exact key _ (loadSymbol L c i s) rfl
  | false =>
    have e1 : (Stmt.expr (.call (.fixed (str% "GDO_UNUSED_REF")) [.id (.fixed (str% "load"))])).exec (kctx u l L c isFn other lim 6) ⟨s, wrapFrame none i sym :: fr⟩ =
      .ok .next ⟨s, wrapFrame none i sym :: fr⟩ := rfl
    have := key (.call (.fixed (str% "gdo_load_all_symbols")) []) (loadAllSymbols L c s) rfl
    rw [← exec_next _ e1] at this
    exact this

/-- The beginning of the function. -/
def headStmts : List Stmt :=
  [.decl [w! "const", w! "gdo_char_t", p! "*"] (str% "msg") [] none [], .if1 (.bin (str% "!=") (id! "symptr") (id! "NULL")) [.ret none],
   .expr (.call (n! "gdo_enable_autorelease") []), .if1 (.un (str% "!") (.call (n! "gdo_lib_is_loaded") [])) [.expr (.call (n! "gdo_load_lib") [])]]

theorem run_head (i : Nat) (sym : Str) (s : St) (fr : List Frame) :
    Stmt.execAll (kctx u l L c isFn other lim 6) headStmts
      ⟨s, ⟨str% "_gdo_wrap_check_loaded", [(str% "symptr", some .null), (str% "load", some (.int i)), (str% "sym", some (.str sym))]⟩ :: fr⟩ =
      .ok .next ⟨autoloadLib L c s, wrapFrame none i sym :: fr⟩ := by
  have e1 : Stmt.execAll (kctx u l L c isFn other lim 6) headStmts
      ⟨s, ⟨str% "_gdo_wrap_check_loaded", [(str% "symptr", some .null), (str% "load", some (.int i)), (str% "sym", some (.str sym))]⟩ :: fr⟩ =
      Stmt.execAll (kctx u l L c isFn other lim 6) [.if1 (.un (str% "!") (.call (n! "gdo_lib_is_loaded") [])) [.expr (.call (n! "gdo_load_lib") [])]]
        ⟨(enableAutorelease L c s).2, wrapFrame none i sym :: fr⟩ := rfl
  rw [e1]
  have em : autoloadLib L c s = if libIsLoaded (enableAutorelease L c s).2 then (enableAutorelease L c s).2 else (loadLib L c (enableAutorelease L c s).2).2 := rfl
  rw [em]
  generalize (enableAutorelease L c s).2 = s1
  have ht : (Expr.un (str% "!") (.call (n! "gdo_lib_is_loaded") [])).eval (kctx u l L c isFn other lim 6) ⟨s1, wrapFrame none i sym :: fr⟩ =
      .ok (.ofBool !libIsLoaded s1) ⟨s1, wrapFrame none i sym :: fr⟩ := by
    obtain ⟨handle, p, q, eb, reg, clock, de, log, hd, se⟩ := s1
    cases handle <;> rfl
  have ht := test_of _ ht (truth_ofBool _)
  cases hl : libIsLoaded s1 with
  | true =>
    rw [hl, Bool.not_true] at ht
    rw [if_pos rfl]
    exact exec_one _ (if1_false _ ht)
  | false =>
    rw [hl, Bool.not_false] at ht
    rw [if_neg (by decide)]
    exact exec_one _ (if1_true _ ht (m2 := ⟨(loadLib L c s1).2, wrapFrame none i sym :: fr⟩) rfl)

theorem run_wrap_auto (z : Bool) (i : Nat) (sym : Str) (s : St) (fr : List Frame) :
    let r := if z then loadSymbol L c i (autoloadLib L c s) else loadAllSymbols L c (autoloadLib L c s)
    done L c (((fnOf (C.fn_gdo_wrap_check_loaded true z)).inst I).call (kctx u l L c isFn other lim 6) [.null, .int i, .str sym] ⟨s, fr⟩) =
      some (if r.1 then .ret () r.2 else autoloadFailed L c sym r.2) := by
  have h := run_auto u l L c isFn other lim z i sym (autoloadLib L c s) fr
  rw [← execAll_next _ (autoStmts z) (run_head u l L c isFn other lim i sym s fr)] at h
  exact (done_call L c (by cases z <;> rfl) rfl rfl rfl).trans h

/-- `_gdo_wrap_check_loaded` in every configuration. -/
theorem run_wrap_check_loaded (i : Nat) (hi : i < c.syms.length) (s : St) (fr : List Frame) :
    done L c (((fnOf (C.fn_gdo_wrap_check_loaded (c.mode ≠ .wrap) (c.mode = .lazy))).inst I).call (kctx u l L c isFn other lim 6)
      [.ofPtr (s.ptr i), .int i, .str c.syms[i]] ⟨s, fr⟩) = some (wrapCheckLoaded L c i s) := by
  have hg : c.syms.getD i [] = c.syms[i] := by simp [List.getD, hi]
  unfold wrapCheckLoaded
  rw [hg]
  cases hp : s.ptr i with
  | some p => rw [V.ofPtr, run_wrap_some]; rfl
  | none =>
    cases hm : c.mode with
    | wrap => exact run_wrap_abort u l L c isFn other lim I _ i _ s fr
    | autoload => exact run_wrap_auto u l L c isFn other lim I false i _ s fr
    | lazy => exact run_wrap_auto u l L c isFn other lim I true i _ s fr

end

end Gdo.Cc
