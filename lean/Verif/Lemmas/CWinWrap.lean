import Verif.Lemmas.CWinName

/-!
Lemmas: what `_gdo_wrap_check_loaded` of the generated C code does when it is compiled for
Windows.
-/

set_option maxRecDepth 10000

namespace Gdo.Cc.W
open Gdo Tmpl Win Rename
open Gdo.Rt (Ptr Ev printfS strstr)

theorem text_int (g : World) (n : Int) : text g (.int n) = none := rfl

theorem lastError_formatted (L : Loader) (c : Cfg) (s : St) : (lastError L c s).1 = (lastError L c s).2.formatted := by
  unfold lastError
  by_cases h : s.formatted ≠ []
  · rw [if_pos h]
  · rw [if_neg h]

section
variable (u l : Str) (L : Loader) (c : Cfg) (B : Nat) (isFn : Str → Bool) (other : Str → List V → M World → R World V) (lim : Nat) (I : Insts)

/-- The frame of `_gdo_print_error`. -/
def errFrame (f n : Str) (v : V) : Frame := ⟨str% "_gdo_print_error", [(str% "fmt", some (.str f)), (str% "sym", some (.str n)), (str% "msg", some v)]⟩

theorem run_print_error (f n msg : Str) (v : V) (s : St) (hp : List Block) (hv : text ⟨s, hp⟩ v = some msg) (hb : v ≠ .buf (str% "errbuf")) (fr : List Frame) :
    ((fnOf (C.fn_gdo_print_error c.box true)).inst I).call (kctx u l L c B isFn other lim 6) [.str f, .str n, v] ⟨⟨s, hp⟩, fr⟩ =
      match printError c f n msg s with
      | some s => ok0 s hp fr
      | none => .ub := by
  have ef : format (text ⟨s, hp⟩) f [.str n, v] = printfS f [n, msg] :=
    format_printfS (text ⟨s, hp⟩) (fun _ => rfl) f _ _ (by simp only [List.map_cons, List.map_nil, hv]; rfl)
  unfold printError
  cases c.box with
  | true =>
    have e : Stmt.execAll (kctx u l L c B isFn other lim 6) ((fnOf (C.fn_gdo_print_error true true)).inst I).body ⟨⟨s, hp⟩, errFrame f n v :: fr⟩ =
        ((sysSntprintf c [.buf (str% "errbuf"), .int bufLen, .obj (str% "_TRUNCATE"), .str f, .str n, v] ⟨⟨s, hp⟩, errFrame f n v :: fr⟩).bind
          fun _ m => .ok Flow.next m).bind fun fl m =>
          match fl with
          | Flow.next => Stmt.execAll (kctx u l L c B isFn other lim 6) (((fnOf (C.fn_gdo_print_error true true)).inst I).body.drop 1) m
          | fl => .ok fl m := by
      cases v <;> first | rfl | cases hv
    have es : sysSntprintf c [.buf (str% "errbuf"), .int bufLen, .obj (str% "_TRUNCATE"), .str f, .str n, v] ⟨⟨s, hp⟩, errFrame f n v :: fr⟩ =
        match printfS f [n, msg] with
        | some t => .ok (.int t.length) ⟨⟨{ s with errbuf := fit t }, hp⟩, errFrame f n v :: fr⟩
        | none => .ub := by
      rw [← ef]
      unfold sysSntprintf printTo
      dsimp only
      rw [if_pos ⟨rfl, rfl⟩, if_pos ⟨rfl, by simp [Ne.symm hb]⟩]
      rfl
    rw [es] at e
    cases hq : printfS f [n, msg] with
    | none =>
      rw [hq] at e
      exact call_ub rfl rfl rfl rfl e
    | some t =>
      rw [hq] at e
      exact call_end _ (F := errFrame f n v) rfl rfl rfl rfl (e.trans rfl)
  | false =>
    have e : Stmt.execAll (kctx u l L c B isFn other lim 6) ((fnOf (C.fn_gdo_print_error false true)).inst I).body ⟨⟨s, hp⟩, errFrame f n v :: fr⟩ =
        ((sysFprintf [.obj (str% "stderr"), .str f, .str n, v] ⟨⟨s, hp⟩, errFrame f n v :: fr⟩).bind fun _ m => .ok Flow.next m).bind fun fl m =>
          match fl with
          | Flow.next => Stmt.execAll (kctx u l L c B isFn other lim 6) (((fnOf (C.fn_gdo_print_error false true)).inst I).body.drop 1) m
          | fl => .ok fl m := by
      cases v <;> first | rfl | cases hv
    have es : sysFprintf [.obj (str% "stderr"), .str f, .str n, v] ⟨⟨s, hp⟩, errFrame f n v :: fr⟩ =
        match printfS f [n, msg] with
        | some t => .ok (.int t.length) ⟨⟨{ s with shown := s.shown ++ [t] }, hp⟩, errFrame f n v :: fr⟩
        | none => .ub := by
      rw [← ef]
      rfl
    rw [es] at e
    cases hq : printfS f [n, msg] with
    | none =>
      rw [hq] at e
      exact call_ub rfl rfl rfl rfl e
    | some t =>
      rw [hq] at e
      have e2 : Stmt.execAll (kctx u l L c B isFn other lim 6) (((fnOf (C.fn_gdo_print_error false true)).inst I).body.drop 1)
          ⟨⟨{ s with shown := s.shown ++ [t] }, hp⟩, errFrame f n v :: fr⟩ =
          .ok .next ⟨⟨{ s with shown := (s.shown ++ [t]).dropLast ++ [((s.shown ++ [t]).getLast?.getD []) ++ ['\n']] }, hp⟩, errFrame f n v :: fr⟩ := rfl
      rw [List.dropLast_concat, List.getLast?_concat] at e2
      exact call_end _ (F := errFrame f n v) rfl rfl rfl rfl (e.trans e2)

/-! ### `_gdo_wrap_check_loaded` -/

/-- What becomes of a call, with the functions that are called at the end of the program,
    and the memory that is in use then; `hp` is in use before. -/
def done (hp : List Block) : R World V → Option (Out Unit × List Block)
  | .ok .void m => some (.ret () m.g.s, m.g.heap)
  | .ok _ _ => none
  | .exit n m => some (.exit n.toNat (runHandlers L c m.g.s.handlers m.g.s), m.g.heap)
  | .abort m => some (.abort m.g.s, m.g.heap)
  | .ub => some (.ub, hp)
  | .thrown _ _ _ => none
  | .fuel => none

theorem run_wrap_some (a z : Bool) (p : Ptr) (i : Nat) (sym : Str) (s : St) (hp : List Block) (fr : List Frame) :
    ((fnOf (C.fn_gdo_wrap_check_loaded a z)).inst I).call (kctx u l L c B isFn other lim 7) [.ptr p, .int i, .str sym] ⟨⟨s, hp⟩, fr⟩ = ok0 s hp fr := by
  cases a <;> cases z <;> rfl

theorem run_wrap_abort (z : Bool) (i : Nat) (sym : Str) (s : St) (hp : List Block) (fr : List Frame) :
    done L c hp (((fnOf (C.fn_gdo_wrap_check_loaded false z)).inst I).call (kctx u l L c B isFn other lim 7) [.null, .int i, .str sym] ⟨⟨s, hp⟩, fr⟩) =
      some (match printError c (str% "fatal error: %s: %s") sym (if libIsLoaded s then str% "symbol not loaded" else str% "library not loaded") s with
        | none => .ub
        | some s => .abort s, hp) := by
  obtain ⟨handle⟩ := s
  cases handle <;> rfl

theorem exec_print (i : Nat) (sym : Str) (s : St) (hp : List Block) (fr : List Frame) :
    Stmt.execAll (kctx u l L c B isFn other lim 7) printStmts ⟨⟨s, hp⟩, wrapFrame (some (.buf (str% "formatted"))) i sym :: fr⟩ =
      match printError c (if strstr s.formatted c.lib then str% "error: %s: %s" else str% "error: " ++ c.lib ++ str% ": %s: %s") sym s.formatted s with
      | none => .ub
      | some s => .ok .next ⟨⟨s, hp⟩, wrapFrame (some (.buf (str% "formatted"))) i sym :: fr⟩ := by
  have hc : (Expr.call (.fixed (str% "_gdo_tcsstr")) [.id (.fixed (str% "msg")), .id (.fixed (str% "GDO_DEFAULT_LIB"))]).eval (kctx u l L c B isFn other lim 7)
      ⟨⟨s, hp⟩, wrapFrame (some (.buf (str% "formatted"))) i sym :: fr⟩ =
      .ok (.ofStr (search c.lib s.formatted)) ⟨⟨s, hp⟩, wrapFrame (some (.buf (str% "formatted"))) i sym :: fr⟩ := rfl
  have ht := test_of _ hc (truth_ofStr _)
  rw [search_strstr] at ht
  have e1 : (Expr.call (.fixed (str% "_gdo_print_error")) [.call (.fixed (str% "_T")) [.str (.fixed (str% "error: %s: %s"))], .id (.fixed (str% "sym")), .id (.fixed (str% "msg"))]).eval
      (kctx u l L c B isFn other lim 7) ⟨⟨s, hp⟩, wrapFrame (some (.buf (str% "formatted"))) i sym :: fr⟩ =
      match printError c (str% "error: %s: %s") sym s.formatted s with
      | some s => ok0 s hp (wrapFrame (some (.buf (str% "formatted"))) i sym :: fr)
      | none => .ub := rfl
  have e2 : (Expr.call (.fixed (str% "_gdo_print_error")) [.cat [.call (.fixed (str% "_T")) [.str (.fixed (str% "error: "))], .id (.fixed (str% "GDO_DEFAULT_LIB")),
      .call (.fixed (str% "_T")) [.str (.fixed (str% ": %s: %s"))]], .id (.fixed (str% "sym")), .id (.fixed (str% "msg"))]).eval
      (kctx u l L c B isFn other lim 7) ⟨⟨s, hp⟩, wrapFrame (some (.buf (str% "formatted"))) i sym :: fr⟩ =
      match printError c (str% "error: " ++ c.lib ++ str% ": %s: %s") sym s.formatted s with
      | some s => ok0 s hp (wrapFrame (some (.buf (str% "formatted"))) i sym :: fr)
      | none => .ub := by
    have : str% "error: " ++ c.lib ++ str% ": %s: %s" = str% "error: " ++ (c.lib ++ str% ": %s: %s") := List.append_assoc ..
    rw [this]
    rfl
  unfold printStmts
  cases hx : strstr s.formatted c.lib with
  | true =>
    rw [hx] at ht
    rw [if_pos rfl]
    cases hq : printError c (str% "error: %s: %s") sym s.formatted s with
    | none =>
      rw [hq] at e1
      exact exec_ub (if2_in_ub ht (exec_ub (expr_ub e1)))
    | some s' =>
      rw [hq] at e1
      exact exec_one _ (if2_true _ ht (exec_one _ (exec_expr _ e1)))
  | false =>
    rw [hx] at ht
    rw [if_neg (by decide)]
    cases hq : printError c (str% "error: " ++ c.lib ++ str% ": %s: %s") sym s.formatted s with
    | none =>
      rw [hq] at e2
      exact exec_ub (if2_in_ub ht (exec_ub (expr_ub e2)))
    | some s' =>
      rw [hq] at e2
      exact exec_one _ (if2_false _ ht (exec_one _ (exec_expr _ e2)))

/-- The result of executing the body of a function, the functions that are called at the
    end included. -/
def doneFlow (hp : List Block) (r : R World Flow) : Option (Out Unit × List Block) := done L c hp (r.bind return_)

theorem done_call {K : Ctx World} {f : Fn} {args : List V} {vars : List (Str × Option V)} {g : World} {hp : List Block} {fr : List Frame} {body : List Stmt} {fn : Str}
    (hb : f.body = body) (hf : f.name = fn) (hl : args.length = f.params.length) (hv : (f.params.zip args).map (fun p => (p.1.2, some p.2)) = vars) :
    done L c hp (f.call K args ⟨g, fr⟩) = doneFlow L c hp (Stmt.execAll K body ⟨g, ⟨fn, vars⟩ :: fr⟩) := by
  subst hb hv hf
  unfold Fn.call
  rw [if_pos hl]
  unfold doneFlow
  cases hr : (Stmt.execAll K f.body _).bind return_ <;> rfl

theorem run_failed (i : Nat) (sym : Str) (s : St) (hp : List Block) (fr : List Frame) :
    doneFlow L c hp (Stmt.execAll (kctx u l L c B isFn other lim 7) failedStmts ⟨⟨s, hp⟩, wrapFrame none i sym :: fr⟩) = some (autoloadFailed L c sym s, hp) := by
  have e1 : (Stmt.expr (.assign (.id (.fixed (str% "msg"))) (.call (.fixed (str% "gdo_last_error")) []))).exec (kctx u l L c B isFn other lim 7) ⟨⟨s, hp⟩, wrapFrame none i sym :: fr⟩ =
      .ok .next ⟨⟨(lastError L c s).2, hp⟩, wrapFrame (some (.buf (str% "formatted"))) i sym :: fr⟩ := rfl
  have e2 := exec_print u l L c B isFn other lim i sym (lastError L c s).2 hp fr
  have hm : autoloadFailed L c sym s =
      match printError c (if strstr (lastError L c s).2.formatted c.lib then str% "error: %s: %s" else str% "error: " ++ c.lib ++ str% ": %s: %s") sym (lastError L c s).2.formatted (lastError L c s).2 with
      | none => .ub
      | some s => .exit 1 (runHandlers L c (forceFreeLib L c s).handlers (forceFreeLib L c s)) := by
    rw [← lastError_formatted]
    rfl
  rw [hm]
  unfold failedStmts
  rw [exec_next _ e1]
  cases hq : printError c (if strstr (lastError L c s).2.formatted c.lib then str% "error: %s: %s" else str% "error: " ++ c.lib ++ str% ": %s: %s") sym (lastError L c s).2.formatted (lastError L c s).2 with
  | none =>
    rw [hq] at e2
    rw [execAll_append, e2]
    rfl
  | some s' =>
    rw [hq] at e2
    rw [execAll_next _ _ e2]
    have e3 : Stmt.execAll (kctx u l L c B isFn other lim 7) [.expr (.call (.fixed (str% "gdo_force_free_lib")) []), .expr (.call (.fixed (str% "exit")) [.id (.fixed (str% "1"))])]
        ⟨⟨s', hp⟩, wrapFrame (some (.buf (str% "formatted"))) i sym :: fr⟩ = .exit 1 ⟨⟨forceFreeLib L c s', hp⟩, wrapFrame (some (.buf (str% "formatted"))) i sym :: fr⟩ := rfl
    rw [e3]
    rfl

theorem run_auto (z : Bool) (i : Nat) (sym : Str) (s : St) (hp : List Block) (fr : List Frame) :
    let r := if z then loadSymbol L c i s else loadAllSymbols L c s
    doneFlow L c hp (Stmt.execAll (kctx u l L c B isFn other lim 7) (autoStmts z) ⟨⟨s, hp⟩, wrapFrame none i sym :: fr⟩) =
        some (if r.1 then .ret () r.2 else autoloadFailed L c sym r.2, hp) := by
  have key : ∀ (e : Expr) (r : Bool × St), e.eval (kctx u l L c B isFn other lim 7) ⟨⟨s, hp⟩, wrapFrame none i sym :: fr⟩ = okB r hp (wrapFrame none i sym :: fr) →
      doneFlow L c hp (Stmt.execAll (kctx u l L c B isFn other lim 7) (.if1 e [.ret none] :: failedStmts) ⟨⟨s, hp⟩, wrapFrame none i sym :: fr⟩) =
        some (if r.1 then .ret () r.2 else autoloadFailed L c sym r.2, hp) := by
    intro e r he
    have ht := test_of _ he (truth_ofBool r.1)
    cases hr : r.1 with
    | true =>
      rw [hr] at ht
      have := if1_true (a := [.ret none]) _ ht rfl
      rw [exec_ret _ this, if_pos rfl]
      rfl
    | false =>
      rw [hr] at ht
      rw [exec_next _ (if1_false _ ht), if_neg (by decide)]
      exact run_failed u l L c B isFn other lim i sym r.2 hp fr
  cases z with
  | true => exact key _ (loadSymbol L c i s) rfl
  | false =>
    have e1 : (Stmt.expr (.call (.fixed (str% "GDO_UNUSED_REF")) [.id (.fixed (str% "load"))])).exec (kctx u l L c B isFn other lim 7) ⟨⟨s, hp⟩, wrapFrame none i sym :: fr⟩ =
      .ok .next ⟨⟨s, hp⟩, wrapFrame none i sym :: fr⟩ := rfl
    have := key (.call (.fixed (str% "gdo_load_all_symbols")) []) (loadAllSymbols L c s) rfl
    rw [← exec_next _ e1] at this
    exact this

theorem run_head (i : Nat) (sym : Str) (s : St) (hp : List Block) (fr : List Frame) :
    Stmt.execAll (kctx u l L c B isFn other lim 7) headStmts
      ⟨⟨s, hp⟩, ⟨str% "_gdo_wrap_check_loaded", [(str% "symptr", some .null), (str% "load", some (.int i)), (str% "sym", some (.str sym))]⟩ :: fr⟩ =
      .ok .next ⟨⟨autoloadLib L c s, hp⟩, wrapFrame none i sym :: fr⟩ := by
  have e1 : Stmt.execAll (kctx u l L c B isFn other lim 7) headStmts
      ⟨⟨s, hp⟩, ⟨str% "_gdo_wrap_check_loaded", [(str% "symptr", some .null), (str% "load", some (.int i)), (str% "sym", some (.str sym))]⟩ :: fr⟩ =
      Stmt.execAll (kctx u l L c B isFn other lim 7) [.if1 (.un (str% "!") (.call (n! "gdo_lib_is_loaded") [])) [.expr (.call (n! "gdo_load_lib") [])]]
        ⟨⟨(enableAutorelease L c s).2, hp⟩, wrapFrame none i sym :: fr⟩ := rfl
  rw [e1]
  have em : autoloadLib L c s = if libIsLoaded (enableAutorelease L c s).2 then (enableAutorelease L c s).2 else (loadLib L c (enableAutorelease L c s).2).2 := rfl
  rw [em]
  generalize (enableAutorelease L c s).2 = s1
  have ht : (Expr.un (str% "!") (.call (n! "gdo_lib_is_loaded") [])).eval (kctx u l L c B isFn other lim 7) ⟨⟨s1, hp⟩, wrapFrame none i sym :: fr⟩ =
      .ok (.ofBool !libIsLoaded s1) ⟨⟨s1, hp⟩, wrapFrame none i sym :: fr⟩ := by
    obtain ⟨handle⟩ := s1
    cases handle <;> rfl
  have ht := test_of _ ht (truth_ofBool _)
  cases hl : libIsLoaded s1 with
  | true =>
    rw [hl, Bool.not_true] at ht
    rw [if_pos rfl]
    exact exec_one _ (if1_false _ ht)
  | false =>
    rw [hl, Bool.not_false] at ht
    rw [if_neg (by decide)]
    exact exec_one _ (if1_true _ ht (m2 := ⟨⟨(loadLib L c s1).2, hp⟩, wrapFrame none i sym :: fr⟩) rfl)

theorem run_wrap_auto (z : Bool) (i : Nat) (sym : Str) (s : St) (hp : List Block) (fr : List Frame) :
    let r := if z then loadSymbol L c i (autoloadLib L c s) else loadAllSymbols L c (autoloadLib L c s)
    done L c hp (((fnOf (C.fn_gdo_wrap_check_loaded true z)).inst I).call (kctx u l L c B isFn other lim 7) [.null, .int i, .str sym] ⟨⟨s, hp⟩, fr⟩) =
      some (if r.1 then .ret () r.2 else autoloadFailed L c sym r.2, hp) := by
  have h := run_auto u l L c B isFn other lim z i sym (autoloadLib L c s) hp fr
  rw [← execAll_next _ (autoStmts z) (run_head u l L c B isFn other lim i sym s hp fr)] at h
  exact (done_call L c (by cases z <;> rfl) rfl rfl rfl).trans h

/-- `_gdo_wrap_check_loaded` in every configuration. -/
theorem run_wrap_check_loaded (i : Nat) (hi : i < c.syms.length) (s : St) (hp : List Block) (fr : List Frame) :
    done L c hp (((fnOf (C.fn_gdo_wrap_check_loaded (c.mode ≠ .wrap) (c.mode = .lazy))).inst I).call (kctx u l L c B isFn other lim 7)
      [.ofPtr (s.ptr i), .int i, .str c.syms[i]] ⟨⟨s, hp⟩, fr⟩) = some (wrapCheckLoaded L c i s, hp) := by
  have hg : c.syms.getD i [] = c.syms[i] := by simp [List.getD, hi]
  unfold wrapCheckLoaded
  rw [hg]
  cases hq : s.ptr i with
  | some p => rw [V.ofPtr, run_wrap_some]; rfl
  | none =>
    cases hm : c.mode with
    | wrap => exact run_wrap_abort u l L c B isFn other lim I _ i _ s hp fr
    | autoload => exact run_wrap_auto u l L c B isFn other lim I false i _ s hp fr
    | lazy => exact run_wrap_auto u l L c B isFn other lim I true i _ s hp fr

end

end Gdo.Cc.W

