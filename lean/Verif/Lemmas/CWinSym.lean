import Verif.Lemmas.CWinLoad
import Verif.Lemmas.CCallSym

/-!
Lemmas: what the functions of the generated C code for Windows do that have parts for each
symbol.
-/

set_option maxRecDepth 10000

namespace Gdo.Cc.W
open Gdo Tmpl Win Rename
open Gdo.Rt (Ptr Ev)

section
variable (u l : Str) (L : Loader) (c : Cfg) (B : Nat) (isFn : Str → Bool) (other : Str → List V → M World → R World V) (lim : Nat) (I : Insts)

/-! ### Freeing -/

theorem run_clear (r : Nat) (f : Str) (vars : List (Str × Option V)) (hv : getVar (str% "NULL") vars = none) (fr : List Frame) :
    ∀ (rows : List (Str × Str)) (i : Nat) (_ : RowsFrom c.toCfg i rows) (s : St),
      Stmt.execAll (kctx u l L c B isFn other lim r) ((rows.map fun r => symbolValues r.1 r.2).flatMap fun v => Stmt.instAll I v clearStmt) ⟨⟨s, hp⟩, ⟨f, vars⟩ :: fr⟩ =
        .ok .next ⟨⟨{ s with ptr := fun j => if i ≤ j ∧ j < i + rows.length then none else s.ptr j }, hp⟩, ⟨f, vars⟩ :: fr⟩ := by
  intro rows
  induction rows with
  | nil =>
    intro i _ s
    have : (fun j => if i ≤ j ∧ j < i + 0 then none else s.ptr j) = s.ptr := by
      funext j
      rw [if_neg (by omega)]
    simp only [List.map_nil, List.flatMap_nil, Stmt.execAll, List.length_nil, this]
  | cons x t ih =>
    intro i h s
    rw [List.map_cons, List.flatMap_cons]
    have e : Stmt.execAll (kctx u l L c B isFn other lim r) (Stmt.instAll I (symbolValues x.1 x.2) clearStmt) ⟨⟨s, hp⟩, ⟨f, vars⟩ :: fr⟩ =
        .ok .next ⟨⟨setPtr i none s, hp⟩, ⟨f, vars⟩ :: fr⟩ := by
      have e : Stmt.execAll (kctx u l L c B isFn other lim r) (Stmt.instAll I (symbolValues x.1 x.2) clearStmt) ⟨⟨s, hp⟩, ⟨f, vars⟩ :: fr⟩ =
          ((((R.of ⟨⟨s, hp⟩, ⟨f, vars⟩ :: fr⟩ (rtGlued c.toCfg (str% "GDO_RAWPTR_") x.2)).bind fun lv m =>
            ((R.of m (place (kctx u l L c B isFn other lim r) (.fixed (str% "NULL")) m)).bind (load (sem u l L c))).bind fun v m => store (sem u l L c) lv v m).bind
              fun _ m => .ok Flow.next m).bind fun fl m =>
                match fl with
                | .next => .ok .next m
                | fl => .ok fl m) := rfl
      rw [e, h.1]
      simp only [R.of, R.bind, place, locals, hv]
      rfl
    rw [execAll_next _ _ e, ih (i + 1) h.2.2]
    refine congrArg (fun p => R.ok Flow.next (⟨⟨{ s with ptr := p }, hp⟩, ⟨f, vars⟩ :: fr⟩ : M World)) ?_
    unfold setPtr
    funext j
    simp only [List.length_cons]
    by_cases hj : j = i
    · subst hj
      simp
    · by_cases h2 : i + 1 ≤ j ∧ j < i + 1 + t.length
      · rw [if_pos h2, if_pos (by omega)]
      · rw [if_neg h2, if_neg hj, if_neg (by omega)]

theorem run_setNull {rows : List (Str × Str)} (h : Rows I c.toCfg rows) (r : Nat) (f : Str) (fr : List Frame) (s : St) (hp : List Block) :
    Stmt.execAll (kctx u l L c B isFn other lim r) (Stmt.instAll I noValues nullStmts) ⟨⟨s, hp⟩, ⟨f, []⟩ :: fr⟩ = .ok .next ⟨⟨setNull c s, hp⟩, ⟨f, []⟩ :: fr⟩ := by
  have e : Stmt.execAll (kctx u l L c B isFn other lim r) (Stmt.instAll I noValues nullStmts) ⟨⟨s, hp⟩, ⟨f, []⟩ :: fr⟩ =
      Stmt.execAll (kctx u l L c B isFn other lim r) ((I .symbol).flatMap (fun v => Stmt.instAll I v clearStmt) ++ [])
        ⟨⟨{ s with libpath := [], handle := none }, hp⟩, ⟨f, []⟩ :: fr⟩ := rfl
  rw [e, List.append_nil, h.insts, run_clear u l L c B isFn other lim I r f [] rfl fr rows 0 h.from]
  unfold setNull
  rw [h.length]
  simp

theorem run_free_lib {rows : List (Str × Str)} (h : Rows I c.toCfg rows) (s : St) (hp : List Block) (fr : List Frame) :
    ((fnOf (C.gdo_free_lib true)).inst I).call (kctx u l L c B isFn other lim 2) [] ⟨⟨s, hp⟩, fr⟩ = okB (freeLib L c s) hp fr := by
  have hb : ((fnOf (C.gdo_free_lib true)).inst I).body = ((fnOf (C.gdo_free_lib true)).inst I).body.take 2 ++
      (Stmt.instAll I noValues nullStmts ++ [.ret (some (.id (.fixed (str% "true"))))]) := by
    simp only [nullStmts, Stmt.instAll, List.append_nil, List.append_assoc]
    rfl
  have last : ∀ s, Stmt.execAll (kctx u l L c B isFn other lim 2) (Stmt.instAll I noValues nullStmts ++ [.ret (some (.id (.fixed (str% "true"))))])
      ⟨⟨s, hp⟩, ⟨str% "gdo_free_lib", []⟩ :: fr⟩ = .ok (.ret (.int 1)) ⟨⟨setNull c s, hp⟩, ⟨str% "gdo_free_lib", []⟩ :: fr⟩ := by
    intro s
    exact execAll_next _ _ (run_setNull u l L c B isFn other lim I h 2 _ fr s hp)
  cases hh : s.handle with
  | none =>
    have hc : (clearError s).handle = none := hh
    have key : Stmt.execAll (kctx u l L c B isFn other lim 2) (((fnOf (C.gdo_free_lib true)).inst I).body.take 2)
        ⟨⟨s, hp⟩, ⟨str% "gdo_free_lib", []⟩ :: fr⟩ = .ok .next ⟨⟨clearError s, hp⟩, ⟨str% "gdo_free_lib", []⟩ :: fr⟩ := by
      obtain ⟨handle, s⟩ := s
      cases hh
      rfl
    unfold freeLib
    dsimp only
    rw [hc]
    exact call_of _ hb rfl rfl rfl ((execAll_next _ _ key).trans (last _))
  | some x =>
    have hc : (clearError s).handle = some x := hh
    have ec : (Expr.call (.fixed (str% "_gdo_call_dlclose")) [.field (.id (.fixed (str% "gdo_hndl"))) (str% "handle")]).eval (kctx u l L c B isFn other lim 2)
        ⟨⟨clearError s, hp⟩, ⟨str% "gdo_free_lib", []⟩ :: fr⟩ = okB (callFree L x false (clearError s)) hp (⟨str% "gdo_free_lib", []⟩ :: fr) := by
      obtain ⟨handle, s⟩ := s
      cases hh
      rfl
    have et : (Expr.call (.fixed (str% "gdo_lib_is_loaded")) []).test (kctx u l L c B isFn other lim 2)
        ⟨⟨clearError s, hp⟩, ⟨str% "gdo_free_lib", []⟩ :: fr⟩ = .ok true ⟨⟨clearError s, hp⟩, ⟨str% "gdo_free_lib", []⟩ :: fr⟩ := by
      obtain ⟨handle, s⟩ := s
      cases hh
      rfl
    unfold freeLib
    dsimp only
    rw [hc]
    dsimp only
    generalize callFree L x false (clearError s) = r at ec ⊢
    obtain ⟨b, s2⟩ := r
    have en : (Expr.un (str% "!") (.call (.fixed (str% "_gdo_call_dlclose")) [.field (.id (.fixed (str% "gdo_hndl"))) (str% "handle")])).test (kctx u l L c B isFn other lim 2)
        ⟨⟨clearError s, hp⟩, ⟨str% "gdo_free_lib", []⟩ :: fr⟩ = .ok (!b) ⟨⟨s2, hp⟩, ⟨str% "gdo_free_lib", []⟩ :: fr⟩ := by
      have e : (Expr.un (str% "!") (.call (.fixed (str% "_gdo_call_dlclose")) [.field (.id (.fixed (str% "gdo_hndl"))) (str% "handle")])).test (kctx u l L c B isFn other lim 2)
        ⟨⟨clearError s, hp⟩, ⟨str% "gdo_free_lib", []⟩ :: fr⟩ = (((Expr.call (.fixed (str% "_gdo_call_dlclose")) [.field (.id (.fixed (str% "gdo_hndl"))) (str% "handle")]).eval
          (kctx u l L c B isFn other lim 2) ⟨⟨clearError s, hp⟩, ⟨str% "gdo_free_lib", []⟩ :: fr⟩).bind fun v m => R.of m ((V.truth v).map fun b => V.ofBool !b)).bind fun v m => R.of m (V.truth v) := rfl
      rw [e, ec]
      cases b <;> rfl
    cases b with
    | true =>
      have key : Stmt.execAll (kctx u l L c B isFn other lim 2) (((fnOf (C.gdo_free_lib true)).inst I).body.take 2)
          ⟨⟨s, hp⟩, ⟨str% "gdo_free_lib", []⟩ :: fr⟩ = .ok .next ⟨⟨s2, hp⟩, ⟨str% "gdo_free_lib", []⟩ :: fr⟩ := by
        refine (exec_next _ (m' := ⟨⟨clearError s, hp⟩, ⟨str% "gdo_free_lib", []⟩ :: fr⟩) rfl).trans ?_
        exact exec_one _ (if1_to et (exec_one _ (if1_false _ en)) rfl)
      exact call_of _ hb rfl rfl rfl ((execAll_next _ _ key).trans (last _))
    | false =>
      have key : Stmt.execAll (kctx u l L c B isFn other lim 2) (((fnOf (C.gdo_free_lib true)).inst I).body.take 2)
          ⟨⟨s, hp⟩, ⟨str% "gdo_free_lib", []⟩ :: fr⟩ = .ok (.ret (.int 0)) ⟨⟨saveError (str% "FreeLibrary()") s2, hp⟩, ⟨str% "gdo_free_lib", []⟩ :: fr⟩ := by
        refine (exec_next _ (m' := ⟨⟨clearError s, hp⟩, ⟨str% "gdo_free_lib", []⟩ :: fr⟩) rfl).trans ?_
        refine exec_one _ (if1_to et (exec_one _ (if1_to en (m2 := ⟨⟨saveError (str% "FreeLibrary()") s2, hp⟩, ⟨str% "gdo_free_lib", []⟩ :: fr⟩) ?_ rfl)) rfl)
        rfl
      exact call_of _ hb rfl rfl rfl (execAll_ret _ _ key)

theorem run_force_free_lib {rows : List (Str × Str)} (h : Rows I c.toCfg rows) (s : St) (hp : List Block) (fr : List Frame) :
    ((fnOf C.gdo_force_free_lib).inst I).call (kctx u l L c B isFn other lim 1) [] ⟨⟨s, hp⟩, fr⟩ = ok0 (forceFreeLib L c s) hp fr := by
  have hb : ((fnOf C.gdo_force_free_lib).inst I).body = ((fnOf C.gdo_force_free_lib).inst I).body.take 2 ++ Stmt.instAll I noValues nullStmts := by
    rfl
  cases hh : s.handle with
  | none =>
    have hm : forceFreeLib L c s = setNull c (clearError s) := by
      have hc : (clearError s).handle = none := hh
      unfold forceFreeLib
      dsimp only
      rw [hc]
    rw [hm]
    refine call_end _ hb rfl rfl rfl ((execAll_next _ _ (m' := ⟨⟨clearError s, hp⟩, ⟨str% "gdo_force_free_lib", []⟩ :: fr⟩) (by
        obtain ⟨handle, s⟩ := s
        cases hh
        rfl)).trans
      (run_setNull u l L c B isFn other lim I h 1 _ fr _ hp))
  | some x =>
    have hm : forceFreeLib L c s = setNull c (callFree L x true (clearError s)).2 := by
      have hc : (clearError s).handle = some x := hh
      unfold forceFreeLib
      dsimp only
      rw [hc]
    rw [hm]
    refine call_end _ hb rfl rfl rfl ((execAll_next _ _ (m' := ⟨⟨(callFree L x true (clearError s)).2, hp⟩, ⟨str% "gdo_force_free_lib", []⟩ :: fr⟩) (by
        obtain ⟨handle, s⟩ := s
        cases hh
        rfl)).trans
      (run_setNull u l L c B isFn other lim I h 1 _ fr _ hp))

theorem run_enable_autorelease (hf : c.freeName = newName u l (str% "gdo_force_free_lib")) (hl : '\\' ∉ l) (hfn : isFn (str% "gdo_force_free_lib") = true)
    (s : St) (hp : List Block) (fr : List Frame) :
    ((fnOf C.gdo_enable_autorelease).inst I).call (kctx u l L c B isFn other lim 1) [] ⟨⟨s, hp⟩, fr⟩ = okB (enableAutorelease L c s) hp fr := by
  cases hr : s.freeLibReg with
  | true =>
    obtain ⟨handle, ptr, libpath, errbuf, formatted, lastErrno, reg, s⟩ := s
    cases hr
    rfl
  | false =>
    have e1 : ∀ m : M World, getVar (str% "gdo_force_free_lib") (locals m) = none →
        (Expr.id (.fixed (str% "gdo_force_free_lib"))).eval (kctx u l L c B isFn other lim 1) m = .ok (.fn (str% "gdo_force_free_lib")) m := by
      intro m hm
      have : (Expr.id (.fixed (str% "gdo_force_free_lib"))).eval (kctx u l L c B isFn other lim 1) m =
          (R.of m (if (getVar (str% "gdo_force_free_lib") (locals m)).isSome then some (.here (str% "gdo_force_free_lib"))
            else if isFn (str% "gdo_force_free_lib") then some (.val (.fn (str% "gdo_force_free_lib"))) else none)).bind (load (sem u l L c)) := rfl
      rw [this, hm, hfn]
      rfl
    have e2 : Stmt.execAll (kctx u l L c B isFn other lim 1) ((fnOf C.gdo_enable_autorelease).inst I).body
        ⟨⟨s, hp⟩, ⟨str% "gdo_enable_autorelease", []⟩ :: fr⟩ =
        Stmt.execAll (kctx u l L c B isFn other lim 1) (((fnOf C.gdo_enable_autorelease).inst I).body.drop 1)
        ⟨⟨clearError s, hp⟩, ⟨str% "gdo_enable_autorelease", []⟩ :: fr⟩ := rfl
    have ea := eval_call1 (kctx u l L c B isFn other lim 1) (f := str% "atexit")
      (m := ⟨⟨clearError s, hp⟩, ⟨str% "gdo_enable_autorelease", []⟩ :: fr⟩) rfl (e1 _ rfl)
    rw [call_sys u l L c B isFn other lim (g := sysAtexit L) rfl] at ea
    have hr' : (clearError s).freeLibReg = false := hr
    generalize hs1 : clearError s = s1 at *
    cases h : L.atexit s1.clock with
    | true =>
      have es : sysAtexit L [.fn (str% "gdo_force_free_lib")] ⟨⟨s1, hp⟩, ⟨str% "gdo_enable_autorelease", []⟩ :: fr⟩ =
          .ok (.int 0) ⟨⟨{ s1 with clock := s1.clock + 1, handlers := s1.handlers + 1 }, hp⟩, ⟨str% "gdo_enable_autorelease", []⟩ :: fr⟩ := by
        simp [sysAtexit, h]
      rw [es] at ea
      have e3 : enableAutorelease L c s = (true, { s1 with clock := s1.clock + 1, freeLibReg := true, handlers := s1.handlers + 1 }) := by
        simp [enableAutorelease, hs1, h, hr']
      rw [e3]
      refine call_of _ (F := ⟨str% "gdo_enable_autorelease", []⟩) rfl rfl rfl rfl (e2.trans ?_)
      have et : (Expr.un (str% "!") (.field (.id (.fixed (str% "gdo_hndl"))) (str% "free_lib_reg"))).test (kctx u l L c B isFn other lim 1)
          ⟨⟨s1, hp⟩, ⟨str% "gdo_enable_autorelease", []⟩ :: fr⟩ = .ok true ⟨⟨s1, hp⟩, ⟨str% "gdo_enable_autorelease", []⟩ :: fr⟩ := by
        obtain ⟨handle, ptr, libpath, errbuf, formatted, lastErrno, reg, s1⟩ := s1
        cases hr'
        rfl
      exact (exec_next _ (if1_true _ et (exec_one _ (if2_true _ (test_of _
        (eval_bin (op := str% "==") _ (by decide) (by decide) ea) rfl) rfl)))).trans rfl
    | false =>
      have es : sysAtexit L [.fn (str% "gdo_force_free_lib")] ⟨⟨s1, hp⟩, ⟨str% "gdo_enable_autorelease", []⟩ :: fr⟩ =
          .ok (.int 1) ⟨⟨{ s1 with clock := s1.clock + 1 }, hp⟩, ⟨str% "gdo_enable_autorelease", []⟩ :: fr⟩ := by
        simp [sysAtexit, h]
      rw [es] at ea
      have e3 : enableAutorelease L c s =
          (false, saveToErrbuf (str% "atexit(): failed to register `" ++ newName u l (str% "gdo_force_free_lib") ++ str% "()'") { s1 with clock := s1.clock + 1 }) := by
        simp [enableAutorelease, hs1, h, hr', hf]
      rw [e3]
      refine call_of _ (F := ⟨str% "gdo_enable_autorelease", []⟩) rfl rfl rfl rfl (e2.trans ?_)
      have et : (Expr.un (str% "!") (.field (.id (.fixed (str% "gdo_hndl"))) (str% "free_lib_reg"))).test (kctx u l L c B isFn other lim 1)
          ⟨⟨s1, hp⟩, ⟨str% "gdo_enable_autorelease", []⟩ :: fr⟩ = .ok true ⟨⟨s1, hp⟩, ⟨str% "gdo_enable_autorelease", []⟩ :: fr⟩ := by
        obtain ⟨handle, ptr, libpath, errbuf, formatted, lastErrno, reg, s1⟩ := s1
        cases hr'
        rfl
      refine (exec_next _ (if1_true _ et (exec_one _ (if2_false _ (test_of _
        (eval_bin (op := str% "==") _ (by decide) (by decide) ea) rfl)
        (exec_one _ (exec_expr _ ((eval_call1 _ rfl ((eval_call1 _ rfl (eval_str _ _ (unescape_autoMsg u l hl))).trans rfl)).trans rfl))))))).trans ?_
      obtain ⟨handle, ptr, libpath, errbuf, formatted, lastErrno, reg, s1⟩ := s1
      cases hr'
      rfl

/-! ### Symbols that are loaded -/

theorem eval_rawptr {n : Str} {i : Nat} (h : rtGlued c.toCfg (str% "GDO_RAWPTR_") n = some (.sym i)) (r : Nat) (m : M World) :
    (Expr.id (.glued (str% "GDO_RAWPTR_") n)).eval (kctx u l L c B isFn other lim r) m = .ok (.ofPtr (m.g.s.ptr i)) m := by
  show (R.of m (rtGlued c.toCfg (str% "GDO_RAWPTR_") n)).bind (load (sem u l L c)) = _
  rw [h]
  rfl

theorem eval_null (r : Nat) (m : M World) (hn : getVar (str% "NULL") (locals m) = none) :
    (Expr.id (.fixed (str% "NULL"))).eval (kctx u l L c B isFn other lim r) m = .ok .null m := by
  show (R.of m (place (kctx u l L c B isFn other lim r) (.fixed (str% "NULL")) m)).bind (load (sem u l L c)) = _
  simp only [place, hn]
  rfl

/-- `... && ...` for all symbols. -/
theorem fold_and (r : Nat) (m : M World) (e : Expr) (P : Nat → Bool)
    (he : ∀ t n i, rtGlued c.toCfg (str% "GDO_RAWPTR_") n = some (.sym i) →
      (Expr.inst I (symbolValues t n) e).eval (kctx u l L c B isFn other lim r) m = .ok (.ofBool (P i)) m) :
    ∀ (rows : List (Str × Str)) (i : Nat) (_ : RowsFrom c.toCfg i rows) (x : Expr) (b : Bool) (_ : x.eval (kctx u l L c B isFn other lim r) m = .ok (.ofBool b) m),
      ((rows.map fun r => symbolValues r.1 r.2).foldl (fun x v => .bin (str% "&&") x (Expr.inst I v e)) x).eval (kctx u l L c B isFn other lim r) m =
        .ok (.ofBool (b && (List.range rows.length).all fun j => P (i + j))) m := by
  intro rows
  induction rows with
  | nil =>
    intro i _ x b h
    simp [h]
  | cons y t ih =>
    intro i hr x b h
    rw [List.map_cons, List.foldl_cons]
    rw [ih (i + 1) hr.2.2 _ (b && P i)]
    · simp only [List.length_cons, List.range_succ_eq_map, List.all_cons, List.all_map, Nat.add_zero, Bool.and_assoc]
      have : ((fun j => P (i + j)) ∘ Nat.succ) = fun j => P (i + 1 + j) := by
        funext j
        show P (i + (j + 1)) = _
        rw [show i + (j + 1) = i + 1 + j by omega]
      rw [this]
    · rw [eval_and _ h, he _ _ _ hr.1]
      cases b
      · rfl
      · cases P i <;> rfl

/-- `... || ...` for all symbols. -/
theorem fold_or (r : Nat) (m : M World) (e : Expr) (P : Nat → Bool)
    (he : ∀ t n i, rtGlued c.toCfg (str% "GDO_RAWPTR_") n = some (.sym i) →
      (Expr.inst I (symbolValues t n) e).eval (kctx u l L c B isFn other lim r) m = .ok (.ofBool (P i)) m) :
    ∀ (rows : List (Str × Str)) (i : Nat) (_ : RowsFrom c.toCfg i rows) (x : Expr) (b : Bool) (_ : x.eval (kctx u l L c B isFn other lim r) m = .ok (.ofBool b) m),
      ((rows.map fun r => symbolValues r.1 r.2).foldl (fun x v => .bin (str% "||") x (Expr.inst I v e)) x).eval (kctx u l L c B isFn other lim r) m =
        .ok (.ofBool (b || (List.range rows.length).any fun j => P (i + j))) m := by
  intro rows
  induction rows with
  | nil =>
    intro i _ x b h
    simp [h]
  | cons y t ih =>
    intro i hr x b h
    rw [List.map_cons, List.foldl_cons]
    rw [ih (i + 1) hr.2.2 _ (b || P i)]
    · simp only [List.length_cons, List.range_succ_eq_map, List.any_cons, List.any_map, Nat.add_zero, Bool.or_assoc]
      have : ((fun j => P (i + j)) ∘ Nat.succ) = fun j => P (i + 1 + j) := by
        funext j
        show P (i + (j + 1)) = _
        rw [show i + (j + 1) = i + 1 + j by omega]
      rw [this]
    · rw [eval_or _ h, he _ _ _ hr.1]
      cases b
      · cases P i <;> rfl
      · rfl

theorem run_all_symbols_loaded {rows : List (Str × Str)} (h : Rows I c.toCfg rows) (s : St) (hp : List Block) (fr : List Frame) :
    ((fnOf C.gdo_all_symbols_loaded).inst I).call (kctx u l L c B isFn other lim 0) [] ⟨⟨s, hp⟩, fr⟩ = okB (allLoaded c s, s) hp fr := by
  have e := fold_and u l L c B isFn other lim I 0 ⟨⟨s, hp⟩, ⟨str% "gdo_all_symbols_loaded", []⟩ :: fr⟩
    (.bin (str% "!=") (.id (.hole (str% "GDO_RAWPTR_") (str% "symbol"))) (.id (.fixed (str% "NULL")))) (fun i => (s.ptr i).isSome)
    (fun t n i hi => by
      refine (eval_bin _ (by decide) (by decide) (eval_rawptr u l L c B isFn other lim hi 0 _)).trans ?_
      show R.of _ (binary (str% "!=") (V.ofPtr (s.ptr i)) .null) = _
      cases s.ptr i <;> rfl) rows 0 h.from (.id (.fixed (str% "true"))) true rfl
  rw [← h.insts, h.length] at e
  rw [show (true && (List.range c.syms.length).all fun j => (s.ptr (0 + j)).isSome) = allLoaded c s by simp [allLoaded]] at e
  cases hb : allLoaded c s with
  | true =>
    rw [hb] at e
    have e2 := if1_true _ (a := [.ret (some (.id (.fixed (str% "true"))))]) (fl := .ret (.int 1)) (m2 := ⟨⟨s, hp⟩, ⟨str% "gdo_all_symbols_loaded", []⟩ :: fr⟩) (test_of _ e rfl) rfl
    exact call_of _ (F := ⟨str% "gdo_all_symbols_loaded", []⟩) rfl rfl rfl rfl (exec_ret _ e2)
  | false =>
    rw [hb] at e
    exact call_of _ (F := ⟨str% "gdo_all_symbols_loaded", []⟩) rfl rfl rfl rfl (exec_next _ (if1_false _ (test_of _ e rfl)))

theorem run_no_symbols_loaded {rows : List (Str × Str)} (h : Rows I c.toCfg rows) (s : St) (hp : List Block) (fr : List Frame) :
    ((fnOf C.gdo_no_symbols_loaded).inst I).call (kctx u l L c B isFn other lim 0) [] ⟨⟨s, hp⟩, fr⟩ = okB (noneLoaded c s, s) hp fr := by
  have e := fold_and u l L c B isFn other lim I 0 ⟨⟨s, hp⟩, ⟨str% "gdo_no_symbols_loaded", []⟩ :: fr⟩
    (.bin (str% "==") (.id (.hole (str% "GDO_RAWPTR_") (str% "symbol"))) (.id (.fixed (str% "NULL")))) (fun i => (s.ptr i).isNone)
    (fun t n i hi => by
      refine (eval_bin _ (by decide) (by decide) (eval_rawptr u l L c B isFn other lim hi 0 _)).trans ?_
      show R.of _ (binary (str% "==") (V.ofPtr (s.ptr i)) .null) = _
      cases s.ptr i <;> rfl) rows 0 h.from (.id (.fixed (str% "true"))) true rfl
  rw [← h.insts, h.length] at e
  rw [show (true && (List.range c.syms.length).all fun j => (s.ptr (0 + j)).isNone) = noneLoaded c s by simp [noneLoaded]] at e
  cases hb : noneLoaded c s with
  | true =>
    rw [hb] at e
    have e2 := if1_true _ (a := [.ret (some (.id (.fixed (str% "true"))))]) (fl := .ret (.int 1)) (m2 := ⟨⟨s, hp⟩, ⟨str% "gdo_no_symbols_loaded", []⟩ :: fr⟩) (test_of _ e rfl) rfl
    exact call_of _ (F := ⟨str% "gdo_no_symbols_loaded", []⟩) rfl rfl rfl rfl (exec_ret _ e2)
  | false =>
    rw [hb] at e
    exact call_of _ (F := ⟨str% "gdo_no_symbols_loaded", []⟩) rfl rfl rfl rfl (exec_next _ (if1_false _ (test_of _ e rfl)))

theorem run_any_symbol_loaded {rows : List (Str × Str)} (h : Rows I c.toCfg rows) (s : St) (hp : List Block) (fr : List Frame) :
    ((fnOf C.gdo_any_symbol_loaded).inst I).call (kctx u l L c B isFn other lim 0) [] ⟨⟨s, hp⟩, fr⟩ = okB (anyLoaded c s, s) hp fr := by
  have e := fold_or u l L c B isFn other lim I 0 ⟨⟨s, hp⟩, ⟨str% "gdo_any_symbol_loaded", []⟩ :: fr⟩
    (.bin (str% "!=") (.id (.hole (str% "GDO_RAWPTR_") (str% "symbol"))) (.id (.fixed (str% "NULL")))) (fun i => (s.ptr i).isSome)
    (fun t n i hi => by
      refine (eval_bin _ (by decide) (by decide) (eval_rawptr u l L c B isFn other lim hi 0 _)).trans ?_
      show R.of _ (binary (str% "!=") (V.ofPtr (s.ptr i)) .null) = _
      cases s.ptr i <;> rfl) rows 0 h.from (.id (.fixed (str% "false"))) false rfl
  rw [← h.insts, h.length] at e
  rw [show (false || (List.range c.syms.length).any fun j => (s.ptr (0 + j)).isSome) = anyLoaded c s by simp [anyLoaded]] at e
  cases hb : anyLoaded c s with
  | true =>
    rw [hb] at e
    have e2 := if1_true _ (a := [.ret (some (.id (.fixed (str% "true"))))]) (fl := .ret (.int 1)) (m2 := ⟨⟨s, hp⟩, ⟨str% "gdo_any_symbol_loaded", []⟩ :: fr⟩) (test_of _ e rfl) rfl
    exact call_of _ (F := ⟨str% "gdo_any_symbol_loaded", []⟩) rfl rfl rfl rfl (exec_ret _ e2)
  | false =>
    rw [hb] at e
    exact call_of _ (F := ⟨str% "gdo_any_symbol_loaded", []⟩) rfl rfl rfl rfl (exec_next _ (if1_false _ (test_of _ e rfl)))

/-! ### Loading symbols -/

theorem gdoSym_handle (h : Ptr) (n : Str) (s : St) : (gdoSym L h n s).2.handle = s.handle := by
  unfold gdoSym saveError saveToErrbuf
  dsimp only
  split <;> rfl

theorem eval_symExpr {t n : Str} {i : Nat} (hi : rtGlued c.toCfg (str% "GDO_RAWPTR_") n = some (.sym i)) (h : Ptr) (s : St) (hs : s.handle = some h)
    (fr : List Frame) :
    (symExpr.inst I (symbolValues t n)).eval (kctx u l L c B isFn other lim 3) ⟨⟨s, hp⟩, fr⟩ =
      .ok (.ofPtr (gdoSym L h n s).1) ⟨⟨setPtr i (gdoSym L h n s).1 (gdoSym L h n s).2, hp⟩, fr⟩ := by
  have e : (symExpr.inst I (symbolValues t n)).eval (kctx u l L c B isFn other lim 3) ⟨⟨s, hp⟩, fr⟩ =
      (R.of ⟨⟨s, hp⟩, fr⟩ (rtGlued c.toCfg (str% "GDO_RAWPTR_") n)).bind fun lv m => (knownCall L c B 3 other (str% "_gdo_sym") [.str n, .str n] m).bind fun v m =>
        store (sem u l L c) lv v m := rfl
  have e2 : knownCall L c B 3 other (str% "_gdo_sym") [.str n, .str n] ⟨⟨s, hp⟩, fr⟩ = .ok (.ofPtr (gdoSym L h n s).1) ⟨⟨(gdoSym L h n s).2, hp⟩, fr⟩ := by
    obtain ⟨handle, s⟩ := s
    cases hs
    show (if n = n then _ else none : Option (R World V)).getD _ = _
    rw [if_pos rfl]
    rfl
  rw [e, hi]
  simp only [R.of, R.bind]
  rw [e2]
  show store (sem u l L c) (.sym i) (.ofPtr (gdoSym L h n s).1) ⟨⟨(gdoSym L h n s).2, hp⟩, fr⟩ = _
  cases (gdoSym L h n s).1 <;> rfl

theorem run_loadLoop (h : Ptr) (f : Str) (fr : List Frame) :
    ∀ (rows : List (Str × Str)) (i : Nat) (_ : RowsFrom c.toCfg i rows) (s : St) (_ : s.handle = some h),
      Stmt.execAll (kctx u l L c B isFn other lim 3) ((rows.map fun r => symbolValues r.1 r.2).flatMap fun v => Stmt.instAll I v
        [.if1 (.bin (str% "==") (.paren symExpr) (.id (.fixed (str% "NULL")))) [.ret (some (.id (.fixed (str% "false"))))]]) ⟨⟨s, hp⟩, ⟨f, []⟩ :: fr⟩ =
      .ok (if (loadLoop L h i (rows.map (·.2)) s).1 then .next else .ret (.int 0)) ⟨⟨(loadLoop L h i (rows.map (·.2)) s).2, hp⟩, ⟨f, []⟩ :: fr⟩ := by
  intro rows
  induction rows with
  | nil => intro i _ s _; rfl
  | cons y t ih =>
    intro i hr s hs
    rw [List.map_cons, List.flatMap_cons]
    have e1 := eval_symExpr (hp := hp) u l L c B isFn other lim I (t := y.1) hr.1 h s hs (⟨f, []⟩ :: fr)
    have e2 : (Expr.paren (symExpr.inst I (symbolValues y.1 y.2))).eval (kctx u l L c B isFn other lim 3) ⟨⟨s, hp⟩, ⟨f, []⟩ :: fr⟩ = _ := e1
    have e3 := eval_bin (op := str% "==") _ (b := .id (.fixed (str% "NULL"))) (by decide) (by decide) e2
    cases ha : (gdoSym L h y.2 s).1 with
    | none =>
      rw [ha] at e3
      have e4 := if1_true _ (a := [.ret (some (.id (.fixed (str% "false"))))]) (fl := .ret (.int 0))
        (m2 := ⟨⟨setPtr i none (gdoSym L h y.2 s).2, hp⟩, ⟨f, []⟩ :: fr⟩) (test_of _ e3 rfl) rfl
      refine (execAll_ret _ _ (exec_one _ e4)).trans ?_
      simp only [List.map_cons, loadLoop, ha]
      rfl
    | some p =>
      rw [ha] at e3
      have e4 := if1_false _ (a := [.ret (some (.id (.fixed (str% "false"))))]) (test_of _ e3 rfl)
      refine (execAll_next _ _ (exec_one _ e4)).trans ?_
      rw [ih (i + 1) hr.2.2 (setPtr i (some p) (gdoSym L h y.2 s).2) ((gdoSym_handle L h y.2 s).trans hs)]
      simp only [List.map_cons, loadLoop, ha]
      rfl

theorem run_load_all_symbols {rows : List (Str × Str)} (h : Rows I c.toCfg rows) (s : St) (hp : List Block) (fr : List Frame) :
    ((fnOf C.gdo_load_all_symbols).inst I).call (kctx u l L c B isFn other lim 3) [] ⟨⟨s, hp⟩, fr⟩ = okB (loadAllSymbols L c s) hp fr := by
  have hb : ((fnOf C.gdo_load_all_symbols).inst I).body = ((fnOf C.gdo_load_all_symbols).inst I).body.take 3 ++
      ((I .symbol).flatMap (fun v => Stmt.instAll I v [.if1 (.bin (str% "==") (.paren symExpr) (.id (.fixed (str% "NULL")))) [.ret (some (.id (.fixed (str% "false"))))]]) ++
        [.ret (some (.id (.fixed (str% "true"))))]) := rfl
  have e1 : Stmt.execAll (kctx u l L c B isFn other lim 3) (((fnOf C.gdo_load_all_symbols).inst I).body.take 3)
      ⟨⟨s, hp⟩, ⟨str% "gdo_load_all_symbols", []⟩ :: fr⟩ =
      if allLoaded c (clearError s) then .ok (.ret (.int 1)) ⟨⟨clearError s, hp⟩, ⟨str% "gdo_load_all_symbols", []⟩ :: fr⟩
      else if libIsLoaded s then .ok .next ⟨⟨clearError s, hp⟩, ⟨str% "gdo_load_all_symbols", []⟩ :: fr⟩
      else .ok (.ret (.int 0)) ⟨⟨noLibrary (clearError s), hp⟩, ⟨str% "gdo_load_all_symbols", []⟩ :: fr⟩ := by
    have e : Stmt.execAll (kctx u l L c B isFn other lim 3) (((fnOf C.gdo_load_all_symbols).inst I).body.take 3)
        ⟨⟨s, hp⟩, ⟨str% "gdo_load_all_symbols", []⟩ :: fr⟩ =
        Stmt.execAll (kctx u l L c B isFn other lim 3) ((((fnOf C.gdo_load_all_symbols).inst I).body.take 3).drop 1)
        ⟨⟨clearError s, hp⟩, ⟨str% "gdo_load_all_symbols", []⟩ :: fr⟩ := rfl
    rw [e]
    have et : (Expr.call (.fixed (str% "gdo_all_symbols_loaded")) []).eval (kctx u l L c B isFn other lim 3) ⟨⟨clearError s, hp⟩, ⟨str% "gdo_load_all_symbols", []⟩ :: fr⟩ =
      .ok (.ofBool (allLoaded c (clearError s))) ⟨⟨clearError s, hp⟩, ⟨str% "gdo_load_all_symbols", []⟩ :: fr⟩ := rfl
    cases hl : allLoaded c (clearError s) with
    | true =>
      rw [hl] at et
      have e2 := if1_true _ (a := [.ret (some (.id (.fixed (str% "true"))))]) (fl := .ret (.int 1))
        (m2 := ⟨⟨clearError s, hp⟩, ⟨str% "gdo_load_all_symbols", []⟩ :: fr⟩) (test_of _ et rfl) rfl
      exact exec_ret _ e2
    | false =>
      rw [hl] at et
      have e2 := if1_false _ (a := [.ret (some (.id (.fixed (str% "true"))))]) (test_of _ et rfl)
      refine (exec_next _ e2).trans ?_
      obtain ⟨handle, s⟩ := s
      cases handle <;> rfl
  unfold loadAllSymbols
  dsimp only
  cases hl : allLoaded c (clearError s) with
  | true =>
    rw [hl, if_pos rfl] at e1
    exact call_of _ hb rfl rfl rfl (execAll_ret _ _ e1)
  | false =>
    rw [hl, if_neg (by simp)] at e1
    cases hs : s.handle with
    | none =>
      rw [if_neg (by simp [libIsLoaded, hs])] at e1
      have : (clearError s).handle = none := hs
      rw [if_neg (by simp), this]
      exact call_of _ hb rfl rfl rfl (execAll_ret _ _ e1)
    | some x =>
      rw [if_pos (by simp [libIsLoaded, hs])] at e1
      have hc : (clearError s).handle = some x := hs
      rw [if_neg (by simp), hc]
      have e2 := run_loadLoop (hp := hp) u l L c B isFn other lim I x (str% "gdo_load_all_symbols") fr rows 0 h.from (clearError s) hc
      rw [h.names, ← h.insts] at e2
      show _ = okB (loadLoop L x 0 c.syms (clearError s)) hp fr
      unfold okB
      cases hr : (loadLoop L x 0 c.syms (clearError s)).1 with
      | true =>
        rw [hr, if_pos rfl] at e2
        exact call_of _ (F := ⟨str% "gdo_load_all_symbols", []⟩) hb rfl rfl rfl ((execAll_next _ _ e1).trans (execAll_next _ _ e2))
      | false =>
        rw [hr, if_neg (by simp)] at e2
        exact call_of _ (F := ⟨str% "gdo_load_all_symbols", []⟩) hb rfl rfl rfl ((execAll_next _ _ e1).trans (execAll_ret _ _ e2))

/-! ### Loading one symbol -/

theorem run_one {t n : Str} {i : Nat} (hi : rtGlued c.toCfg (str% "GDO_RAWPTR_") n = some (.sym i)) (h : Ptr) (s : St) (hs : s.handle = some h)
    (f : Str) (vars : List (Str × Option V)) (hv : getVar (str% "NULL") vars = none) (fr : List Frame) (rest : List Stmt) :
    Stmt.execAll (kctx u l L c B isFn other lim 3) (Stmt.instAll I (symbolValues t n) oneStmts ++ rest) ⟨⟨s, hp⟩, ⟨f, vars⟩ :: fr⟩ =
      .ok (.ret (.ofBool (loadOne L h i n s).1)) ⟨⟨(loadOne L h i n s).2, hp⟩, ⟨f, vars⟩ :: fr⟩ := by
  have hleave : ∀ s : St, leave vars.length (⟨⟨s, hp⟩, ⟨f, vars⟩ :: fr⟩ : M World) = ⟨⟨s, hp⟩, ⟨f, vars⟩ :: fr⟩ := by
    intro s
    simp [leave]
  have e1 := eval_rawptr u l L c B isFn other lim hi 3 ⟨⟨s, hp⟩, ⟨f, vars⟩ :: fr⟩
  have last : ∀ s : St, (Stmt.ret (some (.paren (.bin (str% "!=") (.id (.glued (str% "GDO_RAWPTR_") n)) (.id (.fixed (str% "NULL"))))))).exec
      (kctx u l L c B isFn other lim 3) ⟨⟨s, hp⟩, ⟨f, vars⟩ :: fr⟩ = .ok (.ret (.ofBool (s.ptr i).isSome)) ⟨⟨s, hp⟩, ⟨f, vars⟩ :: fr⟩ := by
    intro s
    have e := eval_bin (op := str% "!=") _ (b := .id (.fixed (str% "NULL"))) (by decide) (by decide) (eval_rawptr u l L c B isFn other lim hi 3 ⟨⟨s, hp⟩, ⟨f, vars⟩ :: fr⟩)
    rw [eval_null u l L c B isFn other lim 3 ⟨⟨s, hp⟩, ⟨f, vars⟩ :: fr⟩ hv] at e
    show ((Expr.bin (str% "!=") (.id (.glued (str% "GDO_RAWPTR_") n)) (.id (.fixed (str% "NULL")))).eval
      (kctx u l L c B isFn other lim 3) ⟨⟨s, hp⟩, ⟨f, vars⟩ :: fr⟩).bind _ = _
    rw [e]
    show (R.of _ (binary (str% "!=") (V.ofPtr (s.ptr i)) .null)).bind _ = _
    cases s.ptr i <;> rfl
  have e2 : (Expr.un (str% "!") (.id (.glued (str% "GDO_RAWPTR_") n))).eval (kctx u l L c B isFn other lim 3) ⟨⟨s, hp⟩, ⟨f, vars⟩ :: fr⟩ =
      .ok (.ofBool (s.ptr i).isNone) ⟨⟨s, hp⟩, ⟨f, vars⟩ :: fr⟩ := by
    show ((Expr.id (.glued (str% "GDO_RAWPTR_") n)).eval (kctx u l L c B isFn other lim 3) ⟨⟨s, hp⟩, ⟨f, vars⟩ :: fr⟩).bind _ = _
    rw [e1]
    show R.of _ ((V.ofPtr (s.ptr i)).truth.map fun b => V.ofBool !b) = _
    cases s.ptr i <;> rfl
  unfold loadOne
  cases hq : s.ptr i with
  | some p =>
    rw [hq] at e2
    have e3 := if1_false _ (a := [.expr (symExpr.inst I (symbolValues t n))]) (test_of _ e2 rfl)
    refine (exec_next _ e3).trans ?_
    have := exec_ret _ (r := rest) (last s)
    rw [hq] at this
    exact this
  | none =>
    rw [hq] at e2
    have e3 := if1_true _ (test_of _ e2 rfl) (exec_one _ (exec_expr _ (eval_symExpr u l L c B isFn other lim I (t := t) hi h s hs (⟨f, vars⟩ :: fr))))
    rw [show (locals (⟨⟨s, hp⟩, ⟨f, vars⟩ :: fr⟩ : M World)).length = vars.length from rfl, hleave] at e3
    refine (exec_next _ e3).trans ?_
    have := exec_ret _ (r := rest) (last (setPtr i (gdoSym L h n s).1 (gdoSym L h n s).2))
    refine this.trans ?_
    simp [setPtr]

theorem sys_unknown_num (n : Int) (m : M World) :
    sysSnprintf c [.buf (str% "errbuf"), .str (str% "unknown symbol number: %d"), .int n] m =
      .ok (.int ((str% "unknown symbol number: " ++ Rt.showInt n).length)) { m with g := { m.g with s := { m.g.s with errbuf := fit (str% "unknown symbol number: " ++ Rt.showInt n) } } } := by
  have : format (text m.g) (str% "unknown symbol number: %d") [.int n] = some (str% "unknown symbol number: " ++ Rt.showInt n) := by
    simp [format]
  have e : sysSnprintf c [.buf (str% "errbuf"), .str (str% "unknown symbol number: %d"), .int n] m =
      match format (text m.g) (str% "unknown symbol number: %d") [.int n] with
      | some t => .ok (.int t.length) { m with g := { m.g with s := { m.g.s with errbuf := t.take (bufLen - 1) } } }
      | none => .ub := rfl
  rw [e, this]
  rfl

/-- The statements behind a label. -/
theorem run_switch (h : Ptr) (num : Int) (f : Str) (vars : List (Str × Option V)) (hv : getVar (str% "NULL") vars = none) (fr : List Frame) (s : St) (hp : List Block)
    (hs : s.handle = some h) (rest : List Stmt) (hrest : Stmt.execFrom (kctx u l L c B isFn other lim 3)
      (isCase (kctx u l L c B isFn other lim 3) (.int num) ⟨⟨s, hp⟩, ⟨f, vars⟩ :: fr⟩) rest ⟨⟨s, hp⟩, ⟨f, vars⟩ :: fr⟩ = none) :
    ∀ (rows : List (Str × Str)) (i : Nat) (_ : RowsFrom c.toCfg i rows),
      Stmt.execFrom (kctx u l L c B isFn other lim 3) (isCase (kctx u l L c B isFn other lim 3) (.int num) ⟨⟨s, hp⟩, ⟨f, vars⟩ :: fr⟩)
        (((rows.map fun r => symbolValues r.1 r.2).flatMap fun v => Stmt.instAll I v (.case (.id (.hole (str% "GDO_LOAD_") (str% "symbol"))) :: oneStmts)) ++ rest)
        ⟨⟨s, hp⟩, ⟨f, vars⟩ :: fr⟩ =
      if (i : Int) ≤ num then (rows[(num - i).toNat]?).map fun r =>
        .ok (.ret (.ofBool (loadOne L h num.toNat r.2 s).1)) ⟨⟨(loadOne L h num.toNat r.2 s).2, hp⟩, ⟨f, vars⟩ :: fr⟩
      else none := by
  intro rows
  induction rows with
  | nil => intro i _; simp [hrest]
  | cons y t ih =>
    intro i hr
    rw [List.map_cons, List.flatMap_cons, List.append_assoc]
    have hc : isCase (kctx u l L c B isFn other lim 3) (.int num) ⟨⟨s, hp⟩, ⟨f, vars⟩ :: fr⟩ (.case (.id (.glued (str% "GDO_LOAD_") y.2))) = decide (num = i) := by
      show (match rtGlued c.toCfg (str% "GDO_LOAD_") y.2 with
        | some (.val w) => decide (V.int num = w)
        | _ => false) = _
      rw [hr.2.1]
      simp
    have e : ∀ X, Stmt.execFrom (kctx u l L c B isFn other lim 3) (isCase (kctx u l L c B isFn other lim 3) (.int num) ⟨⟨s, hp⟩, ⟨f, vars⟩ :: fr⟩)
        (Stmt.instAll I (symbolValues y.1 y.2) (.case (.id (.hole (str% "GDO_LOAD_") (str% "symbol"))) :: oneStmts) ++ X) ⟨⟨s, hp⟩, ⟨f, vars⟩ :: fr⟩ =
        if isCase (kctx u l L c B isFn other lim 3) (.int num) ⟨⟨s, hp⟩, ⟨f, vars⟩ :: fr⟩ (.case (.id (.glued (str% "GDO_LOAD_") y.2))) then
          some (Stmt.execAll (kctx u l L c B isFn other lim 3) (Stmt.instAll I (symbolValues y.1 y.2) oneStmts ++ X) ⟨⟨s, hp⟩, ⟨f, vars⟩ :: fr⟩)
        else Stmt.execFrom (kctx u l L c B isFn other lim 3) (isCase (kctx u l L c B isFn other lim 3) (.int num) ⟨⟨s, hp⟩, ⟨f, vars⟩ :: fr⟩) X ⟨⟨s, hp⟩, ⟨f, vars⟩ :: fr⟩ :=
      fun X => rfl
    rw [e, hc]
    by_cases hn : num = i
    · subst hn
      rw [if_pos (by simp), run_one u l L c B isFn other lim I hr.1 h s hs f vars hv fr, if_pos (by simp)]
      simp
    · rw [if_neg (by simp [hn]), ih (i + 1) hr.2.2]
      by_cases hlt : (i : Int) ≤ num
      · rw [if_pos hlt, if_pos (by omega)]
        have : (num - i).toNat = (num - (i + 1 : Nat)).toNat + 1 := by omega
        rw [this, List.getElem?_cons_succ]
      · rw [if_neg hlt, if_neg (by omega)]

theorem run_default (r : Nat) (m : M World) : ∀ (rows : List (Str × Str)),
    Stmt.execFrom (kctx u l L c B isFn other lim r) isDefault
      (((rows.map fun r => symbolValues r.1 r.2).flatMap fun v => Stmt.instAll I v (.case (.id (.hole (str% "GDO_LOAD_") (str% "symbol"))) :: oneStmts)) ++
        [.default, .brk]) m = some (.ok .brk m) := by
  intro rows
  induction rows with
  | nil => rfl
  | cons y t ih =>
    rw [List.map_cons, List.flatMap_cons, List.append_assoc]
    exact ih

theorem run_load_symbol {rows : List (Str × Str)} (h : Rows I c.toCfg rows) (num : Int) (s : St) (hp : List Block) (fr : List Frame) :
    ((fnOf C.gdo_load_symbol).inst I).call (kctx u l L c B isFn other lim 3) [.int num] ⟨⟨s, hp⟩, fr⟩ = okB (loadSymbol L c num s) hp fr := by
  cases hs : s.handle with
  | none =>
    obtain ⟨handle, s⟩ := s
    cases hs
    rfl
  | some x =>
    have hc : (clearError s).handle = some x := hs
    have e1 : Stmt.execAll (kctx u l L c B isFn other lim 3) (((fnOf C.gdo_load_symbol).inst I).body)
        ⟨⟨s, hp⟩, ⟨str% "gdo_load_symbol", [(str% "symbol_num", some (.int num))]⟩ :: fr⟩ =
        Stmt.execAll (kctx u l L c B isFn other lim 3) (((fnOf C.gdo_load_symbol).inst I).body.drop 2)
        ⟨⟨clearError s, hp⟩, ⟨str% "gdo_load_symbol", [(str% "symbol_num", some (.int num))]⟩ :: fr⟩ := by
      obtain ⟨handle, s⟩ := s
      cases hs
      rfl
    have e2 : ∀ m : M World, m = ⟨⟨clearError s, hp⟩, ⟨str% "gdo_load_symbol", [(str% "symbol_num", some (.int num))]⟩ :: fr⟩ →
        Stmt.execAll (kctx u l L c B isFn other lim 3) (((fnOf C.gdo_load_symbol).inst I).body.drop 2) m =
        ((Cc.block (fun m => ((Stmt.execFrom (kctx u l L c B isFn other lim 3) (isCase (kctx u l L c B isFn other lim 3) (.int num) m)
            (((I .symbol).flatMap fun v => Stmt.instAll I v (.case (.id (.hole (str% "GDO_LOAD_") (str% "symbol"))) :: oneStmts)) ++ [.default, .brk]) m).getD
            ((Stmt.execFrom (kctx u l L c B isFn other lim 3) isDefault
              (((I .symbol).flatMap fun v => Stmt.instAll I v (.case (.id (.hole (str% "GDO_LOAD_") (str% "symbol"))) :: oneStmts)) ++ [.default, .brk]) m).getD
                (.ok .next m)))) m).bind fun fl m =>
          match fl with
          | .brk => .ok .next m
          | fl => .ok fl m).bind fun fl m =>
            match fl with
            | .next => Stmt.execAll (kctx u l L c B isFn other lim 3) (((fnOf C.gdo_load_symbol).inst I).body.drop 3) m
            | fl => .ok fl m := by
      rintro m rfl
      rfl
    have e2 := e2 _ rfl
    rw [h.insts] at e2
    have e3 := run_switch u l L c B isFn other lim I x num (str% "gdo_load_symbol") [(str% "symbol_num", some (.int num))] rfl fr (clearError s) hp hc
      [.default, .brk] rfl rows 0 h.from
    have e4 := run_default u l L c B isFn other lim I 3 ⟨⟨clearError s, hp⟩, ⟨str% "gdo_load_symbol", [(str% "symbol_num", some (.int num))]⟩ :: fr⟩ rows
    simp only [Cc.block] at e2
    rw [e3, e4] at e2
    have fail : Stmt.execAll (kctx u l L c B isFn other lim 3) (((fnOf C.gdo_load_symbol).inst I).body.drop 3)
        ⟨⟨clearError s, hp⟩, ⟨str% "gdo_load_symbol", [(str% "symbol_num", some (.int num))]⟩ :: fr⟩ =
        .ok (.ret (.int 0)) ⟨⟨{ setErrno errNotFound (clearError s) with errbuf := fit (str% "unknown symbol number: " ++ Rt.showInt num) }, hp⟩,
          ⟨str% "gdo_load_symbol", [(str% "symbol_num", some (.int num))]⟩ :: fr⟩ := by
      have e : Stmt.execAll (kctx u l L c B isFn other lim 3) (((fnOf C.gdo_load_symbol).inst I).body.drop 3)
          ⟨⟨clearError s, hp⟩, ⟨str% "gdo_load_symbol", [(str% "symbol_num", some (.int num))]⟩ :: fr⟩ =
          ((sysSnprintf c [.buf (str% "errbuf"), .str (str% "unknown symbol number: %d"), .int num]
            ⟨⟨setErrno errNotFound (clearError s), hp⟩, ⟨str% "gdo_load_symbol", [(str% "symbol_num", some (.int num))]⟩ :: fr⟩).bind fun _ m => .ok Flow.next m).bind fun fl m =>
              match fl with
              | Flow.next => Stmt.execAll (kctx u l L c B isFn other lim 3) (((fnOf C.gdo_load_symbol).inst I).body.drop 5) m
              | fl => .ok fl m := rfl
      rw [e, sys_unknown_num]
      rfl
    have em : loadSymbol L c num s = (match Rt.caseOf c.toCfg num with
        | some (i, name) => loadOne L x i name (clearError s)
        | none => (false, { setErrno errNotFound (clearError s) with errbuf := fit (str% "unknown symbol number: " ++ Rt.showInt num) })) := by
      obtain ⟨handle, s⟩ := s
      cases hs
      rfl
    rw [em]
    have done : ∀ o : Option (Str × Str), rows[num.toNat]? = o → (0 ≤ num) → okB (match Rt.caseOf c.toCfg num with
        | some (i, name) => loadOne L x i name (clearError s)
        | none => (false, { setErrno errNotFound (clearError s) with errbuf := fit (str% "unknown symbol number: " ++ Rt.showInt num) })) hp fr =
        okB (match o with
        | some r => loadOne L x num.toNat r.2 (clearError s)
        | none => (false, { setErrno errNotFound (clearError s) with errbuf := fit (str% "unknown symbol number: " ++ Rt.showInt num) })) hp fr := by
      intro o ho h0
      cases num with
      | ofNat n =>
        have ho : rows[n]? = o := ho
        unfold Rt.caseOf
        dsimp only
        rw [h.get, ho]
        cases o <;> rfl
      | negSucc n => omega
    by_cases h0 : 0 ≤ num
    · refine Eq.trans ?_ (done _ rfl h0).symm
      rw [if_pos (by simpa using h0)] at e2
      simp only [Int.cast_ofNat_Int, Int.sub_zero] at e2
      cases hr : rows[num.toNat]? with
      | some r =>
        rw [hr] at e2
        exact call_of _ (F := ⟨str% "gdo_load_symbol", [(str% "symbol_num", some (.int num))]⟩) rfl rfl rfl rfl (e1.trans e2)
      | none =>
        rw [hr] at e2
        exact call_of _ (F := ⟨str% "gdo_load_symbol", [(str% "symbol_num", some (.int num))]⟩) rfl rfl rfl rfl (e1.trans (e2.trans fail))
    · have : Rt.caseOf c.toCfg num = none := by
        cases num with
        | ofNat n => exact absurd (Int.natCast_nonneg n) h0
        | negSucc n => rfl
      rw [this]
      rw [if_neg (by simpa using h0)] at e2
      exact call_of _ (F := ⟨str% "gdo_load_symbol", [(str% "symbol_num", some (.int num))]⟩) rfl rfl rfl rfl (e1.trans (e2.trans fail))

end

end Gdo.Cc.W
