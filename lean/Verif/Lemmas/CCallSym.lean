import Verif.Lemmas.CCall
import Verif.Lemmas.CExec

/-!
Lemmas: what the functions of the generated C code do that have parts for each symbol.
-/

set_option maxRecDepth 10000

namespace Gdo.Cc
open Gdo Tmpl Rt Rename

/-- The symbols from number `i` on. -/
def RowsFrom (c : Cfg) : Nat → List (Str × Str) → Prop
  | _, [] => True
  | i, r :: t => rtGlued c (str% "GDO_RAWPTR_") r.2 = some (.sym i) ∧ rtGlued c (str% "GDO_LOAD_") r.2 = some (.val (.int i)) ∧ RowsFrom c (i + 1) t

/-- The repeated parts are repeated for the symbols, `rows` are their types and names. -/
structure Rows (I : Insts) (c : Cfg) (rows : List (Str × Str)) : Prop where
  insts : I .symbol = rows.map fun r => symbolValues r.1 r.2
  names : rows.map (·.2) = c.syms
  nodup : c.syms.Nodup

theorem rowsFrom (c : Cfg) (h : c.syms.Nodup) : ∀ (rows : List (Str × Str)) (pre : List Str), pre ++ rows.map (·.2) = c.syms → RowsFrom c pre.length rows := by
  intro rows
  induction rows with
  | nil => intro _ _; trivial
  | cons r t ih =>
    intro pre e
    have hm : r.2 ∈ c.syms := by rw [← e]; simp
    have hn : r.2 ∉ pre := by
      rw [← e] at h
      intro hp
      exact (List.nodup_append.mp h).2.2 _ hp _ (by simp) rfl
    have hi : c.syms.idxOf r.2 = pre.length := by
      rw [← e]
      simp [List.idxOf_append, hn]
    refine ⟨?_, ?_, ?_⟩
    · simp [rtGlued, hm, hi]
    · simp [rtGlued, hm, hi]
    · have := ih (pre ++ [r.2]) (by simpa using e)
      simpa using this

theorem Rows.from {I : Insts} {c : Cfg} {rows : List (Str × Str)} (h : Rows I c rows) : RowsFrom c 0 rows :=
  rowsFrom c h.nodup rows [] (by simpa using h.names)

theorem Rows.length {I : Insts} {c : Cfg} {rows : List (Str × Str)} (h : Rows I c rows) : rows.length = c.syms.length := by
  rw [← h.names, List.length_map]

section
variable (u l : Str) (L : Loader) (c : Cfg) (isFn : Str → Bool) (other : Str → List V → M St → R St V) (lim : Nat) (I : Insts)

theorem call_sys {r : Nat} {f : Str} {g : List V → M St → R St V} (h : (sysTable L rtText).lookup f = some g) (as : List V) (m : M St) :
    (kctx u l L c isFn other lim r).call f as m = g as m := by
  show knownCall L c r other f as m = _
  unfold knownCall
  rw [h]

/-! ### Freeing -/

/-- `GDO_RAWPTR_... = NULL;` -/
def clearStmt : List Stmt := [.expr (.assign (.id (.hole (str% "GDO_RAWPTR_") (str% "symbol"))) (.id (.fixed (str% "NULL"))))]

theorem run_clear (r : Nat) (f : Str) (vars : List (Str × Option V)) (hv : getVar (str% "NULL") vars = none) (fr : List Frame) :
    ∀ (rows : List (Str × Str)) (i : Nat) (_ : RowsFrom c i rows) (s : St),
      Stmt.execAll (kctx u l L c isFn other lim r) ((rows.map fun r => symbolValues r.1 r.2).flatMap fun v => Stmt.instAll I v clearStmt) ⟨s, ⟨f, vars⟩ :: fr⟩ =
        .ok .next ⟨{ s with ptr := fun j => if i ≤ j ∧ j < i + rows.length then none else s.ptr j }, ⟨f, vars⟩ :: fr⟩ := by
  intro rows
  induction rows with
  | nil =>
    intro i _ s
    have : (fun j => if i ≤ j ∧ j < i + 0 then none else s.ptr j) = s.ptr := by
      funext j
      rw [if_neg (by omega)]
    simp only [List.map_nil, List.flatMap_nil, Stmt.execAll, List.length_nil, this]
  | cons x t ih =>
    intro i h s
    rw [List.map_cons, List.flatMap_cons]
    have e : Stmt.execAll (kctx u l L c isFn other lim r) (Stmt.instAll I (symbolValues x.1 x.2) clearStmt) ⟨s, ⟨f, vars⟩ :: fr⟩ =
        .ok .next ⟨setPtr i none s, ⟨f, vars⟩ :: fr⟩ := by
      have e : Stmt.execAll (kctx u l L c isFn other lim r) (Stmt.instAll I (symbolValues x.1 x.2) clearStmt) ⟨s, ⟨f, vars⟩ :: fr⟩ =
          ((((R.of ⟨s, ⟨f, vars⟩ :: fr⟩ (rtGlued c (str% "GDO_RAWPTR_") x.2)).bind fun lv m =>
            ((R.of m (place (kctx u l L c isFn other lim r) (.fixed (str% "NULL")) m)).bind (load (rtSem u l L c))).bind fun v m => store (rtSem u l L c) lv v m).bind
              fun _ m => .ok Flow.next m).bind fun fl m =>
                match fl with
                | .next => .ok .next m
                | fl => .ok fl m) := rfl
      rw [e, h.1]
      simp only [R.of, R.bind, place, locals, hv]
      rfl
    rw [execAll_next _ _ e, ih (i + 1) h.2.2]
    congr 3
    unfold setPtr
    funext j
    simp only [List.length_cons]
    by_cases hj : j = i
    · subst hj
      simp
    · by_cases h2 : i + 1 ≤ j ∧ j < i + 1 + t.length
      · rw [if_pos h2, if_pos (by omega)]
      · rw [if_neg h2, if_neg hj, if_neg (by omega)]

/-- The statements at the end of the functions that free the library. -/
def nullStmts : List Stmt :=
  [.expr (.assign (.index (.field (.id (.fixed (str% "gdo_hndl"))) (str% "libpath")) (.id (.fixed (str% "0")))) (.id (.fixed (str% "0")))),
    .expr (.assign (.field (.id (.fixed (str% "gdo_hndl"))) (str% "handle")) (.id (.fixed (str% "NULL")))),
    .rep .symbol clearStmt]

theorem run_setNull {rows : List (Str × Str)} (h : Rows I c rows) (r : Nat) (f : Str) (fr : List Frame) (s : St) :
    Stmt.execAll (kctx u l L c isFn other lim r) (Stmt.instAll I noValues nullStmts) ⟨s, ⟨f, []⟩ :: fr⟩ = .ok .next ⟨setNull c s, ⟨f, []⟩ :: fr⟩ := by
  have e : Stmt.execAll (kctx u l L c isFn other lim r) (Stmt.instAll I noValues nullStmts) ⟨s, ⟨f, []⟩ :: fr⟩ =
      Stmt.execAll (kctx u l L c isFn other lim r) ((I .symbol).flatMap (fun v => Stmt.instAll I v clearStmt) ++ [])
        ⟨{ s with libpath := [], handle := none }, ⟨f, []⟩ :: fr⟩ := rfl
  rw [e, List.append_nil, h.insts, run_clear u l L c isFn other lim I r f [] rfl fr rows 0 h.from]
  unfold setNull
  rw [h.length]
  simp

theorem run_free_lib {rows : List (Str × Str)} (h : Rows I c rows) (s : St) (fr : List Frame) :
    ((fnOf (C.gdo_free_lib false)).inst I).call (kctx u l L c isFn other lim 2) [] ⟨s, fr⟩ = okB (freeLib L c s) fr := by
  have hb : ((fnOf (C.gdo_free_lib false)).inst I).body = ((fnOf (C.gdo_free_lib false)).inst I).body.take 2 ++
      (Stmt.instAll I noValues nullStmts ++ [.ret (some (.id (.fixed (str% "true"))))]) := by
    simp only [nullStmts, Stmt.instAll, List.append_nil, List.append_assoc]
    rfl
  obtain ⟨handle, p, q, eb, reg, clock, de, log, hd, se⟩ := s
  have last : ∀ s, Stmt.execAll (kctx u l L c isFn other lim 2) (Stmt.instAll I noValues nullStmts ++ [.ret (some (.id (.fixed (str% "true"))))])
      ⟨s, ⟨str% "gdo_free_lib", []⟩ :: fr⟩ = .ok (.ret (.int 1)) ⟨setNull c s, ⟨str% "gdo_free_lib", []⟩ :: fr⟩ := by
    intro s
    exact execAll_next _ _ (run_setNull u l L c isFn other lim I h 2 _ fr s)
  cases handle with
  | none =>
    have key : Stmt.execAll (kctx u l L c isFn other lim 2) (((fnOf (C.gdo_free_lib false)).inst I).body.take 2)
        ⟨⟨none, p, q, eb, reg, clock, de, log, hd, se⟩, ⟨str% "gdo_free_lib", []⟩ :: fr⟩ =
        .ok .next ⟨⟨none, p, q, [], reg, clock, none, log, hd, se⟩, ⟨str% "gdo_free_lib", []⟩ :: fr⟩ := rfl
    exact call_of _ hb rfl rfl rfl ((execAll_next _ _ key).trans (last _))
  | some x =>
    have key : ∀ a, Stmt.execAll (kctx u l { L with dlclose := fun _ _ => a } c isFn other lim 2) (((fnOf (C.gdo_free_lib false)).inst I).body.take 2)
        ⟨⟨some x, p, q, eb, reg, clock, de, log, hd, se⟩, ⟨str% "gdo_free_lib", []⟩ :: fr⟩ =
        if a.1 then .ok .next ⟨⟨some x, p, q, [], reg, clock + 1, a.2, log ++ [.closed x a.1 false], hd, se⟩, ⟨str% "gdo_free_lib", []⟩ :: fr⟩
        else .ok (.ret (.int 0)) ⟨saveError ⟨some x, p, q, [], reg, clock + 1, a.2, log ++ [.closed x a.1 false], hd, se⟩,
          ⟨str% "gdo_free_lib", []⟩ :: fr⟩ := by
      rintro ⟨_ | _, _ | _⟩ <;> rfl
    have key : Stmt.execAll (kctx u l L c isFn other lim 2) (((fnOf (C.gdo_free_lib false)).inst I).body.take 2)
        ⟨⟨some x, p, q, eb, reg, clock, de, log, hd, se⟩, ⟨str% "gdo_free_lib", []⟩ :: fr⟩ = _ := key (L.dlclose clock x)
    unfold freeLib callDlclose clearError
    dsimp only
    cases hc : (L.dlclose clock x).1 with
    | true =>
      rw [hc, if_pos rfl] at key
      exact call_of _ hb rfl rfl rfl ((execAll_next _ _ key).trans (last _))
    | false =>
      rw [hc, if_neg (by simp)] at key
      exact call_of _ hb rfl rfl rfl (execAll_ret _ _ key)

theorem run_force_free_lib {rows : List (Str × Str)} (h : Rows I c rows) (s : St) (fr : List Frame) :
    ((fnOf C.gdo_force_free_lib).inst I).call (kctx u l L c isFn other lim 1) [] ⟨s, fr⟩ = ok0 (forceFreeLib L c s) fr := by
  have hb : ((fnOf C.gdo_force_free_lib).inst I).body = ((fnOf C.gdo_force_free_lib).inst I).body.take 2 ++ Stmt.instAll I noValues nullStmts := by
    rfl
  obtain ⟨handle, p, q, eb, reg, clock, de, log, hd, se⟩ := s
  cases handle with
  | none =>
    have key : Stmt.execAll (kctx u l L c isFn other lim 1) (((fnOf C.gdo_force_free_lib).inst I).body.take 2)
        ⟨⟨none, p, q, eb, reg, clock, de, log, hd, se⟩, ⟨str% "gdo_force_free_lib", []⟩ :: fr⟩ =
        .ok .next ⟨⟨none, p, q, [], reg, clock, none, log, hd, se⟩, ⟨str% "gdo_force_free_lib", []⟩ :: fr⟩ := rfl
    exact call_end _ hb rfl rfl rfl ((execAll_next _ _ key).trans (run_setNull u l L c isFn other lim I h 1 _ fr _))
  | some x =>
    have key : Stmt.execAll (kctx u l L c isFn other lim 1) (((fnOf C.gdo_force_free_lib).inst I).body.take 2)
        ⟨⟨some x, p, q, eb, reg, clock, de, log, hd, se⟩, ⟨str% "gdo_force_free_lib", []⟩ :: fr⟩ =
        .ok .next ⟨⟨some x, p, q, [], reg, clock + 1, (L.dlclose clock x).2, log ++ [.closed x (L.dlclose clock x).1 true], hd, se⟩,
          ⟨str% "gdo_force_free_lib", []⟩ :: fr⟩ := rfl
    exact call_end _ hb rfl rfl rfl ((execAll_next _ _ key).trans (run_setNull u l L c isFn other lim I h 1 _ fr _))

/-- The message of `gdo_enable_autorelease`. -/
def autoMsg : Str := str% "atexit(): failed to register `gdo_force_free_lib()'"

theorem renamed_autoMsg :
    renamed u l autoMsg = str% "atexit(): failed to register `" ++ newName u l (str% "gdo_force_free_lib") ++ str% "()'" := by
  rfl

theorem unescape_autoMsg (hl : '\\' ∉ l) :
    unescape (renamed u l autoMsg) = some (str% "atexit(): failed to register `" ++ newName u l (str% "gdo_force_free_lib") ++ str% "()'") := by
  rw [renamed_autoMsg, unescape_plain]
  have : newName u l (str% "gdo_force_free_lib") = l ++ str% "_" ++ str% "force_free_lib" := rfl
  rw [this]
  simp [hl]

theorem run_enable_autorelease (hf : c.freeName = newName u l (str% "gdo_force_free_lib")) (hl : '\\' ∉ l) (hfn : isFn (str% "gdo_force_free_lib") = true)
    (s : St) (fr : List Frame) :
    ((fnOf C.gdo_enable_autorelease).inst I).call (kctx u l L c isFn other lim 1) [] ⟨s, fr⟩ = okB (enableAutorelease L c s) fr := by
  obtain ⟨handle, p, q, eb, reg, clock, de, log, hd, se⟩ := s
  cases reg with
  | true => rfl
  | false =>
    have e1 : ∀ m : M St, getVar (str% "gdo_force_free_lib") (locals m) = none →
        (Expr.id (.fixed (str% "gdo_force_free_lib"))).eval (kctx u l L c isFn other lim 1) m = .ok (.fn (str% "gdo_force_free_lib")) m := by
      intro m hm
      have : (Expr.id (.fixed (str% "gdo_force_free_lib"))).eval (kctx u l L c isFn other lim 1) m =
          (R.of m (if (getVar (str% "gdo_force_free_lib") (locals m)).isSome then some (.here (str% "gdo_force_free_lib"))
            else if isFn (str% "gdo_force_free_lib") then some (.val (.fn (str% "gdo_force_free_lib"))) else none)).bind (load (rtSem u l L c)) := rfl
      rw [this, hm, hfn]
      rfl
    have e2 : Stmt.execAll (kctx u l L c isFn other lim 1) ((fnOf C.gdo_enable_autorelease).inst I).body
        ⟨⟨handle, p, q, eb, false, clock, de, log, hd, se⟩, ⟨str% "gdo_enable_autorelease", []⟩ :: fr⟩ =
        Stmt.execAll (kctx u l L c isFn other lim 1) (((fnOf C.gdo_enable_autorelease).inst I).body.drop 1)
        ⟨⟨handle, p, q, [], false, clock, none, log, hd, se⟩, ⟨str% "gdo_enable_autorelease", []⟩ :: fr⟩ := rfl
    have ea := eval_call1 (kctx u l L c isFn other lim 1) (f := str% "atexit")
      (m := ⟨⟨handle, p, q, [], false, clock, none, log, hd, se⟩, ⟨str% "gdo_enable_autorelease", []⟩ :: fr⟩) rfl (e1 _ rfl)
    rw [call_sys u l L c isFn other lim (g := sysAtexit L) rfl] at ea
    cases h : L.atexit clock with
    | true =>
      have es : sysAtexit L [.fn (str% "gdo_force_free_lib")]
          ⟨⟨handle, p, q, [], false, clock, none, log, hd, se⟩, ⟨str% "gdo_enable_autorelease", []⟩ :: fr⟩ =
          .ok (.int 0) ⟨⟨handle, p, q, [], false, clock + 1, none, log, hd + 1, se⟩, ⟨str% "gdo_enable_autorelease", []⟩ :: fr⟩ := by
        simp [sysAtexit, h]
      rw [es] at ea
      have e3 : enableAutorelease L c ⟨handle, p, q, eb, false, clock, de, log, hd, se⟩ =
          (true, ⟨handle, p, q, [], true, clock + 1, none, log, hd + 1, se⟩) := by
        simp [enableAutorelease, clearError, h]
      rw [e3]
      refine call_of _ (F := ⟨str% "gdo_enable_autorelease", []⟩) rfl rfl rfl rfl (e2.trans ?_)
      exact (exec_next _ (if1_true _ (test_of _ rfl rfl) (exec_one _ (if2_true _ (test_of _
        (eval_bin (op := str% "==") _ (by decide) (by decide) ea) rfl) rfl)))).trans rfl
    | false =>
      have es : sysAtexit L [.fn (str% "gdo_force_free_lib")]
          ⟨⟨handle, p, q, [], false, clock, none, log, hd, se⟩, ⟨str% "gdo_enable_autorelease", []⟩ :: fr⟩ =
          .ok (.int 1) ⟨⟨handle, p, q, [], false, clock + 1, none, log, hd, se⟩, ⟨str% "gdo_enable_autorelease", []⟩ :: fr⟩ := by
        simp [sysAtexit, h]
      rw [es] at ea
      have e3 : enableAutorelease L c ⟨handle, p, q, eb, false, clock, de, log, hd, se⟩ =
          (false, saveToErrbuf (some (str% "atexit(): failed to register `" ++ newName u l (str% "gdo_force_free_lib") ++ str% "()'"))
            ⟨handle, p, q, [], false, clock + 1, none, log, hd, se⟩) := by
        simp [enableAutorelease, clearError, h, hf]
      rw [e3]
      refine call_of _ (F := ⟨str% "gdo_enable_autorelease", []⟩) rfl rfl rfl rfl (e2.trans ?_)
      exact (exec_next _ (if1_true _ (test_of _ rfl rfl) (exec_one _ (if2_false _ (test_of _
        (eval_bin (op := str% "==") _ (by decide) (by decide) ea) rfl)
        (exec_one _ (exec_expr _ ((eval_call1 _ rfl ((eval_call1 _ rfl (eval_str _ _ (unescape_autoMsg u l hl))).trans rfl)).trans rfl))))))).trans rfl

/-! ### Symbols that are loaded -/

theorem eval_rawptr {n : Str} {i : Nat} (h : rtGlued c (str% "GDO_RAWPTR_") n = some (.sym i)) (r : Nat) (m : M St) :
    (Expr.id (.glued (str% "GDO_RAWPTR_") n)).eval (kctx u l L c isFn other lim r) m = .ok (.ofPtr (m.g.ptr i)) m := by
  show (R.of m (rtGlued c (str% "GDO_RAWPTR_") n)).bind (load (rtSem u l L c)) = _
  rw [h]
  rfl

theorem eval_null (r : Nat) (m : M St) (hn : getVar (str% "NULL") (locals m) = none) :
    (Expr.id (.fixed (str% "NULL"))).eval (kctx u l L c isFn other lim r) m = .ok .null m := by
  show (R.of m (place (kctx u l L c isFn other lim r) (.fixed (str% "NULL")) m)).bind (load (rtSem u l L c)) = _
  simp only [place, hn]
  rfl

/-- `... && ...` for all symbols. -/
theorem fold_and (r : Nat) (m : M St) (e : Expr) (P : Nat → Bool)
    (he : ∀ t n i, rtGlued c (str% "GDO_RAWPTR_") n = some (.sym i) →
      (Expr.inst I (symbolValues t n) e).eval (kctx u l L c isFn other lim r) m = .ok (.ofBool (P i)) m) :
    ∀ (rows : List (Str × Str)) (i : Nat) (_ : RowsFrom c i rows) (x : Expr) (b : Bool) (_ : x.eval (kctx u l L c isFn other lim r) m = .ok (.ofBool b) m),
      ((rows.map fun r => symbolValues r.1 r.2).foldl (fun x v => .bin (str% "&&") x (Expr.inst I v e)) x).eval (kctx u l L c isFn other lim r) m =
        .ok (.ofBool (b && (List.range rows.length).all fun j => P (i + j))) m := by
  intro rows
  induction rows with
  | nil =>
    intro i _ x b h
    simp [h]
  | cons y t ih =>
    intro i hr x b h
    rw [List.map_cons, List.foldl_cons]
    rw [ih (i + 1) hr.2.2 _ (b && P i)]
    · simp only [List.length_cons, List.range_succ_eq_map, List.all_cons, List.all_map, Nat.add_zero, Bool.and_assoc]
      have : ((fun j => P (i + j)) ∘ Nat.succ) = fun j => P (i + 1 + j) := by
        funext j
        show P (i + (j + 1)) = _
        rw [show i + (j + 1) = i + 1 + j by omega]
      rw [this]
    · rw [eval_and _ h, he _ _ _ hr.1]
      cases b
      · rfl
      · cases P i <;> rfl

/-- `... || ...` for all symbols. -/
theorem fold_or (r : Nat) (m : M St) (e : Expr) (P : Nat → Bool)
    (he : ∀ t n i, rtGlued c (str% "GDO_RAWPTR_") n = some (.sym i) →
      (Expr.inst I (symbolValues t n) e).eval (kctx u l L c isFn other lim r) m = .ok (.ofBool (P i)) m) :
    ∀ (rows : List (Str × Str)) (i : Nat) (_ : RowsFrom c i rows) (x : Expr) (b : Bool) (_ : x.eval (kctx u l L c isFn other lim r) m = .ok (.ofBool b) m),
      ((rows.map fun r => symbolValues r.1 r.2).foldl (fun x v => .bin (str% "||") x (Expr.inst I v e)) x).eval (kctx u l L c isFn other lim r) m =
        .ok (.ofBool (b || (List.range rows.length).any fun j => P (i + j))) m := by
  intro rows
  induction rows with
  | nil =>
    intro i _ x b h
    simp [h]
  | cons y t ih =>
    intro i hr x b h
    rw [List.map_cons, List.foldl_cons]
    rw [ih (i + 1) hr.2.2 _ (b || P i)]
    · simp only [List.length_cons, List.range_succ_eq_map, List.any_cons, List.any_map, Nat.add_zero, Bool.or_assoc]
      have : ((fun j => P (i + j)) ∘ Nat.succ) = fun j => P (i + 1 + j) := by
        funext j
        show P (i + (j + 1)) = _
        rw [show i + (j + 1) = i + 1 + j by omega]
      rw [this]
    · rw [eval_or _ h, he _ _ _ hr.1]
      cases b
      · cases P i <;> rfl
      · rfl

theorem run_all_symbols_loaded {rows : List (Str × Str)} (h : Rows I c rows) (s : St) (fr : List Frame) :
    ((fnOf C.gdo_all_symbols_loaded).inst I).call (kctx u l L c isFn other lim 0) [] ⟨s, fr⟩ = okB (allLoaded c s, s) fr := by
  have e := fold_and u l L c isFn other lim I 0 ⟨s, ⟨str% "gdo_all_symbols_loaded", []⟩ :: fr⟩
    (.bin (str% "!=") (.id (.hole (str% "GDO_RAWPTR_") (str% "symbol"))) (.id (.fixed (str% "NULL")))) (fun i => (s.ptr i).isSome)
    (fun t n i hi => by
      refine (eval_bin _ (by decide) (by decide) (eval_rawptr u l L c isFn other lim hi 0 _)).trans ?_
      show R.of _ (binary (str% "!=") (V.ofPtr (s.ptr i)) .null) = _
      cases s.ptr i <;> rfl) rows 0 h.from (.id (.fixed (str% "true"))) true rfl
  rw [← h.insts, h.length] at e
  rw [show (true && (List.range c.syms.length).all fun j => (s.ptr (0 + j)).isSome) = allLoaded c s by simp [allLoaded]] at e
  cases hb : allLoaded c s with
  | true =>
    rw [hb] at e
    have e2 := if1_true _ (a := [.ret (some (.id (.fixed (str% "true"))))]) (fl := .ret (.int 1)) (m2 := ⟨s, ⟨str% "gdo_all_symbols_loaded", []⟩ :: fr⟩) (test_of _ e rfl) rfl
    exact call_of _ (F := ⟨str% "gdo_all_symbols_loaded", []⟩) rfl rfl rfl rfl (exec_ret _ e2)
  | false =>
    rw [hb] at e
    exact call_of _ (F := ⟨str% "gdo_all_symbols_loaded", []⟩) rfl rfl rfl rfl (exec_next _ (if1_false _ (test_of _ e rfl)))

theorem run_no_symbols_loaded {rows : List (Str × Str)} (h : Rows I c rows) (s : St) (fr : List Frame) :
    ((fnOf C.gdo_no_symbols_loaded).inst I).call (kctx u l L c isFn other lim 0) [] ⟨s, fr⟩ = okB (noneLoaded c s, s) fr := by
  have e := fold_and u l L c isFn other lim I 0 ⟨s, ⟨str% "gdo_no_symbols_loaded", []⟩ :: fr⟩
    (.bin (str% "==") (.id (.hole (str% "GDO_RAWPTR_") (str% "symbol"))) (.id (.fixed (str% "NULL")))) (fun i => (s.ptr i).isNone)
    (fun t n i hi => by
      refine (eval_bin _ (by decide) (by decide) (eval_rawptr u l L c isFn other lim hi 0 _)).trans ?_
      show R.of _ (binary (str% "==") (V.ofPtr (s.ptr i)) .null) = _
      cases s.ptr i <;> rfl) rows 0 h.from (.id (.fixed (str% "true"))) true rfl
  rw [← h.insts, h.length] at e
  rw [show (true && (List.range c.syms.length).all fun j => (s.ptr (0 + j)).isNone) = noneLoaded c s by simp [noneLoaded]] at e
  cases hb : noneLoaded c s with
  | true =>
    rw [hb] at e
    have e2 := if1_true _ (a := [.ret (some (.id (.fixed (str% "true"))))]) (fl := .ret (.int 1)) (m2 := ⟨s, ⟨str% "gdo_no_symbols_loaded", []⟩ :: fr⟩) (test_of _ e rfl) rfl
    exact call_of _ (F := ⟨str% "gdo_no_symbols_loaded", []⟩) rfl rfl rfl rfl (exec_ret _ e2)
  | false =>
    rw [hb] at e
    exact call_of _ (F := ⟨str% "gdo_no_symbols_loaded", []⟩) rfl rfl rfl rfl (exec_next _ (if1_false _ (test_of _ e rfl)))

theorem run_any_symbol_loaded {rows : List (Str × Str)} (h : Rows I c rows) (s : St) (fr : List Frame) :
    ((fnOf C.gdo_any_symbol_loaded).inst I).call (kctx u l L c isFn other lim 0) [] ⟨s, fr⟩ = okB (anyLoaded c s, s) fr := by
  have e := fold_or u l L c isFn other lim I 0 ⟨s, ⟨str% "gdo_any_symbol_loaded", []⟩ :: fr⟩
    (.bin (str% "!=") (.id (.hole (str% "GDO_RAWPTR_") (str% "symbol"))) (.id (.fixed (str% "NULL")))) (fun i => (s.ptr i).isSome)
    (fun t n i hi => by
      refine (eval_bin _ (by decide) (by decide) (eval_rawptr u l L c isFn other lim hi 0 _)).trans ?_
      show R.of _ (binary (str% "!=") (V.ofPtr (s.ptr i)) .null) = _
      cases s.ptr i <;> rfl) rows 0 h.from (.id (.fixed (str% "false"))) false rfl
  rw [← h.insts, h.length] at e
  rw [show (false || (List.range c.syms.length).any fun j => (s.ptr (0 + j)).isSome) = anyLoaded c s by simp [anyLoaded]] at e
  cases hb : anyLoaded c s with
  | true =>
    rw [hb] at e
    have e2 := if1_true _ (a := [.ret (some (.id (.fixed (str% "true"))))]) (fl := .ret (.int 1)) (m2 := ⟨s, ⟨str% "gdo_any_symbol_loaded", []⟩ :: fr⟩) (test_of _ e rfl) rfl
    exact call_of _ (F := ⟨str% "gdo_any_symbol_loaded", []⟩) rfl rfl rfl rfl (exec_ret _ e2)
  | false =>
    rw [hb] at e
    exact call_of _ (F := ⟨str% "gdo_any_symbol_loaded", []⟩) rfl rfl rfl rfl (exec_next _ (if1_false _ (test_of _ e rfl)))

/-! ### Loading symbols -/

/-- `GDO_RAWPTR_... = (...)_gdo_sym("...", _T("..."))` -/
def symExpr : Expr :=
  .assign (.id (.hole (str% "GDO_RAWPTR_") (str% "symbol"))) (.cast [.text (.hole [] (str% "sym_type"))]
    (.call (.fixed (str% "_gdo_sym")) [.str (.hole (str% "") (str% "symbol")), .call (.fixed (str% "_T")) [.str (.hole (str% "") (str% "symbol"))]]))

theorem gdoSym_handle (h : Ptr) (n : Str) (s : St) : (gdoSym L h n s).2.handle = s.handle := by
  unfold gdoSym saveError saveToErrbuf
  dsimp only
  split
  · rfl
  · split <;> rfl

theorem eval_symExpr {t n : Str} {i : Nat} (hi : rtGlued c (str% "GDO_RAWPTR_") n = some (.sym i)) (h : Ptr) (s : St) (hs : s.handle = some h)
    (fr : List Frame) :
    (symExpr.inst I (symbolValues t n)).eval (kctx u l L c isFn other lim 3) ⟨s, fr⟩ =
      .ok (.ofPtr (gdoSym L h n s).1) ⟨setPtr i (gdoSym L h n s).1 (gdoSym L h n s).2, fr⟩ := by
  have e : (symExpr.inst I (symbolValues t n)).eval (kctx u l L c isFn other lim 3) ⟨s, fr⟩ =
      (R.of ⟨s, fr⟩ (rtGlued c (str% "GDO_RAWPTR_") n)).bind fun lv m => (knownCall L c 3 other (str% "_gdo_sym") [.str n, .str n] m).bind fun v m =>
        store (rtSem u l L c) lv v m := rfl
  have e2 : knownCall L c 3 other (str% "_gdo_sym") [.str n, .str n] ⟨s, fr⟩ = .ok (.ofPtr (gdoSym L h n s).1) ⟨(gdoSym L h n s).2, fr⟩ := by
    obtain ⟨handle, p, q, eb, reg, clock, de, log, hd, se⟩ := s
    cases hs
    rfl
  rw [e, hi]
  simp only [R.of, R.bind]
  rw [e2]
  show store (rtSem u l L c) (.sym i) (.ofPtr (gdoSym L h n s).1) ⟨(gdoSym L h n s).2, fr⟩ = _
  cases (gdoSym L h n s).1 <;> rfl

theorem run_loadLoop (h : Ptr) (f : Str) (fr : List Frame) :
    ∀ (rows : List (Str × Str)) (i : Nat) (_ : RowsFrom c i rows) (s : St) (_ : s.handle = some h),
      Stmt.execAll (kctx u l L c isFn other lim 3) ((rows.map fun r => symbolValues r.1 r.2).flatMap fun v => Stmt.instAll I v
        [.if1 (.bin (str% "==") (.paren symExpr) (.id (.fixed (str% "NULL")))) [.ret (some (.id (.fixed (str% "false"))))]]) ⟨s, ⟨f, []⟩ :: fr⟩ =
      .ok (if (loadLoop L h i (rows.map (·.2)) s).1 then .next else .ret (.int 0)) ⟨(loadLoop L h i (rows.map (·.2)) s).2, ⟨f, []⟩ :: fr⟩ := by
  intro rows
  induction rows with
  | nil => intro i _ s _; rfl
  | cons y t ih =>
    intro i hr s hs
    rw [List.map_cons, List.flatMap_cons]
    have e1 := eval_symExpr u l L c isFn other lim I (t := y.1) hr.1 h s hs (⟨f, []⟩ :: fr)
    have e2 : (Expr.paren (symExpr.inst I (symbolValues y.1 y.2))).eval (kctx u l L c isFn other lim 3) ⟨s, ⟨f, []⟩ :: fr⟩ = _ := e1
    have e3 := eval_bin (op := str% "==") _ (b := .id (.fixed (str% "NULL"))) (by decide) (by decide) e2
    cases ha : (gdoSym L h y.2 s).1 with
    | none =>
      rw [ha] at e3
      have e4 := if1_true _ (a := [.ret (some (.id (.fixed (str% "false"))))]) (fl := .ret (.int 0))
        (m2 := ⟨setPtr i none (gdoSym L h y.2 s).2, ⟨f, []⟩ :: fr⟩) (test_of _ e3 rfl) rfl
      refine (execAll_ret _ _ (exec_one _ e4)).trans ?_
      simp only [List.map_cons, loadLoop, ha]
      rfl
    | some p =>
      rw [ha] at e3
      have e4 := if1_false _ (a := [.ret (some (.id (.fixed (str% "false"))))]) (test_of _ e3 rfl)
      refine (execAll_next _ _ (exec_one _ e4)).trans ?_
      rw [ih (i + 1) hr.2.2 (setPtr i (some p) (gdoSym L h y.2 s).2) ((gdoSym_handle L h y.2 s).trans hs)]
      simp only [List.map_cons, loadLoop, ha]
      rfl

theorem run_load_all_symbols {rows : List (Str × Str)} (h : Rows I c rows) (s : St) (fr : List Frame) :
    ((fnOf C.gdo_load_all_symbols).inst I).call (kctx u l L c isFn other lim 3) [] ⟨s, fr⟩ = okB (loadAllSymbols L c s) fr := by
  have hb : ((fnOf C.gdo_load_all_symbols).inst I).body = ((fnOf C.gdo_load_all_symbols).inst I).body.take 3 ++
      ((I .symbol).flatMap (fun v => Stmt.instAll I v [.if1 (.bin (str% "==") (.paren symExpr) (.id (.fixed (str% "NULL")))) [.ret (some (.id (.fixed (str% "false"))))]]) ++
        [.ret (some (.id (.fixed (str% "true"))))]) := rfl
  have e1 : Stmt.execAll (kctx u l L c isFn other lim 3) (((fnOf C.gdo_load_all_symbols).inst I).body.take 3)
      ⟨s, ⟨str% "gdo_load_all_symbols", []⟩ :: fr⟩ =
      if allLoaded c (clearError s) then .ok (.ret (.int 1)) ⟨clearError s, ⟨str% "gdo_load_all_symbols", []⟩ :: fr⟩
      else if libIsLoaded s then .ok .next ⟨clearError s, ⟨str% "gdo_load_all_symbols", []⟩ :: fr⟩
      else .ok (.ret (.int 0)) ⟨noLibrary (clearError s), ⟨str% "gdo_load_all_symbols", []⟩ :: fr⟩ := by
    have e : Stmt.execAll (kctx u l L c isFn other lim 3) (((fnOf C.gdo_load_all_symbols).inst I).body.take 3)
        ⟨s, ⟨str% "gdo_load_all_symbols", []⟩ :: fr⟩ =
        Stmt.execAll (kctx u l L c isFn other lim 3) ((((fnOf C.gdo_load_all_symbols).inst I).body.take 3).drop 1)
        ⟨clearError s, ⟨str% "gdo_load_all_symbols", []⟩ :: fr⟩ := rfl
    rw [e]
    have et : (Expr.call (.fixed (str% "gdo_all_symbols_loaded")) []).eval (kctx u l L c isFn other lim 3) ⟨clearError s, ⟨str% "gdo_load_all_symbols", []⟩ :: fr⟩ =
      .ok (.ofBool (allLoaded c (clearError s))) ⟨clearError s, ⟨str% "gdo_load_all_symbols", []⟩ :: fr⟩ := rfl
    cases hl : allLoaded c (clearError s) with
    | true =>
      rw [hl] at et
      have e2 := if1_true _ (a := [.ret (some (.id (.fixed (str% "true"))))]) (fl := .ret (.int 1))
        (m2 := ⟨clearError s, ⟨str% "gdo_load_all_symbols", []⟩ :: fr⟩) (test_of _ et rfl) rfl
      exact exec_ret _ e2
    | false =>
      rw [hl] at et
      have e2 := if1_false _ (a := [.ret (some (.id (.fixed (str% "true"))))]) (test_of _ et rfl)
      refine (exec_next _ e2).trans ?_
      obtain ⟨handle, p, q, eb, reg, clock, de, log, hd, se⟩ := s
      cases handle <;> rfl
  unfold loadAllSymbols
  dsimp only
  cases hl : allLoaded c (clearError s) with
  | true =>
    rw [hl, if_pos rfl] at e1
    exact call_of _ hb rfl rfl rfl (execAll_ret _ _ e1)
  | false =>
    rw [hl, if_neg (by simp)] at e1
    cases hs : s.handle with
    | none =>
      rw [if_neg (by simp [libIsLoaded, hs])] at e1
      have : (clearError s).handle = none := hs
      rw [if_neg (by simp), this]
      exact call_of _ hb rfl rfl rfl (execAll_ret _ _ e1)
    | some x =>
      rw [if_pos (by simp [libIsLoaded, hs])] at e1
      have hc : (clearError s).handle = some x := hs
      rw [if_neg (by simp), hc]
      have e2 := run_loadLoop u l L c isFn other lim I x (str% "gdo_load_all_symbols") fr rows 0 h.from (clearError s) hc
      rw [h.names, ← h.insts] at e2
      show _ = okB (loadLoop L x 0 c.syms (clearError s)) fr
      unfold okB
      cases hr : (loadLoop L x 0 c.syms (clearError s)).1 with
      | true =>
        rw [hr, if_pos rfl] at e2
        exact call_of _ (F := ⟨str% "gdo_load_all_symbols", []⟩) hb rfl rfl rfl ((execAll_next _ _ e1).trans (execAll_next _ _ e2))
      | false =>
        rw [hr, if_neg (by simp)] at e2
        exact call_of _ (F := ⟨str% "gdo_load_all_symbols", []⟩) hb rfl rfl rfl ((execAll_next _ _ e1).trans (execAll_ret _ _ e2))

/-! ### Loading one symbol -/

/-- The statements for one symbol in `gdo_load_symbol` and `gdo_load_symbol_name`. -/
def oneStmts : List Stmt :=
  [.if1 (.un (str% "!") (.id (.hole (str% "GDO_RAWPTR_") (str% "symbol")))) [.expr symExpr],
    .ret (some (.paren (.bin (str% "!=") (.id (.hole (str% "GDO_RAWPTR_") (str% "symbol"))) (.id (.fixed (str% "NULL"))))))]

theorem run_one {t n : Str} {i : Nat} (hi : rtGlued c (str% "GDO_RAWPTR_") n = some (.sym i)) (h : Ptr) (s : St) (hs : s.handle = some h)
    (f : Str) (vars : List (Str × Option V)) (hv : getVar (str% "NULL") vars = none) (fr : List Frame) (rest : List Stmt) :
    Stmt.execAll (kctx u l L c isFn other lim 3) (Stmt.instAll I (symbolValues t n) oneStmts ++ rest) ⟨s, ⟨f, vars⟩ :: fr⟩ =
      .ok (.ret (.ofBool (loadOne L h i n s).1)) ⟨(loadOne L h i n s).2, ⟨f, vars⟩ :: fr⟩ := by
  have hleave : ∀ s : St, leave vars.length ⟨s, ⟨f, vars⟩ :: fr⟩ = ⟨s, ⟨f, vars⟩ :: fr⟩ := by
    intro s
    simp [leave]
  have e1 := eval_rawptr u l L c isFn other lim hi 3 ⟨s, ⟨f, vars⟩ :: fr⟩
  have last : ∀ s : St, (Stmt.ret (some (.paren (.bin (str% "!=") (.id (.glued (str% "GDO_RAWPTR_") n)) (.id (.fixed (str% "NULL"))))))).exec
      (kctx u l L c isFn other lim 3) ⟨s, ⟨f, vars⟩ :: fr⟩ = .ok (.ret (.ofBool (s.ptr i).isSome)) ⟨s, ⟨f, vars⟩ :: fr⟩ := by
    intro s
    have e := eval_bin (op := str% "!=") _ (b := .id (.fixed (str% "NULL"))) (by decide) (by decide) (eval_rawptr u l L c isFn other lim hi 3 ⟨s, ⟨f, vars⟩ :: fr⟩)
    rw [eval_null u l L c isFn other lim 3 ⟨s, ⟨f, vars⟩ :: fr⟩ hv] at e
    show ((Expr.bin (str% "!=") (.id (.glued (str% "GDO_RAWPTR_") n)) (.id (.fixed (str% "NULL")))).eval
      (kctx u l L c isFn other lim 3) ⟨s, ⟨f, vars⟩ :: fr⟩).bind _ = _
    rw [e]
    show (R.of _ (binary (str% "!=") (V.ofPtr (s.ptr i)) .null)).bind _ = _
    cases s.ptr i <;> rfl
  have e2 : (Expr.un (str% "!") (.id (.glued (str% "GDO_RAWPTR_") n))).eval (kctx u l L c isFn other lim 3) ⟨s, ⟨f, vars⟩ :: fr⟩ =
      .ok (.ofBool (s.ptr i).isNone) ⟨s, ⟨f, vars⟩ :: fr⟩ := by
    show ((Expr.id (.glued (str% "GDO_RAWPTR_") n)).eval (kctx u l L c isFn other lim 3) ⟨s, ⟨f, vars⟩ :: fr⟩).bind _ = _
    rw [e1]
    show R.of _ ((V.ofPtr (s.ptr i)).truth.map fun b => V.ofBool !b) = _
    cases s.ptr i <;> rfl
  unfold loadOne
  cases hp : s.ptr i with
  | some p =>
    rw [hp] at e2
    have e3 := if1_false _ (a := [.expr (symExpr.inst I (symbolValues t n))]) (test_of _ e2 rfl)
    refine (exec_next _ e3).trans ?_
    have := exec_ret _ (r := rest) (last s)
    rw [hp] at this
    exact this
  | none =>
    rw [hp] at e2
    have e3 := if1_true _ (test_of _ e2 rfl) (exec_one _ (exec_expr _ (eval_symExpr u l L c isFn other lim I (t := t) hi h s hs (⟨f, vars⟩ :: fr))))
    rw [show (locals (⟨s, ⟨f, vars⟩ :: fr⟩ : M St)).length = vars.length from rfl, hleave] at e3
    refine (exec_next _ e3).trans ?_
    have := exec_ret _ (r := rest) (last (setPtr i (gdoSym L h n s).1 (gdoSym L h n s).2))
    refine this.trans ?_
    simp [setPtr]

theorem sys_unknown_num (n : Int) (m : M St) :
    sysSnprintf rtText [.buf (str% "errbuf"), .str (str% "unknown symbol number: %d"), .int n] m =
      .ok (.int ((str% "unknown symbol number: " ++ showInt n).length)) { m with g := { m.g with errbuf := fit (str% "unknown symbol number: " ++ showInt n) } } := by
  have : format (rtText m.g) (str% "unknown symbol number: %d") [.int n] = some (str% "unknown symbol number: " ++ showInt n) := by
    simp [format]
  have hb : rtBuf (str% "errbuf") = true ∧ V.buf (str% "errbuf") ∉ [V.int n] := ⟨by decide, by simp⟩
  simp only [sysSnprintf, if_pos hb, this]
  rfl

/-- The statements behind a label. -/
theorem run_switch (h : Ptr) (num : Int) (f : Str) (vars : List (Str × Option V)) (hv : getVar (str% "NULL") vars = none) (fr : List Frame) (s : St)
    (hs : s.handle = some h) (rest : List Stmt) (hrest : Stmt.execFrom (kctx u l L c isFn other lim 3)
      (isCase (kctx u l L c isFn other lim 3) (.int num) ⟨s, ⟨f, vars⟩ :: fr⟩) rest ⟨s, ⟨f, vars⟩ :: fr⟩ = none) :
    ∀ (rows : List (Str × Str)) (i : Nat) (_ : RowsFrom c i rows),
      Stmt.execFrom (kctx u l L c isFn other lim 3) (isCase (kctx u l L c isFn other lim 3) (.int num) ⟨s, ⟨f, vars⟩ :: fr⟩)
        (((rows.map fun r => symbolValues r.1 r.2).flatMap fun v => Stmt.instAll I v (.case (.id (.hole (str% "GDO_LOAD_") (str% "symbol"))) :: oneStmts)) ++ rest)
        ⟨s, ⟨f, vars⟩ :: fr⟩ =
      if (i : Int) ≤ num then (rows[(num - i).toNat]?).map fun r =>
        .ok (.ret (.ofBool (loadOne L h num.toNat r.2 s).1)) ⟨(loadOne L h num.toNat r.2 s).2, ⟨f, vars⟩ :: fr⟩
      else none := by
  intro rows
  induction rows with
  | nil => intro i _; simp [hrest]
  | cons y t ih =>
    intro i hr
    rw [List.map_cons, List.flatMap_cons, List.append_assoc]
    have hc : isCase (kctx u l L c isFn other lim 3) (.int num) ⟨s, ⟨f, vars⟩ :: fr⟩ (.case (.id (.glued (str% "GDO_LOAD_") y.2))) = decide (num = i) := by
      show (match rtGlued c (str% "GDO_LOAD_") y.2 with
        | some (.val w) => decide (V.int num = w)
        | _ => false) = _
      rw [hr.2.1]
      simp
    have e : ∀ X, Stmt.execFrom (kctx u l L c isFn other lim 3) (isCase (kctx u l L c isFn other lim 3) (.int num) ⟨s, ⟨f, vars⟩ :: fr⟩)
        (Stmt.instAll I (symbolValues y.1 y.2) (.case (.id (.hole (str% "GDO_LOAD_") (str% "symbol"))) :: oneStmts) ++ X) ⟨s, ⟨f, vars⟩ :: fr⟩ =
        if isCase (kctx u l L c isFn other lim 3) (.int num) ⟨s, ⟨f, vars⟩ :: fr⟩ (.case (.id (.glued (str% "GDO_LOAD_") y.2))) then
          some (Stmt.execAll (kctx u l L c isFn other lim 3) (Stmt.instAll I (symbolValues y.1 y.2) oneStmts ++ X) ⟨s, ⟨f, vars⟩ :: fr⟩)
        else Stmt.execFrom (kctx u l L c isFn other lim 3) (isCase (kctx u l L c isFn other lim 3) (.int num) ⟨s, ⟨f, vars⟩ :: fr⟩) X ⟨s, ⟨f, vars⟩ :: fr⟩ :=
      fun X => rfl
    rw [e, hc]
    by_cases hn : num = i
    · subst hn
      rw [if_pos (by simp), run_one u l L c isFn other lim I hr.1 h s hs f vars hv fr, if_pos (by simp)]
      simp
    · rw [if_neg (by simp [hn]), ih (i + 1) hr.2.2]
      by_cases hlt : (i : Int) ≤ num
      · rw [if_pos hlt, if_pos (by omega)]
        have : (num - i).toNat = (num - (i + 1 : Nat)).toNat + 1 := by omega
        rw [this, List.getElem?_cons_succ]
      · rw [if_neg hlt, if_neg (by omega)]

theorem run_default (r : Nat) (m : M St) : ∀ (rows : List (Str × Str)),
    Stmt.execFrom (kctx u l L c isFn other lim r) isDefault
      (((rows.map fun r => symbolValues r.1 r.2).flatMap fun v => Stmt.instAll I v (.case (.id (.hole (str% "GDO_LOAD_") (str% "symbol"))) :: oneStmts)) ++
        [.default, .brk]) m = some (.ok .brk m) := by
  intro rows
  induction rows with
  | nil => rfl
  | cons y t ih =>
    rw [List.map_cons, List.flatMap_cons, List.append_assoc]
    exact ih

theorem Rows.get {I : Insts} {c : Cfg} {rows : List (Str × Str)} (h : Rows I c rows) (n : Nat) : c.syms[n]? = (rows[n]?).map (·.2) := by
  rw [← h.names, List.getElem?_map]

theorem run_load_symbol {rows : List (Str × Str)} (h : Rows I c rows) (num : Int) (s : St) (fr : List Frame) :
    ((fnOf C.gdo_load_symbol).inst I).call (kctx u l L c isFn other lim 3) [.int num] ⟨s, fr⟩ = okB (loadSymbol L c num s) fr := by
  cases hs : s.handle with
  | none =>
    obtain ⟨handle, p, q, eb, reg, clock, de, log, hd, se⟩ := s
    cases hs
    rfl
  | some x =>
    have hc : (clearError s).handle = some x := hs
    have e1 : Stmt.execAll (kctx u l L c isFn other lim 3) (((fnOf C.gdo_load_symbol).inst I).body)
        ⟨s, ⟨str% "gdo_load_symbol", [(str% "symbol_num", some (.int num))]⟩ :: fr⟩ =
        Stmt.execAll (kctx u l L c isFn other lim 3) (((fnOf C.gdo_load_symbol).inst I).body.drop 2)
        ⟨clearError s, ⟨str% "gdo_load_symbol", [(str% "symbol_num", some (.int num))]⟩ :: fr⟩ := by
      obtain ⟨handle, p, q, eb, reg, clock, de, log, hd, se⟩ := s
      cases hs
      rfl
    have e2 : ∀ m : M St, m = ⟨clearError s, ⟨str% "gdo_load_symbol", [(str% "symbol_num", some (.int num))]⟩ :: fr⟩ →
        Stmt.execAll (kctx u l L c isFn other lim 3) (((fnOf C.gdo_load_symbol).inst I).body.drop 2) m =
        ((block (fun m => ((Stmt.execFrom (kctx u l L c isFn other lim 3) (isCase (kctx u l L c isFn other lim 3) (.int num) m)
            (((I .symbol).flatMap fun v => Stmt.instAll I v (.case (.id (.hole (str% "GDO_LOAD_") (str% "symbol"))) :: oneStmts)) ++ [.default, .brk]) m).getD
            ((Stmt.execFrom (kctx u l L c isFn other lim 3) isDefault
              (((I .symbol).flatMap fun v => Stmt.instAll I v (.case (.id (.hole (str% "GDO_LOAD_") (str% "symbol"))) :: oneStmts)) ++ [.default, .brk]) m).getD
                (.ok .next m)))) m).bind fun fl m =>
          match fl with
          | .brk => .ok .next m
          | fl => .ok fl m).bind fun fl m =>
            match fl with
            | .next => Stmt.execAll (kctx u l L c isFn other lim 3) (((fnOf C.gdo_load_symbol).inst I).body.drop 3) m
            | fl => .ok fl m := by
      rintro m rfl
      rfl
    have e2 := e2 _ rfl
    rw [h.insts] at e2
    have e3 := run_switch u l L c isFn other lim I x num (str% "gdo_load_symbol") [(str% "symbol_num", some (.int num))] rfl fr (clearError s) hc
      [.default, .brk] rfl rows 0 h.from
    have e4 := run_default u l L c isFn other lim I 3 ⟨clearError s, ⟨str% "gdo_load_symbol", [(str% "symbol_num", some (.int num))]⟩ :: fr⟩ rows
    simp only [block] at e2
    rw [e3, e4] at e2
    have fail : Stmt.execAll (kctx u l L c isFn other lim 3) (((fnOf C.gdo_load_symbol).inst I).body.drop 3)
        ⟨clearError s, ⟨str% "gdo_load_symbol", [(str% "symbol_num", some (.int num))]⟩ :: fr⟩ =
        .ok (.ret (.int 0)) ⟨{ clearError s with errbuf := fit (str% "unknown symbol number: " ++ showInt num) },
          ⟨str% "gdo_load_symbol", [(str% "symbol_num", some (.int num))]⟩ :: fr⟩ := by
      have e : Stmt.execAll (kctx u l L c isFn other lim 3) (((fnOf C.gdo_load_symbol).inst I).body.drop 3)
          ⟨clearError s, ⟨str% "gdo_load_symbol", [(str% "symbol_num", some (.int num))]⟩ :: fr⟩ =
          ((sysSnprintf rtText [.buf (str% "errbuf"), .str (str% "unknown symbol number: %d"), .int num]
            ⟨clearError s, ⟨str% "gdo_load_symbol", [(str% "symbol_num", some (.int num))]⟩ :: fr⟩).bind fun _ m => .ok Flow.next m).bind fun fl m =>
              match fl with
              | Flow.next => Stmt.execAll (kctx u l L c isFn other lim 3) (((fnOf C.gdo_load_symbol).inst I).body.drop 5) m
              | fl => .ok fl m := rfl
      rw [e, sys_unknown_num]
      rfl
    have em : loadSymbol L c num s = (match caseOf c num with
        | some (i, name) => loadOne L x i name (clearError s)
        | none => (false, { clearError s with errbuf := fit (str% "unknown symbol number: " ++ showInt num) })) := by
      obtain ⟨handle, p, q, eb, reg, clock, de, log, hd, se⟩ := s
      cases hs
      rfl
    rw [em]
    have done : ∀ o : Option (Str × Str), rows[num.toNat]? = o → (0 ≤ num) → okB (match caseOf c num with
        | some (i, name) => loadOne L x i name (clearError s)
        | none => (false, { clearError s with errbuf := fit (str% "unknown symbol number: " ++ showInt num) })) fr =
        okB (match o with
        | some r => loadOne L x num.toNat r.2 (clearError s)
        | none => (false, { clearError s with errbuf := fit (str% "unknown symbol number: " ++ showInt num) })) fr := by
      intro o ho h0
      cases num with
      | ofNat n =>
        have ho : rows[n]? = o := ho
        unfold caseOf
        dsimp only
        rw [h.get, ho]
        cases o <;> rfl
      | negSucc n => omega
    by_cases h0 : 0 ≤ num
    · refine Eq.trans ?_ (done _ rfl h0).symm
      rw [if_pos (by simpa using h0)] at e2
      simp only [Int.cast_ofNat_Int, Int.sub_zero] at e2
      cases hr : rows[num.toNat]? with
      | some r =>
        rw [hr] at e2
        exact call_of _ (F := ⟨str% "gdo_load_symbol", [(str% "symbol_num", some (.int num))]⟩) rfl rfl rfl rfl (e1.trans e2)
      | none =>
        rw [hr] at e2
        exact call_of _ (F := ⟨str% "gdo_load_symbol", [(str% "symbol_num", some (.int num))]⟩) rfl rfl rfl rfl (e1.trans (e2.trans fail))
    · have : caseOf c num = none := by
        cases num with
        | ofNat n => exact absurd (Int.natCast_nonneg n) h0
        | negSucc n => rfl
      rw [this]
      rw [if_neg (by simpa using h0)] at e2
      exact call_of _ (F := ⟨str% "gdo_load_symbol", [(str% "symbol_num", some (.int num))]⟩) rfl rfl rfl rfl (e1.trans (e2.trans fail))

end

end Gdo.Cc
