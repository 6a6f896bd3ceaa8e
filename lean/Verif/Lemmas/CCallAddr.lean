import Verif.Lemmas.CCallPath

/-!
Lemmas: what the functions of the generated C code do that find the path of the library
with `dladdr`, and `gdo_library_path`.
-/

set_option maxRecDepth 10000

namespace Gdo.Cc
open Gdo Tmpl Rt Rename

theorem frame_second (G F : Frame) (fr : List Frame) : getFrame fr.length (G :: F :: fr) = some F := by
  simp [getFrame]

theorem storeVar_second {x : Str} {v : V} {F : Frame} {vs : List (Str × Option V)} (h : setVar x v F.vars = some vs) (s : St) (G : Frame) (fr : List Frame) :
    storeVar fr.length x v ⟨s, G :: F :: fr⟩ = .ok v ⟨s, G :: { F with vars := vs } :: fr⟩ := by
  unfold storeVar
  dsimp only
  rw [frame_second]
  simp only [Option.bind_some, h, Option.map_some, setFrame, List.length_cons]
  simp

theorem loadVar_second {x : Str} {v : V} {F : Frame} (h : getVar x F.vars = some (some v)) (hv : ∀ t, v ≠ .arr t) (s : St) (G : Frame) (fr : List Frame) :
    loadVar fr.length x ⟨s, G :: F :: fr⟩ = .ok v ⟨s, G :: F :: fr⟩ := by
  unfold loadVar
  dsimp only
  rw [frame_second]
  simp only [Option.bind_some, h]
  cases v <;> first | rfl | exact absurd rfl (hv _)

theorem getVar_setVar {x : Str} {v : V} : ∀ {vs ws : List (Str × Option V)}, setVar x v vs = some ws → getVar x ws = some (some v)
  | [], _, h => by cases h
  | p :: r, ws, h => by
    unfold setVar at h
    by_cases hp : p.1 = x
    · rw [if_pos hp] at h
      cases h
      simp [getVar]
    · rw [if_neg hp] at h
      cases hr : setVar x v r with
      | none => rw [hr] at h; cases h
      | some t =>
        rw [hr] at h
        cases h
        simp only [getVar, if_neg hp]
        exact getVar_setVar hr

theorem setVar_setVar {x : Str} {v w : V} : ∀ {vs ws : List (Str × Option V)}, setVar x v vs = some ws → setVar x w ws = setVar x w vs
  | [], _, h => by cases h
  | p :: r, ws, h => by
    unfold setVar at h
    by_cases hp : p.1 = x
    · rw [if_pos hp] at h
      cases h
      simp [setVar, hp]
    · rw [if_neg hp] at h
      cases hr : setVar x v r with
      | none => rw [hr] at h; cases h
      | some t =>
        rw [hr] at h
        cases h
        simp only [setVar, if_neg hp]
        rw [setVar_setVar hr]

theorem setVar_some {x : Str} {v w : V} : ∀ {vs ws : List (Str × Option V)}, setVar x v vs = some ws → ∃ us, setVar x w vs = some us
  | [], _, h => by cases h
  | p :: r, ws, h => by
    unfold setVar at h ⊢
    by_cases hp : p.1 = x
    · rw [if_pos hp]
      exact ⟨_, rfl⟩
    · rw [if_neg hp] at h ⊢
      cases hr : setVar x v r with
      | none => rw [hr] at h; cases h
      | some t =>
        obtain ⟨us, e⟩ := setVar_some (w := w) hr
        rw [e]
        exact ⟨_, rfl⟩

theorem eval_and_truth {K : Ctx St} {a b : Expr} {m m1 : M St} {v : V} {x : Bool} (ha : a.eval K m = .ok v m1) (hv : v.truth = some x) :
    (Expr.bin (str% "&&") a b).eval K m =
      if x then (b.eval K m1).bind fun y m => (R.of m y.truth).bind fun y m => .ok (.ofBool y) m else .ok (.ofBool false) m1 := by
  have : (Expr.bin (str% "&&") a b).eval K m = (a.eval K m).bind fun x m => (R.of m x.truth).bind fun x m =>
        if x = false then .ok (.ofBool x) m
        else (b.eval K m).bind fun y m => (R.of m y.truth).bind fun y m => .ok (.ofBool y) m := rfl
  rw [this, ha]
  simp only [R.bind, hv, R.of]
  cases x <;> rfl

theorem eval_call2 {K : Ctx St} {f : Str} {a b : Expr} {m m1 m2 : M St} {v w : V} (hi : K.S.ignored f = false) (ha : a.eval K m = .ok v m1)
    (hb : b.eval K m1 = .ok w m2) : (Expr.call (.fixed f) [a, b]).eval K m = K.call f [v, w] m2 := by
  simp [Expr.eval, Expr.evalAll, hi, ha, hb, R.bind]

theorem eval_assign {K : Ctx St} {a b : Expr} {m m1 m2 : M St} {lv : Lv} {v : V} (ha : a.lval K m = .ok lv m1) (hb : b.eval K m1 = .ok v m2) :
    (Expr.assign a b).eval K m = store K.S lv v m2 := by
  simp [Expr.eval, ha, hb, R.bind]

theorem eval_arrow {K : Ctx St} {e : Expr} {f : Str} {m m1 : M St} {d : Nat} {x : Str} (he : e.eval K m = .ok (.loc d x) m1) :
    (Expr.arrow e f).eval K m = loadVar d (fieldOf x f) m1 := by
  simp [Expr.eval, he, R.bind, arrowOf, R.of, load]

/-- A function that changes the variables of the function that calls it. -/
theorem call_to {K : Ctx St} {f : Fn} {args : List V} {vars : List (Str × Option V)} {g g' : St} {fr fr' : List Frame} {F : Frame} {v : V} {body : List Stmt} {fn : Str}
    (hb : f.body = body) (hf : f.name = fn) (hl : args.length = f.params.length) (hv : (f.params.zip args).map (fun p => (p.1.2, some p.2)) = vars)
    (h : Stmt.execAll K body ⟨g, ⟨fn, vars⟩ :: fr⟩ = .ok (.ret v) ⟨g', F :: fr'⟩) : f.call K args ⟨g, fr⟩ = .ok v ⟨g', fr'⟩ := by
  subst hb hv hf
  unfold Fn.call
  rw [if_pos hl, h]
  rfl

section
variable (u l : Str) (L : Loader) (c : Cfg) (isFn : Str → Bool) (other : Str → List V → M St → R St V) (lim : Nat) (I : Insts)

/-- The frame of `_gdo_call_dladdr`. -/
def dlaFrame (v : V) (d : Nat) (x : Str) : Frame := ⟨str% "_gdo_call_dladdr", [(str% "addr", some v), (str% "info", some (.loc d x))]⟩

/-- `_gdo_call_dladdr` with the address of a variable of the function that calls it. -/
theorem run_call_dladdr_null (x : Str) (s : St) (F : Frame) (fr : List Frame) (vs : List (Str × Option V))
    (h : setVar (fieldOf x (str% "dli_fname")) .null F.vars = some vs) :
    ((fnOf C.fn_gdo_call_dladdr).inst I).call (kctx u l L c isFn other lim 0) [.null, .loc fr.length x] ⟨s, F :: fr⟩ =
      .ok (.int 0) ⟨s, { F with vars := vs } :: fr⟩ := by
  refine call_to (F := dlaFrame .null fr.length x) rfl rfl rfl rfl ?_
  have e1 : (Expr.assign (.arrow (.id (.fixed (str% "info"))) (str% "dli_fname")) (.id (.fixed (str% "NULL")))).eval (kctx u l L c isFn other lim 0)
      ⟨s, dlaFrame .null fr.length x :: F :: fr⟩ = storeVar fr.length (fieldOf x (str% "dli_fname")) .null ⟨s, dlaFrame .null fr.length x :: F :: fr⟩ := rfl
  rw [storeVar_second h] at e1
  exact (exec_next _ (exec_expr _ e1)).trans rfl

theorem run_call_dladdr_ptr (p : Ptr) (x : Str) (s : St) (F : Frame) (fr : List Frame) (vs : List (Str × Option V))
    (h : setVar (fieldOf x (str% "dli_fname")) (.ofStr (L.dladdr s.clock p)) F.vars = some vs) :
    ((fnOf C.fn_gdo_call_dladdr).inst I).call (kctx u l L c isFn other lim 0) [.ptr p, .loc fr.length x] ⟨s, F :: fr⟩ =
      .ok (.ofBool (((L.dladdr s.clock p).getD []) ≠ [])) ⟨{ s with clock := s.clock + 1 }, { F with vars := vs } :: fr⟩ := by
  obtain ⟨ws, hw⟩ := setVar_some (w := .null) h
  refine call_to (F := dlaFrame (.ptr p) fr.length x) rfl rfl rfl rfl ?_
  have e1 : (Expr.assign (.arrow (.id (.fixed (str% "info"))) (str% "dli_fname")) (.id (.fixed (str% "NULL")))).eval (kctx u l L c isFn other lim 0)
      ⟨s, dlaFrame (.ptr p) fr.length x :: F :: fr⟩ = storeVar fr.length (fieldOf x (str% "dli_fname")) .null ⟨s, dlaFrame (.ptr p) fr.length x :: F :: fr⟩ := rfl
  rw [storeVar_second hw] at e1
  refine (exec_next _ (exec_expr _ e1)).trans (exec_ret _ (ret_of ?_))
  have e2 : (Expr.call (.fixed (str% "dladdr")) [.id (.fixed (str% "addr")), .id (.fixed (str% "info"))]).eval (kctx u l L c isFn other lim 0)
      ⟨s, dlaFrame (.ptr p) fr.length x :: { F with vars := ws } :: fr⟩ =
      match L.dladdr s.clock p with
      | none => .ok (.int 0) ⟨{ s with clock := s.clock + 1 }, dlaFrame (.ptr p) fr.length x :: { F with vars := ws } :: fr⟩
      | some f => (storeVar fr.length (fieldOf x (str% "dli_fname")) (.str f)
          ⟨{ s with clock := s.clock + 1 }, dlaFrame (.ptr p) fr.length x :: { F with vars := ws } :: fr⟩).bind fun _ m => .ok (.int 1) m := rfl
  have e3 : ∀ b, (Expr.bin (str% "&&") (.id (.fixed (str% "addr"))) b).eval (kctx u l L c isFn other lim 0)
      ⟨s, dlaFrame (.ptr p) fr.length x :: { F with vars := ws } :: fr⟩ = _ := fun b => eval_and_truth (b := b) (v := .ptr p) (x := true) rfl rfl
  have arrow : ∀ (t : St) (us : List (Str × Option V)) (v : V), getVar (fieldOf x (str% "dli_fname")) us = some (some v) → (∀ t, v ≠ .arr t) →
      (Expr.arrow (.id (.fixed (str% "info"))) (str% "dli_fname")).eval (kctx u l L c isFn other lim 0)
        ⟨t, dlaFrame (.ptr p) fr.length x :: { F with vars := us } :: fr⟩ = .ok v ⟨t, dlaFrame (.ptr p) fr.length x :: { F with vars := us } :: fr⟩ := by
    intro t us v hg hv
    exact (eval_arrow (K := kctx u l L c isFn other lim 0) rfl).trans (loadVar_second (F := { F with vars := us }) hg hv t _ fr)
  cases ha : L.dladdr s.clock p with
  | none =>
    rw [ha] at h e2
    have : ws = vs := by
      have : some ws = some vs := hw.symm.trans h
      simpa using this
    subst this
    have e4 := eval_bin (op := str% "!=") _ (b := .id (.fixed (str% "0"))) (by decide) (by decide) e2
    have e5 := (e3 (.bin (str% "!=") (.call (.fixed (str% "dladdr")) [.id (.fixed (str% "addr")), .id (.fixed (str% "info"))]) (.id (.fixed (str% "0")))))
    rw [e4] at e5
    have e6 := eval_and_truth (b := .arrow (.id (.fixed (str% "info"))) (str% "dli_fname")) (x := false) e5 rfl
    exact (eval_and_truth (x := false) e6 rfl).trans rfl
  | some f =>
    rw [ha] at h e2
    have h2 : setVar (fieldOf x (str% "dli_fname")) (.str f) ({ F with vars := ws } : Frame).vars = some vs := (setVar_setVar hw).trans h
    dsimp only at e2
    rw [storeVar_second h2] at e2
    have e4 := eval_bin (op := str% "!=") _ (b := .id (.fixed (str% "0"))) (by decide) (by decide) e2
    have e5 := (e3 (.bin (str% "!=") (.call (.fixed (str% "dladdr")) [.id (.fixed (str% "addr")), .id (.fixed (str% "info"))]) (.id (.fixed (str% "0")))))
    rw [e4] at e5
    have a1 := arrow { s with clock := s.clock + 1 } vs (.str f) (getVar_setVar h) (by simp)
    have e6 := eval_and_truth (b := .arrow (.id (.fixed (str% "info"))) (str% "dli_fname")) (x := true) e5 rfl
    rw [if_pos rfl, a1] at e6
    have e7 := eval_and_truth (b := .bin (str% "!=") (.index (.arrow (.id (.fixed (str% "info"))) (str% "dli_fname")) (.id (.fixed (str% "0")))) (.id (.fixed (str% "0"))))
      (x := true) e6 rfl
    have e8 : (Expr.index (.arrow (.id (.fixed (str% "info"))) (str% "dli_fname")) (.id (.fixed (str% "0")))).eval (kctx u l L c isFn other lim 0)
        ⟨{ s with clock := s.clock + 1 }, dlaFrame (.ptr p) fr.length x :: { F with vars := vs } :: fr⟩ =
        R.bind ((Expr.arrow (.id (.fixed (str% "info"))) (str% "dli_fname")).eval (kctx u l L c isFn other lim 0)
        ⟨{ s with clock := s.clock + 1 }, dlaFrame (.ptr p) fr.length x :: { F with vars := vs } :: fr⟩) fun a m =>
        (((.id (.fixed (str% "0"))) : Expr).eval (kctx u l L c isFn other lim 0) m).bind fun b m => (R.of m (indexOf (rtSem u l L c) a b)).bind (load (rtSem u l L c)) := rfl
    rw [a1] at e8
    cases f with
    | nil =>
      have e9 := eval_bin (op := str% "!=") _ (b := .id (.fixed (str% "0"))) (by decide) (by decide) (e8.trans rfl)
      rw [if_pos rfl, e9] at e7
      exact e7
    | cons d t =>
      have e9 := eval_bin (op := str% "!=") _ (b := .id (.fixed (str% "0"))) (by decide) (by decide) (e8.trans rfl)
      rw [if_pos rfl, e9] at e7
      exact e7

/-- The frame of `_gdo_libpath_dladdr`, with the name that `dladdr` returned. -/
def addrFrame (w : Option V) : Frame :=
  ⟨str% "_gdo_libpath_dladdr", [(str% "info", none), (str% "info.dli_fname", w), (str% "path", some .null)]⟩

/-- `_gdo_call_dladdr((void *)GDO_RAWPTR_..., &info)` -/
def addrExpr : Expr :=
  .call (.fixed (str% "_gdo_call_dladdr")) [.cast [.word (.fixed (str% "void")), .punct (str% "*")] (.id (.hole (str% "GDO_RAWPTR_") (str% "symbol"))),
    .un (str% "&") (.id (.fixed (str% "info")))]

theorem eval_addrExpr (hc : c.haveDladdr = true) {t n : Str} {i : Nat} (hi : rtGlued c (str% "GDO_RAWPTR_") n = some (.sym i)) (s : St) (w : Option V) (fr : List Frame) :
    (addrExpr.inst I (symbolValues t n)).eval (kctx u l L c isFn other lim 2) ⟨s, addrFrame w :: fr⟩ =
      match s.ptr i with
      | none => .ok (.int 0) ⟨s, addrFrame (some .null) :: fr⟩
      | some p => .ok (.ofBool (((L.dladdr s.clock p).getD []) ≠ [])) ⟨{ s with clock := s.clock + 1 }, addrFrame (some (.ofStr (L.dladdr s.clock p))) :: fr⟩ := by
  have e1 : (Expr.cast [.word (.fixed (str% "void")), .punct (str% "*")] (.id (.glued (str% "GDO_RAWPTR_") n))).eval (kctx u l L c isFn other lim 2)
      ⟨s, addrFrame w :: fr⟩ = .ok (.ofPtr (s.ptr i)) ⟨s, addrFrame w :: fr⟩ := eval_rawptr u l L c isFn other lim hi 2 _
  have e2 : (Expr.un (str% "&") (.id (.fixed (str% "info")))).eval (kctx u l L c isFn other lim 2) ⟨s, addrFrame w :: fr⟩ =
      .ok (.loc fr.length (str% "info")) ⟨s, addrFrame w :: fr⟩ := rfl
  have e3 := eval_call2 (K := kctx u l L c isFn other lim 2) (f := str% "_gdo_call_dladdr") rfl e1 e2
  refine e3.trans ?_
  have e4 : ∀ v, (kctx u l L c isFn other lim 2).call (str% "_gdo_call_dladdr") [v, .loc fr.length (str% "info")] ⟨s, addrFrame w :: fr⟩ =
      ((match v with
        | .null => if c.haveDladdr = true ∧ fr.length = fr.length then
          (setVar (str% "info.dli_fname") .null (addrFrame w).vars).map fun vs => R.ok (V.int 0) ⟨s, { addrFrame w with vars := vs } :: fr⟩ else none
        | .ptr p => if c.haveDladdr = true ∧ fr.length = fr.length then
          (setVar (str% "info.dli_fname") (.ofStr (L.dladdr s.clock p)) (addrFrame w).vars).map fun vs =>
            .ok (.ofBool (((L.dladdr s.clock p).getD []) ≠ [])) ⟨{ s with clock := s.clock + 1 }, { addrFrame w with vars := vs } :: fr⟩ else none
        | _ => none) : Option (R St V)).getD (other (str% "_gdo_call_dladdr") [v, .loc fr.length (str% "info")] ⟨s, addrFrame w :: fr⟩) := by
    intro v
    cases v <;> rfl
  rw [e4]
  cases s.ptr i with
  | none =>
    simp only [V.ofPtr, hc, true_and, if_pos]
    rfl
  | some p =>
    simp only [V.ofPtr, hc, true_and, if_pos]
    rfl

/-- The pointers of the symbols from number `i` on. -/
def ptrsFrom (s : St) : Nat → Nat → List (Option Ptr)
  | _, 0 => []
  | i, n + 1 => s.ptr i :: ptrsFrom s (i + 1) n

theorem ptrsFrom_eq (s : St) : ∀ n i, ptrsFrom s i n = (List.range n).map fun j => s.ptr (i + j)
  | 0, _ => rfl
  | n + 1, i => by
    rw [ptrsFrom, ptrsFrom_eq s n (i + 1), List.range_succ_eq_map, List.map_cons, List.map_map]
    congr 1
    apply List.map_congr_left
    intro j _
    show s.ptr (i + 1 + j) = s.ptr (i + (j + 1))
    rw [show i + 1 + j = i + (j + 1) by omega]

theorem fold_dladdr (hc : c.haveDladdr = true) (s : St) (m0 : M St) (fr : List Frame) :
    ∀ (rows : List (Str × Str)) (i : Nat) (_ : RowsFrom c i rows) (x : Expr) (b : Bool) (t : Nat) (w : Option V)
      (_ : x.eval (kctx u l L c isFn other lim 2) m0 = .ok (.ofBool b) ⟨{ s with clock := t }, addrFrame w :: fr⟩),
      ∃ w', ((rows.map fun r => symbolValues r.1 r.2).foldl (fun x v => .bin (str% "||") x (Expr.inst I v addrExpr)) x).eval (kctx u l L c isFn other lim 2) m0 =
        .ok (.ofBool (b || (firstDladdr L t (ptrsFrom s i rows.length)).1.isSome))
          ⟨{ s with clock := if b then t else (firstDladdr L t (ptrsFrom s i rows.length)).2 }, addrFrame w' :: fr⟩ ∧
        (b = true → w' = w) ∧ (b = false → ∀ p, (firstDladdr L t (ptrsFrom s i rows.length)).1 = some p → w' = some (.str p)) := by
  intro rows
  induction rows with
  | nil =>
    intro i _ x b t w h
    refine ⟨w, ?_, fun _ => rfl, fun _ p hp => by cases hp⟩
    show x.eval (kctx u l L c isFn other lim 2) m0 = _
    rw [h]
    cases b <;> rfl
  | cons y r ih =>
    intro i hr x b t w h
    have e1 := eval_or _ (b := addrExpr.inst I (symbolValues y.1 y.2)) h
    cases b with
    | true =>
      rw [if_pos rfl] at e1
      obtain ⟨w', e2, h1, _⟩ := ih (i + 1) hr.2.2 _ true t w e1
      exact ⟨w', e2, h1, by simp⟩
    | false =>
      rw [if_neg (by simp), eval_addrExpr u l L c isFn other lim I hc hr.1] at e1
      show ∃ w', _ ∧ _ ∧ (_ → ∀ p, (firstDladdr L t (s.ptr i :: ptrsFrom s (i + 1) r.length)).1 = some p → _)
      cases hp : s.ptr i with
      | none =>
        have hp' : ({ s with clock := t } : St).ptr i = none := hp
        rw [hp'] at e1
        obtain ⟨w', e2, h1, h2⟩ := ih (i + 1) hr.2.2 _ false t (some .null) e1
        refine ⟨w', ?_, by simp, h2⟩
        refine e2.trans ?_
        simp only [List.length_cons, ptrsFrom, hp]
        rfl
      | some p =>
        have hp' : ({ s with clock := t } : St).ptr i = some p := hp
        rw [hp'] at e1
        dsimp only at e1
        by_cases hd : ((L.dladdr t p).getD []) = []
        · have e1' : (Expr.bin (str% "||") x (addrExpr.inst I (symbolValues y.1 y.2))).eval (kctx u l L c isFn other lim 2) m0 =
              .ok (.ofBool false) ⟨{ s with clock := t + 1 }, addrFrame (some (.ofStr (L.dladdr t p))) :: fr⟩ := by
            rw [e1, decide_eq_false (by simp [hd])]
            rfl
          obtain ⟨w', e2, h1, h2⟩ := ih (i + 1) hr.2.2 _ false (t + 1) _ e1'
          refine ⟨w', ?_, by simp, ?_⟩
          · refine e2.trans ?_
            simp only [List.length_cons, ptrsFrom, hp, firstDladdr, if_pos hd]
            rfl
          · simp only [firstDladdr, if_pos hd]
            exact fun _ => h2 rfl
        · have e1' : (Expr.bin (str% "||") x (addrExpr.inst I (symbolValues y.1 y.2))).eval (kctx u l L c isFn other lim 2) m0 =
              .ok (.ofBool true) ⟨{ s with clock := t + 1 }, addrFrame (some (.ofStr (L.dladdr t p))) :: fr⟩ := by
            rw [e1, decide_eq_true hd]
            rfl
          obtain ⟨w', e2, h1, h2⟩ := ih (i + 1) hr.2.2 _ true (t + 1) _ e1'
          refine ⟨w', ?_, by simp, ?_⟩
          · refine e2.trans ?_
            simp only [List.length_cons, ptrsFrom, hp, firstDladdr, if_neg hd]
            have : (L.dladdr t p).isSome = true := by
              cases hq : L.dladdr t p with
              | none => rw [hq] at hd; exact absurd rfl hd
              | some _ => rfl
            simp [this]
          · simp only [firstDladdr, if_neg hd]
            intro _ q hq
            rw [h1 rfl, hq]
            rfl

/-- The frame with the path that was found. -/
def pathFrame (w : Option V) (v : V) : Frame :=
  ⟨str% "_gdo_libpath_dladdr", [(str% "info", none), (str% "info.dli_fname", w), (str% "path", some v)]⟩

/-- The end of the function: the path is copied. -/
theorem run_addrCopy (p : Str) (w : Option V) (s : St) (fr : List Frame) :
    Stmt.execAll (kctx u l L c isFn other lim 2) (((fnOf C.fn_gdo_libpath_dladdr).inst I).body.drop 5) ⟨s, pathFrame w (.str p) :: fr⟩ =
      if p.length + 1 > bufLen then
        .ok (.ret (.int 0)) ⟨s, lenFrame (str% "_gdo_libpath_dladdr") p (pathFrame w (.str p)).vars :: fr⟩
      else .ok (.ret (.int 1)) ⟨{ s with libpath := p, log := s.log ++ [.path p] },
        lenFrame (str% "_gdo_libpath_dladdr") p (pathFrame w (.str p)).vars :: fr⟩ := by
  have e1 : Stmt.execAll (kctx u l L c isFn other lim 2) (((fnOf C.fn_gdo_libpath_dladdr).inst I).body.drop 5) ⟨s, pathFrame w (.str p) :: fr⟩ =
      Stmt.execAll (kctx u l L c isFn other lim 2) (((fnOf C.fn_gdo_libpath_dladdr).inst I).body.drop 7)
        ⟨s, lenFrame (str% "_gdo_libpath_dladdr") p (pathFrame w (.str p)).vars :: fr⟩ := rfl
  have e2 : (Expr.bin (str% ">") (.id (.fixed (str% "len"))) (.id (.fixed (str% "GDO_BUFLEN")))).eval (kctx u l L c isFn other lim 2)
      ⟨s, lenFrame (str% "_gdo_libpath_dladdr") p (pathFrame w (.str p)).vars :: fr⟩ =
      .ok (.ofBool (decide ((bufLen : Int) < p.length + 1))) ⟨s, lenFrame (str% "_gdo_libpath_dladdr") p (pathFrame w (.str p)).vars :: fr⟩ := rfl
  by_cases hb : p.length + 1 > bufLen
  · rw [decide_eq_true (by omega)] at e2
    rw [if_pos hb]
    exact e1.trans (exec_ret _ (if1_true _ (a := [.ret (some (.id (.fixed (str% "false"))))]) (fl := .ret (.int 0))
      (m2 := ⟨s, lenFrame (str% "_gdo_libpath_dladdr") p (pathFrame w (.str p)).vars :: fr⟩) (test_of _ e2 rfl) rfl))
  · rw [decide_eq_false (by omega)] at e2
    rw [if_neg hb]
    refine e1.trans ((exec_next _ (if1_false _ (test_of _ e2 rfl))).trans ?_)
    have e3 : (Expr.call (.fixed (str% "memcpy")) [.field (.id (.fixed (str% "gdo_hndl"))) (str% "libpath"), .id (.fixed (str% "path")),
        .id (.fixed (str% "len"))]).eval (kctx u l L c isFn other lim 2)
        ⟨s, lenFrame (str% "_gdo_libpath_dladdr") p (pathFrame w (.str p)).vars :: fr⟩ =
        sysMemcpy [.buf (str% "libpath"), .str p, .int (p.length + 1)] ⟨s, lenFrame (str% "_gdo_libpath_dladdr") p (pathFrame w (.str p)).vars :: fr⟩ := rfl
    rw [sys_copy p hb] at e3
    exact (exec_next _ (exec_expr _ e3)).trans rfl

theorem run_libpath_dladdr (hc : c.haveDladdr = true) {rows : List (Str × Str)} (h : Rows I c rows) (s : St) (fr : List Frame) :
    ((fnOf C.fn_gdo_libpath_dladdr).inst I).call (kctx u l L c isFn other lim 2) [] ⟨s, fr⟩ = okB (libpathDladdr L c s) fr := by
  have e0 : Stmt.execAll (kctx u l L c isFn other lim 2) ((fnOf C.fn_gdo_libpath_dladdr).inst I).body ⟨s, ⟨str% "_gdo_libpath_dladdr", []⟩ :: fr⟩ =
      Stmt.execAll (kctx u l L c isFn other lim 2) (((fnOf C.fn_gdo_libpath_dladdr).inst I).body.drop 3) ⟨clearError s, addrFrame none :: fr⟩ := rfl
  have e1 : (Expr.call (.fixed (str% "gdo_no_symbols_loaded")) []).eval (kctx u l L c isFn other lim 2) ⟨clearError s, addrFrame none :: fr⟩ =
      .ok (.ofBool (noneLoaded c (clearError s))) ⟨clearError s, addrFrame none :: fr⟩ := rfl
  unfold libpathDladdr
  dsimp only
  generalize clearError s = s1 at *
  cases hn : noneLoaded c s1 with
  | true =>
    rw [hn] at e1
    rw [if_pos rfl]
    have e2 := if1_true _ (a := [.expr (.call (.fixed (str% "_gdo_save_to_errbuf")) [.str (.fixed (str% "no symbols were loaded"))]), .ret (some (.id (.fixed (str% "false"))))])
      (fl := .ret (.int 0)) (m2 := ⟨saveToErrbuf (some (str% "no symbols were loaded")) s1, addrFrame none :: fr⟩) (test_of _ e1 rfl) rfl
    exact call_of _ (F := addrFrame none) rfl rfl rfl rfl (e0.trans (exec_ret _ e2))
  | false =>
    rw [hn] at e1
    rw [if_neg (by simp)]
    have e2 := if1_false _ (a := [.expr (.call (.fixed (str% "_gdo_save_to_errbuf")) [.str (.fixed (str% "no symbols were loaded"))]), .ret (some (.id (.fixed (str% "false"))))])
      (test_of _ e1 rfl)
    have e3 := e0.trans (exec_next _ e2)
    obtain ⟨w', e4, _, hw⟩ := fold_dladdr u l L c isFn other lim I hc s1 ⟨s1, addrFrame none :: fr⟩ fr rows 0 h.from (.id (.fixed (str% "false"))) false s1.clock none rfl
    have hw := hw rfl
    rw [← h.insts] at e4
    rw [ptrsFrom_eq, h.length] at e4 hw
    have hz : ((List.range c.syms.length).map fun j => s1.ptr (0 + j)) = (List.range c.syms.length).map s1.ptr := by simp
    rw [hz] at e4 hw
    rw [if_neg (by simp), Bool.false_or] at e4
    cases ha : (firstDladdr L s1.clock ((List.range c.syms.length).map s1.ptr)).1 with
    | none =>
      rw [ha] at e4
      have e5 := if1_false _ (a := [.expr (.assign (.id (.fixed (str% "path"))) (.field (.id (.fixed (str% "info"))) (str% "dli_fname")))]) (test_of _ e4 rfl)
      exact call_of _ (F := addrFrame w') rfl rfl rfl rfl (e3.trans ((exec_next _ e5).trans rfl))
    | some p =>
      rw [ha] at e4
      have hw := hw p ha
      subst hw
      have e5 := if1_true _ (a := [.expr (.assign (.id (.fixed (str% "path"))) (.field (.id (.fixed (str% "info"))) (str% "dli_fname")))]) (fl := .next)
        (m2 := ⟨{ s1 with clock := (firstDladdr L s1.clock ((List.range c.syms.length).map s1.ptr)).2 }, pathFrame (some (.str p)) (.str p) :: fr⟩) (test_of _ e4 rfl) rfl
      have e6 := run_addrCopy u l L c isFn other lim I p (some (.str p)) { s1 with clock := (firstDladdr L s1.clock ((List.range c.syms.length).map s1.ptr)).2 } fr
      have e7 := e3.trans ((exec_next _ e5).trans e6)
      dsimp only
      by_cases hb : p.length + 1 > bufLen
      · rw [if_pos hb] at e7
        rw [if_pos hb]
        exact call_of _ rfl rfl rfl rfl e7
      · rw [if_neg hb] at e7
        rw [if_neg hb]
        exact call_of _ rfl rfl rfl rfl e7

/-! ### `gdo_library_path` -/

/-- What `gdo_library_path` returns. -/
def okPath (r : Option Str × St) (fr : List Frame) : R St V :=
  .ok (match r.1 with
    | some _ => .buf (str% "libpath")
    | none => .null) ⟨r.2, fr⟩

theorem eval_libpath_dlinfo (hc : c.haveDlinfo = true) (h : Ptr) (s : St) (hs : s.handle = some h) (fr : List Frame) :
    (Expr.call (.fixed (str% "_gdo_libpath_dlinfo")) []).eval (kctx u l L c isFn other lim 3) ⟨s, fr⟩ = okB (libpathDlinfo L c h s) fr := by
  obtain ⟨handle, p, q, eb, reg, clock, de, log, hd, se⟩ := s
  cases hs
  have : (Expr.call (.fixed (str% "_gdo_libpath_dlinfo")) []).eval (kctx u l L c isFn other lim 3) ⟨⟨some h, p, q, eb, reg, clock, de, log, hd, se⟩, fr⟩ =
      (if c.haveDlinfo then some (okB (libpathDlinfo L c h ⟨some h, p, q, eb, reg, clock, de, log, hd, se⟩) fr) else none).getD
        (other (str% "_gdo_libpath_dlinfo") [] ⟨⟨some h, p, q, eb, reg, clock, de, log, hd, se⟩, fr⟩) := rfl
  rw [this, if_pos hc]
  rfl

theorem eval_libpath_dladdr (hc : c.haveDladdr = true) (s : St) (fr : List Frame) :
    (Expr.call (.fixed (str% "_gdo_libpath_dladdr")) []).eval (kctx u l L c isFn other lim 3) ⟨s, fr⟩ = okB (libpathDladdr L c s) fr := by
  have : (Expr.call (.fixed (str% "_gdo_libpath_dladdr")) []).eval (kctx u l L c isFn other lim 3) ⟨s, fr⟩ =
      (if c.haveDladdr then some (okB (libpathDladdr L c s) fr) else none).getD (other (str% "_gdo_libpath_dladdr") [] ⟨s, fr⟩) := rfl
  rw [this, if_pos hc]
  rfl

/-- The statements for one way to find the path. -/
theorem run_pathTry {f : Str} {r : Bool × St} {s : St} {F : Frame} {fr : List Frame} {rest : List Stmt} (hF : F.vars = [])
    (h : (Expr.call (.fixed f) []).eval (kctx u l L c isFn other lim 3) ⟨s, F :: fr⟩ = okB r (F :: fr)) :
    Stmt.execAll (kctx u l L c isFn other lim 3) (.if1 (.call (.fixed f) []) [.ret (some (.field (.id (.fixed (str% "gdo_hndl"))) (str% "libpath")))] :: rest) ⟨s, F :: fr⟩ =
      if r.1 then .ok (.ret (.buf (str% "libpath"))) ⟨r.2, F :: fr⟩ else Stmt.execAll (kctx u l L c isFn other lim 3) rest ⟨r.2, F :: fr⟩ := by
  obtain ⟨fn, vars⟩ := F
  cases hF
  have ht := test_of _ h (truth_ofBool r.1)
  cases hb : r.1 with
  | true =>
    rw [hb] at ht
    have e := if1_true _ (a := [.ret (some (.field (.id (.fixed (str% "gdo_hndl"))) (str% "libpath")))]) (fl := .ret (.buf (str% "libpath")))
      (m2 := ⟨r.2, ⟨fn, []⟩ :: fr⟩) ht rfl
    exact exec_ret _ e
  | false =>
    rw [hb] at ht
    exact exec_next _ (if1_false _ ht)

/-- The end of `gdo_library_path`. -/
theorem run_pathEnd (s : St) (fr : List Frame) :
    ∃ F, Stmt.execAll (kctx u l L c isFn other lim 3)
      ((if c.haveDladdr then [.if1 (.call (.fixed (str% "_gdo_libpath_dladdr")) []) [.ret (some (.field (.id (.fixed (str% "gdo_hndl"))) (str% "libpath")))]] else []) ++
        [.expr (.assign (.index (.field (.id (.fixed (str% "gdo_hndl"))) (str% "libpath")) (.id (.fixed (str% "0")))) (.id (.fixed (str% "0")))),
          .ret (some (.id (.fixed (str% "NULL"))))]) ⟨s, ⟨str% "gdo_library_path", []⟩ :: fr⟩ =
      .ok (.ret (match (libraryPathDladdr L c s).1 with
        | some _ => .buf (str% "libpath")
        | none => .null)) ⟨(libraryPathDladdr L c s).2, F :: fr⟩ := by
  refine ⟨⟨str% "gdo_library_path", []⟩, ?_⟩
  unfold libraryPathDladdr
  cases hc : c.haveDladdr with
  | false => rfl
  | true =>
    rw [if_pos rfl, if_pos rfl]
    refine (run_pathTry u l L c isFn other lim rfl (eval_libpath_dladdr u l L c isFn other lim hc s _)).trans ?_
    dsimp only
    cases (libpathDladdr L c s).1 with
    | true => rfl
    | false => rfl

theorem run_library_path (s : St) (fr : List Frame) :
    ((fnOf (C.gdo_library_path c.haveDladdr c.haveDlinfo false false)).inst I).call (kctx u l L c isFn other lim 3) [] ⟨s, fr⟩ = okPath (libraryPath L c s) fr := by
  by_cases h0 : c.haveDlinfo = false ∧ c.haveDladdr = false
  · have em : libraryPath L c s = (none, saveToErrbuf (some (str% "function not implemented")) (clearError s)) := by
      unfold libraryPath
      rw [if_pos h0]
    rw [em, h0.1, h0.2]
    rfl
  · have e1 : ∀ a i, ¬(i = false ∧ a = false) → Stmt.execAll (kctx u l L c isFn other lim 3) ((fnOf (C.gdo_library_path a i false false)).inst I).body
        ⟨s, ⟨str% "gdo_library_path", []⟩ :: fr⟩ =
        Stmt.execAll (kctx u l L c isFn other lim 3) (((fnOf (C.gdo_library_path a i false false)).inst I).body.drop 1)
        ⟨clearError s, ⟨str% "gdo_library_path", []⟩ :: fr⟩ := by
      intro a i _
      cases a <;> cases i <;> rfl
    have e1 := e1 _ _ h0
    cases hs : s.handle with
    | none =>
      have em : libraryPath L c s = (none, noLibrary (clearError s)) := by
        have : (clearError s).handle = none := hs
        unfold libraryPath
        simp only [if_neg h0, this]
      rw [em]
      have e2 : ∀ a i, ¬(i = false ∧ a = false) → Stmt.execAll (kctx u l L c isFn other lim 3) (((fnOf (C.gdo_library_path a i false false)).inst I).body.drop 1)
          ⟨clearError s, ⟨str% "gdo_library_path", []⟩ :: fr⟩ = .ok (.ret .null) ⟨noLibrary (clearError s), ⟨str% "gdo_library_path", []⟩ :: fr⟩ := by
        intro a i h
        obtain ⟨handle, p, q, eb, reg, clock, de, log, hd, se⟩ := s
        cases hs
        cases a <;> cases i <;> first | rfl | exact absurd ⟨rfl, rfl⟩ h
      exact call_of _ (F := ⟨str% "gdo_library_path", []⟩) rfl rfl rfl rfl (e1.trans (e2 _ _ h0))
    | some x =>
      have hc : (clearError s).handle = some x := hs
      cases hl : s.libpath with
      | cons d t =>
        have em : libraryPath L c s = (some (d :: t), clearError s) := by
          have : (clearError s).libpath = d :: t := hl
          unfold libraryPath
          simp only [if_neg h0, hc, this]
          simp
        rw [em]
        have e2 : ∀ a i, ¬(i = false ∧ a = false) → Stmt.execAll (kctx u l L c isFn other lim 3) (((fnOf (C.gdo_library_path a i false false)).inst I).body.drop 1)
            ⟨clearError s, ⟨str% "gdo_library_path", []⟩ :: fr⟩ = .ok (.ret (.buf (str% "libpath"))) ⟨clearError s, ⟨str% "gdo_library_path", []⟩ :: fr⟩ := by
          intro a i h
          obtain ⟨handle, p, q, eb, reg, clock, de, log, hd, se⟩ := s
          cases hs
          cases hl
          cases a <;> cases i <;> first | rfl | exact absurd ⟨rfl, rfl⟩ h
        exact call_of _ (F := ⟨str% "gdo_library_path", []⟩) rfl rfl rfl rfl (e1.trans (e2 _ _ h0))
      | nil =>
        have em : libraryPath L c s = (if c.haveDlinfo then
            (if (libpathDlinfo L c x (clearError s)).1 then (some (libpathDlinfo L c x (clearError s)).2.libpath, (libpathDlinfo L c x (clearError s)).2)
              else libraryPathDladdr L c (libpathDlinfo L c x (clearError s)).2) else libraryPathDladdr L c (clearError s)) := by
          have : (clearError s).libpath = [] := hl
          unfold libraryPath
          simp only [if_neg h0, hc, this]
          simp
        have e2 : ∀ a i, ¬(i = false ∧ a = false) → Stmt.execAll (kctx u l L c isFn other lim 3) (((fnOf (C.gdo_library_path a i false false)).inst I).body.drop 1)
            ⟨clearError s, ⟨str% "gdo_library_path", []⟩ :: fr⟩ = Stmt.execAll (kctx u l L c isFn other lim 3)
            ((if i then [.if1 (.call (.fixed (str% "_gdo_libpath_dlinfo")) []) [.ret (some (.field (.id (.fixed (str% "gdo_hndl"))) (str% "libpath")))]] else []) ++
            ((if a then [.if1 (.call (.fixed (str% "_gdo_libpath_dladdr")) []) [.ret (some (.field (.id (.fixed (str% "gdo_hndl"))) (str% "libpath")))]] else []) ++
              [.expr (.assign (.index (.field (.id (.fixed (str% "gdo_hndl"))) (str% "libpath")) (.id (.fixed (str% "0")))) (.id (.fixed (str% "0")))),
                .ret (some (.id (.fixed (str% "NULL"))))])) ⟨clearError s, ⟨str% "gdo_library_path", []⟩ :: fr⟩ := by
          intro a i h
          obtain ⟨handle, p, q, eb, reg, clock, de, log, hd, se⟩ := s
          cases hs
          cases hl
          cases a <;> cases i <;> first | rfl | exact absurd ⟨rfl, rfl⟩ h
        have e2 := e1.trans (e2 _ _ h0)
        rw [em]
        cases hi : c.haveDlinfo with
        | false =>
          rw [hi] at e2
          obtain ⟨F, e3⟩ := run_pathEnd u l L c isFn other lim (clearError s) fr
          exact call_of _ (F := F) rfl rfl rfl rfl (e2.trans e3)
        | true =>
          rw [hi] at e2
          have e3 := run_pathTry u l L c isFn other lim (F := ⟨str% "gdo_library_path", []⟩) (fr := fr)
            (rest := ((if c.haveDladdr then [.if1 (.call (.fixed (str% "_gdo_libpath_dladdr")) []) [.ret (some (.field (.id (.fixed (str% "gdo_hndl"))) (str% "libpath")))]] else []) ++
              [.expr (.assign (.index (.field (.id (.fixed (str% "gdo_hndl"))) (str% "libpath")) (.id (.fixed (str% "0")))) (.id (.fixed (str% "0")))),
                .ret (some (.id (.fixed (str% "NULL"))))])) rfl (eval_libpath_dlinfo u l L c isFn other lim hi x (clearError s) hc _)
          have e3 := e2.trans e3
          rw [if_pos rfl]
          cases hr : (libpathDlinfo L c x (clearError s)).1 with
          | true =>
            rw [hr, if_pos rfl] at e3
            exact call_of _ rfl rfl rfl rfl e3
          | false =>
            rw [hr, if_neg (by simp)] at e3
            obtain ⟨F, e4⟩ := run_pathEnd u l L c isFn other lim (libpathDlinfo L c x (clearError s)).2 fr
            exact call_of _ (F := F) rfl rfl rfl rfl (e3.trans e4)

end

end Gdo.Cc
