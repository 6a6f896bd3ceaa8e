import Verif.Spec.CSem

/-!
Lemmas: the execution of parts of code.
-/

namespace Gdo.Cc
open Gdo Tmpl

variable {σ : Type} (K : Ctx σ)

theorem execAll_append (a b : List Stmt) (m : M σ) :
    Stmt.execAll K (a ++ b) m = (Stmt.execAll K a m).bind fun fl m =>
      match fl with
      | .next => Stmt.execAll K b m
      | fl => .ok fl m := by
  induction a generalizing m with
  | nil => simp only [List.nil_append, Stmt.execAll, R.bind]
  | cons x r ih =>
    simp only [List.cons_append, Stmt.execAll]
    cases x.exec K m with
    | ok fl m' => cases fl <;> simp [R.bind, ih]
    | exit | abort | thrown | ub | fuel => rfl

theorem execAll_next {a : List Stmt} {m m' : M σ} (b : List Stmt) (h : Stmt.execAll K a m = .ok .next m') :
    Stmt.execAll K (a ++ b) m = Stmt.execAll K b m' := by
  rw [execAll_append, h]
  rfl

theorem execAll_ret {a : List Stmt} {m m' : M σ} {v : V} (b : List Stmt) (h : Stmt.execAll K a m = .ok (.ret v) m') :
    Stmt.execAll K (a ++ b) m = .ok (.ret v) m' := by
  rw [execAll_append, h]
  rfl

/-- A function whose body is executed up to a `return`. -/
theorem call_of {f : Fn} {args : List V} {vars : List (Str × Option V)} {g g' : σ} {fr : List Frame} {F : Frame} {v : V} {body : List Stmt} {fn : Str}
    (hb : f.body = body) (hf : f.name = fn) (hl : args.length = f.params.length) (hv : (f.params.zip args).map (fun p => (p.1.2, some p.2)) = vars)
    (h : Stmt.execAll K body ⟨g, ⟨fn, vars⟩ :: fr⟩ = .ok (.ret v) ⟨g', F :: fr⟩) : f.call K args ⟨g, fr⟩ = .ok v ⟨g', fr⟩ := by
  subst hb hv hf
  unfold Fn.call
  rw [if_pos hl, h]
  rfl

/-- A function whose body is executed up to its end. -/
theorem call_end {f : Fn} {args : List V} {vars : List (Str × Option V)} {g g' : σ} {fr : List Frame} {F : Frame} {body : List Stmt} {fn : Str}
    (hb : f.body = body) (hf : f.name = fn) (hl : args.length = f.params.length) (hv : (f.params.zip args).map (fun p => (p.1.2, some p.2)) = vars)
    (h : Stmt.execAll K body ⟨g, ⟨fn, vars⟩ :: fr⟩ = .ok .next ⟨g', F :: fr⟩) : f.call K args ⟨g, fr⟩ = .ok .void ⟨g', fr⟩ := by
  subst hb hv hf
  unfold Fn.call
  rw [if_pos hl, h]
  rfl

theorem exec_expr {e : Expr} {m m' : M σ} {v : V} (h : e.eval K m = .ok v m') : (Stmt.expr e).exec K m = .ok .next m' := by
  simp only [Stmt.exec, h, R.bind]

theorem exec_next {s : Stmt} {r : List Stmt} {m m' : M σ} (h : s.exec K m = .ok .next m') : Stmt.execAll K (s :: r) m = Stmt.execAll K r m' := by
  simp only [Stmt.execAll, h, R.bind]

theorem exec_ret {s : Stmt} {r : List Stmt} {m m' : M σ} {v : V} (h : s.exec K m = .ok (.ret v) m') :
    Stmt.execAll K (s :: r) m = .ok (.ret v) m' := by
  simp only [Stmt.execAll, h, R.bind]

theorem exec_one {s : Stmt} {m m' : M σ} {fl : Flow} (h : s.exec K m = .ok fl m') : Stmt.execAll K [s] m = .ok fl m' := by
  simp only [Stmt.execAll, h, R.bind]
  cases fl <;> rfl

theorem test_of {e : Expr} {m m' : M σ} {v : V} {b : Bool} (h : e.eval K m = .ok v m') (hv : v.truth = some b) : e.test K m = .ok b m' := by
  simp only [Expr.test, h, R.bind, hv, R.of]

theorem if1_true {c : Expr} {a : List Stmt} {m m1 m2 : M σ} {fl : Flow} (hc : c.test K m = .ok true m1) (ha : Stmt.execAll K a m1 = .ok fl m2) :
    (Stmt.if1 c a).exec K m = .ok fl (leave (locals m1).length m2) := by
  simp only [Stmt.exec, hc, R.bind, if_true, block, ha]

theorem if1_false {c : Expr} {a : List Stmt} {m m1 : M σ} (hc : c.test K m = .ok false m1) : (Stmt.if1 c a).exec K m = .ok .next m1 := by
  simp only [Stmt.exec, hc, R.bind, Bool.false_eq_true, if_false]

theorem if2_true {c : Expr} {a b : List Stmt} {m m1 m2 : M σ} {fl : Flow} (hc : c.test K m = .ok true m1) (ha : Stmt.execAll K a m1 = .ok fl m2) :
    (Stmt.if2 c a b).exec K m = .ok fl (leave (locals m1).length m2) := by
  simp only [Stmt.exec, hc, R.bind, if_true, block, ha]

theorem if2_false {c : Expr} {a b : List Stmt} {m m1 m2 : M σ} {fl : Flow} (hc : c.test K m = .ok false m1) (hb : Stmt.execAll K b m1 = .ok fl m2) :
    (Stmt.if2 c a b).exec K m = .ok fl (leave (locals m1).length m2) := by
  simp only [Stmt.exec, hc, R.bind, Bool.false_eq_true, if_false, block, hb]

theorem eval_call1 {f : Str} {a : Expr} {m m' : M σ} {v : V} (hi : K.S.ignored f = false) (ha : a.eval K m = .ok v m') :
    (Expr.call (.fixed f) [a]).eval K m = K.call f [v] m' := by
  simp [Expr.eval, Expr.evalAll, hi, ha, R.bind]

theorem eval_bin {op : Str} {a b : Expr} {m m1 : M σ} {v : V} (h1 : op ≠ str% "&&") (h2 : op ≠ str% "||") (ha : a.eval K m = .ok v m1) :
    (Expr.bin op a b).eval K m = (b.eval K m1).bind fun w m => .of m (binary op v w) := by
  simp [Expr.eval, h1, h2, ha, R.bind]

theorem eval_str {s t : Str} (m : M σ) (h : unescape (K.S.lit s) = some t) : (Expr.str (.fixed s)).eval K m = .ok (.str t) m := by
  simp [Expr.eval, h, R.of]

/-- Text without backslashes. -/
theorem unescape_plain : ∀ {s : Str}, '\\' ∉ s → unescape s = some s
  | [], _ => rfl
  | c :: r, h => by
    have hc : c ≠ '\\' := fun e => h (by simp [e])
    have hr := unescape_plain (s := r) (fun e => h (List.mem_cons_of_mem _ e))
    rw [unescape]
    · rw [hr]
      rfl
    · intro _ e _; exact hc e
    · exact hc

theorem truth_ofBool (b : Bool) : (V.ofBool b).truth = some b := by cases b <;> rfl

theorem eval_and {a b : Expr} {m m1 : M σ} {x : Bool} (ha : a.eval K m = .ok (.ofBool x) m1) :
    (Expr.bin (str% "&&") a b).eval K m =
      if x then (b.eval K m1).bind fun y m => (R.of m y.truth).bind fun y m => .ok (.ofBool y) m else .ok (.ofBool false) m1 := by
  have : (Expr.bin (str% "&&") a b).eval K m = (a.eval K m).bind fun x m => (R.of m x.truth).bind fun x m =>
        if x = false then .ok (.ofBool x) m
        else (b.eval K m).bind fun y m => (R.of m y.truth).bind fun y m => .ok (.ofBool y) m := rfl
  rw [this, ha]
  cases x <;> rfl

theorem eval_or {a b : Expr} {m m1 : M σ} {x : Bool} (ha : a.eval K m = .ok (.ofBool x) m1) :
    (Expr.bin (str% "||") a b).eval K m =
      if x then .ok (.ofBool true) m1 else (b.eval K m1).bind fun y m => (R.of m y.truth).bind fun y m => .ok (.ofBool y) m := by
  have : (Expr.bin (str% "||") a b).eval K m = (a.eval K m).bind fun x m => (R.of m x.truth).bind fun x m =>
        if x = true then .ok (.ofBool x) m
        else (b.eval K m).bind fun y m => (R.of m y.truth).bind fun y m => .ok (.ofBool y) m := rfl
  rw [this, ha]
  cases x <;> rfl

end Gdo.Cc
