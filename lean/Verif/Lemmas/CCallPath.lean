import Verif.Lemmas.CCallName

/-!
Lemmas: what the functions of the generated C code do that load the library and its
symbols and that find the path of the library.
-/

set_option maxRecDepth 10000

namespace Gdo.Cc
open Gdo Tmpl Rt Rename

theorem storeVar_top (x : Str) (v : V) (s : σ) (F : Frame) (fr : List Frame) :
    storeVar fr.length x v ⟨s, F :: fr⟩ = storeHere x v ⟨s, F :: fr⟩ := by
  have e1 : getFrame fr.length (F :: fr) = some F := by simp [getFrame]
  unfold storeVar storeHere
  dsimp only
  rw [e1]
  simp only [Option.bind_some]
  cases setVar x v F.vars with
  | none => rfl
  | some vs => simp [setFrame]

theorem ret_of {K : Ctx σ} {e : Expr} {m m' : M σ} {v : V} (h : e.eval K m = .ok v m') : (Stmt.ret (some e)).exec K m = .ok (.ret v) m' := by
  simp only [Stmt.exec, h, R.bind]

section
variable (u l : Str) (L : Loader) (c : Cfg) (isFn : Str → Bool) (other : Str → List V → M St → R St V) (lim : Nat) (I : Insts)

/-! ### The library and its symbols -/

theorem andSymbols_ret (r : Nat) (e : Expr) (x : Bool × St) (m : M St) (F : Frame) (fr : List Frame)
    (he : e.eval (kctx u l L c isFn other lim r) m = .ok (.ofBool x.1) ⟨x.2, F :: fr⟩)
    (ec : (Expr.call (.fixed (str% "gdo_load_all_symbols")) []).eval (kctx u l L c isFn other lim r) ⟨x.2, F :: fr⟩ =
      okB (loadAllSymbols L c x.2) (F :: fr)) :
    (Expr.paren (.bin (str% "&&") e (.call (.fixed (str% "gdo_load_all_symbols")) []))).eval (kctx u l L c isFn other lim r) m =
      .ok (.ofBool (andSymbols L c x).1) ⟨(andSymbols L c x).2, F :: fr⟩ := by
  show (Expr.bin (str% "&&") e (.call (.fixed (str% "gdo_load_all_symbols")) [])).eval (kctx u l L c isFn other lim r) m = _
  rw [eval_and _ he, ec]
  unfold andSymbols
  cases x.1 with
  | false => rfl
  | true =>
    rw [if_pos rfl, if_pos rfl]
    simp only [okB, R.bind, truth_ofBool, R.of]

theorem run_load_lib_name_and_symbols (name : Option Str) (s : St) (fr : List Frame) :
    ((fnOf C.gdo_load_lib_name_and_symbols).inst I).call (kctx u l L c isFn other lim 4) [.ofStr name] ⟨s, fr⟩ =
      okB (andSymbols L c (loadLibName L c name s)) fr := by
  have e := andSymbols_ret u l L c isFn other lim 4 (.call (.fixed (str% "gdo_load_lib_name")) [.id (.fixed (str% "filename"))]) (loadLibName L c name s)
    ⟨s, ⟨str% "gdo_load_lib_name_and_symbols", [(str% "filename", some (.ofStr name))]⟩ :: fr⟩
    ⟨str% "gdo_load_lib_name_and_symbols", [(str% "filename", some (.ofStr name))]⟩ fr (by cases name <;> rfl) rfl
  exact call_of _ (F := ⟨str% "gdo_load_lib_name_and_symbols", [(str% "filename", some (.ofStr name))]⟩) rfl rfl rfl rfl (exec_ret _ (ret_of e))

theorem run_load_lib_and_symbols (s : St) (fr : List Frame) :
    ((fnOf C.gdo_load_lib_and_symbols).inst I).call (kctx u l L c isFn other lim 5) [] ⟨s, fr⟩ = okB (andSymbols L c (loadLib L c s)) fr := by
  have e := andSymbols_ret u l L c isFn other lim 5 (.call (.fixed (str% "gdo_load_lib")) []) (loadLib L c s)
    ⟨s, ⟨str% "gdo_load_lib_and_symbols", []⟩ :: fr⟩ ⟨str% "gdo_load_lib_and_symbols", []⟩ fr rfl rfl
  exact call_of _ (F := ⟨str% "gdo_load_lib_and_symbols", []⟩) rfl rfl rfl rfl (exec_ret _ (ret_of e))

/-! ### The path of the library, with `dlinfo` -/

/-- The frame of `_gdo_libpath_dlinfo`. -/
def infoFrame (v : V) : Frame := ⟨str% "_gdo_libpath_dlinfo", [(str% "lm", some v)]⟩

/-- A path of a length that is known is copied. -/
theorem sys_copy (p : Str) (h : ¬p.length + 1 > bufLen) (m : M St) :
    sysMemcpy [.buf (str% "libpath"), .str p, .int (p.length + 1)] m =
      .ok (.buf (str% "libpath")) { m with g := { m.g with libpath := p, log := m.g.log ++ [.path p] } } := by
  have : str% "libpath" = str% "libpath" ∧ (p.length + 1 : Int) = p.length + 1 ∧ (p.length + 1 : Int) ≤ bufLen := ⟨rfl, rfl, by omega⟩
  exact if_pos this

/-- The frame at the end of the functions. -/
def lenFrame (f : Str) (p : Str) (vars : List (Str × Option V)) : Frame := ⟨f, (str% "len", some (.int (p.length + 1))) :: vars⟩

/-- The end of the function: the path is copied. -/
theorem run_infoCopy (d : Char) (t : Str) (h : Ptr) (s : St) (fr : List Frame) :
    Stmt.execAll (kctx u l L c isFn other lim 2) (((fnOf (C.fn_gdo_libpath_dlinfo false)).inst I).body.drop 4) ⟨s, infoFrame (.lmap h (some (d :: t))) :: fr⟩ =
      if (d :: t).length + 1 > bufLen then
        .ok (.ret (.int 0)) ⟨s, lenFrame (str% "_gdo_libpath_dlinfo") (d :: t) (infoFrame (.lmap h (some (d :: t)))).vars :: fr⟩
      else .ok (.ret (.int 1)) ⟨{ s with libpath := d :: t, log := s.log ++ [.path (d :: t)] },
        lenFrame (str% "_gdo_libpath_dlinfo") (d :: t) (infoFrame (.lmap h (some (d :: t)))).vars :: fr⟩ := by
  generalize hp : d :: t = p
  have e1 : Stmt.execAll (kctx u l L c isFn other lim 2) (((fnOf (C.fn_gdo_libpath_dlinfo false)).inst I).body.drop 4) ⟨s, infoFrame (.lmap h (some p)) :: fr⟩ =
      Stmt.execAll (kctx u l L c isFn other lim 2) (((fnOf (C.fn_gdo_libpath_dlinfo false)).inst I).body.drop 5)
        ⟨s, lenFrame (str% "_gdo_libpath_dlinfo") p (infoFrame (.lmap h (some p))).vars :: fr⟩ := rfl
  have e2 : (Expr.bin (str% ">") (.id (.fixed (str% "len"))) (.id (.fixed (str% "GDO_BUFLEN")))).eval (kctx u l L c isFn other lim 2)
      ⟨s, lenFrame (str% "_gdo_libpath_dlinfo") p (infoFrame (.lmap h (some p))).vars :: fr⟩ =
      .ok (.ofBool (decide ((bufLen : Int) < p.length + 1))) ⟨s, lenFrame (str% "_gdo_libpath_dlinfo") p (infoFrame (.lmap h (some p))).vars :: fr⟩ := rfl
  by_cases hb : p.length + 1 > bufLen
  · rw [decide_eq_true (by omega)] at e2
    rw [if_pos hb]
    exact e1.trans (exec_ret _ (if1_true _ (a := [.ret (some (.id (.fixed (str% "false"))))]) (fl := .ret (.int 0))
      (m2 := ⟨s, lenFrame (str% "_gdo_libpath_dlinfo") p (infoFrame (.lmap h (some p))).vars :: fr⟩) (test_of _ e2 rfl) rfl))
  · rw [decide_eq_false (by omega)] at e2
    rw [if_neg hb]
    refine e1.trans ((exec_next _ (if1_false _ (test_of _ e2 rfl))).trans ?_)
    have e3 : (Expr.call (.fixed (str% "memcpy")) [.field (.id (.fixed (str% "gdo_hndl"))) (str% "libpath"), .arrow (.id (.fixed (str% "lm"))) (str% "l_name"),
        .id (.fixed (str% "len"))]).eval (kctx u l L c isFn other lim 2)
        ⟨s, lenFrame (str% "_gdo_libpath_dlinfo") p (infoFrame (.lmap h (some p))).vars :: fr⟩ =
        sysMemcpy [.buf (str% "libpath"), .str p, .int (p.length + 1)] ⟨s, lenFrame (str% "_gdo_libpath_dlinfo") p (infoFrame (.lmap h (some p))).vars :: fr⟩ := rfl
    rw [sys_copy p hb] at e3
    exact (exec_next _ (exec_expr _ e3)).trans rfl

/-- `_gdo_libpath_dlinfo` up to the call of `dlinfo`. -/
theorem eval_dlinfo (h : Ptr) (s : St) (hs : s.handle = some h) (fr : List Frame) :
    (Expr.call (.fixed (str% "dlinfo")) [.field (.id (.fixed (str% "gdo_hndl"))) (str% "handle"), .id (.fixed (str% "RTLD_DI_LINKMAP")),
      .un (str% "&") (.id (.fixed (str% "lm")))]).eval (kctx u l L c isFn other lim 2) ⟨s, infoFrame .null :: fr⟩ =
      match (L.dlinfo s.clock h).1 with
      | none => .ok (.int (-1)) ⟨{ s with clock := s.clock + 1, dlerr := (L.dlinfo s.clock h).2, log := s.log ++ [.info h] }, infoFrame .null :: fr⟩
      | some n => .ok (.int 0) ⟨{ s with clock := s.clock + 1, dlerr := (L.dlinfo s.clock h).2, log := s.log ++ [.info h] }, infoFrame (.lmap h n) :: fr⟩ := by
  obtain ⟨handle, p, q, eb, reg, clock, de, log, hd, se⟩ := s
  cases hs
  have e : (Expr.call (.fixed (str% "dlinfo")) [.field (.id (.fixed (str% "gdo_hndl"))) (str% "handle"), .id (.fixed (str% "RTLD_DI_LINKMAP")),
      .un (str% "&") (.id (.fixed (str% "lm")))]).eval (kctx u l L c isFn other lim 2) ⟨⟨some h, p, q, eb, reg, clock, de, log, hd, se⟩, infoFrame .null :: fr⟩ =
      sysDlinfo L [.ptr h, .obj (str% "RTLD_DI_LINKMAP"), .loc fr.length (str% "lm")] ⟨⟨some h, p, q, eb, reg, clock, de, log, hd, se⟩, infoFrame .null :: fr⟩ := rfl
  rw [e]
  unfold sysDlinfo
  dsimp only
  rw [if_pos rfl]
  cases (L.dlinfo clock h).1 with
  | none => rfl
  | some n =>
    dsimp only
    rw [storeVar_top]
    rfl

/-- The part for Linux. -/
theorem run_infoLinux (d : Char) (t : Str) (h : Ptr) (s : St) (fr : List Frame) :
    Stmt.execAll (kctx u l L c isFn other lim 2) (((fnOf (C.fn_gdo_libpath_dlinfo true)).inst I).body.drop 4) ⟨s, infoFrame (.lmap h (some (d :: t))) :: fr⟩ =
      match if d ≠ '/' then L.procmap s.clock h else none with
      | some p => .ok (.ret (.int 1)) ⟨{ s with libpath := fit p, log := s.log ++ [.path (fit p)] }, infoFrame (.lmap h (some (d :: t))) :: fr⟩
      | none => Stmt.execAll (kctx u l L c isFn other lim 2) (((fnOf (C.fn_gdo_libpath_dlinfo false)).inst I).body.drop 4)
        ⟨s, infoFrame (.lmap h (some (d :: t))) :: fr⟩ := by
  have e1 : (Expr.bin (str% "!=") (.index (.arrow (.id (.fixed (str% "lm"))) (str% "l_name")) (.id (.fixed (str% "0")))) (.chr (.fixed (str% "/")))).eval
      (kctx u l L c isFn other lim 2) ⟨s, infoFrame (.lmap h (some (d :: t))) :: fr⟩ = .ok (.ofBool !decide (d = '/')) ⟨s, infoFrame (.lmap h (some (d :: t))) :: fr⟩ := rfl
  have e2 := eval_and _ (b := .call (.fixed (str% "_gdo_fullpath_procmap")) [.id (.fixed (str% "lm")), .field (.id (.fixed (str% "gdo_hndl"))) (str% "libpath"),
    .id (.fixed (str% "GDO_BUFLEN"))]) e1
  by_cases hd : d = '/'
  · rw [decide_eq_true hd] at e2
    rw [if_neg (by simp [hd])]
    exact exec_next _ (if1_false _ (test_of _ e2 rfl))
  · rw [decide_eq_false hd] at e2
    rw [if_pos (by simp [hd])]
    have e3 : (Expr.call (.fixed (str% "_gdo_fullpath_procmap")) [.id (.fixed (str% "lm")), .field (.id (.fixed (str% "gdo_hndl"))) (str% "libpath"),
        .id (.fixed (str% "GDO_BUFLEN"))]).eval (kctx u l L c isFn other lim 2) ⟨s, infoFrame (.lmap h (some (d :: t))) :: fr⟩ =
        match L.procmap s.clock h with
        | some p => .ok (.int 1) ⟨{ s with libpath := fit p, log := s.log ++ [.path (fit p)] }, infoFrame (.lmap h (some (d :: t))) :: fr⟩
        | none => .ok (.int 0) ⟨s, infoFrame (.lmap h (some (d :: t))) :: fr⟩ := rfl
    rw [e3] at e2
    cases hp : L.procmap s.clock h with
    | none =>
      rw [hp] at e2
      exact exec_next _ (if1_false _ (test_of _ e2 rfl))
    | some p =>
      rw [hp] at e2
      have e4 := if1_true _ (a := [.ret (some (.id (.fixed (str% "true"))))]) (fl := .ret (.int 1))
        (m2 := ⟨{ s with libpath := fit p, log := s.log ++ [.path (fit p)] }, infoFrame (.lmap h (some (d :: t))) :: fr⟩) (test_of _ e2 rfl) rfl
      exact exec_ret _ e4

theorem run_libpath_dlinfo (h : Ptr) (s : St) (hs : s.handle = some h) (fr : List Frame) :
    ((fnOf (C.fn_gdo_libpath_dlinfo c.linux)).inst I).call (kctx u l L c isFn other lim 2) [] ⟨s, fr⟩ = okB (libpathDlinfo L c h s) fr := by
  have e0 : ∀ lin, Stmt.execAll (kctx u l L c isFn other lim 2) ((fnOf (C.fn_gdo_libpath_dlinfo lin)).inst I).body ⟨s, ⟨str% "_gdo_libpath_dlinfo", []⟩ :: fr⟩ =
      Stmt.execAll (kctx u l L c isFn other lim 2) (((fnOf (C.fn_gdo_libpath_dlinfo lin)).inst I).body.drop 2) ⟨clearError s, infoFrame .null :: fr⟩ := by
    intro lin
    cases lin <;> rfl
  have e1 := eval_dlinfo u l L c isFn other lim h (clearError s) hs fr
  have e2 : ∀ lin, ((fnOf (C.fn_gdo_libpath_dlinfo lin)).inst I).body.drop 2 =
      .if1 (.bin (str% "==") (.call (.fixed (str% "dlinfo")) [.field (.id (.fixed (str% "gdo_hndl"))) (str% "handle"), .id (.fixed (str% "RTLD_DI_LINKMAP")),
      .un (str% "&") (.id (.fixed (str% "lm")))]) (.un (str% "-") (.id (.fixed (str% "1")))))
        [.expr (.call (.fixed (str% "_gdo_save_error")) [.id (.fixed (str% "NULL"))]), .ret (some (.id (.fixed (str% "false"))))] ::
        ((fnOf (C.fn_gdo_libpath_dlinfo lin)).inst I).body.drop 3 := by
    intro lin
    cases lin <;> rfl
  unfold libpathDlinfo
  dsimp only
  have e0 := e0 c.linux
  rw [e2] at e0
  cases ha : (L.dlinfo (clearError s).clock h).1 with
  | none =>
    rw [ha] at e1
    have e3 := eval_bin (op := str% "==") _ (b := .un (str% "-") (.id (.fixed (str% "1")))) (by decide) (by decide) e1
    have e4 := if1_true _ (a := [.expr (.call (.fixed (str% "_gdo_save_error")) [.id (.fixed (str% "NULL"))]), .ret (some (.id (.fixed (str% "false"))))])
      (fl := .ret (.int 0)) (m2 := ⟨saveError { clearError s with clock := (clearError s).clock + 1, dlerr := (L.dlinfo (clearError s).clock h).2, log := (clearError s).log ++ [.info h] }, infoFrame .null :: fr⟩)
      (test_of _ e3 rfl) rfl
    exact call_of _ (F := infoFrame .null) rfl rfl rfl rfl (e0.trans (exec_ret _ e4))
  | some n =>
    rw [ha] at e1
    have e3 := eval_bin (op := str% "==") _ (b := .un (str% "-") (.id (.fixed (str% "1")))) (by decide) (by decide) e1
    have e4 := if1_false _ (a := [.expr (.call (.fixed (str% "_gdo_save_error")) [.id (.fixed (str% "NULL"))]), .ret (some (.id (.fixed (str% "false"))))])
      (test_of _ e3 rfl)
    have e5 := e0.trans (exec_next _ e4)
    generalize hs1 : ({ clearError s with clock := (clearError s).clock + 1, dlerr := (L.dlinfo (clearError s).clock h).2, log := (clearError s).log ++ [.info h] } : St) = s1 at e5 ⊢
    rcases n with _ | n
    · have e6 : ∀ lin, Stmt.execAll (kctx u l L c isFn other lim 2) (((fnOf (C.fn_gdo_libpath_dlinfo lin)).inst I).body.drop 3) ⟨s1, infoFrame (.lmap h none) :: fr⟩ =
          .ok (.ret (.int 0)) ⟨saveToErrbuf (some (str% "dlinfo() failed to get library path")) s1, infoFrame (.lmap h none) :: fr⟩ := by
        intro lin
        cases lin <;> rfl
      exact call_of _ (F := infoFrame (.lmap h none)) rfl rfl rfl rfl (e5.trans (e6 _))
    · rcases n with _ | ⟨d, t⟩
      · have e6 : ∀ lin, Stmt.execAll (kctx u l L c isFn other lim 2) (((fnOf (C.fn_gdo_libpath_dlinfo lin)).inst I).body.drop 3) ⟨s1, infoFrame (.lmap h (some [])) :: fr⟩ =
            .ok (.ret (.int 0)) ⟨saveToErrbuf (some (str% "dlinfo() failed to get library path")) s1, infoFrame (.lmap h (some [])) :: fr⟩ := by
          intro lin
          cases lin <;> rfl
        exact call_of _ (F := infoFrame (.lmap h (some []))) rfl rfl rfl rfl (e5.trans (e6 _))
      · have e6 : ∀ lin, Stmt.execAll (kctx u l L c isFn other lim 2) (((fnOf (C.fn_gdo_libpath_dlinfo lin)).inst I).body.drop 3) ⟨s1, infoFrame (.lmap h (some (d :: t))) :: fr⟩ =
            Stmt.execAll (kctx u l L c isFn other lim 2) (((fnOf (C.fn_gdo_libpath_dlinfo lin)).inst I).body.drop 4) ⟨s1, infoFrame (.lmap h (some (d :: t))) :: fr⟩ := by
          intro lin
          cases lin <;> rfl
        have e6 := e5.trans (e6 _)
        have e7 := run_infoCopy u l L c isFn other lim I d t h s1 fr
        have fin : ∀ r : Bool × St, (∃ F, Stmt.execAll (kctx u l L c isFn other lim 2) (((fnOf (C.fn_gdo_libpath_dlinfo c.linux)).inst I).body.drop 4)
            ⟨s1, infoFrame (.lmap h (some (d :: t))) :: fr⟩ = .ok (.ret (.ofBool r.1)) ⟨r.2, F :: fr⟩) →
            ((fnOf (C.fn_gdo_libpath_dlinfo c.linux)).inst I).call (kctx u l L c isFn other lim 2) [] ⟨s, fr⟩ = okB r fr := by
          rintro r ⟨F, e⟩
          exact call_of _ (F := F) rfl rfl rfl rfl (e6.trans e)
        refine (fin (match if c.linux = true ∧ d ≠ '/' then L.procmap s1.clock h else none with
          | some p => (true, { s1 with libpath := fit p, log := s1.log ++ [.path (fit p)] })
          | none => if (d :: t).length + 1 > bufLen then (false, s1) else (true, { s1 with libpath := d :: t, log := s1.log ++ [.path (d :: t)] })) ?_).trans (by subst hs1; rfl)
        have copied : ∃ F, Stmt.execAll (kctx u l L c isFn other lim 2) (((fnOf (C.fn_gdo_libpath_dlinfo false)).inst I).body.drop 4)
            ⟨s1, infoFrame (.lmap h (some (d :: t))) :: fr⟩ =
            .ok (.ret (.ofBool (if (d :: t).length + 1 > bufLen then (false, s1) else (true, { s1 with libpath := d :: t, log := s1.log ++ [.path (d :: t)] })).1))
              ⟨(if (d :: t).length + 1 > bufLen then (false, s1) else (true, { s1 with libpath := d :: t, log := s1.log ++ [.path (d :: t)] })).2, F :: fr⟩ := by
          refine ⟨lenFrame (str% "_gdo_libpath_dlinfo") (d :: t) (infoFrame (.lmap h (some (d :: t)))).vars, e7.trans ?_⟩
          by_cases hb : (d :: t).length + 1 > bufLen
          · rw [if_pos hb, if_pos hb]
            rfl
          · rw [if_neg hb, if_neg hb]
            rfl
        cases c.linux with
        | false =>
          have hf : ¬(false = true ∧ d ≠ '/') := by simp
          simp only [if_neg hf]
          exact copied
        | true =>
          have e8 := run_infoLinux u l L c isFn other lim I d t h s1 fr
          simp only [true_and]
          cases hp : (if d ≠ '/' then L.procmap s1.clock h else none) with
          | none =>
            rw [hp] at e8
            rw [e8]
            exact copied
          | some p =>
            rw [hp] at e8
            rw [e8]
            exact ⟨_, rfl⟩

end

end Gdo.Cc
