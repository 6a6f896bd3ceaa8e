import Verif.Model.CSystemPlug
import Verif.Model.CProgOther
import Verif.Lemmas.CCallLink

/-!
Lemmas: what the functions of `src/templates/plugin.c` do.
-/

set_option maxRecDepth 10000

namespace Gdo.Cc
open Gdo Tmpl Rt Rename

theorem upd_same (h : Ptr → Option PObj) (p : Ptr) (o : Option PObj) : upd h p o p = o := by
  unfold upd
  rw [if_pos rfl]

theorem upd_other (h : Ptr → Option PObj) {p q : Ptr} (hq : q ≠ p) (o : Option PObj) : upd h p o q = h q := by
  unfold upd
  rw [if_neg hq]

theorem upd_upd (h : Ptr → Option PObj) (p : Ptr) (a b : Option PObj) : upd (upd h p a) p b = upd h p b := by
  funext q
  unfold upd
  by_cases hq : q = p <;> simp [hq]

theorem ofPtr_toPtr (a : Option Ptr) : (V.ofPtr a).toPtr = some a := by cases a <;> rfl

theorem ofCopy_toCopy (a : Option (Ptr × Str)) : (V.ofCopy a).toCopy = some a := by
  obtain _ | ⟨a, s⟩ := a <;> rfl

/-- The symbols from number `i` on. -/
def PlugRows (syms : List Str) : Nat → List (Str × Str) → Prop
  | _, [] => True
  | i, r :: t => plugGlued syms [] r.2 = some (.sym i) ∧ PlugRows syms (i + 1) t

theorem plugRows (syms : List Str) (h : syms.Nodup) : ∀ (rows : List (Str × Str)) (pre : List Str), pre ++ rows.map (·.2) = syms → PlugRows syms pre.length rows := by
  intro rows
  induction rows with
  | nil => intro _ _; trivial
  | cons r t ih =>
    intro pre e
    have hm : r.2 ∈ syms := by rw [← e]; simp
    have hn : r.2 ∉ pre := by
      rw [← e] at h
      intro hp
      exact (List.nodup_append.mp h).2.2 _ hp _ (by simp) rfl
    have hi : syms.idxOf r.2 = pre.length := by
      rw [← e]
      simp [List.idxOf_append, hn]
    refine ⟨?_, ?_⟩
    · simp [plugGlued, hm, hi]
    · have := ih (pre ++ [r.2]) (by simpa using e)
      simpa using this

section
variable (u l : Str) (os : Plug.Os) (c : Plug.Cfg) (z1 z2 : Nat) (isFn : Str → Bool) (prog : List Top) (n lim : Nat) (I : Insts)

/-- What a function is executed with. -/
abbrev pctx : Ctx PSt := ⟨plugSem u l os c z1 z2, isFn, link (plugSem u l os c z1 z2) prog (n + 1), lim⟩

theorem plug_dlsym (isFn : Str → Bool) (h : Ptr) (name : Str) (m : M PSt) :
    ((fnOf (C.fn_gdo_call_dlsym os.isWin)).inst I).call (pctx u l os c z1 z2 isFn prog n lim) [.ptr h, .str name] m = plugDlsym os.loader [.ptr h, .str name] m := by
  cases os <;> rfl

theorem plug_dlclose (isFn : Str → Bool) (h : Ptr) (m : M PSt) :
    ((fnOf (C.fn_gdo_call_dlclose os.isWin)).inst I).call (pctx u l os c z1 z2 isFn prog n lim) [.ptr h] m =
      .ok (.ofBool (os.loader.dlclose m.g.st.clock h).1) ⟨⟨Plug.close os.loader (some h) m.g.st, m.g.heap⟩, m.frames⟩ := by
  cases os with
  | dlfcn L =>
    have key : ∀ a : Bool × Option Str, ((fnOf (C.fn_gdo_call_dlclose false)).inst I).call (pctx u l (.dlfcn { L with dlclose := fun _ _ => a }) c z1 z2 isFn prog n lim) [.ptr h] m =
        .ok (.ofBool a.1) ⟨⟨Plug.close { L with dlclose := fun _ _ => a } (some h) m.g.st, m.g.heap⟩, m.frames⟩ := by
      rintro ⟨_ | _, _⟩ <;> rfl
    exact key (L.dlclose m.g.st.clock h)
  | windows W =>
    have key : ∀ a : Bool × Nat, ((fnOf (C.fn_gdo_call_dlclose true)).inst I).call (pctx u l (.windows { W with free := fun _ _ => a }) c z1 z2 isFn prog n lim) [.ptr h] m =
        .ok (.ofBool a.1) ⟨⟨Plug.close (Plug.Os.windows { W with free := fun _ _ => a }).loader (some h) m.g.st, m.g.heap⟩, m.frames⟩ := by
      rintro ⟨_ | _, _⟩ <;> rfl
    exact key (W.free m.g.st.clock h)

theorem plug_loadLib (name : Str) (m : M PSt) : link (plugSem u l os c z1 z2) prog (n + 1) (str% "GDO_LOAD_LIB") [.str name] m =
    .ok (.ofPtr (Plug.openLib os.loader c name m.g.st).1) ⟨⟨(Plug.openLib os.loader c name m.g.st).2, m.g.heap⟩, m.frames⟩ := by
  cases os <;> rfl

/-! ### Expressions -/

/-- The variables inside of the loops. -/
def loopVars (i : Nat) (vars : List (Str × Option V)) : List (Str × Option V) := (str% "i", some (.int i)) :: vars

/-- `plug->list[i]` -/
def entryE : Expr := .index (.arrow (.id (.fixed (str% "plug"))) (str% "list")) (.id (.fixed (str% "i")))

/-- `plug->list[i].f` -/
def memberE (f : Str) : Expr := .member entryE (.fixed f)

variable {u l os c z1 z2 isFn prog n lim}

theorem plug_list {a : Ptr} {b : Option Ptr} {k : Int} {m : M PSt} {F : Frame} {fr : List Frame} (hm : m.frames = F :: fr)
    (hp : getVar (str% "plug") F.vars = some (some (.ptr a))) (ha : m.g.heap a = some (.plug (some k) (some b))) :
    (Expr.arrow (.id (.fixed (str% "plug"))) (str% "list")).eval (pctx u l os c z1 z2 isFn prog n lim) m = .ok (.ofPtr b) m := by
  have e1 : (Expr.id (.fixed (str% "plug"))).eval (pctx u l os c z1 z2 isFn prog n lim) m = .ok (.ptr a) m := by
    have hl : getVar (str% "plug") (locals m) = some (some (.ptr a)) := by
      unfold locals
      rw [hm]
      exact hp
    simp only [Expr.eval, place, hl, Option.isSome_some, if_true, R.of, R.bind, load, valueOf]
  simp only [Expr.eval] at e1 ⊢
  rw [e1]
  simp only [R.bind, arrowOf, R.of, load, plugSem, plugGetIn, ha, Option.map_some]
  rfl

theorem plug_i {i : Nat} {vars : List (Str × Option V)} {m : M PSt} {f : Str} {fr : List Frame} (hm : m.frames = ⟨f, loopVars i vars⟩ :: fr) :
    (Expr.id (.fixed (str% "i"))).eval (pctx u l os c z1 z2 isFn prog n lim) m = .ok (.int i) m := by
  obtain ⟨g, fs⟩ := m
  cases hm
  rfl

theorem plug_entry {a b : Ptr} {k : Int} {i : Nat} {vars : List (Str × Option V)} {m : M PSt} {f : Str} {fr : List Frame}
    (hm : m.frames = ⟨f, loopVars i vars⟩ :: fr) (hp : getVar (str% "plug") vars = some (some (.ptr a)))
    (ha : m.g.heap a = some (.plug (some k) (some (some b)))) :
    entryE.lval (pctx u l os c z1 z2 isFn prog n lim) m = .ok (.inside b [.index i]) m := by
  have e1 := plug_list (u := u) (l := l) (os := os) (c := c) (z1 := z1) (z2 := z2) (isFn := isFn) (prog := prog) (n := n) (lim := lim) hm
    (show getVar (str% "plug") (loopVars i vars) = _ from hp) ha
  have e2 := plug_i (u := u) (l := l) (os := os) (c := c) (z1 := z1) (z2 := z2) (isFn := isFn) (prog := prog) (n := n) (lim := lim) hm
  unfold entryE
  rw [Expr.lval, e1]
  simp only [R.bind]
  rw [e2]
  rfl

theorem plug_entry_null {a : Ptr} {k : Int} {i : Nat} {vars : List (Str × Option V)} {m : M PSt} {f : Str} {fr : List Frame}
    (hm : m.frames = ⟨f, loopVars i vars⟩ :: fr) (hp : getVar (str% "plug") vars = some (some (.ptr a)))
    (ha : m.g.heap a = some (.plug (some k) (some none))) :
    entryE.lval (pctx u l os c z1 z2 isFn prog n lim) m = .ub := by
  have e1 := plug_list (u := u) (l := l) (os := os) (c := c) (z1 := z1) (z2 := z2) (isFn := isFn) (prog := prog) (n := n) (lim := lim) hm
    (show getVar (str% "plug") (loopVars i vars) = _ from hp) ha
  have e2 := plug_i (u := u) (l := l) (os := os) (c := c) (z1 := z1) (z2 := z2) (isFn := isFn) (prog := prog) (n := n) (lim := lim) hm
  unfold entryE
  rw [Expr.lval, e1]
  simp only [R.bind]
  rw [e2]
  rfl

theorem lval_member {K : Ctx PSt} {f : Name} {m : M PSt} : (Expr.member entryE f).lval K m = (entryE.lval K m).bind fun lv m => .of m (memberIn K.S lv f) := by
  unfold entryE
  rw [Expr.lval]
  intro _ h
  cases h

theorem eval_member {K : Ctx PSt} {f : Name} {m : M PSt} :
    (Expr.member entryE f).eval K m = (entryE.lval K m).bind fun lv m => (R.of m (memberIn K.S lv f)).bind (load K.S) := by
  unfold entryE
  rw [Expr.eval]
  intro _ h
  cases h

theorem lval_member2 {K : Ctx PSt} {f : Str} {x : Name} {m : M PSt} :
    (Expr.member (memberE f) x).lval K m = ((memberE f).lval K m).bind fun lv m => .of m (memberIn K.S lv x) := by
  unfold memberE
  rw [Expr.lval]
  intro _ h
  cases h

/-! ### Loading -/

/-- `files[i]` -/
def fileE : Expr := .index (.id (.fixed (str% "files"))) (.id (.fixed (str% "i")))

/-- The variables of `gdo_load_plugins`. -/
def loadVars (a : Ptr) (fs : List (Option Str)) : List (Str × Option V) :=
  [(str% "plug", some (.ptr a)), (str% "files", some (.strs fs)), (str% "num", some (.int fs.length))]

section
variable {a : Ptr} {fs : List (Option Str)} {i : Nat} {f : Str} {fr : List Frame}

local notation "KK" => pctx u l os c z1 z2 isFn prog n lim
local notation "FF" => (Frame.mk f (loopVars i (loadVars a fs)) :: fr)

theorem plug_file {x : Option Str} (hx : fs[i]? = some x) (g : PSt) : fileE.eval KK ⟨g, FF⟩ = .ok (.ofStr x) ⟨g, FF⟩ := by
  have e : fileE.eval KK ⟨g, FF⟩ = (R.of (⟨g, FF⟩ : M PSt) ((fs[i]?).map fun s => Lv.val (match s with
      | some s => .str s
      | none => .null))).bind (load (plugSem u l os c z1 z2)) := rfl
  rw [e, hx]
  cases x <;> rfl

/-- The test for an empty file name. -/
def emptyTest : Expr := .bin (str% "||") (.un (str% "!") fileE) (.bin (str% "==") (.un (str% "*") fileE) (.id (.fixed (str% "0"))))

theorem plug_test {x : Option Str} (hx : fs[i]? = some x) (g : PSt) :
    emptyTest.test KK ⟨g, FF⟩ = .ok (decide (x = none ∨ x = some [])) ⟨g, FF⟩ := by
  have e1 := plug_file (u := u) (l := l) (os := os) (c := c) (z1 := z1) (z2 := z2) (isFn := isFn) (prog := prog) (n := n) (lim := lim) (a := a) (f := f) (fr := fr) hx g
  have e2 : ∀ b, (Expr.un (str% "!") fileE).eval KK ⟨g, FF⟩ = .ok (.ofBool b) ⟨g, FF⟩ → emptyTest.eval KK ⟨g, FF⟩ = _ := fun b => eval_or _
  have e3 : (Expr.un (str% "!") fileE).eval KK ⟨g, FF⟩ = .ok (.ofBool x.isNone) ⟨g, FF⟩ := by
    show (fileE.eval KK ⟨g, FF⟩).bind _ = _
    rw [e1]
    cases x <;> rfl
  have e4 := e2 _ e3
  cases x with
  | none => exact test_of _ e4 rfl
  | some s =>
    have e5 : (Expr.bin (str% "==") (.un (str% "*") fileE) (.id (.fixed (str% "0")))).eval KK ⟨g, FF⟩ = .ok (.ofBool (decide (s = []))) ⟨g, FF⟩ := by
      show ((fileE.eval KK ⟨g, FF⟩).bind _).bind _ = _
      rw [e1]
      cases s <;> rfl
    rw [Option.isNone_some, if_neg (by simp), e5] at e4
    refine test_of _ (v := .ofBool (decide (s = []))) (by rw [e4]; cases s <;> rfl) ?_
    rw [truth_ofBool]
    congr 1
    simp

/-- `plug->list[i].ptr.symbol = (type) _gdo_call_dlsym(plug->list[i].handle, "symbol");` -/
def symStmt : List Stmt :=
  [.expr (.assign (.member (memberE (str% "ptr")) (.hole [] (str% "symbol"))) (.cast [.text (.hole [] (str% "sym_type"))]
    (.call (.fixed (str% "_gdo_call_dlsym")) [memberE (str% "handle"), .str (.hole [] (str% "symbol"))])))]

/-- The body of the loop. -/
def loadBody (I : Insts) : List Stmt :=
  [.if1 emptyTest [.cont],
   .expr (.assign (memberE (str% "filename")) (.call (.fixed (str% "GDO_STRDUP")) [fileE])),
   .if1 (.bin (str% "==") (.paren (.assign (memberE (str% "handle")) (.call (.fixed (str% "GDO_LOAD_LIB")) [fileE]))) (.id (.fixed (str% "NULL")))) [.cont]] ++
   ((I .symbol).flatMap (fun v => Stmt.instAll I v symStmt) ++ [])

theorem plug_skip {x : Option Str} (hx : fs[i]? = some x) (he : x = none ∨ x = some []) (g : PSt) :
    Stmt.execAll KK (loadBody I) ⟨g, FF⟩ = .ok .cont ⟨g, FF⟩ := by
  have e := plug_test (u := u) (l := l) (os := os) (c := c) (z1 := z1) (z2 := z2) (isFn := isFn) (prog := prog) (n := n) (lim := lim) (a := a) (f := f) (fr := fr) hx g
  rw [decide_eq_true he] at e
  have e := if1_true (a := [.cont]) (fl := .cont) (m2 := ⟨g, FF⟩) _ e rfl
  unfold loadBody
  rw [List.cons_append, Stmt.execAll, e]
  simp [R.bind, leave, locals]

theorem plug_syms (hd : ∀ h name m, link (plugSem u l os c z1 z2) prog (n + 1) (str% "_gdo_call_dlsym") [.ptr h, .str name] m = plugDlsym os.loader [.ptr h, .str name] m)
    {b h : Ptr} {k : Int} (hab : a ≠ b) (d : Option (Ptr × Str)) (heap : Ptr → Option PObj) (ha : heap a = some (.plug (some k) (some (some b))))
    (es : List Plug.Entry) (hi : i < es.length) :
    ∀ (rows : List (Str × Str)) (j : Nat) (_ : PlugRows c.syms j rows) (p : Nat → Option Ptr) (s : Plug.St),
      Stmt.execAll KK ((rows.map fun r => symbolValues r.1 r.2).flatMap fun v => Stmt.instAll I v symStmt)
        ⟨⟨s, upd heap b (some (.entries (es.set i ⟨d, some h, p⟩)))⟩, FF⟩ =
      .ok .next ⟨⟨(Plug.loadSyms os.loader h j (rows.map (·.2)) p s).2, upd heap b (some (.entries (es.set i ⟨d, some h, (Plug.loadSyms os.loader h j (rows.map (·.2)) p s).1⟩)))⟩, FF⟩ := by
  intro rows
  induction rows with
  | nil => intro j _ p s; rfl
  | cons r t ih =>
    intro j hr p s
    rw [List.map_cons, List.flatMap_cons, List.map_cons]
    have ha' : ∀ o, (upd heap b o) a = some (.plug (some k) (some (some b))) := fun o => (upd_other heap hab o).trans ha
    have en : ∀ (s : Plug.St) o, entryE.lval KK ⟨⟨s, upd heap b o⟩, FF⟩ = .ok (.inside b [.index i]) ⟨⟨s, upd heap b o⟩, FF⟩ :=
      fun s o => plug_entry (m := ⟨⟨s, upd heap b o⟩, FF⟩) rfl rfl (ha' o)
    have e1 : (Expr.member (memberE (str% "ptr")) (.glued [] r.2)).lval KK ⟨⟨s, upd heap b (some (.entries (es.set i ⟨d, some h, p⟩)))⟩, FF⟩ =
        .ok (.inside b [.index i, .field (str% "ptr"), .symbol j]) ⟨⟨s, upd heap b (some (.entries (es.set i ⟨d, some h, p⟩)))⟩, FF⟩ := by
      rw [lval_member2, memberE, lval_member, en]
      simp only [R.bind, memberIn, R.of]
      have : (plugSem u l os c z1 z2).glued [] r.2 = some (.sym j) := hr.1
      rw [this]
      rfl
    have hget : (es.set i ⟨d, some h, p⟩)[i]? = some ⟨d, some h, p⟩ := by simp [hi]
    have e2 : (memberE (str% "handle")).eval KK ⟨⟨s, upd heap b (some (.entries (es.set i ⟨d, some h, p⟩)))⟩, FF⟩ =
        .ok (.ptr h) ⟨⟨s, upd heap b (some (.entries (es.set i ⟨d, some h, p⟩)))⟩, FF⟩ := by
      rw [memberE, eval_member, en]
      simp only [R.bind, memberIn, R.of, load, plugSem, plugGetIn, upd_same, List.cons_append, List.nil_append, hget, Option.bind_some]
      rfl
    have e3 : (Expr.cast [.text (.glued [] r.1)] (.call (.fixed (str% "_gdo_call_dlsym")) [memberE (str% "handle"), .str (.glued [] r.2)])).eval KK
        ⟨⟨s, upd heap b (some (.entries (es.set i ⟨d, some h, p⟩)))⟩, FF⟩ =
        plugDlsym os.loader [.ptr h, .str r.2] ⟨⟨s, upd heap b (some (.entries (es.set i ⟨d, some h, p⟩)))⟩, FF⟩ := by
      show (((memberE (str% "handle")).eval KK _).bind _).bind _ = _
      rw [e2]
      exact hd _ _ _
    have e4 : (Expr.assign (.member (memberE (str% "ptr")) (.glued [] r.2)) (.cast [.text (.glued [] r.1)]
        (.call (.fixed (str% "_gdo_call_dlsym")) [memberE (str% "handle"), .str (.glued [] r.2)]))).eval KK
        ⟨⟨s, upd heap b (some (.entries (es.set i ⟨d, some h, p⟩)))⟩, FF⟩ =
        .ok (.ofPtr (os.loader.dlsym s.clock h r.2).1) ⟨⟨{ s with clock := s.clock + 1, log := s.log ++ [.sym h r.2 (os.loader.dlsym s.clock h r.2).1] },
          upd heap b (some (.entries (es.set i ⟨d, some h, fun q => if q = j then (os.loader.dlsym s.clock h r.2).1 else p q⟩)))⟩, FF⟩ := by
      rw [Expr.eval, e1]
      simp only [R.bind]
      rw [e3]
      simp only [plugDlsym, store, plugSem, plugSetIn, upd_same, hget, Option.bind_some, ofPtr_toPtr, Option.map_some, if_true, R.of, R.bind, upd_upd, List.set_set]
    have e5 : Stmt.execAll KK (Stmt.instAll I (symbolValues r.1 r.2) symStmt) ⟨⟨s, upd heap b (some (.entries (es.set i ⟨d, some h, p⟩)))⟩, FF⟩ =
        .ok .next ⟨⟨{ s with clock := s.clock + 1, log := s.log ++ [.sym h r.2 (os.loader.dlsym s.clock h r.2).1] },
          upd heap b (some (.entries (es.set i ⟨d, some h, fun q => if q = j then (os.loader.dlsym s.clock h r.2).1 else p q⟩)))⟩, FF⟩ :=
      exec_one _ (exec_expr _ e4)
    rw [execAll_next _ _ e5]
    exact ih (j + 1) hr.2 _ _

/-- The repeated parts are repeated for the symbols, `rows` are their types and names. -/
structure PlugSyms (I : Insts) (syms : List Str) (rows : List (Str × Str)) : Prop where
  insts : I .symbol = rows.map fun r => symbolValues r.1 r.2
  names : rows.map (·.2) = syms
  nodup : syms.Nodup

theorem PlugSyms.from {I : Insts} {syms : List Str} {rows : List (Str × Str)} (h : PlugSyms I syms rows) : PlugRows syms 0 rows :=
  plugRows syms h.nodup rows [] (by simpa using h.names)

variable {I}

theorem plug_test_false {ch : Char} {r : Str} (hx : fs[i]? = some (some (ch :: r))) (rest : List Stmt) (g : PSt) :
    Stmt.execAll KK (.if1 emptyTest [.cont] :: rest) ⟨g, FF⟩ = Stmt.execAll KK rest ⟨g, FF⟩ := by
  have e := plug_test (u := u) (l := l) (os := os) (c := c) (z1 := z1) (z2 := z2) (isFn := isFn) (prog := prog) (n := n) (lim := lim) (a := a) (f := f) (fr := fr) hx g
  rw [decide_eq_false (by simp)] at e
  exact exec_next _ (if1_false _ e)

theorem plug_one {rows : List (Str × Str)} (hs : PlugSyms I c.syms rows)
    (hd : ∀ h name m, link (plugSem u l os c z1 z2) prog (n + 1) (str% "_gdo_call_dlsym") [.ptr h, .str name] m = plugDlsym os.loader [.ptr h, .str name] m)
    {b : Ptr} {k : Int} (hab : a ≠ b) (heap : Ptr → Option PObj) (ha : heap a = some (.plug (some k) (some (some b))))
    (es : List Plug.Entry) (hi : es[i]? = some {}) {ch : Char} {r : Str} (hx : fs[i]? = some (some (ch :: r))) (s : Plug.St) :
    ∃ fl, (fl = .next ∨ fl = .cont) ∧ Stmt.execAll KK (loadBody I) ⟨⟨s, upd heap b (some (.entries es))⟩, FF⟩ =
      .ok fl ⟨⟨(Plug.loadEntry os.loader c (ch :: r) s).2, upd heap b (some (.entries (es.set i (Plug.loadEntry os.loader c (ch :: r) s).1)))⟩, FF⟩ := by
  have hi' : i < es.length := (List.getElem?_eq_some_iff.mp hi).1
  have en : ∀ (s : Plug.St) o, entryE.lval KK ⟨⟨s, upd heap b o⟩, FF⟩ = .ok (.inside b [.index i]) ⟨⟨s, upd heap b o⟩, FF⟩ :=
    fun s o => plug_entry (m := ⟨⟨s, upd heap b o⟩, FF⟩) rfl rfl ((upd_other heap hab o).trans ha)
  have ef : ∀ g, fileE.eval KK ⟨g, FF⟩ = .ok (.str (ch :: r)) ⟨g, FF⟩ := fun g => plug_file hx g
  unfold loadBody
  rw [List.cons_append, plug_test_false hx]
  -- the copy of the file name
  have e1 : (Expr.assign (memberE (str% "filename")) (.call (.fixed (str% "GDO_STRDUP")) [fileE])).eval KK ⟨⟨s, upd heap b (some (.entries es))⟩, FF⟩ =
      .ok (.ofCopy (Plug.dup c (ch :: r) s).1)
        ⟨⟨(Plug.dup c (ch :: r) s).2, upd heap b (some (.entries (es.set i { filename := (Plug.dup c (ch :: r) s).1 })))⟩, FF⟩ := by
    have el : (memberE (str% "filename")).lval KK ⟨⟨s, upd heap b (some (.entries es))⟩, FF⟩ =
        .ok (.inside b [.index i, .field (str% "filename")]) ⟨⟨s, upd heap b (some (.entries es))⟩, FF⟩ := by
      rw [memberE, lval_member, en]
      rfl
    have ec : (Expr.call (.fixed (str% "GDO_STRDUP")) [fileE]).eval KK ⟨⟨s, upd heap b (some (.entries es))⟩, FF⟩ =
        .ok (.ofCopy (Plug.dup c (ch :: r) s).1) ⟨⟨(Plug.dup c (ch :: r) s).2, upd heap b (some (.entries es))⟩, FF⟩ := by
      rw [eval_call1 _ rfl (ef _)]
      rfl
    rw [Expr.eval, el]
    simp only [R.bind]
    rw [ec]
    simp only [store, plugSem, plugSetIn, upd_same, hi, Option.bind_some, ofCopy_toCopy, Option.map_some, if_true, R.of, R.bind, upd_upd]
  rw [List.cons_append, exec_next _ (exec_expr _ e1)]
  generalize hD : Plug.dup c (ch :: r) s = D
  have hset : (es.set i ({ filename := D.1 } : Plug.Entry))[i]? = some { filename := D.1 } := by simp [hi']
  -- the handle
  have e2 : (Expr.paren (.assign (memberE (str% "handle")) (.call (.fixed (str% "GDO_LOAD_LIB")) [fileE]))).eval KK
      ⟨⟨D.2, upd heap b (some (.entries (es.set i { filename := D.1 })))⟩, FF⟩ =
      .ok (.ofPtr (Plug.openLib os.loader c (ch :: r) D.2).1) ⟨⟨(Plug.openLib os.loader c (ch :: r) D.2).2,
        upd heap b (some (.entries (es.set i { filename := D.1, handle := (Plug.openLib os.loader c (ch :: r) D.2).1 })))⟩, FF⟩ := by
    have el : (memberE (str% "handle")).lval KK ⟨⟨D.2, upd heap b (some (.entries (es.set i { filename := D.1 })))⟩, FF⟩ =
        .ok (.inside b [.index i, .field (str% "handle")]) ⟨⟨D.2, upd heap b (some (.entries (es.set i { filename := D.1 })))⟩, FF⟩ := by
      rw [memberE, lval_member, en]
      rfl
    have ec : (Expr.call (.fixed (str% "GDO_LOAD_LIB")) [fileE]).eval KK ⟨⟨D.2, upd heap b (some (.entries (es.set i { filename := D.1 })))⟩, FF⟩ =
        .ok (.ofPtr (Plug.openLib os.loader c (ch :: r) D.2).1) ⟨⟨(Plug.openLib os.loader c (ch :: r) D.2).2, upd heap b (some (.entries (es.set i { filename := D.1 })))⟩, FF⟩ := by
      rw [eval_call1 _ rfl (ef _)]
      exact plug_loadLib u l os c z1 z2 prog n (ch :: r) _
    rw [Expr.eval, Expr.eval, el]
    simp only [R.bind]
    rw [ec]
    simp only [store, plugSem, plugSetIn, upd_same, hset, Option.bind_some, ofPtr_toPtr, Option.map_some, if_true, R.of, R.bind, upd_upd, List.set_set]
    rfl
  unfold Plug.loadEntry
  rw [hD]
  dsimp only
  generalize Plug.openLib os.loader c (ch :: r) D.2 = O at e2 ⊢
  have e3 : ∀ v, O.1 = v → (Expr.bin (str% "==") (.paren (.assign (memberE (str% "handle")) (.call (.fixed (str% "GDO_LOAD_LIB")) [fileE]))) (.id (.fixed (str% "NULL")))).test KK
      ⟨⟨D.2, upd heap b (some (.entries (es.set i { filename := D.1 })))⟩, FF⟩ =
      .ok v.isNone ⟨⟨O.2, upd heap b (some (.entries (es.set i { filename := D.1, handle := O.1 })))⟩, FF⟩ := by
    intro v hv
    refine test_of _ (v := .ofBool v.isNone) ?_ (truth_ofBool _)
    rw [eval_bin _ (by decide) (by decide) e2, hv]
    cases v <;> rfl
  cases hO : O.1 with
  | none =>
    refine ⟨.cont, .inr rfl, ?_⟩
    have e4 := if1_true (a := [.cont]) (fl := .cont) _ (e3 none hO) rfl
    rw [List.cons_append, Stmt.execAll, e4, hO]
    simp [R.bind, leave, locals]
  | some h =>
    refine ⟨.next, .inl rfl, ?_⟩
    rw [List.cons_append, exec_next _ (if1_false _ (e3 (some h) hO)), hO, List.nil_append, List.append_nil, hs.insts, ← hs.names]
    exact plug_syms I hd hab D.1 heap ha es hi' rows 0 hs.from (fun _ => none) O.2

theorem plug_null {k : Int} (heap : Ptr → Option PObj) (ha : heap a = some (.plug (some k) (some none)))
    {ch : Char} {r : Str} (hx : fs[i]? = some (some (ch :: r))) (s : Plug.St) :
    Stmt.execAll KK (loadBody I) ⟨⟨s, heap⟩, FF⟩ = .ub := by
  have en : entryE.lval KK ⟨⟨s, heap⟩, FF⟩ = .ub := plug_entry_null (m := ⟨⟨s, heap⟩, FF⟩) rfl rfl ha
  unfold loadBody
  rw [List.cons_append, plug_test_false hx, List.cons_append, Stmt.execAll, Stmt.exec, Expr.eval, memberE, lval_member, en]
  rfl

end

/-! ### The loop -/

section
variable {a : Ptr} {fs : List (Option Str)} {f : Str} {fr : List Frame}

local notation "KK" => pctx u l os c z1 z2 isFn prog n lim
local notation "FF" i => (Frame.mk f (loopVars i (loadVars a fs)) :: fr)

/-- `i < num` -/
def loadCond : Expr := .bin (str% "<") (.id (.fixed (str% "i"))) (.id (.fixed (str% "num")))

/-- `i++` -/
def incI : Expr := .inc (.id (.fixed (str% "i")))

theorem plug_cond (i : Nat) (g : PSt) : loadCond.test KK ⟨g, FF i⟩ = .ok (decide (i < fs.length)) ⟨g, FF i⟩ := by
  refine test_of _ (v := .ofBool (decide ((i : Int) < fs.length))) rfl ?_
  rw [truth_ofBool]
  congr 1
  simp

theorem plug_inc (i : Nat) (vars : List (Str × Option V)) (g : PSt) :
    incI.eval KK ⟨g, ⟨f, loopVars i vars⟩ :: fr⟩ = .ok (.int i) ⟨g, ⟨f, loopVars (i + 1) vars⟩ :: fr⟩ := rfl

theorem block_same {A : M PSt → R PSt Flow} {g g' : PSt} {F : Frame} {fr : List Frame} {fl : Flow} (h : A ⟨g, F :: fr⟩ = .ok fl ⟨g', F :: fr⟩) :
    block A ⟨g, F :: fr⟩ = .ok fl ⟨g', F :: fr⟩ := by
  unfold block
  rw [h]
  simp [R.bind, leave, locals]

theorem loop_once {C : M PSt → R PSt Bool} {A E : M PSt → R PSt Flow} {k : Nat} {m m1 m2 : M PSt} {fl fl' : Flow} (hC : C m = .ok true m) (hA : A m = .ok fl m1)
    (hfl : fl = .next ∨ fl = .cont) (hE : E m1 = .ok fl' m2) : loop C A E (k + 1) m = loop C A E k m2 := by
  rw [loop, hC]
  simp only [R.bind, if_true]
  rw [hA]
  rcases hfl with rfl | rfl
  · simp only [R.bind, hE]
  · simp only [R.bind, hE]

variable {I}

theorem plug_loop {rows : List (Str × Str)} (hs : PlugSyms I c.syms rows)
    (hd : ∀ h name m, link (plugSem u l os c z1 z2) prog (n + 1) (str% "_gdo_call_dlsym") [.ptr h, .str name] m = plugDlsym os.loader [.ptr h, .str name] m)
    {b : Ptr} {x : Int} (hab : a ≠ b) (heap : Ptr → Option PObj) (ha : heap a = some (.plug (some x) (some (some b)))) :
    ∀ (rest : List (Option Str)) (pre : List (Option Str)) (_ : fs = pre ++ rest) (es : List Plug.Entry) (_ : es.length = pre.length) (k : Nat)
      (_ : rest.length < k) (s : Plug.St),
      loop (loadCond.test KK) (block (Stmt.execAll KK (loadBody I))) (fun m => (incI.eval KK m).bind fun _ m => .ok .next m) k
        ⟨⟨s, upd heap b (some (.entries (es ++ List.replicate rest.length ({} : Plug.Entry))))⟩, FF pre.length⟩ =
      match Plug.loadLoop os.loader c (some b) rest s with
      | some r => .ok .next ⟨⟨r.2, upd heap b (some (.entries (es ++ r.1)))⟩, FF fs.length⟩
      | none => .ub := by
  intro rest
  induction rest with
  | nil =>
    intro pre hf es he k hk s
    obtain ⟨k, rfl⟩ : ∃ j, k = j + 1 := ⟨k - 1, by simp at hk; omega⟩
    rw [loop, plug_cond]
    have : fs.length = pre.length := by rw [hf]; simp
    simp [R.bind, this, Plug.loadLoop]
  | cons y t ih =>
    intro pre hf es he k hk s
    obtain ⟨k, rfl⟩ : ∃ j, k = j + 1 := ⟨k - 1, by simp at hk; omega⟩
    have hx : fs[pre.length]? = some y := by rw [hf]; simp
    have hC : loadCond.test KK ⟨⟨s, upd heap b (some (.entries (es ++ List.replicate (y :: t).length ({} : Plug.Entry))))⟩, FF pre.length⟩ =
        .ok true ⟨⟨s, upd heap b (some (.entries (es ++ List.replicate (y :: t).length ({} : Plug.Entry))))⟩, FF pre.length⟩ := by
      rw [plug_cond, decide_eq_true (by rw [hf]; simp)]
    have hf' : fs = (pre ++ [y]) ++ t := by rw [hf]; simp
    have hlen : (pre ++ [y]).length = pre.length + 1 := by simp
    have hk' : t.length < k := by simp at hk; omega
    have hE : ∀ g : PSt, (fun m => (incI.eval KK m).bind fun _ m => R.ok Flow.next m) ⟨g, FF pre.length⟩ = .ok .next ⟨g, FF (pre.length + 1)⟩ := fun _ => rfl
    have skip : (y = none ∨ y = some []) →
        loop (loadCond.test KK) (block (Stmt.execAll KK (loadBody I))) (fun m => (incI.eval KK m).bind fun _ m => .ok .next m) (k + 1)
          ⟨⟨s, upd heap b (some (.entries (es ++ List.replicate (y :: t).length ({} : Plug.Entry))))⟩, FF pre.length⟩ =
        match (Plug.loadLoop os.loader c (some b) t s).map fun x => (({} : Plug.Entry) :: x.1, x.2) with
        | some r => .ok .next ⟨⟨r.2, upd heap b (some (.entries (es ++ r.1)))⟩, FF fs.length⟩
        | none => .ub := by
      intro hy
      refine (loop_once hC (block_same (plug_skip I hx hy _)) (.inr rfl) (hE _)).trans ?_
      have := ih (pre ++ [y]) hf' (es ++ [({} : Plug.Entry)]) (by simp [he]) k hk' s
      rw [hlen, List.append_assoc, ← List.replicate_one, List.replicate_append_replicate, Nat.add_comm 1] at this
      rw [List.length_cons]
      refine Eq.trans this ?_
      cases Plug.loadLoop os.loader c (some b) t s <;> simp
    match y, hx, hC, hf', skip with
    | none, _, _, _, skip => exact skip (.inl rfl)
    | some [], _, _, _, skip => exact skip (.inr rfl)
    | some (ch :: r), hx, hC, hf', _ =>
      obtain ⟨fl, hfl, e⟩ := plug_one (u := u) (l := l) (os := os) (c := c) (z1 := z1) (z2 := z2) (isFn := isFn) (prog := prog) (n := n) (lim := lim) (f := f) (fr := fr)
        hs hd hab heap ha (es ++ List.replicate (t.length + 1) ({} : Plug.Entry)) (i := pre.length) (by rw [← he]; simp) hx s
      rw [List.length_cons] at hC ⊢
      refine (loop_once hC (block_same e) hfl (hE _)).trans ?_
      have := ih (pre ++ [some (ch :: r)]) hf' (es ++ [(Plug.loadEntry os.loader c (ch :: r) s).1]) (by simp [he]) k hk' (Plug.loadEntry os.loader c (ch :: r) s).2
      rw [List.length_append, List.length_singleton] at this
      have es' : (es ++ List.replicate (t.length + 1) ({} : Plug.Entry)).set pre.length (Plug.loadEntry os.loader c (ch :: r) s).1 =
          es ++ [(Plug.loadEntry os.loader c (ch :: r) s).1] ++ List.replicate t.length ({} : Plug.Entry) := by
        rw [← he, List.set_append_right _ _ (Nat.le_refl _), Nat.sub_self, List.replicate_succ, List.set_cons_zero]
        simp
      rw [es']
      refine Eq.trans this ?_
      rw [Plug.loadLoop]
      cases Plug.loadLoop os.loader c (some b) t (Plug.loadEntry os.loader c (ch :: r) s).2 <;> simp

theorem plug_loop_null {x : Int} (heap : Ptr → Option PObj) (ha : heap a = some (.plug (some x) (some none))) :
    ∀ (rest : List (Option Str)) (pre : List (Option Str)) (_ : fs = pre ++ rest) (k : Nat) (_ : rest.length < k) (s : Plug.St),
      loop (loadCond.test KK) (block (Stmt.execAll KK (loadBody I))) (fun m => (incI.eval KK m).bind fun _ m => .ok .next m) k ⟨⟨s, heap⟩, FF pre.length⟩ =
      match Plug.loadLoop os.loader c none rest s with
      | some r => .ok .next ⟨⟨r.2, heap⟩, FF fs.length⟩
      | none => .ub := by
  intro rest
  induction rest with
  | nil =>
    intro pre hf k hk s
    obtain ⟨k, rfl⟩ : ∃ j, k = j + 1 := ⟨k - 1, by simp at hk; omega⟩
    rw [loop, plug_cond]
    have : fs.length = pre.length := by rw [hf]; simp
    simp [R.bind, this, Plug.loadLoop]
  | cons y t ih =>
    intro pre hf k hk s
    obtain ⟨k, rfl⟩ : ∃ j, k = j + 1 := ⟨k - 1, by simp at hk; omega⟩
    have hx : fs[pre.length]? = some y := by rw [hf]; simp
    have hC : loadCond.test KK ⟨⟨s, heap⟩, FF pre.length⟩ = .ok true ⟨⟨s, heap⟩, FF pre.length⟩ := by
      rw [plug_cond, decide_eq_true (by rw [hf]; simp)]
    have hf' : fs = (pre ++ [y]) ++ t := by rw [hf]; simp
    have hlen : (pre ++ [y]).length = pre.length + 1 := by simp
    have hk' : t.length < k := by simp at hk; omega
    have hE : ∀ g : PSt, (fun m => (incI.eval KK m).bind fun _ m => R.ok Flow.next m) ⟨g, FF pre.length⟩ = .ok .next ⟨g, FF (pre.length + 1)⟩ := fun _ => rfl
    have skip : (y = none ∨ y = some []) →
        loop (loadCond.test KK) (block (Stmt.execAll KK (loadBody I))) (fun m => (incI.eval KK m).bind fun _ m => .ok .next m) (k + 1)
          ⟨⟨s, heap⟩, FF pre.length⟩ =
        match (Plug.loadLoop os.loader c none t s).map fun x => (({} : Plug.Entry) :: x.1, x.2) with
        | some r => .ok .next ⟨⟨r.2, heap⟩, FF fs.length⟩
        | none => .ub := by
      intro hy
      refine (loop_once hC (block_same (plug_skip I hx hy _)) (.inr rfl) (hE _)).trans ?_
      have := ih (pre ++ [y]) hf' k hk' s
      rw [hlen] at this
      refine Eq.trans this ?_
      cases Plug.loadLoop os.loader c none t s <;> simp
    match y, hx, hC, hf', skip with
    | none, _, _, _, skip => exact skip (.inl rfl)
    | some [], _, _, _, skip => exact skip (.inr rfl)
    | some (ch :: r), hx, hC, hf', _ =>
      rw [loop, hC]
      simp only [R.bind, if_true]
      unfold block
      rw [plug_null heap ha hx]
      rfl

end

/-! ### The function that loads -/

section
variable {fr : List Frame} {I : Insts}

local notation "KK" => pctx u l os c z1 z2 isFn prog n lim

/-- The memory behind `gdo_load_plugins`. -/
def loadedHeap (heap : Ptr → Option PObj) (p : Plug.Plugin) : Ptr → Option PObj :=
  let h := upd heap p.addr (some (.plug (some p.entries.length) (some p.list)))
  match p.list with
  | some b => upd h b (some (.entries p.entries))
  | none => h

theorem plug_malloc {vars : List (Str × Option V)} (s : Plug.St) (heap : Ptr → Option PObj) :
    (Expr.cast [.word (.fixed (str% "gdo_plugin_t")), .punct (str% "*")] (.call (.fixed (str% "malloc")) [.sizeofType [.word (.fixed (str% "gdo_plugin_t"))]])).eval KK
      ⟨⟨s, heap⟩, ⟨str% "gdo_load_plugins", vars⟩ :: fr⟩ = plugMalloc c z1 [.int z1] ⟨⟨s, heap⟩, ⟨str% "gdo_load_plugins", vars⟩ :: fr⟩ := rfl

theorem plug_calloc {a : Ptr} {fs : List (Option Str)} (s : Plug.St) (heap : Ptr → Option PObj) :
    (Expr.cast [.word (.fixed (str% "gdo_handle_t")), .punct (str% "*")] (.call (.fixed (str% "calloc"))
      [.id (.fixed (str% "num")), .sizeofType [.word (.fixed (str% "gdo_handle_t"))]])).eval KK
      ⟨⟨s, heap⟩, ⟨str% "gdo_load_plugins", loadVars a fs⟩ :: fr⟩ =
      plugCalloc c z2 [.int fs.length, .int z2] ⟨⟨s, heap⟩, ⟨str% "gdo_load_plugins", loadVars a fs⟩ :: fr⟩ := rfl

/-- The variables at the beginning. -/
def fileVars (fs : List (Option Str)) : List (Str × Option V) := [(str% "files", some (.strs fs)), (str% "num", some (.int fs.length))]

theorem loadLoop_length {b : Option Ptr} : ∀ {fs : List (Option Str)} {s s' : Plug.St} {es : List Plug.Entry}, Plug.loadLoop os.loader c b fs s = some (es, s') → es.length = fs.length
  | [], _, _, _, h => by cases h; rfl
  | none :: r, s, s', es, h => by
    rw [Plug.loadLoop] at h
    cases h' : Plug.loadLoop os.loader c b r s with
    | none => rw [h'] at h; cases h
    | some x =>
      rw [h'] at h
      cases h
      simp [loadLoop_length h']
  | some [] :: r, s, s', es, h => by
    rw [Plug.loadLoop] at h
    cases h' : Plug.loadLoop os.loader c b r s with
    | none => rw [h'] at h; cases h
    | some x =>
      rw [h'] at h
      cases h
      simp [loadLoop_length h']
  | some (ch :: x) :: r, s, s', es, h => by
    cases b with
    | none => rw [Plug.loadLoop] at h; cases h
    | some b =>
      rw [Plug.loadLoop] at h
      cases h' : Plug.loadLoop os.loader c (some b) r (Plug.loadEntry os.loader c (ch :: x) s).2 with
      | none => rw [h'] at h; cases h
      | some y =>
        rw [h'] at h
        cases h
        simp [loadLoop_length h']

theorem plug_load_some {rows : List (Str × Str)} (hs : PlugSyms I c.syms rows)
    (hd : ∀ h name m, link (plugSem u l os c z1 z2) prog (n + 1) (str% "_gdo_call_dlsym") [.ptr h, .str name] m = plugDlsym os.loader [.ptr h, .str name] m)
    (y : Option Str) (t : List (Option Str)) (s : Plug.St) (heap : Ptr → Option PObj)
    (hne : ∀ a, c.alloc s.clock = some a → c.alloc (s.clock + 1) ≠ some a) (hl : (y :: t).length < lim) :
    ((fnOf C.gdo_load_plugins).inst I).call KK [.strs (y :: t), .int (y :: t).length] ⟨⟨s, heap⟩, fr⟩ =
      match Plug.load os.loader c (some (y :: t)) s with
      | none => .ub
      | some (some p, s') => .ok (.ptr p.addr) ⟨⟨s', loadedHeap heap p⟩, fr⟩
      | some (none, s') => .ok .null ⟨⟨s', heap⟩, fr⟩ := by
  generalize hfs : y :: t = fs at *
  have hb : ((fnOf C.gdo_load_plugins).inst I).body =
      [.if1 (.bin (str% "||") (.un (str% "!") (.id (.fixed (str% "files")))) (.bin (str% "==") (.id (.fixed (str% "num"))) (.id (.fixed (str% "0")))))
          [.ret (some (.id (.fixed (str% "NULL"))))],
        .decl [.word (.fixed (str% "gdo_plugin_t")), .punct (str% "*")] (str% "plug") []
          (some (.cast [.word (.fixed (str% "gdo_plugin_t")), .punct (str% "*")] (.call (.fixed (str% "malloc")) [.sizeofType [.word (.fixed (str% "gdo_plugin_t"))]]))) [],
        .expr (.assign (.arrow (.id (.fixed (str% "plug"))) (str% "num")) (.id (.fixed (str% "num")))),
        .expr (.assign (.arrow (.id (.fixed (str% "plug"))) (str% "list")) (.cast [.word (.fixed (str% "gdo_handle_t")), .punct (str% "*")]
          (.call (.fixed (str% "calloc")) [.id (.fixed (str% "num")), .sizeofType [.word (.fixed (str% "gdo_handle_t"))]]))),
        .for [.word (.fixed (str% "size_t"))] (str% "i") (.id (.fixed (str% "0"))) loadCond incI (loadBody I),
        .ret (some (.id (.fixed (str% "plug"))))] := rfl
  have e1 : Stmt.execAll KK ((fnOf C.gdo_load_plugins).inst I).body ⟨⟨s, heap⟩, ⟨str% "gdo_load_plugins", fileVars fs⟩ :: fr⟩ =
      Stmt.execAll KK (((fnOf C.gdo_load_plugins).inst I).body.drop 1) ⟨⟨s, heap⟩, ⟨str% "gdo_load_plugins", fileVars fs⟩ :: fr⟩ := by
    subst hfs
    rfl
  have hcall : ∀ r, Stmt.execAll KK ((fnOf C.gdo_load_plugins).inst I).body ⟨⟨s, heap⟩, ⟨str% "gdo_load_plugins", fileVars fs⟩ :: fr⟩ = r →
      ((fnOf C.gdo_load_plugins).inst I).call KK [.strs fs, .int fs.length] ⟨⟨s, heap⟩, fr⟩ = unwind (r.bind return_) := by
    rintro _ rfl
    rfl
  have em := plug_malloc (u := u) (l := l) (os := os) (c := c) (z1 := z1) (z2 := z2) (isFn := isFn) (prog := prog) (n := n) (lim := lim) (fr := fr) (vars := fileVars fs) s heap
  rw [hcall _ e1, hb, List.drop_succ_cons, List.drop_zero]
  have hload : Plug.load os.loader c (some fs) s = match (Plug.alloc c s).1 with
      | none => none
      | some a => (Plug.loadLoop os.loader c (Plug.alloc c (Plug.alloc c s).2).1 fs (Plug.alloc c (Plug.alloc c s).2).2).map fun x =>
        (some { addr := a, list := (Plug.alloc c (Plug.alloc c s).2).1, entries := x.1 }, x.2) := by
    subst hfs
    rfl
  rw [hload]
  cases h1 : c.alloc s.clock with
  | none =>
    have hA : Plug.alloc c s = (none, { s with clock := s.clock + 1 }) := by
      unfold Plug.alloc
      rw [h1]
    simp only [plugMalloc, if_true, hA] at em
    simp only [hA]
    rw [Stmt.execAll, Stmt.exec, if_pos rfl]
    dsimp only
    rw [em]
    rfl
  | some a =>
    have hA : Plug.alloc c s = (some a, { s with clock := s.clock + 1, mem := s.mem ++ [.got a] }) := by
      unfold Plug.alloc
      rw [h1]
    simp only [plugMalloc, if_true, hA] at em
    simp only [hA]
    generalize hs1 : ({ s with clock := s.clock + 1, mem := s.mem ++ [.got a] } : Plug.St) = s1 at *
    have hclock : s1.clock = s.clock + 1 := by rw [← hs1]
    -- the declaration and the first assignment
    have e2 : (Stmt.decl [.word (.fixed (str% "gdo_plugin_t")), .punct (str% "*")] (str% "plug") []
        (some (.cast [.word (.fixed (str% "gdo_plugin_t")), .punct (str% "*")] (.call (.fixed (str% "malloc")) [.sizeofType [.word (.fixed (str% "gdo_plugin_t"))]]))) []).exec KK
        ⟨⟨s, heap⟩, ⟨str% "gdo_load_plugins", fileVars fs⟩ :: fr⟩ =
        .ok .next ⟨⟨s1, upd heap a (some (.plug none none))⟩, ⟨str% "gdo_load_plugins", loadVars a fs⟩ :: fr⟩ := by
      rw [Stmt.exec, if_pos rfl]
      dsimp only
      rw [em]
      rfl
    have e3 : (Expr.assign (.arrow (.id (.fixed (str% "plug"))) (str% "num")) (.id (.fixed (str% "num")))).eval KK
        ⟨⟨s1, upd heap a (some (.plug none none))⟩, ⟨str% "gdo_load_plugins", loadVars a fs⟩ :: fr⟩ =
        .ok (.int fs.length) ⟨⟨s1, upd heap a (some (.plug (some fs.length) none))⟩, ⟨str% "gdo_load_plugins", loadVars a fs⟩ :: fr⟩ := by
      show store (plugSem u l os c z1 z2) (.inside a [.field (str% "num")]) (.int fs.length)
        ⟨⟨s1, upd heap a (some (.plug none none))⟩, ⟨str% "gdo_load_plugins", loadVars a fs⟩ :: fr⟩ = _
      simp only [store, plugSem, plugSetIn, upd_same, if_true, Option.map_some, R.of, R.bind, upd_upd]
    rw [exec_next _ e2, exec_next _ (exec_expr _ e3)]
    -- the list
    have ec := plug_calloc (u := u) (l := l) (os := os) (c := c) (z1 := z1) (z2 := z2) (isFn := isFn) (prog := prog) (n := n) (lim := lim) (fr := fr) (a := a) (fs := fs) s1
      (upd heap a (some (.plug (some fs.length) none)))
    have hfor : ∀ g, (Stmt.for [.word (.fixed (str% "size_t"))] (str% "i") (.id (.fixed (str% "0"))) loadCond incI (loadBody I)).exec KK
        ⟨g, ⟨str% "gdo_load_plugins", loadVars a fs⟩ :: fr⟩ =
        (loop (loadCond.test KK) (block (Stmt.execAll KK (loadBody I))) (fun m => (incI.eval KK m).bind fun _ m => .ok .next m) lim
          ⟨g, ⟨str% "gdo_load_plugins", loopVars 0 (loadVars a fs)⟩ :: fr⟩).bind fun fl m => .ok fl (leave 3 m) := fun _ => rfl
    have hlist : ∀ (s2 : Plug.St) (h2 : Ptr → Option PObj) (q : Option Ptr), h2 a = some (.plug (some fs.length) none) →
        (Expr.cast [.word (.fixed (str% "gdo_handle_t")), .punct (str% "*")] (.call (.fixed (str% "calloc"))
          [.id (.fixed (str% "num")), .sizeofType [.word (.fixed (str% "gdo_handle_t"))]])).eval KK
          ⟨⟨s1, upd heap a (some (.plug (some fs.length) none))⟩, ⟨str% "gdo_load_plugins", loadVars a fs⟩ :: fr⟩ =
          .ok (.ofPtr q) ⟨⟨s2, h2⟩, ⟨str% "gdo_load_plugins", loadVars a fs⟩ :: fr⟩ →
        (Expr.assign (.arrow (.id (.fixed (str% "plug"))) (str% "list")) (.cast [.word (.fixed (str% "gdo_handle_t")), .punct (str% "*")]
          (.call (.fixed (str% "calloc")) [.id (.fixed (str% "num")), .sizeofType [.word (.fixed (str% "gdo_handle_t"))]]))).eval KK
          ⟨⟨s1, upd heap a (some (.plug (some fs.length) none))⟩, ⟨str% "gdo_load_plugins", loadVars a fs⟩ :: fr⟩ =
          .ok (.ofPtr q) ⟨⟨s2, upd h2 a (some (.plug (some fs.length) (some q)))⟩, ⟨str% "gdo_load_plugins", loadVars a fs⟩ :: fr⟩ := by
      intro s2 h2 q hh e
      have el : (Expr.arrow (.id (.fixed (str% "plug"))) (str% "list")).lval KK
          ⟨⟨s1, upd heap a (some (.plug (some fs.length) none))⟩, ⟨str% "gdo_load_plugins", loadVars a fs⟩ :: fr⟩ =
          .ok (.inside a [.field (str% "list")]) ⟨⟨s1, upd heap a (some (.plug (some fs.length) none))⟩, ⟨str% "gdo_load_plugins", loadVars a fs⟩ :: fr⟩ := rfl
      rw [Expr.eval, el]
      simp only [R.bind]
      rw [e]
      simp only [store, plugSem, plugSetIn, hh, ofPtr_toPtr, Option.map_some, if_true, R.of, R.bind]
      rfl
    have hret : ∀ g, Stmt.execAll KK [.ret (some (.id (.fixed (str% "plug"))))] ⟨g, ⟨str% "gdo_load_plugins", loadVars a fs⟩ :: fr⟩ =
        .ok (.ret (.ptr a)) ⟨g, ⟨str% "gdo_load_plugins", loadVars a fs⟩ :: fr⟩ := fun _ => rfl
    cases h2 : c.alloc (s.clock + 1) with
    | none =>
      have hA : Plug.alloc c s1 = (none, { s1 with clock := s1.clock + 1 }) := by
        unfold Plug.alloc
        rw [hclock, h2]
      simp only [plugCalloc, if_true, hA] at ec
      simp only [hA]
      have e4 := hlist _ _ none (upd_same _ _ _) ec
      rw [upd_upd] at e4
      rw [exec_next _ (exec_expr _ e4)]
      have el := plug_loop_null (fs := fs) (u := u) (l := l) (os := os) (c := c) (z1 := z1) (z2 := z2) (isFn := isFn) (prog := prog) (n := n) (lim := lim) (I := I)
        (f := str% "gdo_load_plugins") (fr := fr) (x := fs.length) (upd heap a (some (.plug (some fs.length) (some none)))) (upd_same _ _ _) fs [] rfl lim hl
        { s1 with clock := s1.clock + 1 }
      rw [Stmt.execAll, hfor]
      rw [List.length_nil] at el
      rw [el]
      cases hL : Plug.loadLoop os.loader c none fs { s1 with clock := s1.clock + 1 } with
      | none => rfl
      | some r =>
        simp only [Option.map_some, loadedHeap, loadLoop_length hL]
        rfl
    | some b =>
      have hab : a ≠ b := by
        intro e
        subst e
        exact hne a h1 h2
      have hA : Plug.alloc c s1 = (some b, { s1 with clock := s1.clock + 1, mem := s1.mem ++ [.got b] }) := by
        unfold Plug.alloc
        rw [hclock, h2]
      simp only [plugCalloc, if_true, hA] at ec
      simp only [hA]
      have e4 := hlist _ _ (some b) ((upd_other _ hab _).trans (upd_same _ _ _)) ec
      have hcomm : upd (upd (upd heap a (some (.plug (some fs.length) none))) b (some (.entries (List.replicate fs.length {})))) a (some (.plug (some fs.length) (some (some b)))) =
          upd (upd heap a (some (.plug (some fs.length) (some (some b))))) b (some (.entries (List.replicate fs.length {}))) := by
        funext q
        unfold upd
        by_cases hq : q = a
        · subst hq
          simp [hab]
        · simp [hq]
      rw [hcomm] at e4
      rw [exec_next _ (exec_expr _ e4)]
      have el := plug_loop (fs := fs) (u := u) (l := l) (os := os) (c := c) (z1 := z1) (z2 := z2) (isFn := isFn) (prog := prog) (n := n) (lim := lim) (f := str% "gdo_load_plugins") (fr := fr)
        hs hd (x := fs.length) hab (upd heap a (some (.plug (some fs.length) (some (some b))))) (upd_same _ _ _) fs [] rfl [] rfl lim hl
        { s1 with clock := s1.clock + 1, mem := s1.mem ++ [.got b] }
      rw [Stmt.execAll, hfor]
      rw [List.length_nil, List.nil_append] at el
      rw [el]
      cases hL : Plug.loadLoop os.loader c (some b) fs { s1 with clock := s1.clock + 1, mem := s1.mem ++ [.got b] } with
      | none => rfl
      | some r =>
        simp only [Option.map_some, loadedHeap, loadLoop_length hL]
        rfl

theorem plug_load_none (k : Int) (s : Plug.St) (heap : Ptr → Option PObj) :
    ((fnOf C.gdo_load_plugins).inst I).call KK [.null, .int k] ⟨⟨s, heap⟩, fr⟩ = .ok .null ⟨⟨s, heap⟩, fr⟩ := rfl

theorem plug_load_empty (s : Plug.St) (heap : Ptr → Option PObj) :
    ((fnOf C.gdo_load_plugins).inst I).call KK [.strs [], .int 0] ⟨⟨s, heap⟩, fr⟩ = .ok .null ⟨⟨s, heap⟩, fr⟩ := rfl

end

/-! ### Releasing -/

section
variable {a : Ptr} {f : Str} {fr : List Frame} {I : Insts}

local notation "KK" => pctx u l os c z1 z2 isFn prog n lim
local notation "VV" => [(str% "plug", some (V.ptr a))]
local notation "FF" i => (Frame.mk (str% "gdo_release_plugins") (loopVars i VV) :: fr)

/-- `i < plug->num` -/
def releaseCond : Expr := .bin (str% "<") (.id (.fixed (str% "i"))) (.arrow (.id (.fixed (str% "plug"))) (str% "num"))

/-- The body of the loop. -/
def releaseBody : List Stmt :=
  [.expr (.call (.fixed (str% "free")) [memberE (str% "filename")]),
   .if1 (memberE (str% "handle")) [.expr (.call (.fixed (str% "_gdo_call_dlclose")) [memberE (str% "handle")])]]

theorem release_cond {k : Nat} {b : Option Ptr} (heap : Ptr → Option PObj) (ha : heap a = some (.plug (some k) (some b))) (i : Nat) (s : Plug.St) :
    releaseCond.test KK ⟨⟨s, heap⟩, FF i⟩ = .ok (decide (i < k)) ⟨⟨s, heap⟩, FF i⟩ := by
  have e : releaseCond.test KK ⟨⟨s, heap⟩, FF i⟩ = (((R.of (⟨⟨s, heap⟩, FF i⟩ : M PSt) (plugGetIn a [.field (str% "num")] ⟨s, heap⟩))).bind fun y m =>
      .of m (binary (str% "<") (.int i) y)).bind fun v m => .of m v.truth := rfl
  rw [e]
  simp only [plugGetIn, ha, if_true, Option.map_some, R.of, R.bind]
  have e2 : binary (str% "<") (.int i) (.int k) = some (.ofBool (decide ((i : Int) < k))) := rfl
  rw [e2]
  simp only [truth_ofBool]
  congr 1
  simp

theorem release_one (hc : ∀ h m, ∃ v, link (plugSem u l os c z1 z2) prog (n + 1) (str% "_gdo_call_dlclose") [.ptr h] m =
      .ok v ⟨⟨Plug.close os.loader (some h) m.g.st, m.g.heap⟩, m.frames⟩)
    {k : Int} {b : Ptr} {es : List Plug.Entry} (heap : Ptr → Option PObj) (ha : heap a = some (.plug (some k) (some (some b)))) (hb : heap b = some (.entries es))
    {i : Nat} {e : Plug.Entry} (he : es[i]? = some e) (s : Plug.St) :
    Stmt.execAll KK releaseBody ⟨⟨s, heap⟩, FF i⟩ = .ok .next ⟨⟨Plug.close os.loader e.handle (Plug.free (e.filename.map Prod.fst) s), heap⟩, FF i⟩ := by
  have en : ∀ s : Plug.St, entryE.lval KK ⟨⟨s, heap⟩, FF i⟩ = .ok (.inside b [.index i]) ⟨⟨s, heap⟩, FF i⟩ :=
    fun s => plug_entry (m := ⟨⟨s, heap⟩, FF i⟩) rfl rfl ha
  have e1 : (memberE (str% "filename")).eval KK ⟨⟨s, heap⟩, FF i⟩ = .ok (.ofCopy e.filename) ⟨⟨s, heap⟩, FF i⟩ := by
    rw [memberE, eval_member, en]
    simp only [R.bind, memberIn, R.of, load, plugSem, plugGetIn, hb, List.cons_append, List.nil_append, he, Option.bind_some, if_true]
  have e2 : ∀ s : Plug.St, (memberE (str% "handle")).eval KK ⟨⟨s, heap⟩, FF i⟩ = .ok (.ofPtr e.handle) ⟨⟨s, heap⟩, FF i⟩ := by
    intro s
    rw [memberE, eval_member, en]
    simp only [R.bind, memberIn, R.of, load, plugSem, plugGetIn, hb, List.cons_append, List.nil_append, he, Option.bind_some]
    rfl
  have e3 : (Expr.call (.fixed (str% "free")) [memberE (str% "filename")]).eval KK ⟨⟨s, heap⟩, FF i⟩ =
      .ok .void ⟨⟨Plug.free (e.filename.map Prod.fst) s, heap⟩, FF i⟩ := by
    rw [eval_call1 _ rfl e1]
    obtain ⟨_ | ⟨x, y⟩, _, _⟩ := e <;> rfl
  unfold releaseBody
  rw [exec_next _ (exec_expr _ e3)]
  generalize Plug.free (e.filename.map Prod.fst) s = s
  have e4 := e2 s
  cases hh : e.handle with
  | none =>
    rw [hh] at e4
    exact exec_one _ (if1_false _ (test_of _ e4 rfl))
  | some h =>
    rw [hh] at e4
    obtain ⟨v, e5⟩ := hc h ⟨⟨s, heap⟩, FF i⟩
    have e6 : (Expr.call (.fixed (str% "_gdo_call_dlclose")) [memberE (str% "handle")]).eval KK ⟨⟨s, heap⟩, FF i⟩ =
        .ok v ⟨⟨Plug.close os.loader (some h) s, heap⟩, FF i⟩ := by
      rw [eval_call1 _ rfl e4]
      exact e5
    refine (exec_one _ (if1_true _ (test_of _ e4 rfl) (exec_one _ (exec_expr _ e6)))).trans ?_
    simp [leave, locals]

theorem release_null {k : Int} (heap : Ptr → Option PObj) (ha : heap a = some (.plug (some k) (some none))) (i : Nat) (s : Plug.St) :
    Stmt.execAll KK releaseBody ⟨⟨s, heap⟩, FF i⟩ = .ub := by
  have en : entryE.lval KK ⟨⟨s, heap⟩, FF i⟩ = .ub := plug_entry_null (m := ⟨⟨s, heap⟩, FF i⟩) rfl rfl ha
  have e1 : (memberE (str% "filename")).eval KK ⟨⟨s, heap⟩, FF i⟩ = .ub := by
    rw [memberE, eval_member, en]
    rfl
  show (((((memberE (str% "filename")).eval KK _).bind _).bind _).bind _).bind _ = _
  rw [e1]
  rfl

theorem release_loop (hc : ∀ h m, ∃ v, link (plugSem u l os c z1 z2) prog (n + 1) (str% "_gdo_call_dlclose") [.ptr h] m =
      .ok v ⟨⟨Plug.close os.loader (some h) m.g.st, m.g.heap⟩, m.frames⟩)
    {b : Ptr} {es : List Plug.Entry} (heap : Ptr → Option PObj) (ha : heap a = some (.plug (some es.length) (some (some b)))) (hb : heap b = some (.entries es)) :
    ∀ (rest : List Plug.Entry) (pre : List Plug.Entry) (_ : es = pre ++ rest) (k : Nat) (_ : rest.length < k) (s : Plug.St),
      loop (releaseCond.test KK) (block (Stmt.execAll KK releaseBody)) (fun m => (incI.eval KK m).bind fun _ m => .ok .next m) k ⟨⟨s, heap⟩, FF pre.length⟩ =
        .ok .next ⟨⟨Plug.releaseLoop os.loader rest s, heap⟩, FF es.length⟩ := by
  intro rest
  induction rest with
  | nil =>
    intro pre he k hk s
    obtain ⟨k, rfl⟩ : ∃ j, k = j + 1 := ⟨k - 1, by simp at hk; omega⟩
    rw [loop, release_cond heap ha]
    have : es.length = pre.length := by rw [he]; simp
    simp [R.bind, this, Plug.releaseLoop]
  | cons e t ih =>
    intro pre he k hk s
    obtain ⟨k, rfl⟩ : ∃ j, k = j + 1 := ⟨k - 1, by simp at hk; omega⟩
    have hx : es[pre.length]? = some e := by rw [he]; simp
    have hC : releaseCond.test KK ⟨⟨s, heap⟩, FF pre.length⟩ = .ok true ⟨⟨s, heap⟩, FF pre.length⟩ := by
      rw [release_cond heap ha, decide_eq_true (by rw [he]; simp)]
    have hE : ∀ g : PSt, (fun m => (incI.eval KK m).bind fun _ m => R.ok Flow.next m) ⟨g, FF pre.length⟩ = .ok .next ⟨g, FF (pre.length + 1)⟩ := fun _ => rfl
    refine (loop_once hC (block_same (release_one hc heap ha hb hx s)) (.inl rfl) (hE _)).trans ?_
    have := ih (pre ++ [e]) (by rw [he]; simp) k (by simp at hk; omega) (Plug.close os.loader e.handle (Plug.free (e.filename.map Prod.fst) s))
    rw [List.length_append, List.length_singleton] at this
    exact this

theorem plug_release_none (s : Plug.St) (heap : Ptr → Option PObj) :
    ((fnOf C.gdo_release_plugins).inst I).call KK [.null] ⟨⟨s, heap⟩, fr⟩ = .ok .void ⟨⟨s, heap⟩, fr⟩ := rfl

/-- The memory of a list of plug-ins. -/
structure Holds (heap : Ptr → Option PObj) (p : Plug.Plugin) : Prop where
  plug : heap p.addr = some (.plug (some p.entries.length) (some p.list))
  list : ∀ b, p.list = some b → heap b = some (.entries p.entries) ∧ p.addr ≠ b

/-- The memory behind `gdo_release_plugins`. -/
def freedHeap (heap : Ptr → Option PObj) (p : Plug.Plugin) : Ptr → Option PObj :=
  match p.list with
  | some b => upd (upd heap b none) p.addr none
  | none => upd heap p.addr none

theorem plug_release_some (hc : ∀ h m, ∃ v, link (plugSem u l os c z1 z2) prog (n + 1) (str% "_gdo_call_dlclose") [.ptr h] m =
      .ok v ⟨⟨Plug.close os.loader (some h) m.g.st, m.g.heap⟩, m.frames⟩)
    (p : Plug.Plugin) (s : Plug.St) (heap : Ptr → Option PObj) (hh : Holds heap p) (hl : p.entries.length < lim) :
    ((fnOf C.gdo_release_plugins).inst I).call KK [.ptr p.addr] ⟨⟨s, heap⟩, fr⟩ =
      match Plug.release os.loader (some p) s with
      | none => .ub
      | some s' => .ok .void ⟨⟨s', freedHeap heap p⟩, fr⟩ := by
  obtain ⟨a, list, es⟩ := p
  have ha : heap a = some (.plug (some es.length) (some list)) := hh.plug
  have hcall : ((fnOf C.gdo_release_plugins).inst I).call KK [.ptr a] ⟨⟨s, heap⟩, fr⟩ =
      unwind ((((loop (releaseCond.test KK) (block (Stmt.execAll KK releaseBody)) (fun m => (incI.eval KK m).bind fun _ m => .ok .next m) lim
          ⟨⟨s, heap⟩, ⟨str% "gdo_release_plugins", loopVars 0 [(str% "plug", some (V.ptr a))]⟩ :: fr⟩).bind fun fl m => .ok fl (leave 1 m)).bind fun fl m =>
        match fl with
        | .next => Stmt.execAll KK [.expr (.call (.fixed (str% "free")) [.arrow (.id (.fixed (str% "plug"))) (str% "list")]),
            .expr (.call (.fixed (str% "free")) [.id (.fixed (str% "plug"))])] m
        | fl => .ok fl m).bind return_) := rfl
  rw [hcall]
  have e1 : (Expr.arrow (.id (.fixed (str% "plug"))) (str% "list")).eval KK ⟨⟨Plug.releaseLoop os.loader es s, heap⟩, ⟨str% "gdo_release_plugins", [(str% "plug", some (V.ptr a))]⟩ :: fr⟩ =
      .ok (.ofPtr list) ⟨⟨Plug.releaseLoop os.loader es s, heap⟩, ⟨str% "gdo_release_plugins", [(str% "plug", some (V.ptr a))]⟩ :: fr⟩ := plug_list (k := es.length) rfl rfl ha
  have e2 : ∀ (s : Plug.St) (h : Ptr → Option PObj) o, h a = some o → (Expr.call (.fixed (str% "free")) [.id (.fixed (str% "plug"))]).eval KK
      ⟨⟨s, h⟩, ⟨str% "gdo_release_plugins", [(str% "plug", some (V.ptr a))]⟩ :: fr⟩ = .ok .void ⟨⟨Plug.free (some a) s, upd h a none⟩, ⟨str% "gdo_release_plugins", [(str% "plug", some (V.ptr a))]⟩ :: fr⟩ := by
    intro s h o ho
    show plugFree [.ptr a] ⟨⟨s, h⟩, ⟨str% "gdo_release_plugins", [(str% "plug", some (V.ptr a))]⟩ :: fr⟩ = _
    simp only [plugFree, ho]
  cases list with
  | some b =>
    obtain ⟨hb, hab⟩ := hh.list b rfl
    dsimp only at hb hab
    have el := release_loop (u := u) (l := l) (os := os) (c := c) (z1 := z1) (z2 := z2) (isFn := isFn) (prog := prog) (n := n) (lim := lim) (fr := fr) hc heap ha hb es [] rfl lim hl s
    rw [List.length_nil] at el
    rw [el]
    have e3 : (Expr.call (.fixed (str% "free")) [.arrow (.id (.fixed (str% "plug"))) (str% "list")]).eval KK
        ⟨⟨Plug.releaseLoop os.loader es s, heap⟩, ⟨str% "gdo_release_plugins", [(str% "plug", some (V.ptr a))]⟩ :: fr⟩ =
        .ok .void ⟨⟨Plug.free (some b) (Plug.releaseLoop os.loader es s), upd heap b none⟩, ⟨str% "gdo_release_plugins", [(str% "plug", some (V.ptr a))]⟩ :: fr⟩ := by
      rw [eval_call1 _ rfl e1]
      show plugFree [.ptr b] ⟨⟨Plug.releaseLoop os.loader es s, heap⟩, ⟨str% "gdo_release_plugins", [(str% "plug", some (V.ptr a))]⟩ :: fr⟩ = _
      simp only [plugFree, hb]
    have hm : Plug.release os.loader (some ⟨a, some b, es⟩) s = some (Plug.free (some a) (Plug.free (some b) (Plug.releaseLoop os.loader es s))) := by
      cases es <;> rfl
    rw [hm]
    show unwind ((Stmt.execAll KK _ ⟨⟨Plug.releaseLoop os.loader es s, heap⟩, ⟨str% "gdo_release_plugins", [(str% "plug", some (V.ptr a))]⟩ :: fr⟩).bind return_) = _
    rw [exec_next _ (exec_expr _ e3), exec_one _ (exec_expr _ (e2 _ _ _ ((upd_other _ hab _).trans ha)))]
    rfl
  | none =>
    have e3 : (Expr.call (.fixed (str% "free")) [.arrow (.id (.fixed (str% "plug"))) (str% "list")]).eval KK
        ⟨⟨Plug.releaseLoop os.loader es s, heap⟩, ⟨str% "gdo_release_plugins", [(str% "plug", some (V.ptr a))]⟩ :: fr⟩ =
        .ok .void ⟨⟨Plug.releaseLoop os.loader es s, heap⟩, ⟨str% "gdo_release_plugins", [(str% "plug", some (V.ptr a))]⟩ :: fr⟩ := by
      rw [eval_call1 _ rfl e1]
      rfl
    have hloop : ∀ C A E (m : M PSt), loop C A E lim m = (C m).bind fun b m =>
        if b then (A m).bind fun fl m =>
          match fl with
          | .next => (E m).bind fun _ m => loop C A E (lim - 1) m
          | .cont => (E m).bind fun _ m => loop C A E (lim - 1) m
          | .brk => .ok .next m
          | .ret v => .ok (.ret v) m
        else .ok .next m := by
      intro C A E m
      cases lim with
      | zero => omega
      | succ k => rfl
    rw [hloop, release_cond heap ha]
    cases es with
    | nil =>
      have hm : Plug.release os.loader (some ⟨a, none, []⟩) s = some (Plug.free (some a) (Plug.free none (Plug.releaseLoop os.loader [] s))) := rfl
      rw [hm]
      show unwind ((Stmt.execAll KK _ ⟨⟨Plug.releaseLoop os.loader [] s, heap⟩, ⟨str% "gdo_release_plugins", [(str% "plug", some (V.ptr a))]⟩ :: fr⟩).bind return_) = _
      rw [exec_next _ (exec_expr _ e3), exec_one _ (exec_expr _ (e2 _ _ _ ha))]
      rfl
    | cons e t =>
      have hm : Plug.release os.loader (some ⟨a, none, e :: t⟩) s = none := rfl
      rw [hm]
      rw [decide_eq_true (by simp)]
      simp only [R.bind, if_true]
      unfold block
      rw [release_null heap ha]
      rfl

end

end

end Gdo.Cc
