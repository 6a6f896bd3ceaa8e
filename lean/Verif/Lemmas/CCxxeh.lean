import Verif.Model.CSystemCxxeh
import Verif.Model.CProgCxx
import Verif.Lemmas.CMin

/-!
Lemmas: what the functions of `src/templates/minimal_cxxeh.hpp` do.
-/

set_option maxRecDepth 10000

namespace Gdo.Cc
open Gdo Tmpl Rt Rename

/-- An exception ends a sequence of statements. -/
theorem execAll_thrown {σ : Type} (K : Ctx σ) {a : List Stmt} {m m' : M σ} {x t : Str} (b : List Stmt) (h : Stmt.execAll K a m = .thrown x t m') :
    Stmt.execAll K (a ++ b) m = .thrown x t m' := by
  rw [execAll_append, h]
  rfl

theorem call_thrown {σ : Type} (K : Ctx σ) {f : Fn} {args : List V} {vars : List (Str × Option V)} {g g' : σ} {fr : List Frame} {F : Frame} {x t : Str}
    {body : List Stmt} {fn : Str} (hb : f.body = body) (hf : f.name = fn) (hl : args.length = f.params.length)
    (hv : (f.params.zip args).map (fun p => (p.1.2, some p.2)) = vars)
    (h : Stmt.execAll K body ⟨g, ⟨fn, vars⟩ :: fr⟩ = .thrown x t ⟨g', F :: fr⟩) : f.call K args ⟨g, fr⟩ = .thrown x t ⟨g', fr⟩ := by
  subst hb hv hf
  unfold Fn.call
  rw [if_pos hl, h]
  rfl

section
variable (u l : Str) (os : Min.Os) (syms : List Str) (isFn : Str → Bool) (prog : List Top) (n lim : Nat) (I : Insts)

/-- What a function is executed with. -/
abbrev ectx : Ctx Min.St := ⟨cxxehSem u l os syms, isFn, link (cxxehSem u l os syms) prog (n + 1), lim⟩

/-- `GDO_PTR_... = nullptr;` -/
def cxxehClear : List Stmt := [.expr (.assign (.id (.hole (str% "GDO_PTR_") (str% "symbol"))) (.id (.fixed (str% "nullptr"))))]

theorem cxxeh_clear (f : Str) (fr : List Frame) :
    ∀ (rows : List (Str × Str)) (i : Nat) (_ : MinRows syms i rows) (s : Min.St),
      Stmt.execAll (ectx u l os syms isFn prog n lim) ((rows.map fun r => symbolValues r.1 r.2).flatMap fun v => Stmt.instAll I v cxxehClear) ⟨s, ⟨f, []⟩ :: fr⟩ =
        .ok .next ⟨{ s with ptr := fun j => if i ≤ j ∧ j < i + rows.length then none else s.ptr j }, ⟨f, []⟩ :: fr⟩ := by
  intro rows
  induction rows with
  | nil =>
    intro i _ s
    have : (fun j => if i ≤ j ∧ j < i + 0 then none else s.ptr j) = s.ptr := by
      funext j
      rw [if_neg (by omega)]
    simp only [List.map_nil, List.flatMap_nil, Stmt.execAll, List.length_nil, this]
  | cons x t ih =>
    intro i h s
    rw [List.map_cons, List.flatMap_cons]
    have e : Stmt.execAll (ectx u l os syms isFn prog n lim) (Stmt.instAll I (symbolValues x.1 x.2) cxxehClear) ⟨s, ⟨f, []⟩ :: fr⟩ =
        .ok .next ⟨{ s with ptr := fun j => if j = i then none else s.ptr j }, ⟨f, []⟩ :: fr⟩ := by
      have e : Stmt.execAll (ectx u l os syms isFn prog n lim) (Stmt.instAll I (symbolValues x.1 x.2) cxxehClear) ⟨s, ⟨f, []⟩ :: fr⟩ =
          ((((R.of ⟨s, ⟨f, []⟩ :: fr⟩ (minGlued syms (str% "GDO_PTR_") x.2)).bind fun lv m =>
            ((R.of m (place (ectx u l os syms isFn prog n lim) (.fixed (str% "nullptr")) m)).bind (load (cxxehSem u l os syms))).bind fun v m =>
              store (cxxehSem u l os syms) lv v m).bind fun _ m => .ok Flow.next m).bind fun fl m =>
                match fl with
                | .next => .ok .next m
                | fl => .ok fl m) := rfl
      rw [e, h.1]
      rfl
    rw [execAll_next _ _ e, ih (i + 1) h.2]
    congr 3
    funext j
    simp only [List.length_cons]
    by_cases hj : j = i
    · subst hj
      simp
    · by_cases h2 : i + 1 ≤ j ∧ j < i + 1 + t.length
      · rw [if_pos h2, if_pos (by omega)]
      · rw [if_neg h2, if_neg hj, if_neg (by omega)]

/-- The functions of the code. -/
def cxxehFns : Str → Bool := fun w => w = str% "free_library" || w = str% "load_library_and_symbols" || w = str% "load_symbol"

variable {I} in
theorem cxxeh_free {rows : List (Str × Str)} (h : MinSyms I syms rows) (s : Min.St) (fr : List Frame) :
    ((fnOf (Cxxeh.free_library os.isWin)).inst I).call (ectx u l os syms cxxehFns prog n lim) [] ⟨s, fr⟩ = .ok .void ⟨Min.free os.loader syms s, fr⟩ := by
  have hb : ((fnOf (Cxxeh.free_library os.isWin)).inst I).body = ((fnOf (Cxxeh.free_library os.isWin)).inst I).body.take 2 ++
      ((I .symbol).flatMap (fun v => Stmt.instAll I v cxxehClear) ++ []) := rfl
  have key : Stmt.execAll (ectx u l os syms cxxehFns prog n lim) (((fnOf (Cxxeh.free_library os.isWin)).inst I).body.take 2) ⟨s, ⟨str% "free_library", []⟩ :: fr⟩ =
      .ok .next ⟨{ Min.close os.loader s with handle := none }, ⟨str% "free_library", []⟩ :: fr⟩ := by
    cases os <;> obtain ⟨_ | x, p, clock, log⟩ := s <;> rfl
  refine call_end (F := ⟨str% "free_library", []⟩) _ hb rfl rfl rfl ((execAll_next _ _ key).trans ?_)
  rw [List.append_nil, h.insts, cxxeh_clear u l os syms cxxehFns prog n lim I _ fr rows 0 h.from, h.length]
  unfold Min.free
  simp

/-- `load_symbol`. -/
theorem cxxeh_symbol (s : Min.St) (x : Ptr) (hs : s.handle = some x) (name : Str) (fr : List Frame) (hf : List STok) :
    ((⟨[], str% "load_symbol", [(hf, str% "symbol")],
      if os.isWin then [.ret (some (.rcast [w! "void", p! "*"] (.global (str% "GetProcAddress") [.id (.fixed (str% "handle")), .id (.fixed (str% "symbol"))])))]
      else [.ret (some (.global (str% "dlsym") [.id (.fixed (str% "handle")), .id (.fixed (str% "symbol"))]))]⟩ : Fn).inst I).call (ectx u l os syms cxxehFns prog n lim) [.str name] ⟨s, fr⟩ =
      .ok (.ofPtr (os.loader.dlsym s.clock x name).1)
        ⟨{ s with clock := s.clock + 1, log := s.log ++ [.sym x name (os.loader.dlsym s.clock x name).1] }, fr⟩ := by
  obtain ⟨hd, p, clock, log⟩ := s
  cases hs
  cases os <;> rfl

/-- The statements for each symbol. -/
def cxxehLoads : List Stmt :=
  [.expr (.assign (.id (.hole (str% "GDO_PTR_") (str% "symbol")))
    (.rcast [.text (.hole [] (str% "sym_type"))] (.call (.fixed (str% "load_symbol")) [.str (.hole [] (str% "symbol"))]))),
   .if1 (.un (str% "!") (.id (.hole (str% "GDO_PTR_") (str% "symbol"))))
    [.expr (.call (.fixed (str% "free_library")) []), .throw (str% "SymbolError") (.str (.hole [] (str% "symbol")))]]

/-- What the functions that are called do. -/
structure CxxehCalls (u l : Str) (os : Min.Os) (syms : List Str) (prog : List Top) (n : Nat) : Prop where
  free : ∀ m, link (cxxehSem u l os syms) prog (n + 1) (str% "free_library") [] m = .ok .void ⟨Min.free os.loader syms m.g, m.frames⟩
  symbol : ∀ (s : Min.St) (x : Ptr) (_ : s.handle = some x) (name : Str) (fr : List Frame),
    link (cxxehSem u l os syms) prog (n + 1) (str% "load_symbol") [.str name] ⟨s, fr⟩ = .ok (.ofPtr (os.loader.dlsym s.clock x name).1)
      ⟨{ s with clock := s.clock + 1, log := s.log ++ [.sym x name (os.loader.dlsym s.clock x name).1] }, fr⟩

theorem cxxeh_one (hc : CxxehCalls u l os syms prog n)
    (F : Frame) (fr : List Frame) (t name : Str) (i : Nat) (hi : minGlued syms (str% "GDO_PTR_") name = some (.sym i)) (x : Ptr)
    (s : Min.St) (hs : s.handle = some x) :
    Stmt.execAll (ectx u l os syms isFn prog n lim) (Stmt.instAll I (symbolValues t name) cxxehLoads) ⟨s, F :: fr⟩ =
      if ((Min.loadOne os.loader x i name s).ptr i).isSome then .ok .next ⟨Min.loadOne os.loader x i name s, F :: fr⟩
      else .thrown (str% "SymbolError") name ⟨Min.free os.loader syms (Min.loadOne os.loader x i name s), F :: fr⟩ := by
  have hm : ∀ m : M Min.St, place (ectx u l os syms isFn prog n lim) (.glued (str% "GDO_PTR_") name) m = some (.sym i) := fun m => hi
  have e1 : (Expr.assign (.id (.glued (str% "GDO_PTR_") name))
      (.rcast [.text (.glued [] t)] (.call (.fixed (str% "load_symbol")) [.str (.glued [] name)]))).eval (ectx u l os syms isFn prog n lim)
        ⟨s, F :: fr⟩ = .ok (.ofPtr (os.loader.dlsym s.clock x name).1) ⟨Min.loadOne os.loader x i name s, F :: fr⟩ := by
    have ev : (Expr.rcast [.text (.glued [] t)] (.call (.fixed (str% "load_symbol")) [.str (.glued [] name)])).eval (ectx u l os syms isFn prog n lim)
        ⟨s, F :: fr⟩ = .ok (.ofPtr (os.loader.dlsym s.clock x name).1)
          ⟨{ s with clock := s.clock + 1, log := s.log ++ [.sym x name (os.loader.dlsym s.clock x name).1] }, F :: fr⟩ := hc.symbol s x hs name (F :: fr)
    have st : ∀ a, store (cxxehSem u l os syms) (.sym i) (.ofPtr a) ⟨{ s with clock := s.clock + 1, log := s.log ++ [.sym x name a] }, F :: fr⟩ =
        .ok (.ofPtr a) ⟨{ s with clock := s.clock + 1, ptr := fun j => if j = i then a else s.ptr j, log := s.log ++ [.sym x name a] }, F :: fr⟩ := by
      rintro (_ | a) <;> rfl
    have e : ∀ o, o = some (Lv.sym i) → ((R.of ⟨s, F :: fr⟩ o).bind fun lv m =>
        ((Expr.rcast [.text (.glued [] t)] (.call (.fixed (str% "load_symbol")) [.str (.glued [] name)])).eval (ectx u l os syms isFn prog n lim) m).bind fun v m =>
          store (cxxehSem u l os syms) lv v m) = .ok (.ofPtr (os.loader.dlsym s.clock x name).1) ⟨Min.loadOne os.loader x i name s, F :: fr⟩ := by
      rintro _ rfl
      simp only [R.of, R.bind]
      rw [ev]
      exact st _
    exact e _ (hm _)
  have e2 : ∀ g : Min.St, (Expr.un (str% "!") (.id (.glued (str% "GDO_PTR_") name))).test (ectx u l os syms isFn prog n lim)
      ⟨g, F :: fr⟩ = .ok (!(g.ptr i).isSome) ⟨g, F :: fr⟩ := by
    intro g
    have e : ∀ o, o = some (Lv.sym i) → ((((R.of (⟨g, F :: fr⟩ : M Min.St) o).bind (load (cxxehSem u l os syms))).bind fun v m =>
        R.of m (v.truth.map fun b => V.ofBool !b)).bind fun v m => .of m v.truth) = .ok (!(g.ptr i).isSome) ⟨g, F :: fr⟩ := by
      rintro _ rfl
      obtain ⟨_, p, _, _⟩ := g
      show ((R.of _ ((V.ofPtr (p i)).truth.map fun b => V.ofBool !b)).bind fun v m => .of m v.truth) = _
      cases h : p i
      · simp only [h]
        rfl
      · simp only [h]
        rfl
    exact e _ (hm ⟨g, F :: fr⟩)
  refine (exec_next (s := .expr _) _ (exec_expr _ e1)).trans ?_
  generalize Min.loadOne os.loader x i name s = g
  have e2 := e2 g
  cases hp : (g.ptr i).isSome with
  | true =>
    rw [hp] at e2
    exact exec_one _ (if1_false _ e2)
  | false =>
    rw [hp] at e2
    have ec : (Expr.call (.fixed (str% "free_library")) []).eval (ectx u l os syms isFn prog n lim) ⟨g, F :: fr⟩ = .ok .void ⟨Min.free os.loader syms g, F :: fr⟩ := hc.free ⟨g, F :: fr⟩
    have eb : Stmt.execAll (ectx u l os syms isFn prog n lim) [.expr (.call (.fixed (str% "free_library")) []), .throw (str% "SymbolError") (.str (.glued [] name))] ⟨g, F :: fr⟩ =
        .thrown (str% "SymbolError") name ⟨Min.free os.loader syms g, F :: fr⟩ := (exec_next (s := .expr _) _ (exec_expr _ ec)).trans rfl
    have ei : (Stmt.if1 (Expr.un (str% "!") (.id (.glued (str% "GDO_PTR_") name)))
        [.expr (.call (.fixed (str% "free_library")) []), .throw (str% "SymbolError") (.str (.glued [] name))]).exec (ectx u l os syms isFn prog n lim) ⟨g, F :: fr⟩ =
        .thrown (str% "SymbolError") name ⟨Min.free os.loader syms g, F :: fr⟩ := by
      rw [Stmt.exec, e2]
      simp only [R.bind, Bool.not_false, if_true, block, eb]
    show Stmt.execAll (ectx u l os syms isFn prog n lim) [Stmt.if1 (Expr.un (str% "!") (.id (.glued (str% "GDO_PTR_") name)))
        [.expr (.call (.fixed (str% "free_library")) []), .throw (str% "SymbolError") (.str (.glued [] name))]] ⟨g, F :: fr⟩ = _
    rw [Stmt.execAll, ei]
    rfl

/-- The class and the message of an exception. -/
def excOf : Min.Exn → Str × Str
  | .libraryError w => (str% "LibraryError", w)
  | .symbolError w => (str% "SymbolError", w)

theorem cxxeh_loop (hc : CxxehCalls u l os syms prog n) (F : Frame) (fr : List Frame) (x : Ptr) :
    ∀ (rows : List (Str × Str)) (i : Nat) (_ : MinRows syms i rows) (s : Min.St) (_ : s.handle = some x),
      Stmt.execAll (ectx u l os syms isFn prog n lim) ((rows.map fun r => symbolValues r.1 r.2).flatMap fun v => Stmt.instAll I v cxxehLoads) ⟨s, F :: fr⟩ =
        match Min.loadLoop os.loader syms x i (rows.map (·.2)) s with
        | (none, s) => .ok .next ⟨s, F :: fr⟩
        | (some e, s) => .thrown (excOf e.exn).1 (excOf e.exn).2 ⟨s, F :: fr⟩ := by
  intro rows
  induction rows with
  | nil => intro i _ s _; rfl
  | cons r t ih =>
    intro i hr s hs
    rw [List.map_cons, List.flatMap_cons, List.map_cons]
    unfold Min.loadLoop
    have e := cxxeh_one u l os syms isFn prog n lim I hc F fr r.1 r.2 i hr.1 x s hs
    dsimp only
    cases hp : ((Min.loadOne os.loader x i r.2 s).ptr i).isSome with
    | true =>
      rw [hp, if_pos rfl] at e
      rw [execAll_next _ _ e, if_pos rfl]
      exact ih (i + 1) hr.2 _ hs
    | false =>
      rw [hp, if_neg (by simp)] at e
      rw [execAll_thrown _ _ e, if_neg (by simp)]
      rfl

/-- The frame of `load_library_and_symbols`. -/
def cxxehFrame (t : Str) : Frame := ⟨str% "load_library_and_symbols", [(str% "filename", some (.str t))]⟩

/-- The frame behind the declaration of `load_symbol`. -/
def cxxehFrame2 (t : Str) : Frame :=
  ⟨str% "load_library_and_symbols", [(str% "load_symbol", some (.fn (str% "load_symbol"))), (str% "filename", some (.str t))]⟩

theorem cxxeh_load {rows : List (Str × Str)} (h : MinSyms I syms rows) (hc : CxxehCalls u l os syms prog n)
    (name : Option Str) (s : Min.St) (fr : List Frame) :
    ((fnOf (Cxxeh.load_library_and_symbols os.isWin os.isAix)).inst I).call (ectx u l os syms cxxehFns prog n lim) [.ofStr name] ⟨s, fr⟩ =
      match (Min.load os.loader syms name s).1 with
      | none => .ok .void ⟨(Min.load os.loader syms name s).2, fr⟩
      | some e => .thrown (excOf e.exn).1 (excOf e.exn).2 ⟨(Min.load os.loader syms name s).2, fr⟩ := by
  match name with
  | none => rfl
  | some [] => rfl
  | some (c :: r) =>
    have hb : ((fnOf (Cxxeh.load_library_and_symbols os.isWin os.isAix)).inst I).body = ((fnOf (Cxxeh.load_library_and_symbols os.isWin os.isAix)).inst I).body.take 4 ++
        ((I .symbol).flatMap (fun v => Stmt.instAll I v cxxehLoads) ++ []) := by
      cases os <;> rfl
    obtain ⟨hd, p, clock, log⟩ := s
    have key : Stmt.execAll (ectx u l os syms cxxehFns prog n lim)
        (((fnOf (Cxxeh.load_library_and_symbols os.isWin os.isAix)).inst I).body.take 4) ⟨⟨hd, p, clock, log⟩, cxxehFrame (c :: r) :: fr⟩ =
        match (os.loader.dlopen clock (c :: r) Min.rtldLazy false).1 with
        | none => .thrown (str% "LibraryError") (c :: r) ⟨⟨none, p, clock + 1, log⟩, cxxehFrame (c :: r) :: fr⟩
        | some h => .ok .next ⟨⟨some h, p, clock + 1, log ++ [.opened h]⟩, cxxehFrame2 (c :: r) :: fr⟩ := by
      cases os with
      | dlfcn L =>
        have key : ∀ a, Stmt.execAll (ectx u l (.dlfcn { L with dlopen := fun _ _ _ _ => a }) syms cxxehFns prog n lim)
            (((fnOf (Cxxeh.load_library_and_symbols false false)).inst I).body.take 4) ⟨⟨hd, p, clock, log⟩, cxxehFrame (c :: r) :: fr⟩ =
            match a.1 with
            | none => .thrown (str% "LibraryError") (c :: r) ⟨⟨none, p, clock + 1, log⟩, cxxehFrame (c :: r) :: fr⟩
            | some h => .ok .next ⟨⟨some h, p, clock + 1, log ++ [.opened h]⟩, cxxehFrame2 (c :: r) :: fr⟩ := by
          rintro ⟨_ | h, e⟩ <;> rfl
        exact key (L.dlopen clock (c :: r) Min.rtldLazy false)
      | aix L =>
        have key : ∀ a, Stmt.execAll (ectx u l (.aix { L with dlopen := fun _ _ _ _ => a }) syms cxxehFns prog n lim)
            (((fnOf (Cxxeh.load_library_and_symbols false true)).inst I).body.take 4) ⟨⟨hd, p, clock, log⟩, cxxehFrame (c :: r) :: fr⟩ =
            match a.1 with
            | none => .thrown (str% "LibraryError") (c :: r) ⟨⟨none, p, clock + 1, log⟩, cxxehFrame (c :: r) :: fr⟩
            | some h => .ok .next ⟨⟨some h, p, clock + 1, log ++ [.opened h]⟩, cxxehFrame2 (c :: r) :: fr⟩ := by
          rintro ⟨_ | h, e⟩ <;> rfl
        exact key (L.dlopen clock (c :: r) Min.aixFlags false)
      | windows W =>
        have key : ∀ a, Stmt.execAll (ectx u l (.windows { W with load := fun _ _ _ => a }) syms cxxehFns prog n lim)
            (((fnOf (Cxxeh.load_library_and_symbols true false)).inst I).body.take 4) ⟨⟨hd, p, clock, log⟩, cxxehFrame (c :: r) :: fr⟩ =
            match a.1 with
            | none => .thrown (str% "LibraryError") (c :: r) ⟨⟨none, p, clock + 1, log⟩, cxxehFrame (c :: r) :: fr⟩
            | some h => .ok .next ⟨⟨some h, p, clock + 1, log ++ [.opened h]⟩, cxxehFrame2 (c :: r) :: fr⟩ := by
          rintro ⟨_ | h, e⟩ <;> rfl
        exact key (W.load clock (c :: r) 0)
    unfold Min.load Min.openLib
    dsimp only
    cases ho : (os.loader.dlopen clock (c :: r) Min.rtldLazy false).1 with
    | none =>
      rw [ho] at key
      exact call_thrown _ hb rfl rfl rfl (execAll_thrown _ _ key)
    | some x =>
      rw [ho] at key
      dsimp only at key
      dsimp only
      have e := cxxeh_loop u l os syms cxxehFns prog n lim I hc (cxxehFrame2 (c :: r)) fr x rows 0 h.from
        ⟨some x, p, clock + 1, log ++ [.opened x]⟩ rfl
      rw [h.names, ← h.insts] at e
      cases hl : Min.loadLoop os.loader syms x 0 syms ⟨some x, p, clock + 1, log ++ [.opened x]⟩ with
      | mk err s' =>
        rw [hl] at e
        cases err with
        | none => exact call_end _ hb rfl rfl rfl ((execAll_next _ _ key).trans ((execAll_next _ _ e).trans rfl))
        | some err => exact call_thrown _ hb rfl rfl rfl ((execAll_next _ _ key).trans (execAll_thrown _ _ e))

end

end Gdo.Cc
