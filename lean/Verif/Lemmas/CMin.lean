import Verif.Model.CSystemMin
import Verif.Model.CProgOther
import Verif.Lemmas.CCallLink

/-!
Lemmas: what the functions of `src/templates/minimal.h` do.
-/

set_option maxRecDepth 10000

namespace Gdo.Cc
open Gdo Tmpl Rt Rename

/-- The symbols from number `i` on. -/
def MinRows (syms : List Str) : Nat → List (Str × Str) → Prop
  | _, [] => True
  | i, r :: t => minGlued syms (str% "GDO_PTR_") r.2 = some (.sym i) ∧ MinRows syms (i + 1) t

theorem minRows (syms : List Str) (h : syms.Nodup) : ∀ (rows : List (Str × Str)) (pre : List Str), pre ++ rows.map (·.2) = syms → MinRows syms pre.length rows := by
  intro rows
  induction rows with
  | nil => intro _ _; trivial
  | cons r t ih =>
    intro pre e
    have hm : r.2 ∈ syms := by rw [← e]; simp
    have hn : r.2 ∉ pre := by
      rw [← e] at h
      intro hp
      exact (List.nodup_append.mp h).2.2 _ hp _ (by simp) rfl
    have hi : syms.idxOf r.2 = pre.length := by
      rw [← e]
      simp [List.idxOf_append, hn]
    refine ⟨?_, ?_⟩
    · simp [minGlued, hm, hi]
    · have := ih (pre ++ [r.2]) (by simpa using e)
      simpa using this

section
variable (u l : Str) (os : Min.Os) (syms : List Str) (isFn : Str → Bool) (prog : List Top) (n lim : Nat) (I : Insts)

/-- What a function is executed with. -/
abbrev mctx : Ctx Min.St := ⟨minSem u l os syms, isFn, link (minSem u l os syms) prog (n + 1), lim⟩

/-- `gdo_hndl.GDO_PTR_... = NULL;` -/
def minClear : List Stmt :=
  [.expr (.assign (.member (.id (.fixed (str% "gdo_hndl"))) (.hole (str% "GDO_PTR_") (str% "symbol"))) (.id (.fixed (str% "NULL"))))]

theorem min_clear (f : Str) (fr : List Frame) :
    ∀ (rows : List (Str × Str)) (i : Nat) (_ : MinRows syms i rows) (s : Min.St),
      Stmt.execAll (mctx u l os syms isFn prog n lim) ((rows.map fun r => symbolValues r.1 r.2).flatMap fun v => Stmt.instAll I v minClear) ⟨s, ⟨f, []⟩ :: fr⟩ =
        .ok .next ⟨{ s with ptr := fun j => if i ≤ j ∧ j < i + rows.length then none else s.ptr j }, ⟨f, []⟩ :: fr⟩ := by
  intro rows
  induction rows with
  | nil =>
    intro i _ s
    have : (fun j => if i ≤ j ∧ j < i + 0 then none else s.ptr j) = s.ptr := by
      funext j
      rw [if_neg (by omega)]
    simp only [List.map_nil, List.flatMap_nil, Stmt.execAll, List.length_nil, this]
  | cons x t ih =>
    intro i h s
    rw [List.map_cons, List.flatMap_cons]
    have e : Stmt.execAll (mctx u l os syms isFn prog n lim) (Stmt.instAll I (symbolValues x.1 x.2) minClear) ⟨s, ⟨f, []⟩ :: fr⟩ =
        .ok .next ⟨{ s with ptr := fun j => if j = i then none else s.ptr j }, ⟨f, []⟩ :: fr⟩ := by
      have e : Stmt.execAll (mctx u l os syms isFn prog n lim) (Stmt.instAll I (symbolValues x.1 x.2) minClear) ⟨s, ⟨f, []⟩ :: fr⟩ =
          ((((R.of ⟨s, ⟨f, []⟩ :: fr⟩ (minGlued syms (str% "GDO_PTR_") x.2)).bind fun lv m =>
            ((R.of m (place (mctx u l os syms isFn prog n lim) (.fixed (str% "NULL")) m)).bind (load (minSem u l os syms))).bind fun v m =>
              store (minSem u l os syms) lv v m).bind fun _ m => .ok Flow.next m).bind fun fl m =>
                match fl with
                | .next => .ok .next m
                | fl => .ok fl m) := rfl
      rw [e, h.1]
      rfl
    rw [execAll_next _ _ e, ih (i + 1) h.2]
    congr 3
    funext j
    simp only [List.length_cons]
    by_cases hj : j = i
    · subst hj
      simp
    · by_cases h2 : i + 1 ≤ j ∧ j < i + 1 + t.length
      · rw [if_pos h2, if_pos (by omega)]
      · rw [if_neg h2, if_neg hj, if_neg (by omega)]

/-- The repeated parts are repeated for the symbols, `rows` are their types and names. -/
structure MinSyms (I : Insts) (syms : List Str) (rows : List (Str × Str)) : Prop where
  insts : I .symbol = rows.map fun r => symbolValues r.1 r.2
  names : rows.map (·.2) = syms
  nodup : syms.Nodup

theorem MinSyms.from {I : Insts} {syms : List Str} {rows : List (Str × Str)} (h : MinSyms I syms rows) : MinRows syms 0 rows :=
  minRows syms h.nodup rows [] (by simpa using h.names)

theorem MinSyms.length {I : Insts} {syms : List Str} {rows : List (Str × Str)} (h : MinSyms I syms rows) : rows.length = syms.length := by
  rw [← h.names, List.length_map]

variable {I} in
theorem min_free {rows : List (Str × Str)} (h : MinSyms I syms rows) (s : Min.St) (fr : List Frame) :
    ((fnOf (C.gdo_free_library os.isWin)).inst I).call (mctx u l os syms isFn prog n lim) [] ⟨s, fr⟩ = .ok .void ⟨Min.free os.loader syms s, fr⟩ := by
  have hb : ((fnOf (C.gdo_free_library os.isWin)).inst I).body = ((fnOf (C.gdo_free_library os.isWin)).inst I).body.take 2 ++
      ((I .symbol).flatMap (fun v => Stmt.instAll I v minClear) ++ []) := rfl
  have key : Stmt.execAll (mctx u l os syms isFn prog n lim) (((fnOf (C.gdo_free_library os.isWin)).inst I).body.take 2) ⟨s, ⟨str% "gdo_free_library", []⟩ :: fr⟩ =
      .ok .next ⟨{ Min.close os.loader s with handle := none }, ⟨str% "gdo_free_library", []⟩ :: fr⟩ := by
    cases os <;> obtain ⟨_ | x, p, clock, log⟩ := s <;> rfl
  refine call_end (F := ⟨str% "gdo_free_library", []⟩) _ hb rfl rfl rfl ((execAll_next _ _ key).trans ?_)
  rw [List.append_nil, h.insts, min_clear u l os syms isFn prog n lim I _ fr rows 0 h.from, h.length]
  unfold Min.free
  simp

theorem minAddress_eq (os : Min.Os) (t : Nat) (h : Ptr) (n : Str) : minAddress os t h n = (os.loader.dlsym t h n).1 := by
  cases os <;> rfl

/-- The statements for each symbol. -/
def minLoads : List Stmt :=
  [.expr (.assign (.member (.id (.fixed (str% "gdo_hndl"))) (.hole (str% "GDO_PTR_") (str% "symbol")))
    (.cast [.text (.hole [] (str% "sym_type"))] (.call (.fixed (str% "_GDO_LOAD_SYM")) [.str (.hole [] (str% "symbol"))]))),
   .if1 (.un (str% "!") (.member (.id (.fixed (str% "gdo_hndl"))) (.hole (str% "GDO_PTR_") (str% "symbol"))))
    [.expr (.call (.fixed (str% "gdo_free_library")) []), .ret (some (.str (.hole (str% "failed to load symbol: ") (str% "symbol"))))]]

theorem min_one {rows : List (Str × Str)} (h : MinSyms I syms rows)
    (hf : ∀ m, link (minSem u l os syms) prog (n + 1) (str% "gdo_free_library") [] m = .ok .void ⟨Min.free os.loader syms m.g, m.frames⟩)
    (F : Frame) (hF : getVar (str% "gdo_hndl") F.vars = none) (fr : List Frame) (t name : Str) (i : Nat) (hi : minGlued syms (str% "GDO_PTR_") name = some (.sym i)) (x : Ptr)
    (s : Min.St) (hs : s.handle = some x) :
    Stmt.execAll (mctx u l os syms isFn prog n lim) (Stmt.instAll I (symbolValues t name) minLoads) ⟨s, F :: fr⟩ =
      if ((Min.loadOne os.loader x i name s).ptr i).isSome then .ok .next ⟨Min.loadOne os.loader x i name s, F :: fr⟩
      else .ok (.ret (.str (str% "failed to load symbol: " ++ name))) ⟨Min.free os.loader syms (Min.loadOne os.loader x i name s), F :: fr⟩ := by
  have hm : ∀ m : M Min.St, m.frames = F :: fr → memberFor (mctx u l os syms isFn prog n lim) (str% "gdo_hndl") (.glued (str% "GDO_PTR_") name) m = some (.sym i) := by
    intro m hm
    unfold memberFor
    dsimp only
    rw [show locals m = F.vars by unfold locals; rw [hm], hF]
    exact hi
  obtain ⟨hd, p, clock, log⟩ := s
  cases hs
  have e1 : (Expr.assign (.member (.id (.fixed (str% "gdo_hndl"))) (.glued (str% "GDO_PTR_") name))
      (.cast [.text (.glued [] t)] (.call (.fixed (str% "_GDO_LOAD_SYM")) [.str (.glued [] name)]))).eval (mctx u l os syms isFn prog n lim)
        ⟨⟨some x, p, clock, log⟩, F :: fr⟩ = .ok (.ofPtr (os.loader.dlsym clock x name).1) ⟨Min.loadOne os.loader x i name ⟨some x, p, clock, log⟩, F :: fr⟩ := by
    have ev : (Expr.cast [.text (.glued [] t)] (.call (.fixed (str% "_GDO_LOAD_SYM")) [.str (.glued [] name)])).eval (mctx u l os syms isFn prog n lim)
        ⟨⟨some x, p, clock, log⟩, F :: fr⟩ = .ok (.ofPtr (minAddress os clock x name)) ⟨⟨some x, p, clock + 1, log ++ [.sym x name (minAddress os clock x name)]⟩, F :: fr⟩ := rfl
    have st : ∀ a, store (minSem u l os syms) (.sym i) (.ofPtr a) ⟨⟨some x, p, clock + 1, log ++ [.sym x name a]⟩, F :: fr⟩ =
        .ok (.ofPtr a) ⟨⟨some x, fun j => if j = i then a else p j, clock + 1, log ++ [.sym x name a]⟩, F :: fr⟩ := by
      rintro (_ | a) <;> rfl
    have e : ∀ o, o = some (Lv.sym i) → ((R.of ⟨⟨some x, p, clock, log⟩, F :: fr⟩ o).bind fun lv m =>
        ((Expr.cast [.text (.glued [] t)] (.call (.fixed (str% "_GDO_LOAD_SYM")) [.str (.glued [] name)])).eval (mctx u l os syms isFn prog n lim) m).bind fun v m =>
          store (minSem u l os syms) lv v m) = .ok (.ofPtr (os.loader.dlsym clock x name).1) ⟨Min.loadOne os.loader x i name ⟨some x, p, clock, log⟩, F :: fr⟩ := by
      rintro _ rfl
      rw [minAddress_eq] at ev
      simp only [R.of, R.bind]
      rw [ev]
      exact st _
    exact e _ (hm _ rfl)
  have e2 : ∀ g : Min.St, (Expr.un (str% "!") (.member (.id (.fixed (str% "gdo_hndl"))) (.glued (str% "GDO_PTR_") name))).test (mctx u l os syms isFn prog n lim)
      ⟨g, F :: fr⟩ = .ok (!(g.ptr i).isSome) ⟨g, F :: fr⟩ := by
    intro g
    have e : ∀ o, o = some (Lv.sym i) → ((((R.of (⟨g, F :: fr⟩ : M Min.St) o).bind (load (minSem u l os syms))).bind fun v m =>
        R.of m (v.truth.map fun b => V.ofBool !b)).bind fun v m => .of m v.truth) = .ok (!(g.ptr i).isSome) ⟨g, F :: fr⟩ := by
      rintro _ rfl
      obtain ⟨_, p, _, _⟩ := g
      show ((R.of _ ((V.ofPtr (p i)).truth.map fun b => V.ofBool !b)).bind fun v m => .of m v.truth) = _
      cases h : p i
      · simp only [h]
        rfl
      · simp only [h]
        rfl
    exact e _ (hm ⟨g, F :: fr⟩ rfl)
  refine (exec_next (s := .expr _) _ (exec_expr _ e1)).trans ?_
  generalize Min.loadOne os.loader x i name ⟨some x, p, clock, log⟩ = g
  have e2 := e2 g
  cases hp : (g.ptr i).isSome with
  | true =>
    rw [hp] at e2
    exact exec_one _ (if1_false _ e2)
  | false =>
    rw [hp] at e2
    refine (exec_one _ (if1_true (fl := .ret (.str (str% "failed to load symbol: " ++ name))) _ e2 (m2 := ⟨Min.free os.loader syms g, F :: fr⟩) ?_)).trans ?_
    · have ec : (Expr.call (.fixed (str% "gdo_free_library")) []).eval (mctx u l os syms isFn prog n lim) ⟨g, F :: fr⟩ = .ok .void ⟨Min.free os.loader syms g, F :: fr⟩ := hf ⟨g, F :: fr⟩
      exact (exec_next (s := .expr _) _ (exec_expr _ ec)).trans rfl
    · simp [leave, locals]

theorem min_loop {rows : List (Str × Str)} (h : MinSyms I syms rows)
    (hf : ∀ m, link (minSem u l os syms) prog (n + 1) (str% "gdo_free_library") [] m = .ok .void ⟨Min.free os.loader syms m.g, m.frames⟩)
    (F : Frame) (hF : getVar (str% "gdo_hndl") F.vars = none) (fr : List Frame) (x : Ptr) :
    ∀ (rows : List (Str × Str)) (i : Nat) (_ : MinRows syms i rows) (s : Min.St) (_ : s.handle = some x),
      Stmt.execAll (mctx u l os syms isFn prog n lim) ((rows.map fun r => symbolValues r.1 r.2).flatMap fun v => Stmt.instAll I v minLoads) ⟨s, F :: fr⟩ =
        match Min.loadLoop os.loader syms x i (rows.map (·.2)) s with
        | (none, s) => .ok .next ⟨s, F :: fr⟩
        | (some e, s) => .ok (.ret (.str e.text)) ⟨s, F :: fr⟩ := by
  intro rows
  induction rows with
  | nil => intro i _ s _; rfl
  | cons r t ih =>
    intro i hr s hs
    rw [List.map_cons, List.flatMap_cons, List.map_cons]
    unfold Min.loadLoop
    have e := min_one u l os syms isFn prog n lim I h hf F hF fr r.1 r.2 i hr.1 x s hs
    dsimp only
    cases hp : ((Min.loadOne os.loader x i r.2 s).ptr i).isSome with
    | true =>
      rw [hp, if_pos rfl] at e
      rw [execAll_next _ _ e, if_pos rfl]
      exact ih (i + 1) hr.2 _ hs
    | false =>
      rw [hp, if_neg (by simp)] at e
      rw [execAll_ret _ _ e, if_neg (by simp)]
      rfl

/-- What is returned: an error text, or null. -/
def minVal : Option Min.Err → V
  | none => .null
  | some e => .str e.text

theorem min_load {rows : List (Str × Str)} (h : MinSyms I syms rows)
    (hf : ∀ m, link (minSem u l os syms) prog (n + 1) (str% "gdo_free_library") [] m = .ok .void ⟨Min.free os.loader syms m.g, m.frames⟩)
    (name : Option Str) (s : Min.St) (fr : List Frame) :
    ((fnOf (C.gdo_load_library_and_symbols os.isWin os.isAix)).inst I).call (mctx u l os syms isFn prog n lim) [.ofStr name] ⟨s, fr⟩ =
      .ok (minVal (Min.load os.loader syms name s).1) ⟨(Min.load os.loader syms name s).2, fr⟩ := by
  match name with
  | none => rfl
  | some [] => rfl
  | some (c :: r) =>
    have hb : ((fnOf (C.gdo_load_library_and_symbols os.isWin os.isAix)).inst I).body = ((fnOf (C.gdo_load_library_and_symbols os.isWin os.isAix)).inst I).body.take 3 ++
        ((I .symbol).flatMap (fun v => Stmt.instAll I v minLoads) ++ [.ret (some (.id (.fixed (str% "NULL"))))]) := by
      cases os <;> rfl
    obtain ⟨hd, p, clock, log⟩ := s
    have key : Stmt.execAll (mctx u l os syms isFn prog n lim)
        (((fnOf (C.gdo_load_library_and_symbols os.isWin os.isAix)).inst I).body.take 3) ⟨⟨hd, p, clock, log⟩, ⟨str% "gdo_load_library_and_symbols", [(str% "filename", some (.str (c :: r)))]⟩ :: fr⟩ =
        match (os.loader.dlopen clock (c :: r) Min.rtldLazy false).1 with
        | none => .ok (.ret (.str (str% "failed to load library"))) ⟨⟨none, p, clock + 1, log⟩, ⟨str% "gdo_load_library_and_symbols", [(str% "filename", some (.str (c :: r)))]⟩ :: fr⟩
        | some h => .ok .next ⟨⟨some h, p, clock + 1, log ++ [.opened h]⟩, ⟨str% "gdo_load_library_and_symbols", [(str% "filename", some (.str (c :: r)))]⟩ :: fr⟩ := by
      cases os with
      | dlfcn L =>
        have key : ∀ a, Stmt.execAll (mctx u l (.dlfcn { L with dlopen := fun _ _ _ _ => a }) syms isFn prog n lim)
            (((fnOf (C.gdo_load_library_and_symbols false false)).inst I).body.take 3) ⟨⟨hd, p, clock, log⟩, ⟨str% "gdo_load_library_and_symbols", [(str% "filename", some (.str (c :: r)))]⟩ :: fr⟩ =
            match a.1 with
            | none => .ok (.ret (.str (str% "failed to load library"))) ⟨⟨none, p, clock + 1, log⟩, ⟨str% "gdo_load_library_and_symbols", [(str% "filename", some (.str (c :: r)))]⟩ :: fr⟩
            | some h => .ok .next ⟨⟨some h, p, clock + 1, log ++ [.opened h]⟩, ⟨str% "gdo_load_library_and_symbols", [(str% "filename", some (.str (c :: r)))]⟩ :: fr⟩ := by
          rintro ⟨_ | h, e⟩ <;> rfl
        exact key (L.dlopen clock (c :: r) Min.rtldLazy false)
      | aix L =>
        have key : ∀ a, Stmt.execAll (mctx u l (.aix { L with dlopen := fun _ _ _ _ => a }) syms isFn prog n lim)
            (((fnOf (C.gdo_load_library_and_symbols false true)).inst I).body.take 3) ⟨⟨hd, p, clock, log⟩, ⟨str% "gdo_load_library_and_symbols", [(str% "filename", some (.str (c :: r)))]⟩ :: fr⟩ =
            match a.1 with
            | none => .ok (.ret (.str (str% "failed to load library"))) ⟨⟨none, p, clock + 1, log⟩, ⟨str% "gdo_load_library_and_symbols", [(str% "filename", some (.str (c :: r)))]⟩ :: fr⟩
            | some h => .ok .next ⟨⟨some h, p, clock + 1, log ++ [.opened h]⟩, ⟨str% "gdo_load_library_and_symbols", [(str% "filename", some (.str (c :: r)))]⟩ :: fr⟩ := by
          rintro ⟨_ | h, e⟩ <;> rfl
        exact key (L.dlopen clock (c :: r) Min.aixFlags false)
      | windows W =>
        have key : ∀ a, Stmt.execAll (mctx u l (.windows { W with load := fun _ _ _ => a }) syms isFn prog n lim)
            (((fnOf (C.gdo_load_library_and_symbols true false)).inst I).body.take 3) ⟨⟨hd, p, clock, log⟩, ⟨str% "gdo_load_library_and_symbols", [(str% "filename", some (.str (c :: r)))]⟩ :: fr⟩ =
            match a.1 with
            | none => .ok (.ret (.str (str% "failed to load library"))) ⟨⟨none, p, clock + 1, log⟩, ⟨str% "gdo_load_library_and_symbols", [(str% "filename", some (.str (c :: r)))]⟩ :: fr⟩
            | some h => .ok .next ⟨⟨some h, p, clock + 1, log ++ [.opened h]⟩, ⟨str% "gdo_load_library_and_symbols", [(str% "filename", some (.str (c :: r)))]⟩ :: fr⟩ := by
          rintro ⟨_ | h, e⟩ <;> rfl
        exact key (W.load clock (c :: r) 0)
    unfold Min.load Min.openLib
    dsimp only
    cases ho : (os.loader.dlopen clock (c :: r) Min.rtldLazy false).1 with
    | none =>
      rw [ho] at key
      exact call_of _ hb rfl rfl rfl (execAll_ret _ _ key)
    | some x =>
      rw [ho] at key
      dsimp only at key
      dsimp only
      have e := min_loop u l os syms isFn prog n lim I h hf ⟨str% "gdo_load_library_and_symbols", [(str% "filename", some (.str (c :: r)))]⟩ rfl fr x rows 0 h.from
        ⟨some x, p, clock + 1, log ++ [.opened x]⟩ rfl
      rw [h.names, ← h.insts] at e
      cases hl : Min.loadLoop os.loader syms x 0 syms ⟨some x, p, clock + 1, log ++ [.opened x]⟩ with
      | mk err s' =>
        rw [hl] at e
        cases err with
        | none => exact call_of _ hb rfl rfl rfl ((execAll_next _ _ key).trans ((execAll_next _ _ e).trans rfl))
        | some err => exact call_of _ hb rfl rfl rfl ((execAll_next _ _ key).trans (execAll_ret _ _ e))

end

end Gdo.Cc
