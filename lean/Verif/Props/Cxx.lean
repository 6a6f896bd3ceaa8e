import Verif.Lemmas.Cxx

/-!
Property C51: objects of the generated C++ class.
-/

namespace Gdo.Cxx
open Gdo RtSpec
open Gdo.Rt (Ptr Loader Cfg Ev Mode Inv)

/-- The world after some steps, wherever they ended. -/
def resWorld : Res → Option World
  | .go p => some p.w
  | .exited w => some w
  | .aborted w => some w
  | .ub => none

/-! A loader and settings for the examples: `x` is at 100, everything else at 200. -/

def demoLoader : Loader where
  dlopen _ n _ _ := (some (if n = str% "x" then 100 else 200), none)
  dlsym _ _ n := if n = str% "f" then (some 7, none) else (none, some (str% "undefined symbol: " ++ n))
  dlclose _ _ := (true, none)
  dlinfo _ h := (some (some (if h = 100 then str% "/lib/x" else str% "/lib/y")), none)
  dladdr _ _ := some (str% "/lib/x")
  procmap _ _ := none
  atexit _ := true

def demoCfg : Cfg where
  syms := [str% "f", str% "g"]
  pfx := []
  lib := str% "x"
  flags := 1
  mode := .lazy
  haveDlinfo := true
  haveDladdr := true
  linux := true

section
variable {L : Loader} {C : Cfg}

/-- The invariant of the world. -/
abbrev WInv (C : Cfg) (w : World) : Prop := Inv C w.handle w.ptr w.log

theorem winv_destroy {w : World} (h : WInv C w) (o : Obj) : WInv C (destroy L C o w) := by
  obtain ⟨lp, hs⟩ := steps_destroy (L := L) (C := C) o w
  exact steps_inv hs h

theorem winv_wrapper {s : S} (h : WInv C s.w) (i : Nat) :
    match wrapper L C i s with
    | .ret r => WInv C r.2.w
    | .exit t => WInv C t.w
    | .abort w => WInv C w
    | .ub => True := by
  have ha : WInv C (afterLoad L C i s).2.w := steps_inv (steps_afterLoad (L := L) i s) h
  unfold wrapper
  cases hp : s.w.ptr i with
  | some p => exact h
  | none =>
    cases hm : C.mode with
    | wrap => exact h
    | _ =>
      simp only []
      rw [notLoaded_eq]
      by_cases hr : (afterLoad L C i s).1 = true
      · rw [if_pos hr]
        simp only []
        cases hq : (afterLoad L C i s).2.w.ptr i with
        | some q => exact ha
        | none => trivial
      · rw [if_neg hr]
        exact ha

theorem winv_step {p : Prog} (h : WInv C p.w) (op : Op) (w : World) (hw : resWorld (step L C p op) = some w) : WInv C w := by
  cases op with
  | new i =>
    simp only [step, resWorld, Option.some.injEq] at hw
    rw [← hw]
    split <;> exact h
  | newArgs i n f ns =>
    simp only [step, resWorld, Option.some.injEq] at hw
    rw [← hw]
    split <;> exact h
  | copy i j =>
    simp only [step, resWorld, Option.some.injEq] at hw
    rw [← hw]
    split
    · exact h
    · split <;> exact h
  | destroy i =>
    simp only [step] at hw
    split at hw
    · simp [resWorld] at hw; rw [← hw]; exact h
    · simp [resWorld] at hw; rw [← hw]; exact winv_destroy h _
  | call i m =>
    simp only [step] at hw
    split at hw
    · simp [resWorld] at hw; rw [← hw]; exact h
    · split at hw
      · simp [resWorld] at hw
      · rename_i v s hm
        simp [resWorld] at hw
        rw [← hw]
        exact steps_inv (steps_member hm) h
  | wrapped i =>
    simp only [step] at hw
    split at hw
    · have := winv_wrapper (L := L) (s := ⟨p.loader, p.w⟩) h i
      split at hw <;> rename_i hr <;> simp [resWorld] at hw
      · rw [hr] at this; rw [← hw]; exact this
      · rw [hr] at this; rw [← hw]; exact winv_destroy this _
      · rw [hr] at this; rw [← hw]; exact this
    · simp [resWorld] at hw; rw [← hw]; exact h

theorem winv_run (ops : List Op) : ∀ {p : Prog}, WInv C p.w → ∀ w, resWorld (run L C p ops) = some w → WInv C w := by
  induction ops with
  | nil => intro p h w hw; simp [run, resWorld] at hw; rw [← hw]; exact h
  | cons op r ih =>
    intro p h w hw
    have hs := winv_step (L := L) h op
    rw [run] at hw
    cases hr : step L C p op with
    | go q => rw [hr] at hw hs; exact ih (hs _ rfl) w hw
    | exited u => rw [hr] at hw hs; exact hs w hw
    | aborted u => rw [hr] at hw hs; exact hs w hw
    | ub => rw [hr] at hw; simp [resWorld] at hw

theorem winv_start : WInv C (start C).w := Rt.inv_init C

end

/-! ### C51 -/

/-- Whatever the objects did: no symbol pointer survives the library. -/
theorem C51_null (L : Loader) (C : Cfg) (ops : List Op) (w : World) (h : resWorld (run L C (start C) ops) = some w)
    (hn : w.handle = none) (i : Nat) : w.ptr i = none := by
  have := winv_run ops winv_start w h
  rw [WInv, hn] at this
  exact this.null i

/-- Every symbol pointer that is not NULL was found in the library loaded now, for this
    symbol and since it was loaded. -/
theorem C51_origin (L : Loader) (C : Cfg) (ops : List Op) (w : World) (h : resWorld (run L C (start C) ops) = some w) (i : Nat) (p : Ptr)
    (hp : w.ptr i = some p) : ∃ hd name, w.handle = some hd ∧ C.syms[i]? = some name ∧ Resolved hd name p w.log :=
  (winv_run ops winv_start w h).origin i p hp

/-- No handle is used or closed that is not open; every opening is matched by a closing, a
    failed forced release or the current handle. -/
theorem C51_handles (L : Loader) (C : Cfg) (ops : List Op) (w : World) (h : resWorld (run L C (start C) ops) = some w) :
    OnlyAlive w.log ∧ ∀ x, opens x w.log = closes x w.log + givenUp x w.log + if w.handle = some x then 1 else 0 :=
  ⟨(winv_run ops winv_start w h).only, (winv_run ops winv_start w h).count⟩

/-- The same at the end of the program. -/
theorem C51_finish (L : Loader) (C : Cfg) (ops : List Op) (w : World) (h : resWorld (finish L C ops) = some w) :
    OnlyAlive w.log ∧ ∀ x, opens x w.log = closes x w.log + givenUp x w.log + if w.handle = some x then 1 else 0 := by
  suffices H : WInv C w from ⟨H.only, H.count⟩
  have hr := winv_run (L := L) (C := C) ops winv_start
  unfold finish at h
  cases hf : run L C (start C) ops with
  | go p =>
    rw [hf] at h hr
    simp [resWorld] at h
    rw [← h]
    exact winv_destroy (hr p.w rfl) _
  | exited u => rw [hf] at h hr; exact hr w h
  | aborted u => rw [hf] at h hr; exact hr w h
  | ub => rw [hf] at h; simp [resWorld] at h

example : ∃ w, resWorld (finish demoLoader demoCfg [.new 1, .newArgs 2 (str% "x") 1 false, .call 2 .load, .call 1 (.loadSymbol 0), .copy 1 3,
    .destroy 3, .wrapped 0]) = some w ∧
    w.log = [.opened 100, .sym 100 (str% "f") (some 7), .closed 100 true true, .opened 100, .sym 100 (str% "f") (some 7),
      .closed 100 true true] := ⟨_, rfl, rfl⟩

/-- The queries answer for the library and the symbols loaded now, whichever object is
    asked. -/
theorem C51_queries (L : Loader) (C : Cfg) (o : Obj) (w : World) :
    ∃ lib all no any, member L C ⟨o, w⟩ .libLoaded = some (.bool lib, ⟨o, w⟩) ∧ (lib = true ↔ w.handle ≠ none) ∧
      member L C ⟨o, w⟩ .allSymbolsLoaded = some (.bool all, ⟨o, w⟩) ∧ (all = true ↔ ∀ i, i < C.syms.length → w.ptr i ≠ none) ∧
      member L C ⟨o, w⟩ .noSymbolsLoaded = some (.bool no, ⟨o, w⟩) ∧ (no = true ↔ ∀ i, i < C.syms.length → w.ptr i = none) ∧
      member L C ⟨o, w⟩ .anySymbolLoaded = some (.bool any, ⟨o, w⟩) ∧ (any = true ↔ ∃ i, i < C.syms.length ∧ w.ptr i ≠ none) := by
  refine ⟨_, _, _, _, rfl, ?_, rfl, ?_, rfl, ?_, rfl, ?_⟩
  · simp [libLoaded, Option.isSome_iff_ne_none]
  · simp [allLoaded, Option.isSome_iff_ne_none]
  · simp [noneLoaded]
  · simp [anyLoaded, Option.isSome_iff_ne_none]

section
variable {L : Loader} {C : Cfg}

theorem libraryPathDladdr_text {s : S} (h : (libraryPathDladdr L C s).1 ≠ []) :
    (libraryPathDladdr L C s).1 = (libraryPathDladdr L C s).2.o.libpath := by
  unfold libraryPathDladdr at h ⊢
  split
  · rename_i hd
    rw [if_pos hd] at h
    dsimp only at h ⊢
    split
    · rfl
    · rename_i hr
      rw [if_neg hr] at h
      exact absurd rfl h
  · rename_i hd
    rw [if_neg hd] at h
    exact absurd rfl h

/-- What `library_path` returns is stored, and there is a library. -/
theorem libraryPath_text {s : S} (h : (libraryPath L C s).1 ≠ []) :
    s.w.handle ≠ none ∧ (libraryPath L C s).1 = (libraryPath L C s).2.o.libpath := by
  unfold libraryPath at h ⊢
  dsimp only at h ⊢
  split at h
  · exact absurd rfl h
  · rename_i hc
    rw [if_neg hc]
    split at h
    · exact absurd rfl h
    · rename_i x hx
      have hx' : s.w.handle = some x := hx
      refine ⟨by simp [hx'], ?_⟩
      split at h
      · rename_i hl
        rw [if_pos hl]
      · rename_i hl
        rw [if_neg hl]
        split at h
        · rename_i hi
          rw [if_pos hi]
          split at h
          · rename_i hr
            rw [if_pos hr]
          · rename_i hr
            rw [if_neg hr]
            exact libraryPathDladdr_text h
        · rename_i hi
          rw [if_neg hi]
          exact libraryPathDladdr_text h

/-- Every object's path was named by the system at some time. -/
def AllM (p : Prog) : Prop := (∀ i o, p.obj i = some o → MInv (core ⟨o, p.w⟩)) ∧ MInv (core ⟨p.loader, p.w⟩)

theorem minv_grow {o : Obj} {w v : World} (h : MInv (core ⟨o, w⟩)) (hl : ∃ x, v.log = w.log ++ x) : MInv (core ⟨o, v⟩) := by
  obtain ⟨x, hx⟩ := hl
  intro hp
  show Ev.path o.libpath ∈ v.log
  rw [hx]
  exact List.mem_append_left _ (h hp)

theorem allM_step {p q : Prog} (h : AllM p) (op : Op) (hq : step L C p op = .go q) : AllM q := by
  have fresh : ∀ (o : Obj), o.libpath = [] → MInv (core ⟨o, p.w⟩) := fun o ho hp => absurd ho hp
  have put : ∀ (i : Nat) (o : Option Obj), (∀ x, o = some x → MInv (core ⟨x, p.w⟩)) → AllM (p.set i o) := by
    intro i o ho
    refine ⟨fun j x hx => ?_, h.2⟩
    simp only [Prog.set] at hx
    split at hx
    · exact ho x hx
    · exact h.1 j x hx
  cases op with
  | new i =>
    simp only [step, Res.go.injEq] at hq
    rw [← hq]
    split
    · exact h
    · exact put i _ fun x hx => fresh x (by simp at hx; rw [← hx])
  | newArgs i n f ns =>
    simp only [step, Res.go.injEq] at hq
    rw [← hq]
    split
    · exact h
    · exact put i _ fun x hx => fresh x (by simp at hx; rw [← hx])
  | copy i j =>
    simp only [step, Res.go.injEq] at hq
    rw [← hq]
    split
    · exact h
    · split
      · exact put j _ fun x hx => h.1 i x hx
      · exact h
  | destroy i =>
    simp only [step] at hq
    split at hq
    · simp at hq; rw [← hq]; exact h
    · rename_i o ho
      simp at hq
      rw [← hq]
      obtain ⟨lp, hs⟩ := steps_destroy (L := L) (C := C) o p.w
      have hg : ∃ x, (destroy L C o p.w).log = p.w.log ++ x := steps_log hs
      refine ⟨fun j x hx => minv_grow (w := p.w) ?_ hg, minv_grow h.2 hg⟩
      simp only [Prog.set] at hx
      split at hx
      · cases hx
      · exact h.1 j x hx
  | call i m =>
    simp only [step] at hq
    split at hq
    · simp at hq; rw [← hq]; exact h
    · rename_i o ho
      split at hq
      · cases hq
      · rename_i v s hm
        simp at hq
        rw [← hq]
        have hs := steps_member hm
        have hg : ∃ x, s.w.log = p.w.log ++ x := steps_log hs
        refine ⟨fun j x hx => ?_, minv_grow h.2 hg⟩
        simp only [Prog.set] at hx
        split at hx
        · simp at hx
          rw [← hx]
          exact steps_minv hs (h.1 i o ho)
        · exact minv_grow (h.1 j x hx) hg
  | wrapped i =>
    simp only [step] at hq
    split at hq
    · split at hq <;> rename_i hr <;> simp at hq
      rename_i ad s
      rw [← hq]
      have hs : Steps C (core ⟨p.loader, p.w⟩) (core s) := by
        unfold wrapper at hr
        cases hp : p.w.ptr i with
        | some x => simp only [hp] at hr; cases hr; exact .refl _
        | none =>
          simp only [hp] at hr
          split at hr
          · cases hr
          · rw [notLoaded_eq] at hr
            by_cases ha : (afterLoad L C i ⟨p.loader, p.w⟩).1 = true
            · rw [if_pos ha] at hr
              simp only [] at hr
              split at hr
              · cases hr; exact steps_afterLoad i ⟨p.loader, p.w⟩
              · cases hr
            · rw [if_neg ha] at hr
              simp at hr
      have hg : ∃ x, s.w.log = p.w.log ++ x := steps_log hs
      exact ⟨fun j x hx => minv_grow (h.1 j x hx) hg, steps_minv hs h.2⟩
    · simp at hq; rw [← hq]; exact h

theorem allM_run (ops : List Op) : ∀ {p q : Prog}, AllM p → run L C p ops = .go q → AllM q := by
  induction ops with
  | nil => intro p q h hq; simp [run] at hq; rw [← hq]; exact h
  | cons op r ih =>
    intro p q h hq
    rw [run] at hq
    cases hs : step L C p op with
    | go x => rw [hs] at hq; exact ih (allM_step h op hs) hq
    | exited u => rw [hs] at hq; cases hq
    | aborted u => rw [hs] at hq; cases hq
    | ub => rw [hs] at hq; cases hq

end

/-- A path an object returns was named by the system, at some time, and there is a
    library. -/
theorem C51_path (L : Loader) (C : Cfg) (ops : List Op) (p : Prog) (h : run L C (start C) ops = .go p) (i : Nat) (o : Obj)
    (hi : p.obj i = some o) (t : Str) (s : S) (hm : member L C ⟨o, p.w⟩ .libraryPath = some (.text t, s)) (ht : t ≠ []) :
    p.w.handle ≠ none ∧ Ev.path t ∈ s.w.log := by
  have hA : AllM p := allM_run ops ⟨fun i o ho => by simp [start] at ho, fun hp => absurd rfl hp⟩ h
  simp only [member, Option.some.injEq, Prod.mk.injEq, Val.text.injEq] at hm
  obtain ⟨rfl, rfl⟩ := hm
  obtain ⟨h1, h2⟩ := libraryPath_text ht
  refine ⟨h1, ?_⟩
  have := steps_minv (steps_libraryPath (L := L) (C := C) ⟨o, p.w⟩) (hA.1 i o hi)
  rw [h2]
  refine this ?_
  show (libraryPath L C ⟨o, p.w⟩).2.o.libpath ≠ []
  rw [← h2]
  exact ht

/-- C51 fails: an object keeps the path of the library it asked about, although another
    object has replaced the library since. -/
theorem C51_violated : ∃ (L : Loader) (C : Cfg) (ops : List Op) (p : Prog) (o : Obj) (s : S),
    run L C (start C) ops = .go p ∧ p.obj 1 = some o ∧ p.w.handle = some 200 ∧
      member L C ⟨o, p.w⟩ .libraryPath = some (.text (str% "/lib/x"), s) ∧
      (L.dlinfo p.w.clock 200).1 = some (some (str% "/lib/y")) :=
  ⟨demoLoader, demoCfg, [.newArgs 1 (str% "x") 1 false, .new 2, .call 1 .load, .call 1 .libraryPath, .call 2 (.free false),
    .call 2 (.loadArgs (str% "y") 1 false)], _, _, _, rfl, rfl, rfl, rfl, rfl⟩

/-- In general: a stored path is returned whatever library is loaded. -/
theorem C51_violated_cached (L : Loader) (C : Cfg) (hC : C.haveDlinfo = true ∨ C.haveDladdr = true) (o : Obj) (w : World) (h : Ptr)
    (hw : w.handle = some h) (hp : o.libpath ≠ []) : (libraryPath L C ⟨o, w⟩).1 = o.libpath := by
  unfold libraryPath
  simp only [clearError, hw]
  rw [if_neg (by rcases hC with h | h <;> simp [h])]
  rw [if_pos hp]

example : demoCfg.haveDlinfo = true := rfl

/-- Destroying any object closes the library all objects use, unless told otherwise. -/
theorem C51_shared (L : Loader) (C : Cfg) (p : Prog) (i : Nat) (o : Obj) (hi : p.obj i = some o) (hf : o.freeInDtor = true) :
    ∃ q, step L C p (.destroy i) = .go q ∧ q.w.handle = none ∧ ∀ j, j < C.syms.length → q.w.ptr j = none := by
  refine ⟨{ p.set i none with w := destroy L C o p.w }, by simp only [step, hi], ?_⟩
  simp only [destroy, hf, if_true]
  unfold free
  dsimp only [clearError]
  split
  · exact ⟨rfl, fun j hj => by simp [setNull, hj]⟩
  · simp only [Bool.or_true, if_true]
    exact ⟨rfl, fun j hj => by simp [setNull, hj]⟩

example : ∃ p o, run demoLoader demoCfg (start demoCfg) [.new 1, .newArgs 2 (str% "x") 1 false, .call 2 .load] = .go p ∧ p.obj 1 = some o ∧
    o.freeInDtor = true ∧ p.w.handle = some 100 := ⟨_, _, rfl, rfl, rfl, rfl⟩

/-- Told otherwise, it changes nothing. -/
theorem C51_kept (L : Loader) (C : Cfg) (p : Prog) (i : Nat) (o : Obj) (hi : p.obj i = some o) (hf : o.freeInDtor = false) :
    ∃ q, step L C p (.destroy i) = .go q ∧ q.w = p.w := by
  refine ⟨{ p.set i none with w := destroy L C o p.w }, by simp only [step, hi], ?_⟩
  simp [destroy, hf]

example : ∃ p o, run demoLoader demoCfg (start demoCfg) [.new 1, .call 1 (.setFreeInDtor false)] = .go p ∧ p.obj 1 = some o ∧
    o.freeInDtor = false := ⟨_, _, rfl, rfl, rfl⟩

/-- There is at most one object at any time, and no wrapper functions with automatic
    loading are used (they have an object of their own). -/
def OneObject (L : Loader) (C : Cfg) (ops : List Op) : Prop :=
  (∀ i, Op.wrapped i ∉ ops) ∧ ∀ a b p, ops = a ++ b → run L C (start C) a = .go p → ∀ i j, p.obj i ≠ none → p.obj j ≠ none → i = j

theorem run_append {L : Loader} {C : Cfg} (a b : List Op) : ∀ (p : Prog), run L C p (a ++ b) =
    match run L C p a with
    | .go q => run L C q b
    | r => r := by
  induction a with
  | nil => intro p; rfl
  | cons c r ih =>
    intro p
    rw [List.cons_append, run, run]
    cases step L C p c with
    | go q => exact ih q
    | _ => rfl

/-- Missing: several objects.  If there is one object at a time, the path it returns was
    named by the system since the library was loaded. -/
theorem C51_partial (L : Loader) (C : Cfg) (ops : List Op) (h1 : OneObject L C ops) (p : Prog) (h : run L C (start C) ops = .go p) (i : Nat)
    (o : Obj) (hi : p.obj i = some o) (t : Str) (s : S) (hm : member L C ⟨o, p.w⟩ .libraryPath = some (.text t, s)) (ht : t ≠ []) :
    p.w.handle ≠ none ∧ Named t s.w.log := by
  suffices H : ∀ i o, p.obj i = some o → PInv (core ⟨o, p.w⟩) by
    simp only [member, Option.some.injEq, Prod.mk.injEq, Val.text.injEq] at hm
    obtain ⟨rfl, rfl⟩ := hm
    obtain ⟨h1, h2⟩ := libraryPath_text ht
    refine ⟨h1, ?_⟩
    have := steps_pinv (steps_libraryPath (L := L) (C := C) ⟨o, p.w⟩) (H i o hi)
    rw [h2]
    refine (this ?_).2
    show (libraryPath L C ⟨o, p.w⟩).2.o.libpath ≠ []
    rw [← h2]
    exact ht
  suffices H : ∀ (b a : List Op), ops = a ++ b → ∀ q, run L C (start C) a = .go q → (∀ i o, q.obj i = some o → PInv (core ⟨o, q.w⟩)) →
      ∀ i o, p.obj i = some o → PInv (core ⟨o, p.w⟩) from
    H ops [] rfl _ rfl fun i o ho => by simp [start] at ho
  intro b
  induction b with
  | nil =>
    intro a ha q hq hA
    rw [ha, List.append_nil, hq] at h
    cases h
    exact hA
  | cons op r ih =>
    intro a ha q hq hA
    have ha' : ops = (a ++ [op]) ++ r := by rw [ha]; simp
    have hone := h1.2 a (op :: r) q ha hq
    have hs := run_append (L := L) (C := C) a [op] (start C)
    rw [hq] at hs
    simp only [run] at hs
    have hfull := run_append (L := L) (C := C) a (op :: r) (start C)
    rw [← ha, h, hq] at hfull
    simp only [run] at hfull
    cases hst : step L C q op with
    | go x =>
      rw [hst] at hs
      refine ih (a ++ [op]) ha' x hs ?_
      have hone' := h1.2 (a ++ [op]) r x ha' hs
      have fresh : ∀ (o : Obj), o.libpath = [] → PInv (core ⟨o, q.w⟩) := fun o ho hp => absurd ho hp
      have put : ∀ (i : Nat) (o : Option Obj), (∀ x, o = some x → PInv (core ⟨x, q.w⟩)) →
          ∀ j y, (q.set i o).obj j = some y → PInv (core ⟨y, q.w⟩) := by
        intro i o ho j y hx
        simp only [Prog.set] at hx
        split at hx
        · exact ho y hx
        · exact hA j y hx
      cases op with
      | new i =>
        simp only [step, Res.go.injEq] at hst
        rw [← hst]
        split
        · exact hA
        · exact put i _ fun x hx => fresh x (by simp at hx; rw [← hx])
      | newArgs i n f ns =>
        simp only [step, Res.go.injEq] at hst
        rw [← hst]
        split
        · exact hA
        · exact put i _ fun x hx => fresh x (by simp at hx; rw [← hx])
      | copy i j =>
        simp only [step, Res.go.injEq] at hst
        rw [← hst]
        split
        · exact hA
        · split
          · exact put j _ fun x hx => hA i x hx
          · exact hA
      | destroy i =>
        simp only [step] at hst
        split at hst
        · simp at hst; rw [← hst]; exact hA
        · rename_i y hy
          simp at hst
          rw [← hst]
          intro j z hz
          simp only [Prog.set] at hz
          split at hz
          · cases hz
          · rename_i hji
            exact absurd (hone j i (by rw [hz]; simp) (by rw [hy]; simp)) hji
      | call i m =>
        simp only [step] at hst
        split at hst
        · simp at hst; rw [← hst]; exact hA
        · rename_i y hy
          split at hst
          · cases hst
          · rename_i v s hm
            simp at hst
            rw [← hst]
            intro j z hz
            simp only [Prog.set] at hz
            split at hz
            · simp at hz
              rw [← hz]
              exact steps_pinv (steps_member hm) (hA i y hy)
            · rename_i hji
              exact absurd (hone j i (by rw [hz]; simp) (by rw [hy]; simp)) hji
      | wrapped i => exact absurd (by rw [ha]; simp) (h1.1 i)
    | exited u => rw [hst] at hfull; cases hfull
    | aborted u => rw [hst] at hfull; cases hfull
    | ub => rw [hst] at hfull; cases hfull

example : OneObject demoLoader demoCfg [.newArgs 1 (str% "x") 1 false, .call 1 .load, .call 1 .libraryPath, .destroy 1] := by
  refine ⟨by simp, ?_⟩
  intro a b p h hr i j hi hj
  have key : ∀ (p : Prog) (k : Nat), (∀ x, x ≠ k → p.obj x = none) → p.obj i ≠ none → p.obj j ≠ none → i = j := by
    intro p k hk hi hj
    have h1 : i = k := Decidable.byContradiction fun h => hi (hk i h)
    have h2 : j = k := Decidable.byContradiction fun h => hj (hk j h)
    rw [h1, h2]
  match a, h with
  | [], _ => cases hr; exact absurd rfl hi
  | [_], h =>
    simp at h; rw [← h.1] at hr; cases hr
    exact key _ 1 (fun x hx => by simp [Prog.set, start, hx]) hi hj
  | [_, _], h =>
    simp at h; rw [← h.1, ← h.2.1] at hr; cases hr
    exact key _ 1 (fun x hx => by simp [Prog.set, start, hx]) hi hj
  | [_, _, _], h =>
    simp at h; rw [← h.1, ← h.2.1, ← h.2.2.1] at hr; cases hr
    exact key _ 1 (fun x hx => by simp [Prog.set, start, hx]) hi hj
  | [_, _, _, _], h =>
    simp at h; rw [← h.1, ← h.2.1, ← h.2.2.1, ← h.2.2.2.1] at hr; cases hr
    exact key _ 1 (fun x hx => by simp [Prog.set, start, hx]) hi hj
  | _ :: _ :: _ :: _ :: _ :: _, h => simp at h

end Gdo.Cxx
