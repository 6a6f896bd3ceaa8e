import Verif.Lemmas.CxxWin
import Verif.Props.CxxError
import Verif.Props.WinError

/-!
Properties C87 and C88: objects of the generated C++ class on Windows, the library they
share, the symbols, and the file that is opened.
-/

namespace Gdo.CxxWin
open Gdo RtSpec
open Gdo.Rt (Ptr Ev Mode Inv)
open Gdo.Win (backslashes bufLen)
open Gdo.Cxx (PInv MInv steps_inv steps_minv steps_pinv steps_log)

/-- The world after some steps, wherever they ended. -/
def resWorld : Res → Option World
  | .go p => some p.w
  | .exited w => some w
  | .aborted w => some w
  | .ub => none

/-! A system and settings for the examples: `x` is at 100, everything else at 200. -/

def demoLoader : Loader where
  loadA _ n _ := (some (if n = str% "x" then 100 else 200), 0)
  loadW _ n _ := (some (if n = str% "x" then 100 else 200), 0)
  sym _ _ n := if n = str% "f" then (some 7, 0) else (none, 127)
  free _ _ := (true, 0)
  fileA _ h := (some (if h = 100 then str% "C:\\x" else str% "C:\\y"), 0)
  fileW _ h := (some (if h = 100 then str% "C:\\x" else str% "C:\\y"), 0)
  formatA _ c := if c = 0 then some (str% "Success.") else if c = 127 then some (str% "Not found.") else none
  formatW _ c := if c = 0 then some (str% "Success.") else if c = 127 then some (str% "Not found.") else none
  widen _ t := some t
  narrow _ t := some t

def demoCfg : Cfg where
  syms := [str% "f", str% "g"]
  pfx := []
  lib := str% "x"
  flags := 1
  mode := .lazy
  haveDlinfo := false
  haveDladdr := false
  linux := false
  wide := false
  address := str% "0x1000"

section
variable {L : Loader} {C : Cfg}

/-- The invariant of the world. -/
abbrev WInv (C : Cfg) (w : World) : Prop := Inv C.toCfg w.handle w.ptr w.log

theorem winv_destroy {w : World} (h : WInv C w) (o : Obj) : WInv C (destroy L C o w) := by
  obtain ⟨lp, hs⟩ := steps_destroy (L := L) (C := C) (b := false) o w
  exact steps_inv hs h

theorem error_w (s : S) : (error L s).2.w.handle = s.w.handle ∧ (error L s).2.w.ptr = s.w.ptr ∧ (error L s).2.w.log = s.w.log ∧
    (error L s).2.w.shown = s.w.shown := by
  unfold error
  split <;> exact ⟨rfl, rfl, rfl, rfl⟩

theorem winv_wrapper {s : S} (h : WInv C s.w) (i : Nat) :
    match wrapper L C i s with
    | .ret r => WInv C r.2.w
    | .exit t => WInv C t.w
    | .abort w => WInv C w
    | .ub => True := by
  have ha : WInv C (afterLoad L C i s).2.w := steps_inv (steps_afterLoad (L := L) (b := false) i s) h
  unfold wrapper
  cases hp : s.w.ptr i with
  | some p => exact h
  | none =>
    cases hm : C.mode with
    | wrap => exact h
    | _ =>
      simp only []
      rw [notLoaded]
      dsimp only
      by_cases hr : (afterLoad L C i s).1 = true
      · rw [if_pos hr]
        simp only []
        cases hq : (afterLoad L C i s).2.w.ptr i with
        | some q => exact ha
        | none => trivial
      · rw [if_neg hr]
        dsimp only
        obtain ⟨h1, h2, h3, _⟩ := error_w (L := L) (afterLoad L C i s).2
        show Inv C.toCfg (error L (afterLoad L C i s).2).2.w.handle _ _
        rw [h1]
        show Inv C.toCfg _ (error L (afterLoad L C i s).2).2.w.ptr (error L (afterLoad L C i s).2).2.w.log
        rw [h2, h3]
        exact ha

theorem make_w (p : Prog) (i : Nat) (o : Option Obj) : (p.make i o).w = p.w := by
  unfold Prog.make; split <;> rfl

theorem winv_step {p : Prog} (h : WInv C p.w) (op : Op) (w : World) (hw : resWorld (step L C p op) = some w) : WInv C w := by
  have mk : ∀ i o, resWorld (.go (p.make i o)) = some w → WInv C w := by
    intro i o hw
    simp only [resWorld, Option.some.injEq, make_w] at hw
    rw [← hw]
    exact h
  cases op with
  | new i => exact mk _ _ hw
  | newArgs i n f ns => exact mk _ _ hw
  | newConv i b n f => exact mk _ _ hw
  | newWide i n f => exact mk _ _ hw
  | copy i j =>
    simp only [step] at hw
    split at hw
    · exact mk _ _ hw
    · simp [resWorld] at hw; rw [← hw]; exact h
  | destroy i =>
    simp only [step] at hw
    split at hw
    · simp [resWorld] at hw; rw [← hw]; exact h
    · simp [resWorld] at hw; rw [← hw]; exact winv_destroy h _
  | call i m =>
    simp only [step] at hw
    split at hw
    · simp [resWorld] at hw; rw [← hw]; exact h
    · split at hw
      · simp [resWorld] at hw
      · rename_i v s hm
        simp [resWorld] at hw
        rw [← hw]
        exact steps_inv (steps_member (b := false) hm) h
  | wrapped i =>
    simp only [step] at hw
    split at hw
    · have := winv_wrapper (L := L) (s := ⟨p.loader, p.w⟩) h i
      split at hw <;> rename_i hr <;> simp [resWorld] at hw
      · rw [hr] at this; rw [← hw]; exact this
      · rw [hr] at this; rw [← hw]; exact winv_destroy this _
      · rw [hr] at this; rw [← hw]; exact this
    · simp [resWorld] at hw; rw [← hw]; exact h

theorem winv_run (ops : List Op) : ∀ {p : Prog}, WInv C p.w → ∀ w, resWorld (run L C p ops) = some w → WInv C w := by
  induction ops with
  | nil => intro p h w hw; simp [run, resWorld] at hw; rw [← hw]; exact h
  | cons op r ih =>
    intro p h w hw
    have hs := winv_step (L := L) h op
    rw [run] at hw
    cases hr : step L C p op with
    | go q => rw [hr] at hw hs; exact ih (hs _ rfl) w hw
    | exited u => rw [hr] at hw hs; exact hs w hw
    | aborted u => rw [hr] at hw hs; exact hs w hw
    | ub => rw [hr] at hw; simp [resWorld] at hw

theorem winv_start : WInv C (start C).w := Rt.inv_init C.toCfg

end

/-! ### C87 -/

/-- Whatever the objects did: no symbol pointer survives the library. -/
theorem C87_null (L : Loader) (C : Cfg) (ops : List Op) (w : World) (h : resWorld (run L C (start C) ops) = some w)
    (hn : w.handle = none) (i : Nat) : w.ptr i = none := by
  have := winv_run ops winv_start w h
  rw [WInv, hn] at this
  exact this.null i

/-- Every symbol pointer that is not NULL was found in the library loaded now, for this
    symbol and since it was loaded. -/
theorem C87_origin (L : Loader) (C : Cfg) (ops : List Op) (w : World) (h : resWorld (run L C (start C) ops) = some w) (i : Nat) (p : Ptr)
    (hp : w.ptr i = some p) : ∃ hd name, w.handle = some hd ∧ C.syms[i]? = some name ∧ Resolved hd name p w.log :=
  (winv_run ops winv_start w h).origin i p hp

/-- No handle is used or closed that is not open; every opening is matched by a closing, a
    failed forced release or the current handle. -/
theorem C87_handles (L : Loader) (C : Cfg) (ops : List Op) (w : World) (h : resWorld (run L C (start C) ops) = some w) :
    OnlyAlive w.log ∧ ∀ x, opens x w.log = closes x w.log + givenUp x w.log + if w.handle = some x then 1 else 0 :=
  ⟨(winv_run ops winv_start w h).only, (winv_run ops winv_start w h).count⟩

/-- The same at the end of the program. -/
theorem C87_finish (L : Loader) (C : Cfg) (ops : List Op) (w : World) (h : resWorld (finish L C ops) = some w) :
    OnlyAlive w.log ∧ ∀ x, opens x w.log = closes x w.log + givenUp x w.log + if w.handle = some x then 1 else 0 := by
  suffices H : WInv C w from ⟨H.only, H.count⟩
  have hr := winv_run (L := L) (C := C) ops winv_start
  unfold finish at h
  cases hf : run L C (start C) ops with
  | go p =>
    rw [hf] at h hr
    simp [resWorld] at h
    rw [← h]
    exact winv_destroy (hr p.w rfl) _
  | exited u => rw [hf] at h hr; exact hr w h
  | aborted u => rw [hf] at h hr; exact hr w h
  | ub => rw [hf] at h; simp [resWorld] at h

example : ∃ w, resWorld (finish demoLoader demoCfg [.new 1, .newWide 2 (str% "x") 1, .call 2 .load, .call 1 (.loadSymbol 0), .copy 1 3,
    .destroy 3, .wrapped 0]) = some w ∧
    w.log = [.opened 100, .sym 100 (str% "f") (some 7), .closed 100 true true, .opened 100, .sym 100 (str% "f") (some 7),
      .closed 100 true true] := ⟨_, rfl, rfl⟩

/-- The queries answer for the library and the symbols loaded now, whichever object is
    asked. -/
theorem C87_queries (L : Loader) (C : Cfg) (o : Obj) (w : World) :
    ∃ lib all no any, member L C ⟨o, w⟩ .libLoaded = some (.bool lib, ⟨o, w⟩) ∧ (lib = true ↔ w.handle ≠ none) ∧
      member L C ⟨o, w⟩ .allSymbolsLoaded = some (.bool all, ⟨o, w⟩) ∧ (all = true ↔ ∀ i, i < C.syms.length → w.ptr i ≠ none) ∧
      member L C ⟨o, w⟩ .noSymbolsLoaded = some (.bool no, ⟨o, w⟩) ∧ (no = true ↔ ∀ i, i < C.syms.length → w.ptr i = none) ∧
      member L C ⟨o, w⟩ .anySymbolLoaded = some (.bool any, ⟨o, w⟩) ∧ (any = true ↔ ∃ i, i < C.syms.length ∧ w.ptr i ≠ none) ∧
      (∀ b, ∃ p, member L C ⟨o, w⟩ (.setFreeInDtor b) = some (.none, ⟨p, w⟩) ∧ member L C ⟨p, w⟩ .getFreeInDtor = some (.bool b, ⟨p, w⟩) ∧
        p.freeInDtor = b ∧ { p with freeInDtor := o.freeInDtor } = o) ∧
      member L C ⟨o, w⟩ .flags = some (.int o.flags, ⟨o, w⟩) := by
  refine ⟨_, _, _, _, rfl, ?_, rfl, ?_, rfl, ?_, rfl, ?_, fun b => ⟨_, rfl, rfl, rfl, rfl⟩, rfl⟩
  · simp [libLoaded, Option.isSome_iff_ne_none]
  · simp [allLoaded, Option.isSome_iff_ne_none]
  · simp [noneLoaded]
  · simp [anyLoaded, Option.isSome_iff_ne_none]

/-- Destroying any object closes the library all objects use, unless told otherwise; told
    otherwise, it changes nothing. -/
theorem C87_destroyed (L : Loader) (C : Cfg) (p : Prog) (i : Nat) (o : Obj) (hi : p.obj i = some o) :
    ∃ q, step L C p (.destroy i) = .go q ∧ q.obj i = none ∧ (∀ j, j ≠ i → q.obj j = p.obj j) ∧
      (o.freeInDtor = true → q.w.handle = none ∧ ∀ j, j < C.syms.length → q.w.ptr j = none) ∧ (o.freeInDtor = false → q.w = p.w) := by
  refine ⟨{ p.set i none with w := destroy L C o p.w }, by simp only [step, hi], by simp [Prog.set], fun j hj => by simp [Prog.set, hj], ?_, ?_⟩
  · intro hf
    simp only [destroy, hf, if_true]
    unfold free
    dsimp only [clearError]
    split
    · exact ⟨rfl, fun j hj => by simp [setNull, hj]⟩
    · simp only [Bool.or_true, if_true]
      exact ⟨rfl, fun j hj => by simp [setNull, hj]⟩
  · intro hf
    simp [destroy, hf]

example : ∃ p o, run demoLoader demoCfg (start demoCfg) [.new 1, .newConv 2 true (str% "x") 1, .call 2 .load] = .go p ∧ p.obj 1 = some o ∧
    o.freeInDtor = true ∧ p.w.handle = some 100 := ⟨_, _, rfl, rfl, rfl, rfl⟩

section
variable {L : Loader} {C : Cfg}

/-- Every object's path was named by the system at some time. -/
def AllM (b : Bool) (p : Prog) : Prop := (∀ i o, p.obj i = some o → MInv (core b ⟨o, p.w⟩)) ∧ MInv (core b ⟨p.loader, p.w⟩)

theorem minv_grow {b : Bool} {o : Obj} {w v : World} (h : MInv (core b ⟨o, w⟩)) (hl : ∃ x, v.log = w.log ++ x) : MInv (core b ⟨o, v⟩) := by
  obtain ⟨x, hx⟩ := hl
  intro hp
  show Ev.path (pathOf b o) ∈ v.log
  rw [hx]
  exact List.mem_append_left _ (h hp)

theorem steps_wrapper {b : Bool} {i : Nat} {s t : S} {q : Ptr} (hr : wrapper L C i s = .ret (q, t)) :
    Cxx.Steps C.toCfg (core b s) (core b t) := by
  unfold wrapper at hr
  cases hp : s.w.ptr i with
  | some x => simp only [hp] at hr; cases hr; exact .refl _
  | none =>
    simp only [hp] at hr
    split at hr
    · cases hr
    · rw [notLoaded] at hr
      dsimp only at hr
      by_cases ha : (afterLoad L C i s).1 = true
      · rw [if_pos ha] at hr
        simp only [] at hr
        split at hr
        · cases hr; exact steps_afterLoad i s
        · cases hr
      · rw [if_neg ha] at hr
        simp at hr

theorem pathOf_fresh (b : Bool) (o : Obj) (h1 : o.libpath = []) (h2 : o.wlibpath = []) : pathOf b o = [] := by
  cases b
  · exact h1
  · exact h2

theorem allM_step {b : Bool} {p q : Prog} (h : AllM b p) (op : Op) (hq : step L C p op = .go q) : AllM b q := by
  have fresh : ∀ (o : Obj), o.libpath = [] → o.wlibpath = [] → MInv (core b ⟨o, p.w⟩) := fun o h1 h2 hp =>
    absurd (pathOf_fresh b o h1 h2) hp
  have put : ∀ (i : Nat) (o : Option Obj), (∀ x, o = some x → MInv (core b ⟨x, p.w⟩)) → AllM b (p.make i o) := by
    intro i o ho
    unfold Prog.make
    split
    · exact h
    · refine ⟨fun j x hx => ?_, h.2⟩
      simp only [Prog.set] at hx
      split at hx
      · exact ho x hx
      · exact h.1 j x hx
  cases op with
  | new i =>
    simp only [step, Res.go.injEq] at hq
    rw [← hq]
    exact put i _ fun x hx => fresh x (by simp at hx; rw [← hx]) (by simp at hx; rw [← hx])
  | newArgs i n f ns =>
    simp only [step, Res.go.injEq] at hq
    rw [← hq]
    exact put i _ fun x hx => fresh x (by simp at hx; rw [← hx]) (by simp at hx; rw [← hx])
  | newConv i c n f =>
    simp only [step, Res.go.injEq] at hq
    rw [← hq]
    exact put i _ fun x hx => fresh x (by simp at hx; rw [← hx]) (by simp at hx; rw [← hx])
  | newWide i n f =>
    simp only [step, Res.go.injEq] at hq
    rw [← hq]
    exact put i _ fun x hx => fresh x (by simp at hx; rw [← hx]) (by simp at hx; rw [← hx])
  | copy i j =>
    simp only [step, Res.go.injEq] at hq
    rw [← hq]
    split
    · exact put j _ fun x hx => h.1 i x hx
    · exact h
  | destroy i =>
    simp only [step] at hq
    split at hq
    · simp at hq; rw [← hq]; exact h
    · rename_i o ho
      simp at hq
      rw [← hq]
      obtain ⟨lp, hs⟩ := steps_destroy (L := L) (C := C) (b := b) o p.w
      have hg : ∃ x, (destroy L C o p.w).log = p.w.log ++ x := steps_log hs
      refine ⟨fun j x hx => minv_grow (w := p.w) ?_ hg, minv_grow h.2 hg⟩
      simp only [Prog.set] at hx
      split at hx
      · cases hx
      · exact h.1 j x hx
  | call i m =>
    simp only [step] at hq
    split at hq
    · simp at hq; rw [← hq]; exact h
    · rename_i o ho
      split at hq
      · cases hq
      · rename_i v s hm
        simp at hq
        rw [← hq]
        have hs := steps_member (b := b) hm
        have hg : ∃ x, s.w.log = p.w.log ++ x := steps_log hs
        refine ⟨fun j x hx => ?_, minv_grow h.2 hg⟩
        simp only [Prog.set] at hx
        split at hx
        · simp at hx
          rw [← hx]
          exact steps_minv hs (h.1 i o ho)
        · exact minv_grow (h.1 j x hx) hg
  | wrapped i =>
    simp only [step] at hq
    split at hq
    · split at hq <;> rename_i hr <;> simp at hq
      rename_i ad s
      rw [← hq]
      have hs := steps_wrapper (b := b) hr
      have hg : ∃ x, s.w.log = p.w.log ++ x := steps_log hs
      exact ⟨fun j x hx => minv_grow (h.1 j x hx) hg, steps_minv hs h.2⟩
    · simp at hq; rw [← hq]; exact h

theorem allM_run {b : Bool} (ops : List Op) : ∀ {p q : Prog}, AllM b p → run L C p ops = .go q → AllM b q := by
  induction ops with
  | nil => intro p q h hq; simp [run] at hq; rw [← hq]; exact h
  | cons op r ih =>
    intro p q h hq
    rw [run] at hq
    cases hs : step L C p op with
    | go x => rw [hs] at hq; exact ih (allM_step h op hs) hq
    | exited u => rw [hs] at hq; cases hq
    | aborted u => rw [hs] at hq; cases hq
    | ub => rw [hs] at hq; cases hq

theorem allM_start (b : Bool) : AllM b (start C) := by
  refine ⟨fun i o ho => by simp [start] at ho, fun hp => absurd ?_ hp⟩
  show pathOf b (start C).loader = []
  unfold start
  dsimp only
  split <;> cases b <;> rfl

end

/-- A path an object returns, in narrow or wide characters, was named by the system at some
    time. -/
theorem C87_path (L : Loader) (C : Cfg) (ops : List Op) (p : Prog) (h : run L C (start C) ops = .go p) (i : Nat) (o : Obj)
    (hi : p.obj i = some o) (b : Bool) (t : Str) (s : S) (hm : member L C ⟨o, p.w⟩ (.libraryPath b) = some (.text t, s)) (ht : t ≠ []) :
    Ev.path t ∈ s.w.log := by
  have hA : AllM b p := allM_run ops (allM_start b) h
  simp only [member, ofText, Option.some.injEq, Prod.mk.injEq, Cxx.Val.text.injEq] at hm
  obtain ⟨rfl, rfl⟩ := hm
  exact steps_minv (steps_getLibraryPath (L := L) (C := C) (b := b) b ⟨o, p.w⟩) (hA.1 i o hi) ht

/-- C87 fails: an object that has asked for the path returns it although another object has
    freed the library and none is loaded. -/
theorem C87_violated : ∃ (L : Loader) (C : Cfg) (ops : List Op) (p : Prog) (o : Obj) (s : S),
    run L C (start C) ops = .go p ∧ p.obj 1 = some o ∧ p.w.handle = none ∧
      member L C ⟨o, p.w⟩ (.libraryPath false) = some (.text (str% "C:\\x"), s) :=
  ⟨demoLoader, demoCfg, [.newArgs 1 (str% "x") 1 false, .new 2, .call 1 .load, .call 1 (.libraryPath false), .call 2 (.free false)],
    _, _, _, rfl, rfl, rfl, rfl⟩

/-- In general: a stored path is returned whether or not a library is loaded. -/
theorem C87_violated_cached (L : Loader) (b : Bool) (o : Obj) (w : World) (hp : pathOf b o ≠ []) :
    (libraryPath L b ⟨o, w⟩).1 = pathOf b o ∧ (libraryPath L b ⟨o, w⟩).2.w = w := by
  have h1 : pathOf b (clearError ⟨o, w⟩).o = pathOf b o := by cases b <;> rfl
  unfold libraryPath getLibraryPath
  dsimp only
  rw [if_pos (by rw [h1]; exact hp)]
  exact ⟨h1, rfl⟩

example : pathOf true { wlibpath := str% "C:\\x", flags := 1 } ≠ [] := by decide

/-- There is at most one object at any time, and no wrapper functions with automatic
    loading are used (they have an object of their own). -/
def OneObject (L : Loader) (C : Cfg) (ops : List Op) : Prop :=
  (∀ i, Op.wrapped i ∉ ops) ∧ ∀ a b p, ops = a ++ b → run L C (start C) a = .go p → ∀ i j, p.obj i ≠ none → p.obj j ≠ none → i = j

theorem run_append {L : Loader} {C : Cfg} (a b : List Op) : ∀ (p : Prog), run L C p (a ++ b) =
    match run L C p a with
    | .go q => run L C q b
    | r => r := by
  induction a with
  | nil => intro p; rfl
  | cons c r ih =>
    intro p
    rw [List.cons_append, run, run]
    cases step L C p c with
    | go q => exact ih q
    | _ => rfl

/-- Missing: several objects.  If there is one object at a time, it returns a path only
    while a library is loaded, and the path was named by the system since it was loaded. -/
theorem C87_partial (L : Loader) (C : Cfg) (ops : List Op) (h1 : OneObject L C ops) (p : Prog) (h : run L C (start C) ops = .go p) (i : Nat)
    (o : Obj) (hi : p.obj i = some o) (b : Bool) (t : Str) (s : S) (hm : member L C ⟨o, p.w⟩ (.libraryPath b) = some (.text t, s)) (ht : t ≠ []) :
    s.w.handle ≠ none ∧ Named t s.w.log := by
  suffices H : ∀ i o, p.obj i = some o → PInv (core b ⟨o, p.w⟩) by
    simp only [member, ofText, Option.some.injEq, Prod.mk.injEq, Cxx.Val.text.injEq] at hm
    obtain ⟨rfl, rfl⟩ := hm
    exact steps_pinv (steps_getLibraryPath (L := L) (C := C) (b := b) b ⟨o, p.w⟩) (H i o hi) ht
  suffices H : ∀ (z a : List Op), ops = a ++ z → ∀ q, run L C (start C) a = .go q → (∀ i o, q.obj i = some o → PInv (core b ⟨o, q.w⟩)) →
      ∀ i o, p.obj i = some o → PInv (core b ⟨o, p.w⟩) from
    H ops [] rfl _ rfl fun i o ho => by simp [start] at ho
  intro z
  induction z with
  | nil =>
    intro a ha q hq hA
    rw [ha, List.append_nil, hq] at h
    cases h
    exact hA
  | cons op r ih =>
    intro a ha q hq hA
    have ha' : ops = (a ++ [op]) ++ r := by rw [ha]; simp
    have hone := h1.2 a (op :: r) q ha hq
    have hs := run_append (L := L) (C := C) a [op] (start C)
    rw [hq] at hs
    simp only [run] at hs
    have hfull := run_append (L := L) (C := C) a (op :: r) (start C)
    rw [← ha, h, hq] at hfull
    simp only [run] at hfull
    cases hst : step L C q op with
    | go x =>
      rw [hst] at hs
      refine ih (a ++ [op]) ha' x hs ?_
      have fresh : ∀ (o : Obj), o.libpath = [] → o.wlibpath = [] → PInv (core b ⟨o, q.w⟩) := fun o h1 h2 hp =>
        absurd (pathOf_fresh b o h1 h2) hp
      have put : ∀ (i : Nat) (o : Option Obj), (∀ x, o = some x → PInv (core b ⟨x, q.w⟩)) →
          ∀ j y, (q.make i o).obj j = some y → PInv (core b ⟨y, (q.make i o).w⟩) := by
        intro i o ho j y hx
        rw [make_w]
        unfold Prog.make at hx
        split at hx
        · exact hA j y hx
        · simp only [Prog.set] at hx
          split at hx
          · exact ho y hx
          · exact hA j y hx
      cases op with
      | new i =>
        simp only [step, Res.go.injEq] at hst
        rw [← hst]
        exact put i _ fun x hx => fresh x (by simp at hx; rw [← hx]) (by simp at hx; rw [← hx])
      | newArgs i n f ns =>
        simp only [step, Res.go.injEq] at hst
        rw [← hst]
        exact put i _ fun x hx => fresh x (by simp at hx; rw [← hx]) (by simp at hx; rw [← hx])
      | newConv i c n f =>
        simp only [step, Res.go.injEq] at hst
        rw [← hst]
        exact put i _ fun x hx => fresh x (by simp at hx; rw [← hx]) (by simp at hx; rw [← hx])
      | newWide i n f =>
        simp only [step, Res.go.injEq] at hst
        rw [← hst]
        exact put i _ fun x hx => fresh x (by simp at hx; rw [← hx]) (by simp at hx; rw [← hx])
      | copy i j =>
        simp only [step, Res.go.injEq] at hst
        rw [← hst]
        split
        · exact put j _ fun x hx => hA i x hx
        · exact hA
      | destroy i =>
        simp only [step] at hst
        split at hst
        · simp at hst; rw [← hst]; exact hA
        · rename_i y hy
          simp at hst
          rw [← hst]
          intro j z hz
          simp only [Prog.set] at hz
          split at hz
          · cases hz
          · rename_i hji
            exact absurd (hone j i (by rw [hz]; simp) (by rw [hy]; simp)) hji
      | call i m =>
        simp only [step] at hst
        split at hst
        · simp at hst; rw [← hst]; exact hA
        · rename_i y hy
          split at hst
          · cases hst
          · rename_i v s hm
            simp at hst
            rw [← hst]
            intro j z hz
            simp only [Prog.set] at hz
            split at hz
            · simp at hz
              rw [← hz]
              exact steps_pinv (steps_member (b := b) hm) (hA i y hy)
            · rename_i hji
              exact absurd (hone j i (by rw [hz]; simp) (by rw [hy]; simp)) hji
      | wrapped i => exact absurd (by rw [ha]; simp) (h1.1 i)
    | exited u => rw [hst] at hfull; cases hfull
    | aborted u => rw [hst] at hfull; cases hfull
    | ub => rw [hst] at hfull; cases hfull

example : OneObject demoLoader demoCfg [.newWide 1 (str% "x") 1, .call 1 .load, .call 1 (.libraryPath true), .destroy 1] := by
  refine ⟨by simp, ?_⟩
  intro a b p h hr i j hi hj
  have key : ∀ (p : Prog) (k : Nat), (∀ x, x ≠ k → p.obj x = none) → p.obj i ≠ none → p.obj j ≠ none → i = j := by
    intro p k hk hi hj
    have h1 : i = k := Decidable.byContradiction fun h => hi (hk i h)
    have h2 : j = k := Decidable.byContradiction fun h => hj (hk j h)
    rw [h1, h2]
  match a, h with
  | [], _ => cases hr; exact absurd rfl hi
  | [_], h =>
    simp at h; rw [← h.1] at hr; cases hr
    exact key _ 1 (fun x hx => by simp [Prog.set, Prog.make, start, hx]) hi hj
  | [_, _], h =>
    simp at h; rw [← h.1, ← h.2.1] at hr; cases hr
    exact key _ 1 (fun x hx => by simp [Prog.set, Prog.make, start, hx]) hi hj
  | [_, _, _], h =>
    simp at h; rw [← h.1, ← h.2.1, ← h.2.2.1] at hr; cases hr
    exact key _ 1 (fun x hx => by simp [Prog.set, Prog.make, start, hx]) hi hj
  | [_, _, _, _], h =>
    simp at h; rw [← h.1, ← h.2.1, ← h.2.2.1, ← h.2.2.2.1] at hr; cases hr
    exact key _ 1 (fun x hx => by simp [Prog.set, Prog.make, start, hx]) hi hj
  | _ :: _ :: _ :: _ :: _ :: _, h => simp at h

/-- The path is asked for once per type of characters: with a library and no stored path it
    is the one the system names, if that fits and is no empty text. -/
theorem C87_found (L : Loader) (b : Bool) (s : S) (x : Ptr) (hx : s.w.handle = some x) (h0 : pathOf b s.o = []) (p : Str)
    (hp : (if b then L.fileW s.w.clock x else L.fileA s.w.clock x).1 = some p) (h1 : p ≠ []) (h2 : p.length < bufLen) (h3 : nul ∉ p) :
    (libraryPath L b s).1 = p := by
  have hc : cstr p = p := cstr_self h3
  have h0' : pathOf b (clearError s).o = [] := by rw [← h0]; cases b <;> rfl
  have hl : 0 < p.length := List.length_pos_iff.mpr h1
  unfold libraryPath getLibraryPath
  dsimp only
  rw [if_neg (by rw [h0']; simp)]
  have hx' : (clearError s).w.handle = some x := hx
  have ha : (callFile L b x (clearError s)).1 = some p := hp
  simp only [hx', ha, hl, h2, and_self, if_true]
  rw [hc]
  cases b <;> rfl

example : (libraryPath demoLoader true ⟨{ flags := 1 }, { handle := some 100 }⟩).1 = str% "C:\\x" := by decide

end Gdo.CxxWin
