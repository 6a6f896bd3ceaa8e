import Verif.Model.CxxWin
import Verif.Lemmas.Cxx

/-!
The member functions of the generated C++ code on Windows as sequences of elementary
changes.
-/

namespace Gdo.CxxWin
open Gdo RtSpec
open Gdo.Rt (Ptr Ev Mode Inv)
open Gdo.Cxx (Core Elem Steps)

theorem cstr_self {t : Str} (h : nul ∉ t) : cstr t = t := by
  induction t with
  | nil => rfl
  | cons c r ih =>
    have h1 : (c != nul) = true := by simpa using fun e : c = nul => h (by simp [e])
    rw [cstr, List.takeWhile_cons, if_pos h1]
    exact congrArg (c :: ·) (ih fun hr => h (List.mem_cons_of_mem _ hr))

/-- A C string ends at its first NUL. -/
theorem cstr_nul {t : Str} (h : nul ∉ t) (r : Str) : cstr (t ++ nul :: r) = t := by
  induction t with
  | nil => rfl
  | cons c t ih =>
    have h1 : (c != nul) = true := by simpa using fun e : c = nul => h (by simp [e])
    rw [cstr, List.cons_append, List.takeWhile_cons, if_pos h1]
    exact congrArg (c :: ·) (ih fun hr => h (List.mem_cons_of_mem _ hr))

theorem cstr_no_nul (t : Str) : nul ∉ cstr t := by
  induction t with
  | nil => simp [cstr]
  | cons c r ih =>
    rw [cstr, List.takeWhile_cons]
    split
    · rename_i hc
      intro h
      rcases List.mem_cons.mp h with h | h
      · simp [← h] at hc
      · exact ih h
    · simp

/-- The core of a state, with the path of wide or narrow characters. -/
def core (b : Bool) (s : S) : Core := ⟨s.w.handle, s.w.ptr, s.w.log, pathOf b s.o⟩

section
variable {L : Loader} {C : Cfg} {b : Bool}

@[simp] theorem core_clearError (s : S) : core b (clearError s) = core b s := by cases b <;> rfl
@[simp] theorem core_setErrno (n : Nat) (s : S) : core b (setErrno n s) = core b s := by cases b <;> rfl
@[simp] theorem core_setMsg (m : Str) (s : S) : core b (setMsg m s) = core b s := by cases b <;> rfl
@[simp] theorem core_setWmsg (m : Str) (s : S) : core b (setWmsg m s) = core b s := by cases b <;> rfl
@[simp] theorem core_tick (s : S) : core b (tick s) = core b s := by cases b <;> rfl
@[simp] theorem core_saveError (s : S) : core b (saveError s) = core b s := by simp [saveError]
@[simp] theorem core_saveErrorMsg (w : Bool) (m : Str) (s : S) : core b (saveErrorMsg w m s) = core b s := by
  unfold saveErrorMsg; split <;> simp
@[simp] theorem core_invalidHandle (s : S) : core b (invalidHandle s) = core b s := by simp [invalidHandle]

theorem core_mk {s t : S} (h1 : t.w.handle = s.w.handle) (h2 : t.w.ptr = s.w.ptr) (h3 : t.w.log = s.w.log) (h4 : pathOf b t.o = pathOf b s.o) :
    core b t = core b s := by
  rw [core, core, h1, h2, h3, h4]

@[simp] theorem handle_clearError (s : S) : (clearError s).w = s.w := rfl

theorem steps_opened (a : Option Ptr × Nat) (s : S) (hs : s.w.handle = none) : Steps C.toCfg (core b s) (core b (opened a s)) := by
  obtain ⟨o, ⟨hd, pt, ck, de, lg, sh⟩⟩ := s
  simp only at hs
  subst hs
  obtain ⟨_ | h, m⟩ := a
  · exact .refl _
  · exact .one (.opened ..)

theorem steps_loadExW (name : Str) (s : S) (hs : s.w.handle = none) : Steps C.toCfg (core b s) (core b (loadExW L name s)) :=
  steps_opened _ s hs

theorem steps_loadExA (name : Str) (s : S) (hs : s.w.handle = none) : Steps C.toCfg (core b s) (core b (loadExA L name s)) := by
  unfold loadExA
  split
  · split
    · have := steps_loadExW (L := L) (C := C) (b := b) ‹Str› (tick s) hs
      rwa [core_tick] at this
    · refine .eq ?_
      cases b <;> simp [core, hs, setMsg, setErrno, tick, pathOf]
  · exact steps_opened _ s hs

theorem steps_loadLib (w : Bool) (name : Str) (s : S) (hs : s.w.handle = none) : Steps C.toCfg (core b s) (core b (loadLib L w name s)) := by
  unfold loadLib
  rw [← core_clearError s]
  dsimp only
  split
  · exact steps_loadExW _ _ hs
  · exact steps_loadExA _ _ hs

theorem steps_loadFilename (w : Bool) (name : Str) (s : S) : Steps C.toCfg (core b s) (core b (loadFilename L w name s).2) := by
  unfold loadFilename
  dsimp only
  split
  · rw [core_setMsg, core_clearError]; exact .refl _
  · rename_i hh
    split
    · rw [core_setMsg, core_setErrno, core_clearError]; exact .refl _
    · have := steps_loadLib (L := L) (C := C) (b := b) w name (clearError s) (by simpa [libLoaded] using hh)
      rw [core_clearError] at this
      split
      · exact this
      · rw [core_saveErrorMsg]; exact this

theorem steps_loadArgs (name : Str) (flags : Int) (ns : Bool) (s : S) : Steps C.toCfg (core b s) (core b (loadArgs L name flags ns s).2) :=
  steps_loadFilename (L := L) (C := C) (b := b) false name { s with o := { s.o with wfilename := [], filename := name, flags := flags, ns := ns } }

theorem steps_loadConv (c : Bool) (name : Str) (flags : Int) (s : S) : Steps C.toCfg (core b s) (core b (loadConv L c name flags s).2) :=
  steps_loadFilename (L := L) (C := C) (b := b) false name { s with o := { s.o with convert := c, wfilename := [], filename := name, flags := flags } }

theorem steps_loadWide (name : Str) (flags : Int) (s : S) : Steps C.toCfg (core b s) (core b (loadWide L name flags s).2) :=
  steps_loadFilename (L := L) (C := C) (b := b) true name { s with o := { s.o with filename := [], wfilename := name, flags := flags } }

theorem steps_load (s : S) : Steps C.toCfg (core b s) (core b (load L s).2) := by
  unfold load
  split <;> exact steps_loadFilename _ _ _

theorem steps_free (force : Bool) (s : S) : Steps C.toCfg (core b s) (core b (free L C force s).2) := by
  obtain ⟨o, ⟨hd, pt, ck, de, lg, sh⟩⟩ := s
  have hz : ∀ (t : S), core b (setNull C t) = ⟨none, Cxx.nulled C.toCfg t.w.ptr, t.w.log, []⟩ := by
    intro t; cases b <;> rfl
  unfold free
  dsimp only [clearError]
  cases hd with
  | none => rw [hz]; exact .one (.cleared ..)
  | some h =>
    dsimp only
    split
    · rename_i hr
      rw [hz]
      refine .one (.closed h pt lg _ (L.free ck h).1 force ?_)
      simpa [callFree] using hr
    · rename_i hr
      have hr' : (L.free ck h).1 = false ∧ force = false := by simpa [callFree] using hr
      rw [core_saveErrorMsg]
      have : core b (callFree L h force { o := { o with errno := 0, errmsg := [], werrmsg := [], formatted := [], wformatted := [] }, w := { handle := some h, ptr := pt, clock := ck, sysErr := de, log := lg, shown := sh } }).2 =
          ⟨some h, pt, lg ++ [.closed h false false], pathOf b o⟩ := by
        simp only [callFree, core]
        rw [hr'.1, hr'.2]
        cases b <;> rfl
      rw [this]
      exact .one (.closeFailed ..)

theorem core_symLoad (h : Ptr) (i : Nat) (name : Str) (s : S) :
    core b (symLoad L h i name s).2 = ⟨s.w.handle, fun j => if j = i then (L.sym s.w.clock h name).1 else s.w.ptr j,
      s.w.log ++ [.sym h name (L.sym s.w.clock h name).1], pathOf b s.o⟩ := by
  unfold symLoad
  dsimp only
  split
  · rfl
  · rw [core_saveError]; rfl

theorem symLoad_fst (h : Ptr) (i : Nat) (name : Str) (s : S) :
    (symLoad L h i name s).1 = (L.sym s.w.clock h name).1.isSome := by
  unfold symLoad
  dsimp only
  split <;> simp_all

theorem symLoad_handle (h : Ptr) (i : Nat) (name : Str) (s : S) : (symLoad L h i name s).2.w.handle = s.w.handle :=
  congrArg Core.handle (core_symLoad (L := L) (b := false) h i name s)

theorem symLoad_ptr (h : Ptr) (i : Nat) (name : Str) (s : S) :
    (symLoad L h i name s).2.w.ptr = fun j => if j = i then (L.sym s.w.clock h name).1 else s.w.ptr j :=
  congrArg Core.ptr (core_symLoad (L := L) (b := false) h i name s)

theorem steps_symLoad {h : Ptr} {i : Nat} {name : Str} {s : S} (hh : s.w.handle = some h) (hn : C.syms[i]? = some name) :
    Steps C.toCfg (core b s) (core b (symLoad L h i name s).2) := by
  rw [core_symLoad, core, hh]
  exact .one (.sym _ _ _ _ _ _ _ hn)

theorem steps_loadLoop {h : Ptr} (l : List Str) : ∀ (i : Nat) (s : S), s.w.handle = some h →
    (∀ k name, l[k]? = some name → C.syms[i + k]? = some name) → Steps C.toCfg (core b s) (core b (loadLoop L h i l s).2) := by
  induction l with
  | nil => intro i s _ _; exact .refl _
  | cons name r ih =>
    intro i s hh hl
    rw [loadLoop]
    have h1 := steps_symLoad (L := L) (b := b) hh (hl 0 name rfl)
    split
    · refine h1.trans (ih (i + 1) _ (by rw [symLoad_handle]; exact hh) ?_)
      intro k n hk
      have := hl (k + 1) n (by simpa using hk)
      rw [show i + 1 + k = i + (k + 1) by omega]
      exact this
    · exact h1

theorem steps_loadAllSymbols (s : S) : Steps C.toCfg (core b s) (core b (loadAllSymbols L C s).2) := by
  unfold loadAllSymbols
  dsimp only
  split
  · rw [core_clearError]; exact .refl _
  · split
    · rw [core_invalidHandle, core_clearError]; exact .refl _
    · rename_i h hh
      have := steps_loadLoop (L := L) (C := C) (b := b) C.syms 0 (clearError s) hh (by simp)
      rwa [core_clearError] at this

theorem steps_loadLibAndSymbols (s : S) : Steps C.toCfg (core b s) (core b (loadLibAndSymbols L C s).2) := by
  unfold loadLibAndSymbols
  dsimp only
  split
  · exact (steps_load (L := L) s).trans (steps_loadAllSymbols _)
  · exact steps_load s

theorem steps_loadOne {h : Ptr} {i : Nat} {name : Str} {s : S} (hh : s.w.handle = some h) (hn : C.syms[i]? = some name) :
    Steps C.toCfg (core b s) (core b (loadOne L h i name s).2) := by
  unfold loadOne
  split
  · exact .refl _
  · exact steps_symLoad hh hn

theorem steps_loadSymbol (num : Int) (s : S) : Steps C.toCfg (core b s) (core b (loadSymbol L C num s).2) := by
  unfold loadSymbol
  dsimp only
  split
  · rw [core_invalidHandle, core_clearError]; exact .refl _
  · rename_i h hh
    split
    · rename_i i name hc
      have := steps_loadOne (L := L) (C := C) (b := b) (s := clearError s) hh (Rt.caseOf_some hc).2
      rwa [core_clearError] at this
    · rw [core_setMsg, core_setErrno, core_clearError]; exact .refl _

theorem steps_loadSymbolName {name : Option Str} {s : S} {r : Bool × S} (hr : loadSymbolName L C name s = some r) :
    Steps C.toCfg (core b s) (core b r.2) := by
  unfold loadSymbolName at hr
  dsimp only at hr
  split at hr
  · cases hr; rw [core_invalidHandle, core_clearError]; exact .refl _
  · rename_i h hh
    split at hr
    · cases hr; rw [core_setMsg, core_setErrno, core_clearError]; exact .refl _
    · obtain ⟨f, hf, rfl⟩ := Option.map_eq_some_iff.mp hr
      match f with
      | none => rw [loadFound, core_setMsg, core_setErrno, core_clearError]; exact .refl _
      | some (i, cur) =>
        have := steps_loadOne (L := L) (C := C) (b := b) (s := clearError s) hh (Cxx.foundName_some hf)
        rwa [core_clearError] at this

theorem core_callFile (w : Bool) (h : Ptr) (s : S) :
    core b (callFile L w h s).2 = ⟨s.w.handle, s.w.ptr, s.w.log ++ [.info h], pathOf b s.o⟩ := rfl

theorem steps_setPath {h : Ptr} {s : S} (hh : s.w.handle = some h) (w : Bool) (p : Str) : Steps C.toCfg (core b s) (core b (setPath w p s)) := by
  have h1 : core b s = ⟨some h, s.w.ptr, s.w.log, pathOf b s.o⟩ := by rw [core, hh]
  rw [h1]
  by_cases hw : w = b
  · subst hw
    have : core w (setPath w p s) = ⟨some h, s.w.ptr, s.w.log ++ [.path p], p⟩ := by cases w <;> simp [core, setPath, hh, pathOf]
    rw [this]
    exact .one (.path ..)
  · have : core b (setPath w p s) = ⟨some h, s.w.ptr, s.w.log ++ [.path p], pathOf b s.o⟩ := by
      cases w <;> cases b <;> simp_all [core, setPath, pathOf]
    rw [this]
    exact .one (.note ..)

theorem steps_getLibraryPath (w : Bool) (s : S) : Steps C.toCfg (core b s) (core b (getLibraryPath L w s)) := by
  unfold getLibraryPath
  dsimp only
  split
  · rw [core_clearError]; exact .refl _
  · split
    · rw [core_invalidHandle, core_clearError]; exact .refl _
    · rename_i h hh
      have hh' : s.w.handle = some h := hh
      have h1 : Steps C.toCfg (core b s) (core b (callFile L w h (clearError s)).2) := by
        rw [core_callFile, core, hh']
        have : pathOf b (clearError s).o = pathOf b s.o := by cases b <;> rfl
        rw [this]
        simp only [handle_clearError, hh']
        exact .one (.info ..)
      split
      · rw [core_saveErrorMsg]; exact h1
      · split
        · exact h1.trans (steps_setPath (h := h) (s := (callFile L w h (clearError s)).2) hh' _ _)
        · rw [core_saveErrorMsg]; exact h1

theorem core_filename (s : S) : core b (filename L s).2 = core b s := by
  unfold filename
  split
  · cases b <;> rfl
  · rfl

theorem core_filenameW (s : S) : core b (filenameW L s).2 = core b s := by
  unfold filenameW
  split
  · cases b <;> rfl
  · rfl

theorem core_error (s : S) : core b (error L s).2 = core b s := by
  unfold error
  split
  · rfl
  · cases b <;> rfl

theorem core_errorW (s : S) : core b (errorW L s).2 = core b s := by
  unfold errorW
  split
  · rfl
  · cases b <;> rfl

/-- Each member function makes elementary changes only. -/
theorem steps_member {s t : S} {m : Member} {v : Val} (h : member L C s m = some (v, t)) : Steps C.toCfg (core b s) (core b t) := by
  cases m <;> simp only [member, ofBool, ofText, Option.some.injEq, Prod.mk.injEq] at h
  case loadArgs n f ns => rw [← h.2]; exact steps_loadArgs n f ns s
  case loadConv c n f => rw [← h.2]; exact steps_loadConv c n f s
  case loadWide n f => rw [← h.2]; exact steps_loadWide n f s
  case load => rw [← h.2]; exact steps_load s
  case loadLibAndSymbols => rw [← h.2]; exact steps_loadLibAndSymbols s
  case libLoaded => rw [← h.2]; exact .refl _
  case flags => rw [← h.2]; exact .refl _
  case loadAllSymbols => rw [← h.2]; exact steps_loadAllSymbols s
  case loadSymbol n => rw [← h.2]; exact steps_loadSymbol n s
  case loadSymbolName n =>
    obtain ⟨r, h1, h2⟩ := Option.map_eq_some_iff.mp h
    simp [ofBool] at h2
    rw [← h2.2]
    exact steps_loadSymbolName h1
  case allSymbolsLoaded => rw [← h.2]; exact .refl _
  case noSymbolsLoaded => rw [← h.2]; exact .refl _
  case anySymbolLoaded => rw [← h.2]; exact .refl _
  case free c => rw [← h.2]; exact steps_free c s
  case setFreeInDtor c => rw [← h.2]; exact .eq (by cases b <;> rfl)
  case getFreeInDtor => rw [← h.2]; exact .refl _
  case libraryPath w => rw [← h.2]; exact steps_getLibraryPath w s
  case filename w =>
    rw [← h.2]
    split
    · rw [core_filenameW]; exact .refl _
    · rw [core_filename]; exact .refl _
  case error w =>
    rw [← h.2]
    split
    · rw [core_errorW]; exact .refl _
    · rw [core_error]; exact .refl _

/-- The destructor makes elementary changes only. -/
theorem steps_destroy (o : Obj) (w : World) :
    ∃ lp, Steps C.toCfg (core b ⟨o, w⟩) ⟨(destroy L C o w).handle, (destroy L C o w).ptr, (destroy L C o w).log, lp⟩ := by
  unfold destroy
  split
  · exact ⟨_, steps_free true ⟨o, w⟩⟩
  · exact ⟨_, .refl _⟩

theorem steps_autoloadLib (s : S) : Steps C.toCfg (core b s) (core b (autoloadLib L s)) := by
  unfold autoloadLib
  split
  · exact .refl _
  · exact steps_load s

theorem steps_afterLoad (i : Nat) (s : S) : Steps C.toCfg (core b s) (core b (afterLoad L C i s).2) := by
  unfold afterLoad
  split
  · exact (steps_autoloadLib s).trans (steps_loadSymbol _ _)
  · exact (steps_autoloadLib s).trans (steps_loadAllSymbols _)

end

end Gdo.CxxWin
