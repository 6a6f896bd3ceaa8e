import Verif.Model.Cxx
import Verif.Lemmas.Runtime

/-!
The member functions of the generated C++ code as sequences of elementary changes.
-/

namespace Gdo.Cxx
open Gdo RtSpec
open Gdo.Rt (Ptr Loader Cfg Ev Mode Inv)

/-- What the invariants are about. -/
structure Core where
  handle : Option Ptr
  ptr : Nat → Option Ptr
  log : List Ev
  libpath : Str

/-- The core of a state. -/
def core (s : S) : Core := ⟨s.w.handle, s.w.ptr, s.w.log, s.o.libpath⟩

/-- All symbol pointers NULL. -/
def nulled (C : Cfg) (pt : Nat → Option Ptr) (i : Nat) : Option Ptr := if i < C.syms.length then none else pt i

/-- The elementary changes. -/
inductive Elem (C : Cfg) : Core → Core → Prop where
  | opened (h : Ptr) (pt lg lp) : Elem C ⟨none, pt, lg, lp⟩ ⟨some h, pt, lg ++ [.opened h], lp⟩
  | sym (h : Ptr) (pt lg lp) (i : Nat) (name : Str) (r : Option Ptr) (hn : C.syms[i]? = some name) :
    Elem C ⟨some h, pt, lg, lp⟩ ⟨some h, fun j => if j = i then r else pt j, lg ++ [.sym h name r], lp⟩
  | info (h : Ptr) (pt lg lp) : Elem C ⟨some h, pt, lg, lp⟩ ⟨some h, pt, lg ++ [.info h], lp⟩
  | path (h : Ptr) (pt lg lp) (p : Str) : Elem C ⟨some h, pt, lg, lp⟩ ⟨some h, pt, lg ++ [.path p], p⟩
  /-- the system named a path that is stored elsewhere -/
  | note (h : Ptr) (pt lg lp) (p : Str) : Elem C ⟨some h, pt, lg, lp⟩ ⟨some h, pt, lg ++ [.path p], lp⟩
  | closed (h : Ptr) (pt lg lp) (ok forced : Bool) (hf : ok = true ∨ forced = true) :
    Elem C ⟨some h, pt, lg, lp⟩ ⟨none, nulled C pt, lg ++ [.closed h ok forced], []⟩
  | closeFailed (h : Ptr) (pt lg lp) : Elem C ⟨some h, pt, lg, lp⟩ ⟨some h, pt, lg ++ [.closed h false false], lp⟩
  | cleared (pt lg lp) : Elem C ⟨none, pt, lg, lp⟩ ⟨none, nulled C pt, lg, []⟩

/-- Sequences of elementary changes. -/
inductive Steps (C : Cfg) : Core → Core → Prop where
  | refl (a) : Steps C a a
  | tail {a b c} (h : Steps C a b) (e : Elem C b c) : Steps C a c

theorem Steps.one {C : Cfg} {a b : Core} (e : Elem C a b) : Steps C a b := .tail (.refl a) e

theorem Steps.trans {C : Cfg} {a b c : Core} (h1 : Steps C a b) (h2 : Steps C b c) : Steps C a c := by
  induction h2 with
  | refl => exact h1
  | tail _ e ih => exact .tail ih e

theorem Steps.eq {C : Cfg} {a b : Core} (h : a = b) : Steps C a b := h ▸ .refl a

/-! ### The invariants -/

theorem elem_inv {C : Cfg} {a b : Core} (e : Elem C a b) (h : Inv C a.handle a.ptr a.log) : Inv C b.handle b.ptr b.log := by
  cases e with
  | opened x => exact Rt.inv_open x h
  | sym x pt lg lp i name r hn => exact Rt.inv_sym r h hn
  | info => exact Rt.inv_info h
  | path x pt lg lp p => exact Rt.inv_path p h
  | note x pt lg lp p => exact Rt.inv_path p h
  | closed x pt lg lp ok forced hf =>
    refine Rt.inv_closed h hf fun i => ?_
    show (if i < C.syms.length then none else pt i) = none
    split
    · rfl
    · exact h.bound (by omega)
  | closeFailed => exact Rt.inv_closeFailed h
  | cleared pt lg lp =>
    refine ⟨h.count, h.only, fun i p hp => ?_⟩
    simp only [nulled] at hp
    split at hp
    · cases hp
    · exact h.origin i p hp

theorem steps_inv {C : Cfg} {a b : Core} (e : Steps C a b) (h : Inv C a.handle a.ptr a.log) : Inv C b.handle b.ptr b.log := by
  induction e with
  | refl => exact h
  | tail _ e ih => exact elem_inv e ih

/-- A stored path was named by the system since the library was loaded. -/
def PInv (a : Core) : Prop := a.libpath ≠ [] → a.handle ≠ none ∧ Named a.libpath a.log

theorem named_snoc {p : Str} {log : List Ev} {e : Ev} (hr : Named p log)
    (he : (∀ h, e ≠ .opened h) ∧ ∀ h f, e ≠ .closed h true f) : Named p (log ++ [e]) := by
  obtain ⟨a, b, h1, h2⟩ := hr
  refine ⟨a, b ++ [e], by rw [h1]; simp, ?_⟩
  intro x hx
  rcases List.mem_append.mp hx with h | h
  · exact h2 x h
  · simp at h
    subst h
    exact he

theorem elem_pinv {C : Cfg} {a b : Core} (e : Elem C a b) (h : PInv a) : PInv b := by
  cases e with
  | opened x => intro hp; exact absurd rfl (h hp).1
  | sym x pt lg lp i name r hn => intro hp; exact ⟨by simp, named_snoc (h hp).2 (by simp)⟩
  | info => intro hp; exact ⟨by simp, named_snoc (h hp).2 (by simp)⟩
  | path x pt lg lp p => intro hp; exact ⟨by simp, lg, [], rfl, by intro e he; cases he⟩
  | note x pt lg lp p => intro hp; exact ⟨by simp, named_snoc (h hp).2 (by simp)⟩
  | closed x pt lg lp ok forced hf => intro hp; exact absurd rfl hp
  | closeFailed => intro hp; exact ⟨by simp, named_snoc (h hp).2 (by simp)⟩
  | cleared pt lg lp => intro hp; exact absurd rfl hp

theorem steps_pinv {C : Cfg} {a b : Core} (e : Steps C a b) (h : PInv a) : PInv b := by
  induction e with
  | refl => exact h
  | tail _ e ih => exact elem_pinv e ih

/-- A stored path was named by the system at some time. -/
def MInv (a : Core) : Prop := a.libpath ≠ [] → Ev.path a.libpath ∈ a.log

theorem elem_minv {C : Cfg} {a b : Core} (e : Elem C a b) (h : MInv a) : MInv b := by
  cases e <;> intro hp <;> simp_all [MInv]

theorem steps_minv {C : Cfg} {a b : Core} (e : Steps C a b) (h : MInv a) : MInv b := by
  induction e with
  | refl => exact h
  | tail _ e ih => exact elem_minv e ih

theorem elem_log {C : Cfg} {a b : Core} (e : Elem C a b) : ∃ x, b.log = a.log ++ x := by
  cases e with
  | cleared => exact ⟨[], by simp⟩
  | _ => exact ⟨_, rfl⟩

/-- The history grows. -/
theorem steps_log {C : Cfg} {a b : Core} (e : Steps C a b) : ∃ x, b.log = a.log ++ x := by
  induction e with
  | refl => exact ⟨[], by simp⟩
  | tail _ e ih =>
    obtain ⟨x, hx⟩ := ih
    obtain ⟨y, hy⟩ := elem_log e
    exact ⟨x ++ y, by rw [hy, hx]; simp⟩

/-! ### The functions -/

section
variable {L : Loader} {C : Cfg}

@[simp] theorem core_setMsg (m : Str) (s : S) : core (setMsg m s) = core s := rfl
@[simp] theorem core_clearError (s : S) : core (clearError s) = core s := rfl
@[simp] theorem core_saveError (s : S) : core (saveError s) = core s := rfl
@[simp] theorem core_invalidHandle (s : S) : core (invalidHandle s) = core s := rfl

theorem steps_loadLib (name : Str) (s : S) (hs : s.w.handle = none) : Steps C (core s) (core (loadLib L name s)) := by
  obtain ⟨o, ⟨hd, pt, ck, de, lg, se⟩⟩ := s
  simp only at hs
  subst hs
  unfold loadLib core
  dsimp only [clearError]
  generalize L.dlopen _ _ _ _ = a
  obtain ⟨_ | h, m⟩ := a
  · exact .refl _
  · exact .one (.opened ..)

theorem steps_loadFilename (name : Str) (s : S) : Steps C (core s) (core (loadFilename L name s).2) := by
  unfold loadFilename
  dsimp only
  split
  · exact .refl _
  · rename_i hh
    split
    · exact .refl _
    · have := steps_loadLib (L := L) (C := C) name (clearError s) (by simpa [libLoaded] using hh)
      split <;> exact this

theorem steps_loadArgs (name : Str) (flags : Int) (ns : Bool) (s : S) : Steps C (core s) (core (loadArgs L name flags ns s).2) :=
  steps_loadFilename (L := L) (C := C) name { s with o := { s.o with filename := name, flags := flags, ns := ns } }

theorem steps_load (s : S) : Steps C (core s) (core (load L s).2) := steps_loadFilename _ _

theorem steps_free (force : Bool) (s : S) : Steps C (core s) (core (free L C force s).2) := by
  obtain ⟨o, ⟨hd, pt, ck, de, lg, se⟩⟩ := s
  unfold free
  dsimp only [clearError]
  cases hd with
  | none => exact .one (.cleared ..)
  | some h =>
    dsimp only
    split
    · rename_i hr
      refine .one (.closed h pt lg o.libpath (L.dlclose ck h).1 force ?_)
      simpa [callDlclose] using hr
    · rename_i hr
      have hr' : (L.dlclose ck h).1 = false ∧ force = false := by simpa [callDlclose] using hr
      rw [core_saveError]
      simp only [callDlclose, core]
      rw [hr'.1, hr'.2]
      exact .one (.closeFailed ..)

theorem core_symLoad (h : Ptr) (i : Nat) (name : Str) (s : S) :
    core (symLoad L h i name s).2 = ⟨s.w.handle, fun j => if j = i then (L.dlsym s.w.clock h name).1 else s.w.ptr j,
      s.w.log ++ [.sym h name (L.dlsym s.w.clock h name).1], s.o.libpath⟩ := by
  unfold symLoad
  dsimp only
  split <;> rfl

theorem symLoad_fst (h : Ptr) (i : Nat) (name : Str) (s : S) :
    (symLoad L h i name s).1 = (L.dlsym s.w.clock h name).1.isSome := by
  unfold symLoad
  dsimp only
  split <;> simp_all

theorem symLoad_handle (h : Ptr) (i : Nat) (name : Str) (s : S) : (symLoad L h i name s).2.w.handle = s.w.handle :=
  congrArg Core.handle (core_symLoad (L := L) h i name s)

theorem symLoad_ptr (h : Ptr) (i : Nat) (name : Str) (s : S) :
    (symLoad L h i name s).2.w.ptr = fun j => if j = i then (L.dlsym s.w.clock h name).1 else s.w.ptr j :=
  congrArg Core.ptr (core_symLoad (L := L) h i name s)

theorem steps_symLoad {h : Ptr} {i : Nat} {name : Str} {s : S} (hh : s.w.handle = some h) (hn : C.syms[i]? = some name) :
    Steps C (core s) (core (symLoad L h i name s).2) := by
  rw [core_symLoad, core, hh]
  exact .one (.sym _ _ _ _ _ _ _ hn)

theorem steps_loadLoop {h : Ptr} (l : List Str) : ∀ (i : Nat) (s : S), s.w.handle = some h →
    (∀ k name, l[k]? = some name → C.syms[i + k]? = some name) → Steps C (core s) (core (loadLoop L h i l s).2) := by
  induction l with
  | nil => intro i s _ _; exact .refl _
  | cons name r ih =>
    intro i s hh hl
    rw [loadLoop]
    have h1 := steps_symLoad (L := L) hh (hl 0 name rfl)
    split
    · refine h1.trans (ih (i + 1) _ (by rw [symLoad_handle]; exact hh) ?_)
      intro k n hk
      have := hl (k + 1) n (by simpa using hk)
      rw [show i + 1 + k = i + (k + 1) by omega]
      exact this
    · exact h1

theorem steps_loadAllSymbols (s : S) : Steps C (core s) (core (loadAllSymbols L C s).2) := by
  unfold loadAllSymbols
  dsimp only
  split
  · exact .refl _
  · split
    · exact .refl _
    · rename_i h hh
      exact steps_loadLoop (L := L) C.syms 0 (clearError s) hh (by simp)

theorem steps_loadLibAndSymbols (s : S) : Steps C (core s) (core (loadLibAndSymbols L C s).2) := by
  unfold loadLibAndSymbols
  dsimp only
  split
  · exact (steps_load (L := L) s).trans (steps_loadAllSymbols _)
  · exact steps_load s

theorem steps_loadOne {h : Ptr} {i : Nat} {name : Str} {s : S} (hh : s.w.handle = some h) (hn : C.syms[i]? = some name) :
    Steps C (core s) (core (loadOne L h i name s).2) := by
  unfold loadOne
  split
  · exact .refl _
  · exact steps_symLoad hh hn

theorem steps_loadSymbol (num : Int) (s : S) : Steps C (core s) (core (loadSymbol L C num s).2) := by
  unfold loadSymbol
  dsimp only
  split
  · exact .refl _
  · rename_i h hh
    split
    · rename_i i name hc
      exact steps_loadOne (L := L) (s := clearError s) hh (Rt.caseOf_some hc).2
    · exact .refl _

theorem foundName_some {name : Str} {i : Nat} {cur : Str} (h : Rt.foundName C name = some (some (i, cur))) : C.syms[i]? = some cur := by
  unfold Rt.foundName at h
  split at h
  · simpa using (Rt.findName_some h).2
  · cases h

theorem steps_loadSymbolName {name : Option Str} {s : S} {r : Bool × S} (hr : loadSymbolName L C name s = some r) :
    Steps C (core s) (core r.2) := by
  unfold loadSymbolName at hr
  dsimp only at hr
  split at hr
  · cases hr; exact .refl _
  · rename_i h hh
    split at hr
    · cases hr; exact .refl _
    · obtain ⟨f, hf, rfl⟩ := Option.map_eq_some_iff.mp hr
      match f with
      | none => exact .refl _
      | some (i, cur) => exact steps_loadOne (L := L) (s := clearError s) hh (foundName_some hf)

theorem core_callDlinfo (h : Ptr) (s : S) :
    core (callDlinfo L h s).2 = ⟨s.w.handle, s.w.ptr, s.w.log ++ [.info h], s.o.libpath⟩ := rfl

theorem steps_setPath {h : Ptr} {s : S} (hh : s.w.handle = some h) (p : Str) : Steps C (core s) (core (setPath p s)) := by
  have : core s = ⟨some h, s.w.ptr, s.w.log, s.o.libpath⟩ := by rw [core, hh]
  rw [this]
  have : core (setPath p s) = ⟨some h, s.w.ptr, s.w.log ++ [.path p], p⟩ := by simp [core, setPath, hh]
  rw [this]
  exact .one (.path ..)

theorem steps_pathDlinfo {h : Ptr} {s : S} (hh : s.w.handle = some h) : Steps C (core s) (core (pathDlinfo L C h s).2) := by
  have h1 : Steps C (core s) (core (callDlinfo L h s).2) := by
    rw [core_callDlinfo, core, hh]
    exact .one (.info ..)
  have hh2 : (callDlinfo L h s).2.w.handle = some h := hh
  unfold pathDlinfo
  dsimp only
  split
  · exact h1
  · split
    · exact h1
    · split
      · exact h1.trans (steps_setPath hh2 _)
      · exact h1.trans (steps_setPath hh2 _)

theorem steps_pathDladdr {h : Ptr} {s : S} (hh : s.w.handle = some h) : Steps C (core s) (core (pathDladdr L C s).2) := by
  unfold pathDladdr
  split
  · exact .refl _
  · dsimp only
    split
    · exact .refl _
    · exact steps_setPath (s := { s with w := { s.w with clock := s.w.clock + 1 } }) hh _

theorem pathDlinfo_handle {h : Ptr} {s : S} (hh : s.w.handle = some h) : (pathDlinfo L C h s).2.w.handle = some h := by
  unfold pathDlinfo
  dsimp only
  split
  · exact hh
  · split
    · exact hh
    · split <;> exact hh

theorem steps_libraryPathDladdr {h : Ptr} {s : S} (hh : s.w.handle = some h) : Steps C (core s) (core (libraryPathDladdr L C s).2) := by
  unfold libraryPathDladdr
  split
  · dsimp only
    split <;> exact steps_pathDladdr hh
  · exact .refl _

theorem steps_libraryPath (s : S) : Steps C (core s) (core (libraryPath L C s).2) := by
  unfold libraryPath
  dsimp only
  split
  · exact .refl _
  · split
    · exact .refl _
    · rename_i h hh
      split
      · exact .refl _
      · split
        · have h1 := steps_pathDlinfo (L := L) (C := C) (s := clearError s) hh
          split
          · exact h1
          · exact h1.trans (steps_libraryPathDladdr (pathDlinfo_handle hh))
        · exact steps_libraryPathDladdr (s := clearError s) hh

/-- Each member function makes elementary changes only. -/
theorem steps_member {s t : S} {m : Member} {v : Val} (h : member L C s m = some (v, t)) : Steps C (core s) (core t) := by
  cases m <;> simp only [member, ofBool, Option.some.injEq, Prod.mk.injEq] at h
  case loadArgs n f ns => rw [← h.2]; exact steps_loadArgs n f ns s
  case load => rw [← h.2]; exact steps_load s
  case loadLibAndSymbols => rw [← h.2]; exact steps_loadLibAndSymbols s
  case libLoaded => rw [← h.2]; exact .refl _
  case flags => rw [← h.2]; exact .refl _
  case loadAllSymbols => rw [← h.2]; exact steps_loadAllSymbols s
  case loadSymbol n => rw [← h.2]; exact steps_loadSymbol n s
  case loadSymbolName n =>
    obtain ⟨r, h1, h2⟩ := Option.map_eq_some_iff.mp h
    simp [ofBool] at h2
    rw [← h2.2]
    exact steps_loadSymbolName h1
  case allSymbolsLoaded => rw [← h.2]; exact .refl _
  case noSymbolsLoaded => rw [← h.2]; exact .refl _
  case anySymbolLoaded => rw [← h.2]; exact .refl _
  case free b => rw [← h.2]; exact steps_free b s
  case setFreeInDtor => rw [← h.2]; exact .refl _
  case getFreeInDtor => rw [← h.2]; exact .refl _
  case libraryPath => rw [← h.2]; exact steps_libraryPath s
  case filename => rw [← h.2]; exact .refl _
  case error => rw [← h.2]; exact .refl _

/-- The destructor makes elementary changes only. -/
theorem steps_destroy (o : Obj) (w : World) :
    ∃ lp, Steps C (core ⟨o, w⟩) ⟨(destroy L C o w).handle, (destroy L C o w).ptr, (destroy L C o w).log, lp⟩ := by
  unfold destroy
  split
  · exact ⟨_, steps_free true ⟨o, w⟩⟩
  · exact ⟨_, .refl _⟩

theorem steps_autoloadLib (s : S) : Steps C (core s) (core (autoloadLib L s)) := by
  unfold autoloadLib
  split
  · exact .refl _
  · exact steps_load s

/-- The state after loading in `not_loaded`. -/
def afterLoad (L : Loader) (C : Cfg) (i : Nat) (s : S) : Bool × S :=
  if C.mode = .lazy then loadSymbol L C i (autoloadLib L s) else loadAllSymbols L C (autoloadLib L s)

theorem steps_afterLoad (i : Nat) (s : S) : Steps C (core s) (core (afterLoad L C i s).2) := by
  unfold afterLoad
  split
  · exact (steps_autoloadLib s).trans (steps_loadSymbol _ _)
  · exact (steps_autoloadLib s).trans (steps_loadAllSymbols _)

theorem notLoaded_eq (i : Nat) (s : S) : notLoaded L C i s = if (afterLoad L C i s).1 then .ret (afterLoad L C i s).2
    else .exit { (afterLoad L C i s).2 with w := show' (autoMsg C (C.syms.getD i []) (afterLoad L C i s).2) (afterLoad L C i s).2.w } := rfl

end

end Gdo.Cxx
