import Verif.Lemmas.Runtime

/-!
The saved path of the library belongs to the library that is loaded.
-/

namespace Gdo.Rt
open Gdo RtSpec

/-- The saved path was named by the system for the library that is loaded. -/
def PInv (s : St) : Prop := s.libpath ≠ [] → s.handle ≠ none ∧ Named s.libpath s.log

/-- Handle and path stay, the library was neither opened nor closed. -/
def Ext (s t : St) : Prop := t.handle = s.handle ∧ t.libpath = s.libpath ∧ ∃ b, t.log = s.log ++ b ∧ Quiet b

theorem Ext.refl (s : St) : Ext s s := ⟨rfl, rfl, [], by simp, by intro e he; cases he⟩

theorem Ext.of {s t : St} (h1 : t.handle = s.handle) (h2 : t.libpath = s.libpath) (h3 : t.log = s.log) : Ext s t :=
  ⟨h1, h2, [], by simp [h3], by intro e he; cases he⟩

theorem Ext.trans {s t u : St} (h1 : Ext s t) (h2 : Ext t u) : Ext s u := by
  obtain ⟨a1, a2, b, a3, a4⟩ := h1
  obtain ⟨c1, c2, d, c3, c4⟩ := h2
  refine ⟨by rw [c1, a1], by rw [c2, a2], b ++ d, by rw [c3, a3]; simp, ?_⟩
  intro e he
  rcases List.mem_append.mp he with h | h
  · exact a4 e h
  · exact c4 e h

theorem Ext.pinv {s t : St} (h : Ext s t) (hs : PInv s) : PInv t := by
  obtain ⟨h1, h2, b, h3, h4⟩ := h
  intro hp
  rw [h2] at hp
  obtain ⟨k1, x, y, k2, k3⟩ := hs hp
  refine ⟨by rw [h1]; exact k1, x, y ++ b, by rw [h3, h2, k2]; simp, ?_⟩
  intro e he
  rcases List.mem_append.mp he with h | h
  · exact k3 e h
  · exact h4 e h

theorem pinv_empty {s : St} (h : s.libpath = []) : PInv s := fun hp => absurd h hp

theorem pinv_path {s : St} {p : Str} {lg : List Ev} (h : s.handle ≠ none) (h1 : s.libpath = p) (h2 : s.log = lg ++ [.path p]) : PInv s :=
  fun _ => ⟨h, lg, [], by rw [h2, h1], by intro e he; cases he⟩

section
variable {L : Loader} {C : Cfg}

theorem pinv_loadLibArgs {s : St} (h : PInv s) (name : Option Str) (flags : Int) (ns : Bool) : PInv (loadLibArgs L name flags ns s).2 := by
  unfold loadLibArgs
  dsimp only
  split
  · exact (Ext.of (s := s) (by simp) (by simp) (by simp)).pinv h
  · rename_i hh
    split
    · exact (Ext.of (s := s) (by simp) (by simp) (by simp)).pinv h
    · have hp : s.libpath = [] := by
        by_cases hp : s.libpath = []
        · exact hp
        · exact absurd (by simpa [libIsLoaded] using hh) (h hp).1
      split
      · exact pinv_empty hp
      · exact pinv_empty (by simpa [loadLibrary] using hp)

theorem pinv_setNull (s : St) : PInv (setNull C s) := pinv_empty rfl

theorem pinv_freeLib {s : St} (h : PInv s) : PInv (freeLib L C s).2 := by
  unfold freeLib
  dsimp only
  split
  · split
    · exact pinv_setNull _
    · rename_i x _ hr
      refine Ext.pinv ⟨?_, ?_, [.closed x (callDlclose L x false (clearError s)).1 false], ?_, ?_⟩ h
      · simp [callDlclose]
      · simp [callDlclose]
      · simp [callDlclose]
      · intro e he
        simp at he
        subst he
        simp at hr
        simp [hr]
  · exact pinv_setNull _

theorem pinv_forceFreeLib (s : St) : PInv (forceFreeLib L C s) := by
  unfold forceFreeLib
  dsimp only
  split <;> exact pinv_setNull _

theorem ext_enableAutorelease (s : St) : Ext s (enableAutorelease L C s).2 := by
  unfold enableAutorelease
  dsimp only
  split
  · exact Ext.of rfl rfl rfl
  · split
    · exact Ext.of rfl rfl rfl
    · exact Ext.of (by simp) (by simp) (by simp)

theorem ext_gdoSym (x : Ptr) (name : Str) (i : Nat) (p : Option Ptr) (s : St) : Ext s (setPtr i p (gdoSym L x name s).2) := by
  refine ⟨?_, ?_, [.sym x name (L.dlsym s.clock x name).1], ?_, by intro e he; simp at he; subst he; simp⟩
  all_goals
    unfold gdoSym setPtr
    dsimp only
    split <;> simp

theorem ext_loadLoop (x : Ptr) (l : List Str) : ∀ (i : Nat) (s : St), Ext s (loadLoop L x i l s).2 := by
  induction l with
  | nil => intro i s; exact Ext.refl s
  | cons name r ih =>
    intro i s
    unfold loadLoop
    dsimp only
    split
    · exact (ext_gdoSym ..).trans (ih _ _)
    · exact ext_gdoSym ..

theorem ext_clear (s : St) : Ext s (clearError s) := Ext.of rfl rfl rfl

theorem ext_loadAllSymbols (s : St) : Ext s (loadAllSymbols L C s).2 := by
  unfold loadAllSymbols
  dsimp only
  split
  · exact ext_clear s
  · split
    · exact Ext.of (by simp) (by simp [noLibrary]) (by simp)
    · exact (ext_clear s).trans (ext_loadLoop ..)

theorem ext_loadOne (x : Ptr) (i : Nat) (name : Str) (s : St) : Ext s (loadOne L x i name s).2 := by
  unfold loadOne
  split
  · exact Ext.refl s
  · exact ext_gdoSym ..

theorem ext_loadSymbol (num : Int) (s : St) : Ext s (loadSymbol L C num s).2 := by
  unfold loadSymbol
  dsimp only
  split
  · exact Ext.of (by simp) (by simp [noLibrary]) (by simp)
  · split
    · exact (ext_clear s).trans (ext_loadOne ..)
    · exact Ext.of rfl rfl rfl

theorem ext_loadSymbolName {name : Option Str} {s : St} {r : Bool × St} (hr : loadSymbolName L C name s = some r) : Ext s r.2 := by
  unfold loadSymbolName at hr
  dsimp only at hr
  split at hr
  · cases hr; exact Ext.of (by simp) (by simp [noLibrary]) (by simp)
  · split at hr
    · cases hr; exact Ext.of (by simp) (by simp) (by simp)
    · simp only [Option.map_eq_some_iff] at hr
      obtain ⟨f, _, rfl⟩ := hr
      cases f with
      | none => exact Ext.of rfl rfl rfl
      | some q => exact (ext_clear s).trans (ext_loadOne ..)

theorem ext_lastError (s : St) : Ext s (lastError s).2 := by
  unfold lastError
  dsimp only
  split
  · exact Ext.of (by simp) (by simp) (by simp)
  · exact Ext.refl s

theorem libpathDlinfo_pinv {s : St} (h : PInv s) {x : Ptr} (hx : s.handle = some x) :
    PInv (libpathDlinfo L C x s).2 ∧ (libpathDlinfo L C x s).2.handle = some x := by
  have he : ∀ t : St, t.handle = s.handle → t.libpath = s.libpath → t.log = s.log ++ [.info x] → PInv t ∧ t.handle = some x := by
    intro t h1 h2 h3
    exact ⟨Ext.pinv ⟨h1, h2, _, h3, by intro e he; simp at he; subst he; simp⟩ h, by rw [h1, hx]⟩
  unfold libpathDlinfo
  dsimp only
  split
  · exact he _ (by simp) (by simp) (by simp)
  · split
    · exact he _ (by simp) (by simp) (by simp)
    · split
      · exact ⟨pinv_path (by simp [hx]) rfl rfl, by simp [hx]⟩
      · split
        · exact he _ (by simp) (by simp) (by simp)
        · exact ⟨pinv_path (by simp [hx]) rfl rfl, by simp [hx]⟩

theorem libpathDladdr_pinv {s : St} (h : PInv s) {x : Ptr} (hx : s.handle = some x) : PInv (libpathDladdr L C s).2 := by
  unfold libpathDladdr
  dsimp only
  split
  · exact (Ext.of (s := s) (by simp) (by simp) (by simp)).pinv h
  · split
    · exact (Ext.of (s := s) (by simp) (by simp) (by simp)).pinv h
    · split
      · exact (Ext.of (s := s) (by simp) (by simp) (by simp)).pinv h
      · exact pinv_path (by simp [hx]) rfl rfl

theorem libraryPathDladdr_pinv {s : St} (h : PInv s) {x : Ptr} (hx : s.handle = some x) : PInv (libraryPathDladdr L C s).2 := by
  unfold libraryPathDladdr
  dsimp only
  split
  · split
    · exact libpathDladdr_pinv h hx
    · exact pinv_empty rfl
  · exact pinv_empty rfl

theorem pinv_libraryPath {s : St} (h : PInv s) : PInv (libraryPath L C s).2 := by
  unfold libraryPath
  dsimp only
  split
  · exact (Ext.of (s := s) (by simp) (by simp) (by simp)).pinv h
  · simp only [clearError_handle]
    split
    · exact (Ext.of (s := s) (by simp) (by simp [noLibrary]) (by simp)).pinv h
    · rename_i x hx
      have hc := (ext_clear s).pinv h
      split
      · exact hc
      · split
        · split
          · exact (libpathDlinfo_pinv (s := clearError s) hc hx).1
          · exact libraryPathDladdr_pinv (libpathDlinfo_pinv (s := clearError s) hc hx).1 (libpathDlinfo_pinv (s := clearError s) hc hx).2
        · exact libraryPathDladdr_pinv (s := clearError s) hc hx

theorem pinv_andSymbols {r : Bool × St} (h : PInv r.2) : PInv (andSymbols L C r).2 := by
  unfold andSymbols
  split
  · exact (ext_loadAllSymbols _).pinv h
  · exact h

theorem pinv_autoloadLib {s : St} (h : PInv s) : PInv (autoloadLib L C s) := by
  unfold autoloadLib
  dsimp only
  split
  · exact (ext_enableAutorelease s).pinv h
  · exact pinv_loadLibArgs ((ext_enableAutorelease s).pinv h) _ _ _

theorem autoloadFailed_ne_ret (sym : Str) (s : St) (u : Unit) (t : St) : autoloadFailed L C sym s ≠ .ret u t := by
  unfold autoloadFailed
  dsimp only
  generalize printError _ _ _ _ = o
  cases o <;> simp

/-- What a returning check has done. -/
theorem wrapCheckLoaded_ret {i : Nat} {s t : St} {u : Unit} (h : wrapCheckLoaded L C i s = .ret u t) :
    (∃ p, s.ptr i = some p ∧ t = s) ∨
    (C.mode = .autoload ∧ (loadAllSymbols L C (autoloadLib L C s)).1 = true ∧ t = (loadAllSymbols L C (autoloadLib L C s)).2) ∨
    (C.mode = .lazy ∧ (loadSymbol L C i (autoloadLib L C s)).1 = true ∧ t = (loadSymbol L C i (autoloadLib L C s)).2) := by
  unfold wrapCheckLoaded at h
  dsimp only at h
  split at h
  · rename_i p hp
    cases h
    exact Or.inl ⟨p, hp, rfl⟩
  · split at h
    · split at h <;> cases h
    · rename_i hm
      split at h
      · rename_i hr
        cases h
        exact Or.inr (Or.inl ⟨hm, hr, rfl⟩)
      · exact absurd h (autoloadFailed_ne_ret _ _ _ _)
    · rename_i hm
      split at h
      · rename_i hr
        cases h
        exact Or.inr (Or.inr ⟨hm, hr, rfl⟩)
      · exact absurd h (autoloadFailed_ne_ret _ _ _ _)

theorem wrapper_ret {i : Nat} {s t : St} {p : Ptr} (h : wrapper L C i s = .ret p t) : wrapCheckLoaded L C i s = .ret () t ∧ t.ptr i = some p := by
  unfold wrapper at h
  cases hc : wrapCheckLoaded L C i s with
  | ret u s' =>
    rw [hc] at h
    dsimp only at h
    split at h
    · rename_i hp
      cases h
      exact ⟨rfl, hp⟩
    · cases h
  | exit c s' => rw [hc] at h; cases h
  | abort s' => rw [hc] at h; cases h
  | ub => rw [hc] at h; cases h

theorem pinv_step {s : St} (h : PInv s) {c : Call} {v : Val} {t : St} (hs : step L C s c = .ret v t) : PInv t := by
  cases c with
  | loadLib => cases hs; exact pinv_loadLibArgs h _ _ _
  | loadLibAndSymbols => cases hs; exact pinv_andSymbols (pinv_loadLibArgs h _ _ _)
  | loadLibName n => cases hs; exact pinv_loadLibArgs h _ _ _
  | loadLibNameAndSymbols n => cases hs; exact pinv_andSymbols (pinv_loadLibArgs h _ _ _)
  | loadLibArgs n f ns => cases hs; exact pinv_loadLibArgs h _ _ _
  | libIsLoaded => cases hs; exact h
  | freeLib => cases hs; exact pinv_freeLib h
  | forceFreeLib => cases hs; exact pinv_forceFreeLib s
  | enableAutorelease => cases hs; exact (ext_enableAutorelease s).pinv h
  | allSymbolsLoaded => cases hs; exact h
  | noSymbolsLoaded => cases hs; exact h
  | anySymbolLoaded => cases hs; exact h
  | loadAllSymbols => cases hs; exact (ext_loadAllSymbols s).pinv h
  | loadSymbol n => cases hs; exact (ext_loadSymbol n s).pinv h
  | loadSymbolName n =>
    simp only [step] at hs
    split at hs
    · rename_i r hr
      cases hs
      exact (ext_loadSymbolName hr).pinv h
    · cases hs
  | lastError => cases hs; exact (ext_lastError s).pinv h
  | libraryPath => cases hs; exact pinv_libraryPath h
  | wrapped i =>
    simp only [step] at hs
    split at hs
    · cases hw : wrapper L C i s with
      | ret p s' =>
        rw [hw] at hs
        cases hs
        rcases wrapCheckLoaded_ret (wrapper_ret hw).1 with ⟨_, _, rfl⟩ | ⟨_, _, rfl⟩ | ⟨_, _, rfl⟩
        · exact h
        · exact (ext_loadAllSymbols _).pinv (pinv_autoloadLib h)
        · exact (ext_loadSymbol _ _).pinv (pinv_autoloadLib h)
      | exit c s' => rw [hw] at hs; cases hs
      | abort s' => rw [hw] at hs; cases hs
      | ub => rw [hw] at hs; cases hs
    · cases hs; exact h

theorem pinv_run : ∀ (cs : List Call) {s t : St}, PInv s → run L C s cs = .ret () t → PInv t
  | [], _, _, h, hr => by cases hr; exact h
  | c :: r, s, t, h, hr => by
    unfold run at hr
    cases hs : step L C s c with
    | ret v s' => rw [hs] at hr; exact pinv_run r (pinv_step h hs) hr
    | exit n s' => rw [hs] at hr; cases hr
    | abort s' => rw [hs] at hr; cases hr
    | ub => rw [hs] at hr; cases hr

end

end Gdo.Rt
