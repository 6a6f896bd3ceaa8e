import Verif.Lemmas.RuntimePath

/-!
Properties C42-C45: handles and symbol pointers of the generated C code.
-/

namespace Gdo.Rt
open Gdo RtSpec

/-! A loader, settings and calls for the examples: the library is at 100, it has the
symbol `f` at 7 but not `g`. -/

/-- A loader that opens everything but knows only one symbol. -/
def demoLoader : Loader where
  dlopen _ _ _ _ := (some 100, none)
  dlsym _ _ n := if n = str% "f" then (some 7, none) else (none, some (str% "undefined symbol: " ++ n))
  dlclose _ _ := (true, none)
  dlinfo _ _ := (some (some (str% "/lib/x.so")), none)
  dladdr _ _ := some (str% "/lib/x.so")
  procmap _ _ := none
  atexit _ := true

def demoCfg : Cfg where
  syms := [str% "f", str% "g"]
  pfx := []
  lib := str% "x.so"
  flags := 1
  mode := .lazy
  haveDlinfo := true
  haveDladdr := true
  linux := true

/-! ### C42 -/

/-- After any sequence of calls, however it ended: without a library all symbol pointers
    are NULL. -/
theorem C42_null (L : Loader) (C : Cfg) (calls : List Call) (s : St) (h : outState (run L C {} calls) = some s) (hn : s.handle = none) :
    ∀ i, s.ptr i = none := by
  have := inv_run (L := L) calls (inv_init C) s h
  rw [SInv, hn] at this
  exact this.null

/-- Every symbol pointer that is not NULL was resolved by the loader for this symbol in
    the library that is loaded now, and since it was loaded. -/
theorem C42_origin (L : Loader) (C : Cfg) (calls : List Call) (s : St) (h : outState (run L C {} calls) = some s) (i : Nat) (p : Ptr)
    (hp : s.ptr i = some p) : ∃ hd name, s.handle = some hd ∧ C.syms[i]? = some name ∧ Resolved hd name p s.log :=
  (inv_run (L := L) calls (inv_init C) s h).origin i p hp

example : ∃ s, outState (run demoLoader demoCfg {} [.loadLib, .loadSymbol 0]) = some s ∧ s.ptr 0 = some 7 ∧ s.handle = some 100 :=
  ⟨_, rfl, rfl, rfl⟩

example : ∃ s, outState (run demoLoader demoCfg {} [.loadLib, .loadAllSymbols, .freeLib]) = some s ∧ s.handle = none ∧
    s.log = [.opened 100, .sym 100 (str% "f") (some 7), .sym 100 (str% "g") none, .closed 100 true false] :=
  ⟨_, rfl, rfl, rfl⟩

/-! ### C43 -/

/-- Handles are never passed to the loader when they are not open: no use after closing,
    no closing twice. -/
theorem C43_use (L : Loader) (C : Cfg) (calls : List Call) (s : St) (h : outState (run L C {} calls) = some s) : OnlyAlive s.log :=
  (inv_run (L := L) calls (inv_init C) s h).only

/-- No handle is lost: every opening is matched by a successful closing, a failed forced
    release, or it is the current handle. -/
theorem C43_count (L : Loader) (C : Cfg) (calls : List Call) (s : St) (h : outState (run L C {} calls) = some s) (x : Ptr) :
    opens x s.log = closes x s.log + givenUp x s.log + if s.handle = some x then 1 else 0 :=
  (inv_run (L := L) calls (inv_init C) s h).count x

/-- The same at the end of the process. -/
theorem C43_finish (L : Loader) (C : Cfg) (calls : List Call) (s : St) (h : outState (finish L C calls) = some s) :
    OnlyAlive s.log ∧ ∀ x, opens x s.log = closes x s.log + givenUp x s.log + if s.handle = some x then 1 else 0 :=
  ⟨(inv_finish (L := L) calls s h).only, (inv_finish (L := L) calls s h).count⟩

section
variable {L : Loader} {C : Cfg}

/-- The registration with `atexit` is done once. -/
def Reg (s : St) : Prop := s.handlers = if s.freeLibReg then 1 else 0

theorem reg_of {s t : St} (h : Reg s) (h1 : t.handlers = s.handlers) (h2 : t.freeLibReg = s.freeLibReg) : Reg t := by
  unfold Reg; rw [h1, h2]; exact h

theorem reg_loadLibArgs {s : St} (h : Reg s) (name : Option Str) (flags : Int) (ns : Bool) : Reg (loadLibArgs L name flags ns s).2 := by
  unfold loadLibArgs
  dsimp only
  split
  · exact reg_of h (by simp) (by simp)
  · split
    · exact reg_of h (by simp) (by simp)
    · split
      · exact reg_of h rfl rfl
      · exact reg_of h (by simp [loadLibrary]) (by simp [loadLibrary])

theorem reg_freeLib {s : St} (h : Reg s) : Reg (freeLib L C s).2 := by
  unfold freeLib
  dsimp only
  split
  · split
    · exact reg_of h rfl rfl
    · exact reg_of h (by simp [callDlclose]) (by simp [callDlclose])
  · exact reg_of h rfl rfl

theorem reg_forceFreeLib {s : St} (h : Reg s) : Reg (forceFreeLib L C s) := by
  unfold forceFreeLib
  dsimp only
  split <;> exact reg_of h rfl rfl

theorem reg_enableAutorelease {s : St} (h : Reg s) : Reg (enableAutorelease L C s).2 := by
  unfold enableAutorelease
  dsimp only
  split
  · exact h
  · rename_i hf
    have h0 : s.handlers = 0 := by simpa [Reg, show s.freeLibReg = false by simpa using hf] using h
    split
    · simp [Reg, h0]
    · exact reg_of h (by simp) (by simp)

theorem reg_gdoSym {s : St} (h : Reg s) (x : Ptr) (name : Str) (i : Nat) (p : Option Ptr) : Reg (setPtr i p (gdoSym L x name s).2) := by
  unfold gdoSym setPtr
  dsimp only
  split <;> exact reg_of h (by simp) (by simp)

theorem reg_loadLoop (x : Ptr) (l : List Str) : ∀ (i : Nat) {s : St}, Reg s → Reg (loadLoop L x i l s).2 := by
  induction l with
  | nil => intro i s h; exact h
  | cons name r ih =>
    intro i s h
    unfold loadLoop
    dsimp only
    split
    · exact ih _ (reg_gdoSym h ..)
    · exact reg_gdoSym h ..

theorem reg_loadAllSymbols {s : St} (h : Reg s) : Reg (loadAllSymbols L C s).2 := by
  unfold loadAllSymbols
  dsimp only
  split
  · exact h
  · split
    · exact reg_of h (by simp) (by simp)
    · exact reg_loadLoop _ _ _ (s := clearError s) h

theorem reg_loadOne {s : St} (h : Reg s) (x : Ptr) (i : Nat) (name : Str) : Reg (loadOne L x i name s).2 := by
  unfold loadOne
  split
  · exact h
  · exact reg_gdoSym h ..

theorem reg_loadSymbol {s : St} (h : Reg s) (num : Int) : Reg (loadSymbol L C num s).2 := by
  unfold loadSymbol
  dsimp only
  split
  · exact reg_of h (by simp) (by simp)
  · split
    · exact reg_loadOne (s := clearError s) h ..
    · exact h

theorem reg_loadSymbolName {s : St} (h : Reg s) {name : Option Str} {r : Bool × St} (hr : loadSymbolName L C name s = some r) : Reg r.2 := by
  unfold loadSymbolName at hr
  dsimp only at hr
  split at hr
  · cases hr; exact reg_of h (by simp) (by simp)
  · split at hr
    · cases hr; exact reg_of h (by simp) (by simp)
    · simp only [Option.map_eq_some_iff] at hr
      obtain ⟨f, _, rfl⟩ := hr
      cases f with
      | none => exact h
      | some q => exact reg_loadOne (s := clearError s) h ..

theorem reg_lastError {s : St} (h : Reg s) : Reg (lastError s).2 := by
  unfold lastError
  dsimp only
  split
  · exact reg_of h (by simp) (by simp)
  · exact h

theorem reg_libpathDlinfo {s : St} (h : Reg s) (x : Ptr) : Reg (libpathDlinfo L C x s).2 := by
  unfold libpathDlinfo
  dsimp only
  split
  · exact reg_of h (by simp) (by simp)
  · split
    · exact reg_of h (by simp) (by simp)
    · split
      · exact h
      · split <;> exact h

theorem reg_libraryPathDladdr {s : St} (h : Reg s) : Reg (libraryPathDladdr L C s).2 := by
  have key : Reg (libpathDladdr L C s).2 := by
    unfold libpathDladdr
    dsimp only
    split
    · exact reg_of h (by simp) (by simp)
    · split
      · exact reg_of h (by simp) (by simp)
      · split <;> exact h
  unfold libraryPathDladdr
  dsimp only
  split
  · split <;> exact key
  · exact h

theorem reg_libraryPath {s : St} (h : Reg s) : Reg (libraryPath L C s).2 := by
  unfold libraryPath
  dsimp only
  split
  · exact reg_of h (by simp) (by simp)
  · split
    · exact reg_of h (by simp) (by simp)
    · split
      · exact h
      · split
        · split
          · exact reg_libpathDlinfo (s := clearError s) h _
          · exact reg_libraryPathDladdr (reg_libpathDlinfo (s := clearError s) h _)
        · exact reg_libraryPathDladdr (s := clearError s) h

theorem reg_andSymbols {r : Bool × St} (h : Reg r.2) : Reg (andSymbols L C r).2 := by
  unfold andSymbols
  split
  · exact reg_loadAllSymbols h
  · exact h

theorem reg_autoloadLib {s : St} (h : Reg s) : Reg (autoloadLib L C s) := by
  unfold autoloadLib
  dsimp only
  split
  · exact reg_enableAutorelease h
  · exact reg_loadLibArgs (reg_enableAutorelease h) ..

theorem reg_wrapper {s : St} (h : Reg s) {i : Nat} {p : Ptr} {t : St} (hw : wrapper L C i s = .ret p t) : Reg t := by
  unfold wrapper at hw
  cases hc : wrapCheckLoaded L C i s with
  | ret u s' =>
    rw [hc] at hw
    have ht : t = s' := by
      dsimp only at hw
      split at hw <;> cases hw
      rfl
    subst ht
    unfold wrapCheckLoaded at hc
    dsimp only at hc
    split at hc
    · cases hc; exact h
    · split at hc
      · split at hc <;> cases hc
      · split at hc
        · cases hc; exact reg_loadAllSymbols (reg_autoloadLib h)
        · unfold autoloadFailed at hc
          dsimp only at hc
          generalize printError _ _ _ _ = o at hc
          cases o <;> cases hc
      · split at hc
        · cases hc; exact reg_loadSymbol (reg_autoloadLib h) _
        · unfold autoloadFailed at hc
          dsimp only at hc
          generalize printError _ _ _ _ = o at hc
          cases o <;> cases hc
  | exit c s' => rw [hc] at hw; cases hw
  | abort s' => rw [hc] at hw; cases hw
  | ub => rw [hc] at hw; cases hw

theorem reg_step {s : St} (h : Reg s) {c : Call} {v : Val} {t : St} (hs : step L C s c = .ret v t) : Reg t := by
  cases c with
  | loadLib => cases hs; exact reg_loadLibArgs h ..
  | loadLibAndSymbols => cases hs; exact reg_andSymbols (reg_loadLibArgs h ..)
  | loadLibName n => cases hs; exact reg_loadLibArgs h ..
  | loadLibNameAndSymbols n => cases hs; exact reg_andSymbols (reg_loadLibArgs h ..)
  | loadLibArgs n f ns => cases hs; exact reg_loadLibArgs h ..
  | libIsLoaded => cases hs; exact h
  | freeLib => cases hs; exact reg_freeLib h
  | forceFreeLib => cases hs; exact reg_forceFreeLib h
  | enableAutorelease => cases hs; exact reg_enableAutorelease h
  | allSymbolsLoaded => cases hs; exact h
  | noSymbolsLoaded => cases hs; exact h
  | anySymbolLoaded => cases hs; exact h
  | loadAllSymbols => cases hs; exact reg_loadAllSymbols h
  | loadSymbol n => cases hs; exact reg_loadSymbol h n
  | loadSymbolName n =>
    simp only [step] at hs
    split at hs
    · rename_i r hr
      cases hs
      exact reg_loadSymbolName h hr
    · cases hs
  | lastError => cases hs; exact reg_lastError h
  | libraryPath => cases hs; exact reg_libraryPath h
  | wrapped i =>
    simp only [step] at hs
    split at hs
    · cases hw : wrapper L C i s with
      | ret p s' => rw [hw] at hs; cases hs; exact reg_wrapper h hw
      | exit c s' => rw [hw] at hs; cases hs
      | abort s' => rw [hw] at hs; cases hs
      | ub => rw [hw] at hs; cases hs
    · cases hs; exact h

theorem reg_run : ∀ (cs : List Call) {s t : St}, Reg s → run L C s cs = .ret () t → Reg t
  | [], _, _, h, hr => by cases hr; exact h
  | c :: r, s, t, h, hr => by
    unfold run at hr
    cases hs : step L C s c with
    | ret v s' => rw [hs] at hr; exact reg_run r (reg_step h hs) hr
    | exit n s' => rw [hs] at hr; cases hr
    | abort s' => rw [hs] at hr; cases hr
    | ub => rw [hs] at hr; cases hr

end

/-- With automatic release the library is released when the program ends: after `exit`
    there is no current handle, so every handle is closed or its closing has failed. -/
theorem C43_autorelease (L : Loader) (C : Cfg) (calls : List Call) (s : St) (hr : run L C {} calls = .ret () s) (ha : s.freeLibReg = true) :
    ∃ t, finish L C calls = .exit 0 t ∧ t.handle = none ∧ ∀ x, opens x t.log = closes x t.log + givenUp x t.log := by
  have h1 : s.handlers = 1 := by
    have := reg_run calls (s := {}) rfl hr
    simpa [Reg, ha] using this
  have hf : finish L C calls = .exit 0 (forceFreeLib L C s) := by
    unfold finish
    rw [hr]
    simp only [h1, runHandlers]
  refine ⟨_, hf, forceFreeLib_handle s, ?_⟩
  intro x
  have := (C43_finish L C calls (forceFreeLib L C s) (by rw [hf]; rfl)).2 x
  rw [forceFreeLib_handle] at this
  simpa using this

/-- It is registered once, however often it is enabled. -/
theorem C43_registered_once (L : Loader) (C : Cfg) (calls : List Call) (s : St) (hr : run L C {} calls = .ret () s) : s.handlers ≤ 1 := by
  have := reg_run calls (s := {}) rfl hr
  unfold Reg at this
  split at this <;> omega

/-- Enabling it succeeds exactly if it is registered afterwards; it succeeds whenever it was
    enabled before, without asking the system again. -/
theorem C43_enabled (L : Loader) (C : Cfg) (s : St) : ∃ ok t, step L C s .enableAutorelease = .ret (.bool ok) t ∧
    (ok = true ↔ t.freeLibReg = true) ∧ (ok = true ↔ s.freeLibReg = true ∨ L.atexit s.clock = true) := by
  refine ⟨_, _, rfl, ?_⟩
  unfold enableAutorelease
  dsimp only
  have h1 : (clearError s).freeLibReg = s.freeLibReg := rfl
  have h2 : (clearError s).clock = s.clock := rfl
  rw [h1, h2]
  cases hf : s.freeLibReg with
  | true => simp [h1, hf]
  | false => cases ha : L.atexit s.clock <;> simp [saveToErrbuf, h1, hf]

example : ∃ s, run demoLoader demoCfg {} [.enableAutorelease, .loadLib, .enableAutorelease] = .ret () s ∧ s.freeLibReg = true ∧
    s.handle = some 100 := ⟨_, rfl, rfl, rfl⟩

/-- Without a library, loading one asks the loader once, with the given name, flags and
    namespace; the other functions use the default ones.  The handle is what it answers. -/
theorem C43_opened (L : Loader) (C : Cfg) (s : St) (hs : s.handle = none) :
    (∀ name flags ns, name ≠ [] → ∃ ok t, step L C s (.loadLibArgs (some name) flags ns) = .ret (.bool ok) t ∧
      t.handle = (L.dlopen s.clock name flags ns).1 ∧ (ok = true ↔ t.handle ≠ none) ∧ t.clock = s.clock + 1) ∧
    (∀ name, name ≠ [] → ∃ ok t, step L C s (.loadLibName (some name)) = .ret (.bool ok) t ∧
      t.handle = (L.dlopen s.clock name C.flags false).1 ∧ (ok = true ↔ t.handle ≠ none) ∧ t.clock = s.clock + 1) ∧
    (C.lib ≠ [] → ∃ ok t, step L C s .loadLib = .ret (.bool ok) t ∧
      t.handle = (L.dlopen s.clock C.lib C.flags false).1 ∧ (ok = true ↔ t.handle ≠ none) ∧ t.clock = s.clock + 1) := by
  have main : ∀ name flags ns, name ≠ [] → (loadLibArgs L (some name) flags ns s).2.handle = (L.dlopen s.clock name flags ns).1 ∧
      ((loadLibArgs L (some name) flags ns s).1 = true ↔ (loadLibArgs L (some name) flags ns s).2.handle ≠ none) ∧
      (loadLibArgs L (some name) flags ns s).2.clock = s.clock + 1 := by
    intro name flags ns hn
    unfold loadLibArgs
    dsimp only
    rw [if_neg (by simp [libIsLoaded, clearError, hs]), if_neg (by simpa using hn)]
    cases ha : (L.dlopen s.clock name flags ns).1 with
    | none => simp [libIsLoaded, loadLibrary, clearError, ha, saveError, saveToErrbuf] <;> split <;> simp
    | some h => simp [libIsLoaded, loadLibrary, clearError, ha]
  exact ⟨fun name flags ns hn => ⟨_, _, rfl, main name flags ns hn⟩, fun name hn => ⟨_, _, rfl, main name C.flags false hn⟩,
    fun hn => ⟨_, _, rfl, main C.lib C.flags false hn⟩⟩

example : ({} : St).handle = none ∧ demoCfg.lib ≠ [] := ⟨rfl, by decide⟩

/-! ### C44 -/

/-- The queries answer for the library and the symbols loaded now and change nothing. -/
theorem C44_queries (L : Loader) (C : Cfg) (s : St) :
    ∃ lib all no any, step L C s .libIsLoaded = .ret (.bool lib) s ∧ (lib = true ↔ s.handle ≠ none) ∧
      step L C s .allSymbolsLoaded = .ret (.bool all) s ∧ (all = true ↔ ∀ i, i < C.syms.length → s.ptr i ≠ none) ∧
      step L C s .noSymbolsLoaded = .ret (.bool no) s ∧ (no = true ↔ ∀ i, i < C.syms.length → s.ptr i = none) ∧
      step L C s .anySymbolLoaded = .ret (.bool any) s ∧ (any = true ↔ ∃ i, i < C.syms.length ∧ s.ptr i ≠ none) := by
  refine ⟨_, _, _, _, rfl, ?_, rfl, ?_, rfl, ?_, rfl, ?_⟩
  · simp [libIsLoaded, Option.isSome_iff_ne_none]
  · simp [allLoaded, Option.isSome_iff_ne_none]
  · simp [noneLoaded]
  · simp [anyLoaded, Option.isSome_iff_ne_none]

section
variable {L : Loader} {C : Cfg}

theorem loadLoop_other (x : Ptr) (l : List Str) : ∀ (i j : Nat) (s : St), j < i → (loadLoop L x i l s).2.ptr j = s.ptr j := by
  induction l with
  | nil => intro i j s _; rfl
  | cons name r ih =>
    intro i j s hj
    have h3 := (gdoSym_fields (L := L) x name s).2.2.1
    have key : (setPtr i (gdoSym L x name s).1 (gdoSym L x name s).2).ptr j = s.ptr j := by
      simp only [setPtr]
      rw [if_neg (by omega), h3]
    unfold loadLoop
    dsimp only
    split
    · rw [ih _ _ _ (by omega), key]
    · exact key

theorem loadLoop_ok (x : Ptr) (l : List Str) : ∀ (i : Nat) (s : St), (loadLoop L x i l s).1 = true →
    ∀ k, k < l.length → ((loadLoop L x i l s).2.ptr (i + k)).isSome = true := by
  induction l with
  | nil => intro i s _ k hk; cases hk
  | cons name r ih =>
    intro i s h k hk
    unfold loadLoop at h ⊢
    dsimp only at h ⊢
    split at h
    · rename_i ha
      rw [if_pos ha]
      cases k with
      | zero =>
        rw [loadLoop_other _ _ _ _ _ (by omega)]
        simpa [setPtr] using ha
      | succ k =>
        have := ih (i + 1) _ h k (by simpa using hk)
        rw [show i + (k + 1) = i + 1 + k by omega]
        exact this
    · cases h

/-- If the loop fails there is a symbol the loader did not resolve, its pointer is NULL
    and its message is saved. -/
theorem loadLoop_fail (x : Ptr) (l : List Str) : ∀ (i : Nat) (s : St), (loadLoop L x i l s).1 = false →
    ∃ k name t, l[k]? = some name ∧ (loadLoop L x i l s).2.ptr (i + k) = none ∧ (L.dlsym t x name).1 = none ∧
      (loadLoop L x i l s).2.errbuf = ((L.dlsym t x name).2.map fit).getD [] ∧
      (loadLoop L x i l s).2.log.getLast? = some (.sym x name none) := by
  induction l with
  | nil => intro i s h; cases h
  | cons name r ih =>
    intro i s h
    unfold loadLoop at h ⊢
    dsimp only at h ⊢
    split at h
    · rename_i ha
      rw [if_pos ha]
      obtain ⟨k, n, t, h1, h2, h3, h4, h5⟩ := ih (i + 1) _ h
      exact ⟨k + 1, n, t, by simpa using h1, by rw [show i + (k + 1) = i + 1 + k by omega]; exact h2, h3, h4, h5⟩
    · rename_i ha
      rw [if_neg ha]
      obtain ⟨f1, f2, f3, f4, _⟩ := gdoSym_fields (L := L) x name s
      have hn : (L.dlsym s.clock x name).1 = none := by
        rw [← f1]
        simpa using ha
      refine ⟨0, name, s.clock, rfl, ?_, hn, ?_, ?_⟩
      · simp [setPtr, f1, hn]
      · simp only [setPtr]
        unfold gdoSym
        dsimp only
        rw [hn]
        simp only [Option.isSome_none, Bool.false_eq_true, if_false, saveError, saveToErrbuf]
        cases (L.dlsym s.clock x name).2 <;> rfl
      · simp only [setPtr]
        rw [f4, hn]
        simp

theorem allLoaded_iff (s : St) : allLoaded C s = true ↔ ∀ i, i < C.syms.length → (s.ptr i).isSome = true := by
  simp [allLoaded]

end

/-- `gdo_load_all_symbols` returns true if and only if all symbol pointers are set
    afterwards. -/
theorem C44_iff (L : Loader) (C : Cfg) (s : St) :
    (loadAllSymbols L C s).1 = true ↔ ∀ i, i < C.syms.length → ((loadAllSymbols L C s).2.ptr i).isSome = true := by
  unfold loadAllSymbols
  dsimp only
  by_cases ha : allLoaded C (clearError s) = true
  · rw [if_pos ha]
    simpa using (allLoaded_iff (clearError s)).mp ha
  · rw [if_neg ha]
    simp only [clearError_handle]
    cases hx : s.handle with
    | none =>
      simp only [noLibrary_ptr]
      refine ⟨fun h => absurd h (by simp), fun h => absurd ((allLoaded_iff (C := C) (clearError s)).mpr h) ha⟩
    | some x =>
      dsimp only
      refine ⟨fun h i hi => by simpa using loadLoop_ok x C.syms 0 (clearError s) h i hi, fun h => ?_⟩
      cases hr : (loadLoop L x 0 C.syms (clearError s)).1 with
      | true => rfl
      | false =>
        obtain ⟨k, name, _, h1, h2, _⟩ := loadLoop_fail x C.syms 0 (clearError s) hr
        have hk : k < C.syms.length := (List.getElem?_eq_some_iff.mp h1).1
        have := h k hk
        rw [Nat.zero_add] at h2
        rw [h2] at this
        cases this

/-- On failure with a library, the last call of the loader was for one of the symbols, it
    was not resolved, and the message of the loader is saved. -/
theorem C44_error (L : Loader) (C : Cfg) (s : St) (x : Ptr) (hx : s.handle = some x) (h : (loadAllSymbols L C s).1 = false) :
    ∃ name t, name ∈ C.syms ∧ (L.dlsym t x name).1 = none ∧ (loadAllSymbols L C s).2.log.getLast? = some (.sym x name none) ∧
      (loadAllSymbols L C s).2.errbuf = ((L.dlsym t x name).2.map fit).getD [] := by
  unfold loadAllSymbols at h ⊢
  dsimp only at h ⊢
  split at h
  · cases h
  · rename_i ha
    rw [if_neg ha]
    simp only [clearError_handle, hx] at h ⊢
    obtain ⟨k, name, t, h1, _, h3, h4, h5⟩ := loadLoop_fail x C.syms 0 (clearError s) h
    exact ⟨name, t, List.mem_of_getElem? h1, h3, h5, h4⟩

/-- If the messages of the loader contain the name of the symbol and are short enough,
    the error names a symbol that was not resolved. -/
theorem C44_names (L : Loader) (C : Cfg) (s : St) (x : Ptr) (hx : s.handle = some x) (h : (loadAllSymbols L C s).1 = false)
    (hL : ∀ t h n, (L.dlsym t h n).1 = none → ∃ m, (L.dlsym t h n).2 = some m ∧ n <:+: m ∧ m.length < bufLen) :
    ∃ name t, name ∈ C.syms ∧ (L.dlsym t x name).1 = none ∧ name <:+: (loadAllSymbols L C s).2.errbuf := by
  obtain ⟨name, t, h1, h2, _, h4⟩ := C44_error L C s x hx h
  obtain ⟨m, hm, hi, hl⟩ := hL t x name h2
  refine ⟨name, t, h1, h2, ?_⟩
  rw [h4, hm]
  simp only [Option.map_some, Option.getD_some, fit]
  rw [List.take_of_length_le (by omega)]
  exact hi

example : (loadAllSymbols demoLoader demoCfg { handle := some 100 }).1 = false ∧
    (loadAllSymbols demoLoader demoCfg { handle := some 100 }).2.errbuf = str% "undefined symbol: g" := by decide

example : ∀ t h n, (demoLoader.dlsym t h n).1 = none →
    ∃ m, (demoLoader.dlsym t h n).2 = some m ∧ n <:+: m ∧ (n.length < 100 → m.length < bufLen) := by
  intro t h n hn
  simp only [demoLoader] at hn ⊢
  split at hn
  · cases hn
  · rename_i hf
    rw [if_neg hf]
    refine ⟨_, rfl, ⟨str% "undefined symbol: ", [], by simp⟩, fun hl => ?_⟩
    simp [bufLen]
    omega

/-! ### C45 -/

/-- The parts of the state that must not change. -/
def Same (s t : St) : Prop := t.handle = s.handle ∧ t.ptr = s.ptr ∧ t.libpath = s.libpath ∧ t.log = s.log ∧ t.freeLibReg = s.freeLibReg

/-- Loading while a library is loaded. -/
theorem C45_load (L : Loader) (name : Option Str) (flags : Int) (ns : Bool) (s : St) (h : s.handle ≠ none) :
    (loadLibArgs L name flags ns s).1 = false ∧ Same s (loadLibArgs L name flags ns s).2 := by
  unfold loadLibArgs
  dsimp only
  rw [if_pos (by simpa [libIsLoaded, Option.isSome_iff_ne_none] using h)]
  exact ⟨by simp, by simp [Same]⟩

/-- Loading without a name. -/
theorem C45_noname (L : Loader) (name : Option Str) (flags : Int) (ns : Bool) (s : St) (h : name = none ∨ name = some []) :
    (loadLibArgs L name flags ns s).1 = false ∧ Same s (loadLibArgs L name flags ns s).2 := by
  unfold loadLibArgs
  dsimp only
  split
  · exact ⟨by simp, by simp [Same]⟩
  · rw [if_pos (by rcases h with rfl | rfl <;> rfl)]
    exact ⟨by simp, by simp [Same]⟩

/-- Releasing without a library succeeds and changes nothing. -/
theorem C45_free (L : Loader) (C : Cfg) (calls : List Call) (s : St) (hr : run L C {} calls = .ret () s) (h : s.handle = none) :
    (freeLib L C s).1 = true ∧ Same s (freeLib L C s).2 ∧ Same s (forceFreeLib L C s) := by
  have hnull := C42_null L C calls s (by rw [hr]; rfl) h
  have hp : s.libpath = [] := by
    by_cases hp : s.libpath = []
    · exact hp
    · exact absurd h (pinv_run calls (s := {}) (pinv_empty rfl) hr hp).1
  have hptr : (fun i => if i < C.syms.length then none else s.ptr i) = s.ptr := by
    funext i
    rw [hnull]
    simp
  unfold freeLib forceFreeLib
  simp only [clearError_handle, h]
  refine ⟨by simp, ?_, ?_⟩
  · exact ⟨h.symm, hptr, hp.symm, rfl, rfl⟩
  · exact ⟨h.symm, hptr, hp.symm, rfl, rfl⟩

/-- Loading all symbols without a library. -/
theorem C45_symbols (L : Loader) (C : Cfg) (calls : List Call) (s : St) (hr : run L C {} calls = .ret () s) (h : s.handle = none)
    (hc : C.syms ≠ []) : (loadAllSymbols L C s).1 = false ∧ Same s (loadAllSymbols L C s).2 := by
  have hnull := C42_null L C calls s (by rw [hr]; rfl) h
  unfold loadAllSymbols
  dsimp only
  rw [if_neg (by
    rw [allLoaded_iff]
    intro ha
    have := ha 0 (List.length_pos_iff.mpr hc)
    rw [clearError_ptr, hnull] at this
    cases this)]
  simp only [clearError_handle, h]
  exact ⟨by simp, by simp [Same, noLibrary]⟩

/-- Loading a symbol without a library. -/
theorem C45_symbol (L : Loader) (C : Cfg) (num : Int) (s : St) (h : s.handle = none) :
    (loadSymbol L C num s).1 = false ∧ Same s (loadSymbol L C num s).2 := by
  unfold loadSymbol
  simp only [clearError_handle, h]
  exact ⟨by simp, by simp [Same, noLibrary]⟩

/-- Loading a symbol by name without a library. -/
theorem C45_symbol_name (L : Loader) (C : Cfg) (name : Option Str) (s : St) (h : s.handle = none) :
    ∃ t, loadSymbolName L C name s = some (false, t) ∧ Same s t := by
  unfold loadSymbolName
  simp only [clearError_handle, h]
  exact ⟨_, rfl, by simp [Same, noLibrary]⟩

/-- Loading an unknown symbol number. -/
theorem C45_unknown (L : Loader) (C : Cfg) (num : Int) (s : St) (h : num < 0 ∨ (C.syms.length : Int) ≤ num) :
    (loadSymbol L C num s).1 = false ∧ Same s (loadSymbol L C num s).2 := by
  unfold loadSymbol
  simp only [clearError_handle]
  split
  · exact ⟨by simp, by simp [Same, noLibrary]⟩
  · have hc : caseOf C num = none := by
      unfold caseOf
      split
      · rename_i n
        rw [List.getElem?_eq_none (by
          rcases h with h | h
          · exact absurd h (by simp)
          · simpa using h)]
        rfl
      · rfl
    simp only [hc]
    exact ⟨by simp, by simp [Same]⟩

example : ∃ s, run demoLoader demoCfg {} [.loadLib, .freeLib] = .ret () s ∧ s.handle = none := ⟨_, rfl, rfl⟩

example : (loadSymbol demoLoader demoCfg (-1) { handle := some 100 }).2.errbuf = str% "unknown symbol number: -1" := by decide

/-! ### C64 -/

/-- A saved path is that of the library that is loaded: the system named it since the
    library was loaded. -/
theorem C64_path (L : Loader) (C : Cfg) (calls : List Call) (s : St) (hr : run L C {} calls = .ret () s) (p : Str)
    (h : (libraryPath L C s).1 = some p) (hp : p ≠ []) : s.handle ≠ none ∧ Named p (libraryPath L C s).2.log := by
  have h1 : PInv (libraryPath L C s).2 := pinv_libraryPath (pinv_run calls (s := {}) (pinv_empty rfl) hr)
  have h2 : (libraryPath L C s).2.libpath = p ∧ s.handle ≠ none := by
    unfold libraryPath at h ⊢
    dsimp only at h ⊢
    split at h
    · cases h
    · rename_i hc
      rw [if_neg hc]
      simp only [clearError_handle] at h ⊢
      cases hx : s.handle with
      | none => simp only [hx] at h; cases h
      | some x =>
        simp only [hx] at h ⊢
        have key : ∀ t : St, (libraryPathDladdr L C t).1 = some p → (libraryPathDladdr L C t).2.libpath = p := by
          intro t ht
          unfold libraryPathDladdr at ht ⊢
          dsimp only at ht ⊢
          split at ht
          · rename_i hd
            rw [if_pos hd]
            split at ht
            · rename_i hr
              rw [if_pos hr]
              simpa using ht
            · cases ht
          · cases ht
        refine ⟨?_, by simp⟩
        split at h
        · rename_i hl
          rw [if_pos hl]
          simpa using h
        · rename_i hl
          rw [if_neg hl]
          split at h
          · rename_i hd
            rw [if_pos hd]
            split at h
            · rename_i hr
              rw [if_pos hr]
              simpa using h
            · rename_i hr
              rw [if_neg hr]
              exact key _ h
          · rename_i hd
            rw [if_neg hd]
            exact key _ h
  have := h1 (by rw [h2.1]; exact hp)
  rw [h2.1] at this
  exact ⟨h2.2, this.2⟩

/-- Without a library there is no path. -/
theorem C64_none (L : Loader) (C : Cfg) (s : St) (h : s.handle = none) : (libraryPath L C s).1 = none := by
  unfold libraryPath
  dsimp only
  split
  · rfl
  · simp only [clearError_handle, h]

example : (libraryPath demoLoader demoCfg { handle := some 100 }).1 = some (str% "/lib/x.so") := by decide

end Gdo.Rt
