import Verif.Props.Win
import Verif.Props.RuntimeError

/-!
Properties C75 to C77: error messages and wrapper functions of the generated C code on
Windows.
-/

namespace Gdo.Win
open Gdo RtSpec WinSpec
open Gdo.Rt (Ptr Ev Mode Call Val caseOf foundName printfS strstr showInt printfS_error printfS_error' printfS_fatal)

/-! ### C75 -/

/-- `gdo_last_error` will tell of this place and code. -/
def Reports (L : Loader) (C : Cfg) (s : St) (place : Str) (code : Nat) : Prop :=
  ∃ k, (lastError L C s).1 = fitFormatted C (report (L.format k) place code)

/-- What is saved is told. -/
theorem C75_told (L : Loader) (C : Cfg) (s : St) (h : s.formatted = []) : Reports L C s s.errbuf s.lastErrno := by
  refine ⟨s.clock, ?_⟩
  unfold lastError
  rw [if_neg (by simp [h])]
  dsimp only
  congr 1
  unfold message report codeText
  by_cases he : s.errbuf = []
  · cases hf : L.format s.clock s.lastErrno <;> simp [he, hf]
  · cases hf : L.format s.clock s.lastErrno <;> simp [he, hf]

section
variable {L : Loader} {C : Cfg}

theorem reports_of {s : St} {place : Str} {code : Nat} (h1 : s.errbuf = place) (h2 : s.lastErrno = code) (h3 : s.formatted = []) :
    Reports L C s place code := by
  rw [← h1, ← h2]
  exact C75_told L C s h3

theorem backslashes_if (name : Str) : (if name.contains '/' then backslashes name else name) = backslashes name := by
  split
  · rfl
  · rename_i h
    have h' : '/' ∉ name := by simpa using h
    unfold backslashes
    rw [List.map_congr_left (g := id)]
    · simp
    · intro c hc
      have : c ≠ '/' := fun he => h' (he ▸ hc)
      simp [this]

theorem loadLibArgs_eq (name : Str) (hn : name ≠ []) (flags : Int) (s : St) (hs : s.handle = none) :
    loadLibArgs L C (some name) flags s =
      if libIsLoaded (loadLibrary L C name flags (clearError s)) then (true, loadLibrary L C name flags (clearError s))
      else (false, saveError name (loadLibrary L C name flags (clearError s))) := by
  unfold loadLibArgs
  dsimp only
  have h1 : libIsLoaded (clearError s) = false := by simp [libIsLoaded, clearError, hs]
  rw [h1]
  simp only [Option.getD_some, hn, Bool.false_eq_true, if_false]

end

/-- A library that cannot be opened: its name and the code of `LoadLibraryEx`. -/
theorem C75_open (L : Loader) (C : Cfg) (name : Str) (hn : name ≠ []) (flags : Int) (s : St) (hs : s.handle = none)
    (hc : (!C.wide && C.convert) = false) (code : Nat) (hl : L.load s.clock (backslashes name) flags = (none, code)) :
    (loadLibArgs L C (some name) flags s).1 = false ∧ Reports L C (loadLibArgs L C (some name) flags s).2 (fit name) code := by
  rw [loadLibArgs_eq name hn flags s hs]
  have hll : loadLibrary L C name flags (clearError s) = { clearError s with clock := s.clock + 1, sysErr := code, handle := none } := by
    unfold loadLibrary loadLibraryEx
    rw [backslashes_if, hc]
    simp only [Bool.false_eq_true, if_false]
    unfold callLoad
    have hl' : L.load (clearError s).clock (backslashes name) flags = (none, code) := hl
    dsimp only
    rw [hl']
    rfl
  rw [hll]
  exact ⟨rfl, reports_of rfl rfl rfl⟩

/-- The same when the name is converted and the conversion succeeds. -/
theorem C75_open_converted (L : Loader) (C : Cfg) (name : Str) (hn : name ≠ []) (flags : Int) (s : St) (hs : s.handle = none)
    (hc : (!C.wide && C.convert) = true) (w : Str) (hw : L.widen s.clock (backslashes name) = some w) (code : Nat)
    (hl : L.load (s.clock + 1) w flags = (none, code)) :
    (loadLibArgs L C (some name) flags s).1 = false ∧ Reports L C (loadLibArgs L C (some name) flags s).2 (fit name) code := by
  rw [loadLibArgs_eq name hn flags s hs]
  have hll : loadLibrary L C name flags (clearError s) = { clearError s with clock := s.clock + 2, sysErr := code, handle := none } := by
    unfold loadLibrary loadLibraryEx
    rw [backslashes_if, hc]
    have hw' : L.widen (clearError s).clock (backslashes name) = some w := hw
    simp only [if_true]
    rw [hw']
    have hl' : L.load ((clearError s).clock + 1) w flags = (none, code) := hl
    simp only [callLoad, hl']
    rfl
  rw [hll]
  exact ⟨rfl, reports_of rfl rfl rfl⟩

/-- A symbol that is not found: its name and the code of `GetProcAddress`. -/
theorem C75_symbol (L : Loader) (C : Cfg) (i : Nat) (name : Str) (hi : C.syms[i]? = some name) (s : St) (x : Ptr) (hx : s.handle = some x)
    (hp : s.ptr i = none) (code : Nat) (hl : L.sym s.clock x name = (none, code)) :
    (loadSymbol L C i s).1 = false ∧ Reports L C (loadSymbol L C i s).2 (fit name) code := by
  have hc : caseOf C.toCfg (i : Int) = some (i, name) := by
    show (C.syms[i]?).map _ = _
    rw [hi]
    rfl
  unfold loadSymbol
  dsimp only
  have h1 : (clearError s).handle = some x := hx
  have h2 : (clearError s).ptr i = none := hp
  have h3 : L.sym (clearError s).clock x name = (none, code) := hl
  rw [h1]
  dsimp only
  rw [hc]
  simp only [loadOne, h2, gdoSym, h3, Option.isSome_none, Bool.false_eq_true, if_false]
  exact ⟨trivial, reports_of rfl rfl rfl⟩

/-- Loading all symbols: one of them is the reason, it was not found and is told of. -/
theorem C75_all (L : Loader) (C : Cfg) (s : St) (x : Ptr) (hx : s.handle = some x) (h : (loadAllSymbols L C s).1 = false) :
    ∃ i name t, C.syms[i]? = some name ∧ (loadAllSymbols L C s).2.ptr i = none ∧ (L.sym t x name).1 = none ∧
      Reports L C (loadAllSymbols L C s).2 (fit name) (L.sym t x name).2 := by
  unfold loadAllSymbols at h ⊢
  dsimp only at h ⊢
  split at h
  · cases h
  · rename_i ha
    rw [if_neg ha]
    have h1 : (clearError s).handle = some x := hx
    rw [h1] at h ⊢
    dsimp only at h ⊢
    obtain ⟨k, name, t, a1, a2, a3, a4, a5, a6, _⟩ := loadLoop_fail x C.syms 0 (clearError s) h
    exact ⟨k, name, t, a1, by simpa using a2, a3, reports_of a4 a5 a6⟩

/-- A library that is not released. -/
theorem C75_free (L : Loader) (C : Cfg) (s : St) (x : Ptr) (hx : s.handle = some x) (code : Nat) (hl : L.free s.clock x = (false, code)) :
    (freeLib L C s).1 = false ∧ (freeLib L C s).2.handle = some x ∧ Reports L C (freeLib L C s).2 (str% "FreeLibrary()") code := by
  have h1 : (clearError s).handle = some x := hx
  have h3 : L.free (clearError s).clock x = (false, code) := hl
  have hf : freeLib L C s = (false, saveError (str% "FreeLibrary()") { clearError s with clock := s.clock + 1, sysErr := code, log := s.log ++ [.closed x false false] }) := by
    unfold freeLib
    dsimp only
    rw [h1]
    simp only [callFree, h3, Bool.false_eq_true, if_false]
    rw [← h1]
    rfl
  rw [hf]
  exact ⟨rfl, h1, reports_of rfl rfl rfl⟩

/-- A path that is not named, or one that is cut. -/
theorem C75_path (L : Loader) (C : Cfg) (s : St) (x : Ptr) (hx : s.handle = some x) (h : (libraryPath L C s).1 = none) :
    Reports L C (libraryPath L C s).2 (if C.wide then str% "GetModuleFileNameW()" else str% "GetModuleFileNameA()") (L.fileName s.clock x).2 := by
  rw [show (if C.wide then str% "GetModuleFileNameW()" else str% "GetModuleFileNameA()") = fileNameMsg C from rfl]
  have hfit : fit (fileNameMsg C) = fileNameMsg C := by
    unfold fileNameMsg
    split <;> decide
  have h1 : (clearError s).handle = some x := hx
  unfold libraryPath at h ⊢
  dsimp only at h ⊢
  rw [h1] at h ⊢
  dsimp only at h ⊢
  split at h
  · cases h
  · rename_i hp
    rw [if_neg hp]
    split at h
    · cases h
    · rename_i hq
      rw [if_neg hq]
      have : (queryPath L C x (clearError s)).2.errbuf = fileNameMsg C ∧ (queryPath L C x (clearError s)).2.lastErrno = (L.fileName s.clock x).2 ∧
          (queryPath L C x (clearError s)).2.formatted = [] := by
        unfold queryPath at hq ⊢
        dsimp only at hq ⊢
        split
        · exact ⟨hfit, rfl, rfl⟩
        · split
          · exact ⟨hfit, rfl, rfl⟩
          · rename_i p hp hc
            have hp' : (L.fileName (clearError s).clock x).fst = some p := hp
            split at hq
            · rename_i h0
              rw [hp'] at h0
              cases h0
            · rename_i q h0
              rw [hp'] at h0
              cases h0
              rw [if_neg hc] at hq
              exact absurd rfl hq
      exact reports_of this.1 this.2.1 this.2.2

/-- Without a library. -/
theorem C75_nolib (L : Loader) (C : Cfg) (s : St) (hs : s.handle = none) :
    (∀ n, (loadSymbol L C n s).1 = false ∧ Reports L C (loadSymbol L C n s).2 (str% "no library was loaded") 6) ∧
    (∀ n, ∃ t, loadSymbolName L C n s = some (false, t) ∧ Reports L C t (str% "no library was loaded") 6) ∧
    ((loadAllSymbols L C s).1 = false → Reports L C (loadAllSymbols L C s).2 (str% "no library was loaded") 6) ∧
    (libraryPath L C s).1 = none ∧ Reports L C (libraryPath L C s).2 (str% "no library was loaded") 6 := by
  have h1 : (clearError s).handle = none := hs
  refine ⟨?_, ?_, ?_, ?_⟩
  · intro n
    unfold loadSymbol
    dsimp only
    rw [h1]
    exact ⟨rfl, reports_of rfl rfl rfl⟩
  · intro n
    unfold loadSymbolName
    dsimp only
    rw [h1]
    exact ⟨_, rfl, reports_of rfl rfl rfl⟩
  · intro h
    unfold loadAllSymbols at h ⊢
    dsimp only at h ⊢
    split at h
    · cases h
    · rename_i ha
      rw [if_neg ha, h1]
      exact reports_of rfl rfl rfl
  · unfold libraryPath
    dsimp only
    rw [h1]
    exact ⟨rfl, reports_of rfl rfl rfl⟩

/-- Calls that make no sense: an empty file name, a symbol number that does not exist, an
    empty or unknown symbol name. -/
theorem C75_refused (L : Loader) (C : Cfg) (s : St) :
    (∀ f, s.handle = none → Reports L C (loadLibArgs L C none f s).2 (str% "empty filename") 123 ∧
      Reports L C (loadLibArgs L C (some []) f s).2 (str% "empty filename") 123) ∧
    (∀ x n, s.handle = some x → n < 0 ∨ (C.syms.length : Int) ≤ n →
      Reports L C (loadSymbol L C n s).2 (fit (str% "unknown symbol number: " ++ showInt n)) 1168) ∧
    (∀ x n, s.handle = some x → n = none ∨ n = some [] → ∃ t, loadSymbolName L C n s = some (false, t) ∧ Reports L C t (str% "empty symbol name") 87) ∧
    (∀ x n, s.handle = some x → n ≠ [] → Rt.PfxOk C.toCfg → n ∉ C.syms →
      ∃ t, loadSymbolName L C (some n) s = some (false, t) ∧ Reports L C t (fit (str% "unknown symbol: " ++ n)) 1168) := by
  refine ⟨?_, ?_, ?_, ?_⟩
  · intro f hs
    unfold loadLibArgs
    dsimp only
    have h1 : libIsLoaded (clearError s) = false := by simp [libIsLoaded, clearError, hs]
    rw [h1]
    exact ⟨reports_of rfl rfl rfl, reports_of rfl rfl rfl⟩
  · intro x n hx hn
    have h1 : (clearError s).handle = some x := hx
    have hc : caseOf C.toCfg n = none := by
      rcases hn with h | h
      · unfold caseOf
        split
        · rename_i n; exfalso; have : (0 : Int) ≤ Int.ofNat n := Int.natCast_nonneg n; omega
        · rfl
      · unfold caseOf
        split
        · rename_i n
          have : C.syms.length ≤ n := by
            have : (C.syms.length : Int) ≤ (n : Int) := h
            omega
          rw [List.getElem?_eq_none this]
          rfl
        · rfl
    unfold loadSymbol
    dsimp only
    rw [h1]
    dsimp only
    rw [hc]
    exact reports_of rfl rfl rfl
  · intro x n hx hn
    have h1 : (clearError s).handle = some x := hx
    unfold loadSymbolName
    dsimp only
    rw [h1]
    dsimp only
    rw [if_pos (by rcases hn with rfl | rfl <;> rfl)]
    exact ⟨_, rfl, reports_of rfl rfl rfl⟩
  · intro x n hx hne hp hn
    have h1 : (clearError s).handle = some x := hx
    unfold loadSymbolName
    dsimp only
    rw [h1]
    simp only [Option.getD_some]
    rw [if_neg hne, Rt.foundName_unknown hp.prefix hn]
    exact ⟨_, rfl, reports_of rfl rfl rfl⟩

/-- A library is loaded already: the code is 0, the message says that there was no
    error. -/
theorem C75_violated_loaded (L : Loader) (C : Cfg) (s : St) (x : Ptr) (hx : s.handle = some x) (name : Option Str) (f : Int) :
    (loadLibArgs L C name f s).1 = false ∧ Reports L C (loadLibArgs L C name f s).2 (str% "library already loaded") 0 := by
  unfold loadLibArgs
  dsimp only
  have h1 : libIsLoaded (clearError s) = true := by simp [libIsLoaded, clearError, hx]
  rw [h1]
  exact ⟨rfl, reports_of rfl rfl rfl⟩

/-- The same if `atexit` fails. -/
theorem C75_violated_atexit (L : Loader) (C : Cfg) (s : St) (hr : s.freeLibReg = false) (ha : L.atexit s.clock = false) :
    (enableAutorelease L C s).1 = false ∧
    Reports L C (enableAutorelease L C s).2 (fit (str% "atexit(): failed to register `" ++ C.freeName ++ str% "()'")) 0 := by
  unfold enableAutorelease
  dsimp only
  have h1 : (clearError s).freeLibReg = false := hr
  have h2 : L.atexit (clearError s).clock = false := ha
  rw [h1, h2]
  exact ⟨rfl, reports_of rfl rfl rfl⟩

/-- A file name that cannot be converted: neither the message about it nor its code are
    told, but the name of the file and whatever code was left by an earlier call. -/
theorem C75_violated_convert (L : Loader) (C : Cfg) (name : Str) (hn : name ≠ []) (flags : Int) (s : St) (hs : s.handle = none)
    (hc : (!C.wide && C.convert) = true) (hw : L.widen s.clock (backslashes name) = none) :
    (loadLibArgs L C (some name) flags s).1 = false ∧ Reports L C (loadLibArgs L C (some name) flags s).2 (fit name) s.sysErr := by
  rw [loadLibArgs_eq name hn flags s hs]
  have hw' : L.widen (clearError s).clock (backslashes name) = none := hw
  have hll : (loadLibrary L C name flags (clearError s)).handle = none ∧ (loadLibrary L C name flags (clearError s)).sysErr = s.sysErr := by
    unfold loadLibrary loadLibraryEx
    rw [backslashes_if, hc]
    simp only [if_true]
    rw [hw']
    exact ⟨rfl, rfl⟩
  have hi : libIsLoaded (loadLibrary L C name flags (clearError s)) = false := by simp [libIsLoaded, hll.1]
  rw [hi]
  exact ⟨rfl, reports_of rfl (by simp [saveError, saveToErrbuf, setErrno, hll.2]) rfl⟩

/-- The system gives a code with every failure. -/
structure Coded (L : Loader) : Prop where
  load : ∀ t n f, (L.load t n f).1 = none → (L.load t n f).2 ≠ 0
  sym : ∀ t h n, (L.sym t h n).1 = none → (L.sym t h n).2 ≠ 0
  free : ∀ t h, (L.free t h).1 = false → (L.free t h).2 ≠ 0
  fileName : ∀ t h, (∀ p, (L.fileName t h).1 = some p → p = [] ∨ bufLen ≤ p.length) → (L.fileName t h).2 ≠ 0

/-- The library is loaded by this call. -/
def Loads : Call → Prop
  | .loadLib | .loadLibAndSymbols | .loadLibName _ | .loadLibNameAndSymbols _ | .loadLibArgs _ _ _ => True
  | _ => False

section
variable {L : Loader} {C : Cfg}

theorem code_loadLibArgs (hL : Coded L) (hc : (!C.wide && C.convert) = false) (n : Option Str) (f : Int) (s : St) (hs : s.handle = none)
    (h : (loadLibArgs L C n f s).1 = false) : (loadLibArgs L C n f s).2.lastErrno ≠ 0 := by
  by_cases hn : n.getD [] = []
  · have h1 : libIsLoaded (clearError s) = false := by simp [libIsLoaded, clearError, hs]
    unfold loadLibArgs
    dsimp only
    rw [h1, if_pos hn]
    show (123 : Nat) ≠ 0
    decide
  · cases n with
    | none => exact absurd rfl hn
    | some name =>
      have hn' : name ≠ [] := hn
      rw [loadLibArgs_eq name hn' f s hs] at h ⊢
      split at h
      · cases h
      · rename_i hl
        rw [if_neg hl]
        unfold loadLibrary loadLibraryEx at hl ⊢
        rw [backslashes_if, hc] at hl ⊢
        simp only [Bool.false_eq_true, if_false] at hl ⊢
        have h0 : (L.load (clearError s).clock (backslashes name) f).1 = none := by
          simpa [libIsLoaded, callLoad] using hl
        exact hL.load _ _ _ h0

theorem code_loadOne (hL : Coded L) (x : Ptr) (i : Nat) (name : Str) (s : St) (h : (loadOne L x i name s).1 = false) :
    (loadOne L x i name s).2.lastErrno ≠ 0 := by
  unfold loadOne at h ⊢
  split at h
  · cases h
  · rename_i hp
    simp only [hp]
    unfold gdoSym at h ⊢
    dsimp only at h ⊢
    split at h
    · rename_i h0
      simp [h0] at h
    · rename_i h0
      rw [if_neg h0]
      exact hL.sym _ _ _ (by simpa using h0)

theorem code_loadAllSymbols (hL : Coded L) (s : St) (h : (loadAllSymbols L C s).1 = false) : (loadAllSymbols L C s).2.lastErrno ≠ 0 := by
  unfold loadAllSymbols at h ⊢
  dsimp only at h ⊢
  split at h
  · cases h
  · rename_i ha
    rw [if_neg ha]
    cases hx : (clearError s).handle with
    | none =>
      show (6 : Nat) ≠ 0
      decide
    | some x =>
      simp only [hx] at h
      obtain ⟨k, name, t, _, _, a3, _, a5, _⟩ := loadLoop_fail x C.syms 0 (clearError s) h
      simp only
      rw [a5]
      exact hL.sym _ _ _ a3

end

/-- A call that fails leaves a code that is not 0, provided the system gives one, the name
    is not converted, no library is loaded when one is to be loaded, and the call is not
    that of `gdo_enable_autorelease`. -/
theorem C75_partial (L : Loader) (hL : Coded L) (C : Cfg) (hc : (!C.wide && C.convert) = false) (s t : St) (c : Call) (v : Val)
    (h : step L C s c = .ret v t) (hf : Failed c v) (hl : Loads c → s.handle = none) (ha : c ≠ .enableAutorelease) : t.lastErrno ≠ 0 := by
  have hb : ∀ r : Bool × St, ofBool r = .ret v t → v = .bool false → r.1 = false ∧ r.2 = t := by
    intro r hr hv
    simp only [ofBool, Out.ret.injEq] at hr
    rw [hv] at hr
    exact ⟨by simpa using hr.1, hr.2⟩
  have hand : ∀ n f, s.handle = none → (andSymbols L C (loadLibArgs L C n f s)).1 = false →
      (andSymbols L C (loadLibArgs L C n f s)).2.lastErrno ≠ 0 := by
    intro n f hs hr
    unfold andSymbols at hr ⊢
    split at hr
    · rename_i h0
      rw [if_pos h0]
      exact code_loadAllSymbols hL _ hr
    · rename_i h0
      rw [if_neg h0]
      exact code_loadLibArgs hL hc n f s hs (by simpa using h0)
  cases c with
  | loadLib => obtain ⟨h1, rfl⟩ := hb _ h hf; exact code_loadLibArgs hL hc _ _ s (hl trivial) h1
  | loadLibAndSymbols => obtain ⟨h1, rfl⟩ := hb _ h hf; exact hand _ _ (hl trivial) h1
  | loadLibName n => obtain ⟨h1, rfl⟩ := hb _ h hf; exact code_loadLibArgs hL hc _ _ s (hl trivial) h1
  | loadLibNameAndSymbols n => obtain ⟨h1, rfl⟩ := hb _ h hf; exact hand _ _ (hl trivial) h1
  | loadLibArgs n f _ => obtain ⟨h1, rfl⟩ := hb _ h hf; exact code_loadLibArgs hL hc _ _ s (hl trivial) h1
  | libIsLoaded => exact hf.elim
  | freeLib =>
    obtain ⟨h1, rfl⟩ := hb _ h hf
    unfold freeLib at h1 ⊢
    dsimp only at h1 ⊢
    split at h1
    · rename_i x hx
      split at h1
      · cases h1
      · rename_i h0
        simp only [h0, Bool.false_eq_true, if_false]
        exact hL.free _ _ (by simpa [callFree] using h0)
    · cases h1
  | forceFreeLib =>
    have hv : v = .bool false := hf
    simp only [step, Out.ret.injEq] at h
    rw [hv] at h
    exact absurd h.1 (by simp)
  | enableAutorelease => exact absurd rfl ha
  | allSymbolsLoaded => exact hf.elim
  | noSymbolsLoaded => exact hf.elim
  | anySymbolLoaded => exact hf.elim
  | loadAllSymbols => obtain ⟨h1, rfl⟩ := hb _ h hf; exact code_loadAllSymbols hL s h1
  | loadSymbol n =>
    obtain ⟨h1, rfl⟩ := hb _ h hf
    unfold loadSymbol at h1 ⊢
    dsimp only at h1 ⊢
    cases hx : (clearError s).handle with
    | none => show (6 : Nat) ≠ 0; decide
    | some x =>
      simp only [hx] at h1 ⊢
      cases hcs : caseOf C.toCfg n with
      | none => show (1168 : Nat) ≠ 0; decide
      | some q =>
        simp only [hcs] at h1 ⊢
        exact code_loadOne hL _ _ _ _ h1
  | loadSymbolName n =>
    simp only [step] at h
    split at h
    · rename_i r hr
      obtain ⟨h1, rfl⟩ := hb _ h hf
      unfold loadSymbolName at hr
      dsimp only at hr
      split at hr
      · cases hr; show (6 : Nat) ≠ 0; decide
      · split at hr
        · cases hr; show (87 : Nat) ≠ 0; decide
        · simp only [Option.map_eq_some_iff] at hr
          obtain ⟨g, _, rfl⟩ := hr
          cases g with
          | none => show (1168 : Nat) ≠ 0; decide
          | some q => exact code_loadOne hL _ _ _ _ h1
    · cases h
  | lastError =>
    have hv : v = .bool false := hf
    simp only [step, Out.ret.injEq] at h
    rw [hv] at h
    exact absurd h.1 (by simp)
  | libraryPath =>
    have hv : v = .text none := hf
    simp only [step, Out.ret.injEq] at h
    obtain ⟨h1, rfl⟩ := h
    rw [hv] at h1
    have h1' : (libraryPath L C s).1 = none := by simpa using h1
    unfold libraryPath at h1' ⊢
    dsimp only at h1' ⊢
    cases hx : (clearError s).handle with
    | none => show (6 : Nat) ≠ 0; decide
    | some x =>
      simp only [hx] at h1' ⊢
      split at h1'
      · cases h1'
      · rename_i hp
        rw [if_neg hp]
        split at h1'
        · cases h1'
        · rename_i hq
          rw [if_neg hq]
          unfold queryPath at hq ⊢
          dsimp only at hq ⊢
          split at hq
          · rename_i h0
            refine (hL.fileName (clearError s).clock x ?_)
            rw [h0]
            intro p hp
            cases hp
          · rename_i p h0
            split at hq
            · rename_i hlen
              rw [if_pos hlen]
              refine (hL.fileName (clearError s).clock x ?_)
              rw [h0]
              intro q hq
              cases hq
              rcases hlen with hlen | hlen
              · exact Or.inl (List.length_eq_zero_iff.mp hlen)
              · exact Or.inr hlen
            · exact absurd rfl hq
  | wrapped i =>
    have hv : v = .bool false := hf
    simp only [step] at h
    split at h
    · split at h
      · simp only [Out.ret.injEq] at h
        rw [hv] at h
        exact absurd h.1 (by simp)
      all_goals cases h
    · simp only [Out.ret.injEq] at h
      rw [hv] at h
      exact absurd h.1 (by simp)

example : Coded { demoLoader with sym := fun _ _ _ => (none, 127) } where
  load t n f h := by cases h
  sym t h n _ := show (127 : Nat) ≠ 0 by decide
  free t h hn := by cases hn
  fileName t h hn := by
    exact absurd (hn _ rfl) (by decide)

example : (lastError demoLoader demoCfg (loadSymbol demoLoader demoCfg 1 { handle := some 100 }).2).1 =
    str% "g: The specified procedure could not be found." := by rfl

/-- The code left by an earlier call is told for the file name that cannot be converted. -/
example : let L : Loader := { demoLoader with widen := fun _ _ => none }
    let C : Cfg := { demoCfg with convert := true }
    (lastError L C (loadLib L C { sysErr := 127 }).2).1 = str% "x.dll: The specified procedure could not be found." := by rfl

/-! ### C76 -/

/-- No error is left. -/
def Clean (s : St) : Prop := s.errbuf = [] ∧ s.lastErrno = 0 ∧ s.formatted = []

section
variable {L : Loader} {C : Cfg}

theorem clean_loadLibArgs (n : Option Str) (f : Int) (s : St) (h : (loadLibArgs L C n f s).1 = true) : Clean (loadLibArgs L C n f s).2 := by
  unfold loadLibArgs at h ⊢
  dsimp only at h ⊢
  split at h
  · cases h
  · rename_i h0
    rw [if_neg h0]
    split at h
    · cases h
    · rename_i h1
      rw [if_neg h1]
      split at h
      · rename_i h2
        rw [if_pos h2]
        unfold loadLibrary loadLibraryEx callLoad at h2 ⊢
        dsimp only at h2 ⊢
        split at h2
        · rename_i hc
          rw [if_pos hc]
          split at h2
          · exact ⟨rfl, rfl, rfl⟩
          · cases h2
        · rename_i hc
          rw [if_neg hc]
          exact ⟨rfl, rfl, rfl⟩
      · cases h

theorem clean_gdoSym (x : Ptr) (i : Nat) (name : Str) (s : St) (hs : Clean s) (h : (gdoSym L x name s).1.isSome = true) :
    Clean (setPtr i (gdoSym L x name s).1 (gdoSym L x name s).2) := by
  unfold gdoSym setPtr at *
  dsimp only at *
  split at h
  · rename_i h0
    rw [if_pos h0]
    exact hs
  · rename_i h0
    exact absurd h h0

theorem clean_loadOne (x : Ptr) (i : Nat) (name : Str) (s : St) (hs : Clean s) (h : (loadOne L x i name s).1 = true) :
    Clean (loadOne L x i name s).2 := by
  unfold loadOne at h ⊢
  split at h
  · exact hs
  · rename_i hp
    simp only [hp]
    exact clean_gdoSym x i name s hs h

theorem clean_loadLoop (x : Ptr) (l : List Str) : ∀ (i : Nat) (s : St), Clean s → (loadLoop L x i l s).1 = true → Clean (loadLoop L x i l s).2 := by
  induction l with
  | nil => intro i s hs _; exact hs
  | cons name r ih =>
    intro i s hs h
    unfold loadLoop at h ⊢
    dsimp only at h ⊢
    split at h
    · rename_i h0
      rw [if_pos h0]
      exact ih _ _ (clean_gdoSym x i name s hs h0) h
    · cases h

theorem clean_loadAllSymbols (s : St) (h : (loadAllSymbols L C s).1 = true) : Clean (loadAllSymbols L C s).2 := by
  unfold loadAllSymbols at h ⊢
  dsimp only at h ⊢
  split at h
  · rename_i ha
    rw [if_pos ha]
    exact ⟨rfl, rfl, rfl⟩
  · rename_i ha
    rw [if_neg ha]
    cases hx : (clearError s).handle with
    | none => simp only [hx] at h; cases h
    | some x =>
      simp only [hx] at h
      exact clean_loadLoop x _ _ (clearError s) ⟨rfl, rfl, rfl⟩ h

end

/-- The calls that tell whether they succeeded. -/
def Succeeded : Call → Val → Prop
  | .libIsLoaded, _ | .allSymbolsLoaded, _ | .noSymbolsLoaded, _ | .anySymbolLoaded, _ | .lastError, _ | .wrapped _, _ => False
  | .libraryPath, v => v ≠ .text none
  | .forceFreeLib, _ => True
  | _, v => v = .bool true

/-- After a call that succeeded no error is left, whatever happened before. -/
theorem C76_success (L : Loader) (C : Cfg) (s t : St) (c : Call) (v : Val) (h : step L C s c = .ret v t) (hv : Succeeded c v) : Clean t := by
  have hb : ∀ r : Bool × St, ofBool r = .ret v t → v = .bool true → r.1 = true ∧ r.2 = t := by
    intro r hr hv
    simp only [ofBool, Out.ret.injEq] at hr
    rw [hv] at hr
    exact ⟨by simpa using hr.1, hr.2⟩
  have hand : ∀ r : Bool × St, (andSymbols L C r).1 = true → Clean (andSymbols L C r).2 := by
    intro r hr
    unfold andSymbols at hr ⊢
    split at hr
    · rename_i h0
      rw [if_pos h0]
      exact clean_loadAllSymbols _ hr
    · cases hr
  cases c with
  | loadLib => obtain ⟨h1, rfl⟩ := hb _ h hv; exact clean_loadLibArgs _ _ s h1
  | loadLibAndSymbols => obtain ⟨h1, rfl⟩ := hb _ h hv; exact hand _ h1
  | loadLibName n => obtain ⟨h1, rfl⟩ := hb _ h hv; exact clean_loadLibArgs _ _ s h1
  | loadLibNameAndSymbols n => obtain ⟨h1, rfl⟩ := hb _ h hv; exact hand _ h1
  | loadLibArgs n f _ => obtain ⟨h1, rfl⟩ := hb _ h hv; exact clean_loadLibArgs _ _ s h1
  | libIsLoaded => exact hv.elim
  | freeLib =>
    obtain ⟨h1, rfl⟩ := hb _ h hv
    unfold freeLib at h1 ⊢
    dsimp only at h1 ⊢
    split at h1
    · rename_i x hx
      split at h1
      · rename_i h0
        simp only [h0, if_true]
        exact ⟨rfl, rfl, rfl⟩
      · cases h1
    · exact ⟨rfl, rfl, rfl⟩
  | forceFreeLib =>
    simp only [step, Out.ret.injEq] at h
    obtain ⟨_, rfl⟩ := h
    unfold forceFreeLib
    dsimp only
    split <;> exact ⟨rfl, rfl, rfl⟩
  | enableAutorelease =>
    obtain ⟨h1, rfl⟩ := hb _ h hv
    unfold enableAutorelease at h1 ⊢
    dsimp only at h1 ⊢
    split at h1
    · rename_i h0
      rw [if_pos h0]
      exact ⟨rfl, rfl, rfl⟩
    · rename_i h0
      rw [if_neg h0]
      split at h1
      · rename_i h2
        rw [if_pos h2]
        exact ⟨rfl, rfl, rfl⟩
      · cases h1
  | allSymbolsLoaded => exact hv.elim
  | noSymbolsLoaded => exact hv.elim
  | anySymbolLoaded => exact hv.elim
  | loadAllSymbols => obtain ⟨h1, rfl⟩ := hb _ h hv; exact clean_loadAllSymbols s h1
  | loadSymbol n =>
    obtain ⟨h1, rfl⟩ := hb _ h hv
    unfold loadSymbol at h1 ⊢
    dsimp only at h1 ⊢
    cases hx : (clearError s).handle with
    | none => simp only [hx] at h1; cases h1
    | some x =>
      simp only [hx] at h1 ⊢
      cases hcs : caseOf C.toCfg n with
      | none => simp only [hcs] at h1; cases h1
      | some q =>
        simp only [hcs] at h1 ⊢
        exact clean_loadOne _ _ _ (clearError s) ⟨rfl, rfl, rfl⟩ h1
  | loadSymbolName n =>
    simp only [step] at h
    split at h
    · rename_i r hr
      obtain ⟨h1, rfl⟩ := hb _ h hv
      unfold loadSymbolName at hr
      dsimp only at hr
      split at hr
      · cases hr; cases h1
      · split at hr
        · cases hr; cases h1
        · simp only [Option.map_eq_some_iff] at hr
          obtain ⟨g, _, rfl⟩ := hr
          cases g with
          | none => cases h1
          | some q => exact clean_loadOne _ _ _ (clearError s) ⟨rfl, rfl, rfl⟩ h1
    · cases h
  | lastError => exact hv.elim
  | libraryPath =>
    simp only [step, Out.ret.injEq] at h
    obtain ⟨h1, rfl⟩ := h
    have h1' : (libraryPath L C s).1 ≠ none := fun h0 => hv (by rw [← h1, h0])
    unfold libraryPath at h1' ⊢
    dsimp only at h1' ⊢
    cases hx : (clearError s).handle with
    | none => simp only [hx] at h1'; exact absurd rfl h1'
    | some x =>
      simp only [hx] at h1' ⊢
      split at h1'
      · rename_i hp
        rw [if_pos hp]
        exact ⟨rfl, rfl, rfl⟩
      · rename_i hp
        rw [if_neg hp]
        split at h1'
        · rename_i hq
          rw [if_pos hq]
          unfold queryPath at hq ⊢
          dsimp only at hq ⊢
          split at hq
          · cases hq
          · split at hq
            · cases hq
            · rename_i hlen
              rw [if_neg hlen]
              exact ⟨rfl, rfl, rfl⟩
        · exact absurd rfl h1'
  | wrapped i => exact hv.elim

/-- The message does not change until another call is made. -/
theorem C76_again (L : Loader) (C : Cfg) (s : St) (h : (lastError L C s).1 ≠ []) : lastError L C (lastError L C s).2 = lastError L C s := by
  have hf : (lastError L C s).2.formatted = (lastError L C s).1 := by
    unfold lastError
    split <;> rfl
  generalize hr : lastError L C s = r at *
  obtain ⟨m, t⟩ := r
  have hf' : t.formatted = m := hf
  have hm : m ≠ [] := h
  show lastError L C t = (m, t)
  conv => lhs; unfold lastError
  rw [if_pos (by rw [hf']; exact hm), hf']

/-- The saved message belongs to the place and code that are saved. -/
def Current (L : Loader) (C : Cfg) (s : St) : Prop := s.formatted = [] ∨ ∃ k, s.formatted = fitFormatted C (report (L.format k) s.errbuf s.lastErrno)

section
variable {L : Loader} {C : Cfg}

theorem current_lastError {s : St} (h : Current L C s) : Reports L C s s.errbuf s.lastErrno ∧ Current L C (lastError L C s).2 := by
  by_cases hf : s.formatted = []
  · refine ⟨C75_told L C s hf, Or.inr ?_⟩
    obtain ⟨k, hk⟩ := C75_told L C s hf
    refine ⟨k, ?_⟩
    have h1 : (lastError L C s).2.formatted = (lastError L C s).1 ∧ (lastError L C s).2.errbuf = s.errbuf ∧ (lastError L C s).2.lastErrno = s.lastErrno := by
      unfold lastError
      split <;> exact ⟨rfl, rfl, rfl⟩
    rw [h1.1, h1.2.1, h1.2.2]
    exact hk
  · have h1 : lastError L C s = (s.formatted, s) := by
      unfold lastError
      rw [if_pos hf]
    rw [Reports, h1]
    refine ⟨?_, h⟩
    rcases h with h | ⟨k, h⟩
    · exact absurd h hf
    · exact ⟨k, h⟩

theorem gdoSym_formatted (x : Ptr) (i : Nat) (name : Str) (s : St) (h : s.formatted = []) :
    (setPtr i (gdoSym L x name s).1 (gdoSym L x name s).2).formatted = [] := by
  unfold gdoSym setPtr
  dsimp only
  split
  · exact h
  · rfl

theorem loadOne_formatted (x : Ptr) (i : Nat) (name : Str) (s : St) (h : s.formatted = []) : (loadOne L x i name s).2.formatted = [] := by
  unfold loadOne
  split
  · exact h
  · exact gdoSym_formatted x i name s h

theorem loadLoop_formatted (x : Ptr) (l : List Str) : ∀ (i : Nat) (s : St), s.formatted = [] → (loadLoop L x i l s).2.formatted = [] := by
  induction l with
  | nil => intro i s h; exact h
  | cons name r ih =>
    intro i s h
    unfold loadLoop
    dsimp only
    split
    · exact ih _ _ (gdoSym_formatted x i name s h)
    · exact gdoSym_formatted x i name s h

theorem kept_current (L : Loader) (C : Cfg) : KeptRet L C (Current L C) where
  load s n f h := by
    refine Or.inl ?_
    unfold loadLibArgs
    dsimp only
    split
    · rfl
    · split
      · rfl
      · split
        · unfold loadLibrary loadLibraryEx callLoad
          dsimp only
          split
          · split <;> rfl
          · rfl
        · rfl
  free s h := by
    refine Or.inl ?_
    unfold freeLib
    dsimp only
    split
    · split <;> rfl
    · rfl
  force s h := by
    refine Or.inl ?_
    unfold forceFreeLib
    dsimp only
    split <;> rfl
  auto s h := by
    refine Or.inl ?_
    unfold enableAutorelease
    dsimp only
    split
    · rfl
    · split <;> rfl
  all s h := by
    refine Or.inl ?_
    unfold loadAllSymbols
    dsimp only
    split
    · rfl
    · split
      · rfl
      · exact loadLoop_formatted _ _ _ _ rfl
  one s n h := by
    refine Or.inl ?_
    unfold loadSymbol
    dsimp only
    split
    · rfl
    · split
      · exact loadOne_formatted _ _ _ _ rfl
      · rfl
  name s n r h hr := by
    refine Or.inl ?_
    unfold loadSymbolName at hr
    dsimp only at hr
    split at hr
    · cases hr; rfl
    · split at hr
      · cases hr; rfl
      · simp only [Option.map_eq_some_iff] at hr
        obtain ⟨g, _, rfl⟩ := hr
        cases g with
        | none => rfl
        | some q => exact loadOne_formatted _ _ _ _ rfl
  last s h := (current_lastError h).2
  path s h := by
    refine Or.inl ?_
    have hq : ∀ x, (queryPath L C x (clearError s)).2.formatted = [] := by
      intro x
      unfold queryPath
      dsimp only
      split
      · rfl
      · split <;> rfl
    unfold libraryPath
    dsimp only
    split
    · rfl
    · split
      · rfl
      · split
        · exact hq _
        · exact hq _

end

/-- Whatever calls were made before, the message is that of the place and code saved
    last, never one of an earlier failure. -/
theorem C76_current (L : Loader) (C : Cfg) (calls : List Call) (s : St) (hr : run L C {} calls = .ret () s) :
    Reports L C s s.errbuf s.lastErrno :=
  (current_lastError ((kept_current L C).run calls (s := {}) (Or.inl rfl) hr)).1

/-- Whatever calls were made before, the message fits the buffer of 64 KiB with its zero
    character, also with wide characters of two bytes. -/
theorem C75_fits (L : Loader) (C : Cfg) (calls : List Call) (s : St) (hr : run L C {} calls = .ret () s) :
    ((lastError L C s).1.length + 1) * (if C.wide then 2 else 1) ≤ 64 * 1024 := by
  obtain ⟨k, hk⟩ := C76_current L C calls s hr
  rw [hk, fitFormatted, List.length_take]
  split <;> omega

example : ∃ s, run demoLoader { demoCfg with wide := true } {} [.loadSymbol 0] = .ret () s := ⟨_, rfl⟩

/-- So after a success it is the text for code 0, even if the message of a failure was read
    before. -/
theorem C76_after_success (L : Loader) (C : Cfg) (s t : St) (c : Call) (v : Val) (h : step L C s c = .ret v t) (hv : Succeeded c v) :
    ∃ k, (lastError L C t).1 = fitFormatted C (codeText (L.format k) 0) := by
  obtain ⟨h1, h2, h3⟩ := C76_success L C s t c v h hv
  obtain ⟨k, hk⟩ := C75_told L C t h3
  rw [h1, h2] at hk
  exact ⟨k, by simpa [report] using hk⟩

example : ∃ s, run demoLoader demoCfg {} [.loadSymbol 0, .lastError, .loadLib, .loadSymbol 1, .lastError, .loadSymbol 0] = .ret () s ∧
    (lastError demoLoader demoCfg s).1 = str% "error code: 0" := ⟨_, rfl, by rfl⟩

example : Succeeded (.loadSymbol 0) (.bool true) ∧ ∃ t, step demoLoader demoCfg { handle := some 100, formatted := str% "old" } (.loadSymbol 0) = .ret (.bool true) t :=
  ⟨rfl, _, rfl⟩

/-! ### C77 -/

/-- When the check of a wrapper function returns, the pointer of its symbol is set. -/
theorem C77_nonnull (L : Loader) (C : Cfg) (i : Nat) (hi : i < C.syms.length) (s t : St) (h : wrapCheckLoaded L C i s = .ret () t) :
    (t.ptr i).isSome = true := by
  rcases wrapCheckLoaded_ret h with ⟨hp, rfl⟩ | ⟨hr, rfl⟩ | ⟨hr, rfl⟩
  · exact hp
  · exact (C72_iff L C _).mp hr i hi
  · exact loadSymbol_ok hr

section
variable {L : Loader} {C : Cfg}

/-- The start of the message. -/
def head (C : Cfg) (m : Str) : Str := if strstr m C.lib then str% "error: " else str% "error: " ++ C.lib ++ str% ": "

/-- How a text is shown. -/
def display (C : Cfg) (t : Str) : Str := if C.box then fit t else t ++ ['\n']

theorem printError_shown (fmt sym msg t : Str) (s : St) (h : printfS fmt [sym, msg] = some t) :
    ∃ u, printError C fmt sym msg s = some u ∧ u.shown = s.shown ++ [display C t] := by
  unfold printError display
  rw [h]
  simp only [Option.map_some]
  split <;> exact ⟨_, rfl, rfl⟩

theorem autoloadFailed_eq (hl : '%' ∉ C.lib) (sym : Str) (s : St) :
    ∃ t, autoloadFailed L C sym s = .exit 1 t ∧ t.shown = s.shown ++ [display C (head C (lastError L C s).1 ++ sym ++ str% ": " ++ (lastError L C s).1)] ∧
      t.handle = none := by
  have hstd : (lastError L C s).2.shown = s.shown := by
    unfold lastError
    split <;> rfl
  have hforce : ∀ u : St, (forceFreeLib L C u).shown = u.shown := by
    intro u
    unfold forceFreeLib
    dsimp only
    split <;> rfl
  have hrun : ∀ n (u : St), (runHandlers L C n u).shown = u.shown ∧ (u.handle = none → (runHandlers L C n u).handle = none) := by
    intro n
    induction n with
    | zero => intro u; exact ⟨rfl, id⟩
    | succ n ih =>
      intro u
      refine ⟨by rw [runHandlers, (ih _).1, hforce], fun _ => ?_⟩
      rw [runHandlers]
      exact (ih _).2 (forceFreeLib_handle u)
  have hpr : printfS (if strstr (lastError L C s).1 C.lib then str% "error: %s: %s" else str% "error: " ++ C.lib ++ str% ": %s: %s") [sym, (lastError L C s).1] =
      some (head C (lastError L C s).1 ++ sym ++ str% ": " ++ (lastError L C s).1) := by
    unfold head
    split
    · exact printfS_error' _ _
    · rw [printfS_error (str% "error: " ++ C.lib) sym _ (by simp [hl])]
  obtain ⟨u, h1, h2⟩ := printError_shown (C := C) _ _ _ _ (lastError L C s).2 hpr
  unfold autoloadFailed
  dsimp only
  rw [h1]
  exact ⟨_, rfl, by rw [(hrun _ _).1, hforce, h2, hstd], (hrun _ _).2 (forceFreeLib_handle _)⟩

theorem loadLibArgs_shown (n : Option Str) (f : Int) (s : St) : (loadLibArgs L C n f s).2.shown = s.shown := by
  have hll : ∀ u : St, (loadLibrary L C (n.getD []) f u).shown = u.shown := by
    intro u
    unfold loadLibrary loadLibraryEx callLoad
    dsimp only
    split
    · split <;> rfl
    · rfl
  unfold loadLibArgs
  dsimp only
  split
  · rfl
  · split
    · rfl
    · split
      · exact hll _
      · exact hll _

theorem autoloadLib_shown (s : St) : (autoloadLib L C s).shown = s.shown := by
  have he : (enableAutorelease L C s).2.shown = s.shown := by
    unfold enableAutorelease
    dsimp only
    split
    · rfl
    · split <;> rfl
  unfold autoloadLib
  dsimp only
  split
  · exact he
  · exact (loadLibArgs_shown _ _ _).trans he

theorem gdoSym_shown (x : Ptr) (i : Nat) (name : Str) (s : St) : (setPtr i (gdoSym L x name s).1 (gdoSym L x name s).2).shown = s.shown := by
  unfold gdoSym setPtr
  dsimp only
  split <;> rfl

theorem loadLoop_shown (x : Ptr) (l : List Str) : ∀ (i : Nat) (s : St), (loadLoop L x i l s).2.shown = s.shown := by
  induction l with
  | nil => intro i s; rfl
  | cons name r ih =>
    intro i s
    unfold loadLoop
    dsimp only
    split
    · rw [ih, gdoSym_shown]
    · exact gdoSym_shown ..

theorem loadAllSymbols_shown (s : St) : (loadAllSymbols L C s).2.shown = s.shown := by
  unfold loadAllSymbols
  dsimp only
  split
  · rfl
  · split
    · rfl
    · exact loadLoop_shown _ _ _ (clearError s)

theorem loadSymbol_shown (n : Int) (s : St) : (loadSymbol L C n s).2.shown = s.shown := by
  unfold loadSymbol
  dsimp only
  split
  · rfl
  · split
    · unfold loadOne
      split
      · rfl
      · exact gdoSym_shown _ _ _ (clearError s)
    · rfl

theorem display_has (name a b : Str) (h : C.box = true → (a ++ name).length < bufLen) : name <:+: display C (a ++ name ++ b) := by
  unfold display
  split
  · rename_i hb
    have := h hb
    refine ⟨a, b.take (bufLen - 1 - (a ++ name).length), ?_⟩
    unfold fit
    rw [List.take_append, List.take_of_length_le (l := a ++ name) (by omega)]
  · exact ⟨a, b ++ ['\n'], by simp⟩

end

/-- A wrapper function calls the address the system gave for its symbol, or it ends the
    process with one message that names the symbol.  The name of the default library has
    no percent sign, and in a message box the name fits. -/
theorem C77_wrapper (L : Loader) (C : Cfg) (hl : '%' ∉ C.lib) (i : Nat) (name : Str) (hi : C.syms[i]? = some name)
    (hfit : C.box = true → C.lib.length + name.length + 20 < bufLen) (s : St) :
    (∃ p t, wrapper L C i s = .ret p t ∧ t.ptr i = some p) ∨
    (∃ t m, (wrapper L C i s = .exit 1 t ∨ wrapper L C i s = .abort t) ∧ t.shown = s.shown ++ [m] ∧ name <:+: m) := by
  have hlt : i < C.syms.length := (List.getElem?_eq_some_iff.mp hi).1
  have hname : C.syms.getD i [] = name := by simp [List.getD_eq_getElem?_getD, hi]
  have hret : ∀ t, wrapCheckLoaded L C i s = .ret () t → ∃ p t, wrapper L C i s = .ret p t ∧ t.ptr i = some p := by
    intro t ht
    obtain ⟨p, hp⟩ := Option.isSome_iff_exists.mp (C77_nonnull L C i hlt s t ht)
    refine ⟨p, t, ?_, hp⟩
    unfold wrapper
    rw [ht]
    simp only [hp]
  have hfail : ∀ u : St, u.shown = s.shown → wrapCheckLoaded L C i s = autoloadFailed L C name u →
      ∃ t m, (wrapper L C i s = .exit 1 t ∨ wrapper L C i s = .abort t) ∧ t.shown = s.shown ++ [m] ∧ name <:+: m := by
    intro u hu hw
    obtain ⟨t, h1, h2, _⟩ := autoloadFailed_eq (L := L) hl name u
    refine ⟨t, _, Or.inl (by unfold wrapper; rw [hw, h1]), by rw [h2, hu], ?_⟩
    rw [show head C (lastError L C u).1 ++ name ++ str% ": " ++ (lastError L C u).1 = head C (lastError L C u).1 ++ name ++ (str% ": " ++ (lastError L C u).1) by simp]
    refine display_has name _ _ fun hb => ?_
    have := hfit hb
    unfold head
    split <;> simp <;> omega
  cases hp : s.ptr i with
  | some p =>
    refine Or.inl (hret s ?_)
    unfold wrapCheckLoaded
    simp only [hp]
  | none =>
    cases hm : C.mode with
    | wrap =>
      right
      obtain ⟨u, h1, h2⟩ := printError_shown (C := C) _ _ _ _ s (printfS_fatal name (if libIsLoaded s then str% "symbol not loaded" else str% "library not loaded"))
      have hw : wrapCheckLoaded L C i s = .abort u := by
        unfold wrapCheckLoaded
        simp only [hp, hm, hname, h1]
      refine ⟨u, _, Or.inr (by unfold wrapper; rw [hw]), h2, ?_⟩
      rw [List.append_assoc]
      refine display_has name _ _ fun hb => ?_
      have := hfit hb
      simp
      omega
    | autoload =>
      cases hr : (loadAllSymbols L C (autoloadLib L C s)).1 with
      | true =>
        refine Or.inl (hret (loadAllSymbols L C (autoloadLib L C s)).2 ?_)
        unfold wrapCheckLoaded
        simp only [hp, hm, hr, if_true]
      | false =>
        refine Or.inr (hfail (loadAllSymbols L C (autoloadLib L C s)).2 ((loadAllSymbols_shown _).trans (autoloadLib_shown s)) ?_)
        unfold wrapCheckLoaded
        simp only [hp, hm, hr, Bool.false_eq_true, if_false, hname]
    | lazy =>
      cases hr : (loadSymbol L C i (autoloadLib L C s)).1 with
      | true =>
        refine Or.inl (hret (loadSymbol L C i (autoloadLib L C s)).2 ?_)
        unfold wrapCheckLoaded
        simp only [hp, hm, hr, if_true]
      | false =>
        refine Or.inr (hfail (loadSymbol L C i (autoloadLib L C s)).2 ((loadSymbol_shown _ _).trans (autoloadLib_shown s)) ?_)
        unfold wrapCheckLoaded
        simp only [hp, hm, hr, Bool.false_eq_true, if_false, hname]

/-- The library cannot be opened: the message tells neither the name that was tried nor
    the code of `LoadLibraryEx`, but `no library was loaded` and the text for code 6. -/
theorem C77_violated (L : Loader) (C : Cfg) (hl : '%' ∉ C.lib) (hm : C.mode ≠ .wrap) (i : Nat) (name : Str) (hi : C.syms[i]? = some name)
    (s : St) (hh : s.handle = none) (hnull : ∀ i, s.ptr i = none) (ho : ∀ t n f, (L.load t n f).1 = none) :
    ∃ t m k, wrapper L C i s = .exit 1 t ∧ m = fitFormatted C (report (L.format k) (str% "no library was loaded") 6) ∧
      t.shown = s.shown ++ [display C (head C m ++ name ++ str% ": " ++ m)] := by
  have hname : C.syms.getD i [] = name := by simp [List.getD_eq_getElem?_getD, hi]
  have hlt : i < C.syms.length := (List.getElem?_eq_some_iff.mp hi).1
  have hll : ∀ n f (u : St), (loadLibrary L C n f u).handle = none ∧ (loadLibrary L C n f u).ptr = u.ptr := by
    intro n f u
    unfold loadLibrary loadLibraryEx callLoad
    dsimp only
    split
    · split
      · exact ⟨ho _ _ _, rfl⟩
      · exact ⟨rfl, rfl⟩
    · exact ⟨ho _ _ _, rfl⟩
  have hA : (autoloadLib L C s).handle = none ∧ (autoloadLib L C s).ptr = s.ptr := by
    have he : (enableAutorelease L C s).2.handle = none ∧ (enableAutorelease L C s).2.ptr = s.ptr := by
      unfold enableAutorelease
      dsimp only
      split
      · exact ⟨hh, rfl⟩
      · split <;> exact ⟨hh, rfl⟩
    unfold autoloadLib
    dsimp only
    rw [if_neg (by simp [libIsLoaded, he.1])]
    unfold loadLib loadLibName loadLibArgs
    dsimp only
    split
    · exact he
    · split
      · exact he
      · split
        · exact ⟨(hll _ _ _).1, (hll _ _ _).2.trans he.2⟩
        · exact ⟨(hll _ _ _).1, (hll _ _ _).2.trans he.2⟩
  have hfail : wrapCheckLoaded L C i s = autoloadFailed L C name (noLibrary (clearError (autoloadLib L C s))) →
      ∃ t m k, wrapper L C i s = .exit 1 t ∧ m = fitFormatted C (report (L.format k) (str% "no library was loaded") 6) ∧
      t.shown = s.shown ++ [display C (head C m ++ name ++ str% ": " ++ m)] := by
    intro hw
    obtain ⟨t, h1, h2, _⟩ := autoloadFailed_eq (L := L) hl name (noLibrary (clearError (autoloadLib L C s)))
    obtain ⟨k, hk⟩ : Reports L C (noLibrary (clearError (autoloadLib L C s))) (str% "no library was loaded") 6 := reports_of rfl rfl rfl
    refine ⟨t, _, k, by unfold wrapper; rw [hw, h1], hk, ?_⟩
    rw [h2]
    congr 1
    exact autoloadLib_shown s
  have hc : (clearError (autoloadLib L C s)).handle = none := hA.1
  cases hmm : C.mode with
  | wrap => exact absurd hmm hm
  | autoload =>
    have hr : loadAllSymbols L C (autoloadLib L C s) = (false, noLibrary (clearError (autoloadLib L C s))) := by
      unfold loadAllSymbols
      dsimp only
      rw [if_neg (by
        rw [allLoaded_iff]
        intro ha
        have := ha i hlt
        have h0 : (clearError (autoloadLib L C s)).ptr i = none := by
          show (autoloadLib L C s).ptr i = none
          rw [hA.2, hnull]
        rw [h0] at this
        cases this), hc]
    refine hfail ?_
    unfold wrapCheckLoaded
    simp only [hnull, hmm, hr, Bool.false_eq_true, if_false, hname]
  | lazy =>
    have hr : loadSymbol L C i (autoloadLib L C s) = (false, noLibrary (clearError (autoloadLib L C s))) := by
      unfold loadSymbol
      dsimp only
      rw [hc]
    refine hfail ?_
    unfold wrapCheckLoaded
    simp only [hnull, hmm, hr, Bool.false_eq_true, if_false, hname]

/-- The reason is shown if the library is open but the symbol is missing. -/
theorem C77_partial (L : Loader) (C : Cfg) (hl : '%' ∉ C.lib) (hm : C.mode = .lazy) (i : Nat) (name : Str) (hi : C.syms[i]? = some name) (s : St) (x : Ptr)
    (hx : s.handle = some x) (hp : s.ptr i = none) (hr : s.freeLibReg = true) (code : Nat) (hd : L.sym s.clock x name = (none, code)) :
    ∃ t m k, wrapper L C i s = .exit 1 t ∧ m = fitFormatted C (report (L.format k) (fit name) code) ∧
      t.shown = s.shown ++ [display C (head C m ++ name ++ str% ": " ++ m)] := by
  have hname : C.syms.getD i [] = name := by simp [List.getD_eq_getElem?_getD, hi]
  have hA : autoloadLib L C s = clearError s := by
    have h1 : (clearError s).freeLibReg = true := hr
    have h2 : libIsLoaded (clearError s) = true := by simp [libIsLoaded, clearError, hx]
    unfold autoloadLib enableAutorelease
    simp only [h1, if_true, h2]
  obtain ⟨h1, k, hk⟩ := C75_symbol L C i name hi (clearError s) x hx hp code hd
  have hw : wrapCheckLoaded L C i s = autoloadFailed L C name (loadSymbol L C i (clearError s)).2 := by
    unfold wrapCheckLoaded
    simp only [hp, hm, hA, h1, Bool.false_eq_true, if_false, hname]
  obtain ⟨t, h2, h3, _⟩ := autoloadFailed_eq (L := L) hl name (loadSymbol L C i (clearError s)).2
  refine ⟨t, _, k, by unfold wrapper; rw [hw, h2], hk, ?_⟩
  rw [h3]
  congr 1
  exact loadSymbol_shown _ _

example : ∃ t, wrapper demoLoader { demoCfg with mode := .lazy } 1 { handle := some 100, freeLibReg := true, handlers := 1 } = .exit 1 t ∧
    t.shown = [str% "error: x.dll: g: g: The specified procedure could not be found.\n"] := ⟨_, rfl, by rfl⟩

example : ∃ t, wrapper { demoLoader with load := fun _ _ _ => (none, 126) } demoCfg 0 {} = .exit 1 t ∧
    t.shown = [str% "error: x.dll: f: no library was loaded: error code: 6\n"] := ⟨_, rfl, by rfl⟩

example : ∃ p t, wrapper demoLoader { demoCfg with mode := .lazy } 0 {} = .ret p t ∧ p = 7 := ⟨_, _, rfl, rfl⟩

end Gdo.Win
