import Verif.Lemmas.Win
import Verif.Props.RuntimeName

/-!
Properties C71 to C74: library handles, symbols, file names and paths of the generated C
code on Windows.
-/

namespace Gdo.Win
open Gdo RtSpec WinSpec
open Gdo.Rt (Ptr Ev Mode Call Val caseOf foundName printfS)

/-- A system that opens everything but knows only one symbol. -/
def demoLoader : Loader where
  load _ _ _ := (some 100, 0)
  sym _ _ n := if n = str% "f" then (some 7, 0) else (none, 127)
  free _ _ := (true, 0)
  fileName _ _ := (some (str% "C:\\x.dll"), 0)
  format _ c := if c = 127 then some (str% "The specified procedure could not be found.") else none
  widen _ n := some n
  atexit _ := true

/-- Two functions in a library. -/
def demoCfg : Cfg where
  syms := [str% "f", str% "g"]
  pfx := []
  lib := str% "x.dll"
  flags := 0
  mode := .autoload
  haveDlinfo := false
  haveDladdr := false
  linux := false
  wide := false
  convert := false
  box := false

/-! ### C71 -/

/-- After any sequence of calls, however it ended: without a library all symbol pointers
    are NULL. -/
theorem C71_null (L : Loader) (C : Cfg) (calls : List Call) (s : St) (h : stateAfter (run L C {} calls) = some s) (hn : s.handle = none) :
    ∀ i, s.ptr i = none := by
  have := (kept_inv L C).run calls (inv_init C) s h
  rw [SInv, hn] at this
  exact this.null

/-- Every symbol pointer that is not NULL was resolved for this symbol in the library that
    is loaded now, and since it was loaded. -/
theorem C71_origin (L : Loader) (C : Cfg) (calls : List Call) (s : St) (h : stateAfter (run L C {} calls) = some s) (i : Nat) (p : Ptr)
    (hp : s.ptr i = some p) : ∃ hd name, s.handle = some hd ∧ C.syms[i]? = some name ∧ Resolved hd name p s.log :=
  ((kept_inv L C).run calls (inv_init C) s h).origin i p hp

/-- Handles are never passed to the system when they are not open, and none is lost. -/
theorem C71_handles (L : Loader) (C : Cfg) (calls : List Call) (s : St) (h : stateAfter (run L C {} calls) = some s) :
    OnlyAlive s.log ∧ ∀ x, opens x s.log = closes x s.log + givenUp x s.log + if s.handle = some x then 1 else 0 :=
  ⟨((kept_inv L C).run calls (inv_init C) s h).only, ((kept_inv L C).run calls (inv_init C) s h).count⟩

/-- The same at the end of the process. -/
theorem C71_finish (L : Loader) (C : Cfg) (calls : List Call) (s : St) (h : stateAfter (finish L C calls) = some s) :
    OnlyAlive s.log ∧ ∀ x, opens x s.log = closes x s.log + givenUp x s.log + if s.handle = some x then 1 else 0 :=
  ⟨((kept_inv L C).finish calls (inv_init C) s h).only, ((kept_inv L C).finish calls (inv_init C) s h).count⟩

section
variable {L : Loader} {C : Cfg}

/-- The registration with `atexit` is done once. -/
def Reg (s : St) : Prop := s.handlers = if s.freeLibReg then 1 else 0

theorem reg_of {s t : St} (h : Reg s) (h1 : t.handlers = s.handlers) (h2 : t.freeLibReg = s.freeLibReg) : Reg t := by
  unfold Reg; rw [h1, h2]; exact h

theorem reg_loadOne {s : St} (h : Reg s) (x : Ptr) (i : Nat) (name : Str) : Reg (loadOne L x i name s).2 := by
  unfold loadOne gdoSym setPtr
  split
  · exact h
  · dsimp only; split <;> exact h

theorem reg_loadLoop (x : Ptr) (l : List Str) : ∀ (i : Nat) {s : St}, Reg s → Reg (loadLoop L x i l s).2 := by
  induction l with
  | nil => intro i s h; exact h
  | cons name r ih =>
    intro i s h
    unfold loadLoop
    dsimp only
    have : Reg (setPtr i (gdoSym L x name s).1 (gdoSym L x name s).2) := by
      unfold gdoSym setPtr
      dsimp only
      split <;> exact h
    split
    · exact ih _ this
    · exact this

theorem loadLibrary_fields (name : Str) (f : Int) (s : St) : (loadLibrary L C name f s).libpath = s.libpath ∧
    (loadLibrary L C name f s).handlers = s.handlers ∧ (loadLibrary L C name f s).freeLibReg = s.freeLibReg := by
  unfold loadLibrary loadLibraryEx callLoad
  dsimp only
  split
  · split <;> exact ⟨rfl, rfl, rfl⟩
  · exact ⟨rfl, rfl, rfl⟩

theorem kept_reg (L : Loader) (C : Cfg) : Kept L C Reg where
  load s n f h := by
    have hk := loadLibrary_fields (L := L) (C := C) (n.getD []) f (clearError s)
    unfold loadLibArgs
    dsimp only
    split
    · exact h
    · split
      · exact h
      · split
        · exact reg_of h hk.2.1 hk.2.2
        · exact reg_of h hk.2.1 hk.2.2
  free s h := by
    unfold freeLib
    dsimp only
    split
    · split <;> exact h
    · exact h
  force s h := by
    unfold forceFreeLib
    dsimp only
    split <;> exact h
  auto s h := by
    unfold enableAutorelease
    dsimp only
    split
    · exact h
    · rename_i hr
      split
      · have : s.freeLibReg = false := by simpa [clearError] using hr
        unfold Reg at h ⊢
        rw [this] at h
        simpa [clearError] using h
      · exact h
  all s h := by
    unfold loadAllSymbols
    dsimp only
    split
    · exact h
    · split
      · exact h
      · exact reg_loadLoop _ _ _ (s := clearError s) h
  one s n h := by
    unfold loadSymbol
    dsimp only
    split
    · exact h
    · split
      · exact reg_loadOne (s := clearError s) h _ _ _
      · exact h
  name s n r h hr := by
    unfold loadSymbolName at hr
    dsimp only at hr
    split at hr
    · cases hr; exact h
    · split at hr
      · cases hr; exact h
      · simp only [Option.map_eq_some_iff] at hr
        obtain ⟨f, _, rfl⟩ := hr
        cases f with
        | none => exact h
        | some q => exact reg_loadOne (s := clearError s) h _ _ _
  last s h := by
    unfold lastError
    dsimp only
    split <;> exact h
  path s h := by
    unfold libraryPath queryPath
    dsimp only
    split
    · exact h
    · split
      · exact h
      · split <;> (split <;> (try split) <;> exact h)
  print s t fmt sym msg h ht := by
    unfold printError at ht
    simp only [Option.map_eq_some_iff] at ht
    obtain ⟨_, _, rfl⟩ := ht
    split <;> exact h

end

/-- With automatic release the library is released when the program ends. -/
theorem C71_autorelease (L : Loader) (C : Cfg) (calls : List Call) (s : St) (hr : run L C {} calls = .ret () s) (ha : s.freeLibReg = true) :
    ∃ t, finish L C calls = .exit 0 t ∧ t.handle = none ∧ ∀ x, opens x t.log = closes x t.log + givenUp x t.log := by
  have h1 : s.handlers = 1 := by
    have := (kept_reg L C).run calls (s := {}) rfl s (by rw [hr]; rfl)
    simpa [Reg, ha] using this
  have hf : finish L C calls = .exit 0 (forceFreeLib L C s) := by
    unfold finish
    rw [hr]
    simp only [h1, runHandlers]
  refine ⟨_, hf, forceFreeLib_handle s, ?_⟩
  intro x
  have := (C71_finish L C calls _ (by rw [hf]; rfl)).2 x
  rw [forceFreeLib_handle] at this
  simpa using this

/-- It is registered once, however often it is enabled. -/
theorem C71_registered_once (L : Loader) (C : Cfg) (calls : List Call) (s : St) (hr : run L C {} calls = .ret () s) : s.handlers ≤ 1 := by
  have := (kept_reg L C).run calls (s := {}) rfl s (by rw [hr]; rfl)
  unfold Reg at this
  split at this <;> omega

/-- Enabling it succeeds exactly if it is registered afterwards; it succeeds whenever it was
    enabled before, without asking the system again. -/
theorem C71_enabled (L : Loader) (C : Cfg) (s : St) : ∃ ok t, step L C s .enableAutorelease = .ret (.bool ok) t ∧
    (ok = true ↔ t.freeLibReg = true) ∧ (ok = true ↔ s.freeLibReg = true ∨ L.atexit s.clock = true) := by
  refine ⟨_, _, rfl, ?_⟩
  unfold enableAutorelease
  dsimp only
  have h1 : (clearError s).freeLibReg = s.freeLibReg := rfl
  have h2 : (clearError s).clock = s.clock := rfl
  rw [h1, h2]
  cases hf : s.freeLibReg with
  | true => simp [h1, hf]
  | false => cases ha : L.atexit s.clock <;> simp [saveToErrbuf, h1, hf]

example : ∃ s, run demoLoader demoCfg {} [.enableAutorelease, .loadLib, .loadSymbol 0, .enableAutorelease] = .ret () s ∧ s.freeLibReg = true ∧
    s.handle = some 100 ∧ s.ptr 0 = some 7 := ⟨_, rfl, rfl, rfl, rfl⟩

example : ∃ s, stateAfter (run demoLoader demoCfg {} [.loadLib, .loadAllSymbols, .freeLib]) = some s ∧ s.handle = none ∧
    s.log = [.opened 100, .sym 100 (str% "f") (some 7), .sym 100 (str% "g") none, .closed 100 true false] :=
  ⟨_, rfl, rfl, rfl⟩

/-! ### C72 -/

section
variable {L : Loader} {C : Cfg}

theorem loadLoop_other (x : Ptr) (l : List Str) : ∀ (i j : Nat) (s : St), j < i → (loadLoop L x i l s).2.ptr j = s.ptr j := by
  induction l with
  | nil => intro i j s _; rfl
  | cons name r ih =>
    intro i j s hj
    have h3 := (gdoSym_fields (L := L) x name s).2.2.1
    have key : (setPtr i (gdoSym L x name s).1 (gdoSym L x name s).2).ptr j = s.ptr j := by
      simp only [setPtr]
      rw [if_neg (by omega), h3]
    unfold loadLoop
    dsimp only
    split
    · rw [ih _ _ _ (by omega), key]
    · exact key

theorem loadLoop_ok (x : Ptr) (l : List Str) : ∀ (i : Nat) (s : St), (loadLoop L x i l s).1 = true →
    ∀ k, k < l.length → ((loadLoop L x i l s).2.ptr (i + k)).isSome = true := by
  induction l with
  | nil => intro i s _ k hk; cases hk
  | cons name r ih =>
    intro i s h k hk
    unfold loadLoop at h ⊢
    dsimp only at h ⊢
    split at h
    · rename_i ha
      rw [if_pos ha]
      cases k with
      | zero =>
        rw [loadLoop_other _ _ _ _ _ (by omega)]
        simpa [setPtr] using ha
      | succ k =>
        have := ih (i + 1) _ h k (by simpa using hk)
        rw [show i + (k + 1) = i + 1 + k by omega]
        exact this
    · cases h

/-- If the loop fails there is a symbol that was not resolved, its pointer is NULL, and its
    name and the code of the system are saved. -/
theorem loadLoop_fail (x : Ptr) (l : List Str) : ∀ (i : Nat) (s : St), (loadLoop L x i l s).1 = false →
    ∃ k name t, l[k]? = some name ∧ (loadLoop L x i l s).2.ptr (i + k) = none ∧ (L.sym t x name).1 = none ∧
      (loadLoop L x i l s).2.errbuf = fit name ∧ (loadLoop L x i l s).2.lastErrno = (L.sym t x name).2 ∧
      (loadLoop L x i l s).2.formatted = [] ∧ (loadLoop L x i l s).2.log.getLast? = some (.sym x name none) := by
  induction l with
  | nil => intro i s h; cases h
  | cons name r ih =>
    intro i s h
    unfold loadLoop at h ⊢
    dsimp only at h ⊢
    split at h
    · rename_i ha
      rw [if_pos ha]
      obtain ⟨k, n, t, h1, h2, h3, h4, h5, h6, h7⟩ := ih (i + 1) _ h
      exact ⟨k + 1, n, t, by simpa using h1, by rw [show i + (k + 1) = i + 1 + k by omega]; exact h2, h3, h4, h5, h6, h7⟩
    · rename_i ha
      rw [if_neg ha]
      obtain ⟨f1, f2, f3, f4, _⟩ := gdoSym_fields (L := L) x name s
      have hn : (L.sym s.clock x name).1 = none := by
        rw [← f1]
        simpa using ha
      have hg : gdoSym L x name s = (none, saveError name { s with clock := s.clock + 1, sysErr := (L.sym s.clock x name).2, log := s.log ++ [.sym x name none] }) := by
        unfold gdoSym
        dsimp only
        rw [hn]
        rfl
      rw [hg]
      exact ⟨0, name, s.clock, rfl, by simp [setPtr], hn, rfl, rfl, rfl, by simp [setPtr, saveError, saveToErrbuf, setErrno]⟩

theorem allLoaded_iff (s : St) : allLoaded C s = true ↔ ∀ i, i < C.syms.length → (s.ptr i).isSome = true := by
  simp [allLoaded]

end

/-- The queries answer for the library and the symbols loaded now and change nothing. -/
theorem C72_queries (L : Loader) (C : Cfg) (s : St) :
    ∃ lib all no any, step L C s .libIsLoaded = .ret (.bool lib) s ∧ (lib = true ↔ s.handle ≠ none) ∧
      step L C s .allSymbolsLoaded = .ret (.bool all) s ∧ (all = true ↔ ∀ i, i < C.syms.length → s.ptr i ≠ none) ∧
      step L C s .noSymbolsLoaded = .ret (.bool no) s ∧ (no = true ↔ ∀ i, i < C.syms.length → s.ptr i = none) ∧
      step L C s .anySymbolLoaded = .ret (.bool any) s ∧ (any = true ↔ ∃ i, i < C.syms.length ∧ s.ptr i ≠ none) := by
  refine ⟨_, _, _, _, rfl, ?_, rfl, ?_, rfl, ?_, rfl, ?_⟩
  · simp [libIsLoaded, Option.isSome_iff_ne_none]
  · simp [allLoaded, Option.isSome_iff_ne_none]
  · simp [noneLoaded]
  · simp [anyLoaded, Option.isSome_iff_ne_none]

/-- `gdo_load_all_symbols` returns true if and only if all symbol pointers are set
    afterwards. -/
theorem C72_iff (L : Loader) (C : Cfg) (s : St) :
    (loadAllSymbols L C s).1 = true ↔ ∀ i, i < C.syms.length → ((loadAllSymbols L C s).2.ptr i).isSome = true := by
  unfold loadAllSymbols
  dsimp only
  by_cases ha : allLoaded C (clearError s) = true
  · rw [if_pos ha]
    simpa using (allLoaded_iff (clearError s)).mp ha
  · rw [if_neg ha]
    cases hx : (clearError s).handle with
    | none =>
      simp only [Bool.false_eq_true, false_iff]
      intro h
      exact ha ((allLoaded_iff _).mpr h)
    | some x =>
      constructor
      · intro h i hi
        have := loadLoop_ok x C.syms 0 (clearError s) h i hi
        simpa using this
      · intro h
        cases hr : (loadLoop L x 0 C.syms (clearError s)).1 with
        | true => rfl
        | false =>
          obtain ⟨k, name, t, h1, h2, _⟩ := loadLoop_fail x C.syms 0 (clearError s) hr
          have hk : k < C.syms.length := (List.getElem?_eq_some_iff.mp h1).1
          have := h k hk
          rw [show (0 : Nat) + k = k by omega] at h2
          rw [h2] at this
          cases this

theorem loadSymbol_ok {L : Loader} {C : Cfg} {i : Nat} {s : St} (h : (loadSymbol L C i s).1 = true) : ((loadSymbol L C i s).2.ptr i).isSome = true := by
  unfold loadSymbol at h ⊢
  dsimp only at h ⊢
  cases hx : (clearError s).handle with
  | none => simp only [hx] at h; cases h
  | some x =>
    simp only [hx] at h ⊢
    cases hc : caseOf C.toCfg i with
    | none => simp only [hc] at h; cases h
    | some q =>
      obtain ⟨j, name⟩ := q
      have hj := (Rt.caseOf_some hc).1
      have : j = i := by omega
      subst this
      simp only [hc] at h ⊢
      unfold loadOne at h ⊢
      cases hp : (clearError s).ptr j with
      | some p => simp [hp]
      | none =>
        simp only [hp] at h ⊢
        simpa [setPtr] using h

/-- `gdo_load_symbol` succeeds if and only if the pointer of the symbol is set afterwards;
    no other pointer changes. -/
theorem C72_symbol (L : Loader) (C : Cfg) (i : Nat) (s : St) (x : Ptr) (hx : s.handle = some x) (name : Str) (hi : C.syms[i]? = some name) :
    ((loadSymbol L C i s).1 = ((loadSymbol L C i s).2.ptr i).isSome) ∧ (∀ j, j ≠ i → (loadSymbol L C i s).2.ptr j = s.ptr j) ∧
    ((s.ptr i).isSome = true ∧ (loadSymbol L C i s).2.log = s.log ∧ (loadSymbol L C i s).2.ptr i = s.ptr i ∨
      s.ptr i = none ∧ (loadSymbol L C i s).2.log = s.log ++ [.sym x name ((loadSymbol L C i s).2.ptr i)]) := by
  have hc : caseOf C.toCfg (i : Int) = some (i, name) := by
    show (C.syms[i]?).map _ = _
    rw [hi]
    rfl
  have hh : (clearError s).handle = some x := hx
  have hl : loadSymbol L C i s = loadOne L x i name (clearError s) := by
    unfold loadSymbol
    dsimp only
    rw [hh]
    dsimp only
    rw [hc]
  rw [hl]
  unfold loadOne
  cases hp : s.ptr i with
  | some p =>
    have : (clearError s).ptr i = some p := hp
    rw [this]
    exact ⟨by simp [this], fun _ _ => rfl, Or.inl ⟨rfl, rfl, this⟩⟩
  | none =>
    have : (clearError s).ptr i = none := hp
    rw [this]
    obtain ⟨f1, f2, f3, f4, _⟩ := gdoSym_fields (L := L) x name (clearError s)
    dsimp only
    refine ⟨by simp [setPtr], ?_, Or.inr ⟨rfl, ?_⟩⟩
    · intro j hj
      simp only [setPtr]
      rw [if_neg hj, f3]
      rfl
    · simp only [setPtr, if_true]
      rw [f4, f1]
      rfl

/-- Loading by name is loading by number. -/
theorem C72_name (L : Loader) (C : Cfg) (hp : Rt.PfxOk C.toCfg) (hd : C.syms.Nodup) (i : Nat) (name : Str) (hi : C.syms[i]? = some name)
    (hn : name ≠ []) (s : St) : loadSymbolName L C (some name) s = some (loadSymbol L C i s) := by
  have hc : caseOf C.toCfg (i : Int) = some (i, name) := by
    show (C.syms[i]?).map _ = _
    rw [hi]
    rfl
  unfold loadSymbolName loadSymbol
  dsimp only
  cases hx : (clearError s).handle with
  | none => rfl
  | some x =>
    simp only [Option.getD_some]
    rw [if_neg hn, Rt.foundName_known hp.prefix hi (fun j hj hje => by
      obtain ⟨hj1, hj2⟩ := List.getElem?_eq_some_iff.mp hje
      obtain ⟨hi1, hi2⟩ := List.getElem?_eq_some_iff.mp hi
      exact absurd (hj2.trans hi2.symm) (List.pairwise_iff_getElem.mp hd j i hj1 hi1 hj)), hc]
    rfl

/-- The parts of the state that must not change. -/
def Same (s t : St) : Prop := t.handle = s.handle ∧ t.ptr = s.ptr ∧ t.libpath = s.libpath ∧ t.log = s.log ∧ t.freeLibReg = s.freeLibReg

/-- Refused calls: loading while a library is loaded or without a name, loading symbols
    without a library, an unknown number, an empty or unknown name. -/
theorem C72_refused (L : Loader) (C : Cfg) (s : St) :
    (∀ name flags, s.handle ≠ none ∨ name = none ∨ name = some [] →
      (loadLibArgs L C name flags s).1 = false ∧ Same s (loadLibArgs L C name flags s).2) ∧
    (∀ num, s.handle = none ∨ num < 0 ∨ (C.syms.length : Int) ≤ num →
      (loadSymbol L C num s).1 = false ∧ Same s (loadSymbol L C num s).2) ∧
    (∀ name, s.handle = none ∨ name = none ∨ name = some [] → ∃ t, loadSymbolName L C name s = some (false, t) ∧ Same s t) ∧
    (∀ name, Rt.PfxOk C.toCfg → name ∉ C.syms → ∃ t, loadSymbolName L C (some name) s = some (false, t) ∧ Same s t) := by
  refine ⟨?_, ?_, ?_, ?_⟩
  · intro name flags h
    unfold loadLibArgs
    dsimp only
    by_cases hh : libIsLoaded (clearError s) = true
    · rw [if_pos hh]
      exact ⟨rfl, rfl, rfl, rfl, rfl, rfl⟩
    · rw [if_neg hh]
      have hn : s.handle = none := by simpa [libIsLoaded, clearError] using hh
      rw [if_pos (by rcases h with h | rfl | rfl; exact absurd hn h; rfl; rfl)]
      exact ⟨rfl, rfl, rfl, rfl, rfl, rfl⟩
  · intro num h
    unfold loadSymbol
    dsimp only
    split
    · exact ⟨rfl, rfl, rfl, rfl, rfl, rfl⟩
    · rename_i x hx
      have hx' : s.handle = some x := hx
      have hc : caseOf C.toCfg num = none := by
        rcases h with h | h | h
        · rw [hx'] at h; cases h
        · unfold caseOf
          split
          · rename_i n; exfalso; have : (0 : Int) ≤ Int.ofNat n := Int.natCast_nonneg n; omega
          · rfl
        · unfold caseOf
          split
          · rename_i n
            have : C.syms.length ≤ n := by
              have : (C.syms.length : Int) ≤ (n : Int) := h
              omega
            rw [List.getElem?_eq_none this]
            rfl
          · rfl
      rw [hc]
      exact ⟨rfl, rfl, rfl, rfl, rfl, rfl⟩
  · intro name h
    unfold loadSymbolName
    dsimp only
    split
    · exact ⟨_, rfl, rfl, rfl, rfl, rfl, rfl⟩
    · rename_i x hx
      have hx' : s.handle = some x := hx
      rw [if_pos (by rcases h with h | rfl | rfl; rw [hx'] at h; cases h; rfl; rfl)]
      exact ⟨_, rfl, rfl, rfl, rfl, rfl, rfl⟩
  · intro name hp hn
    unfold loadSymbolName
    dsimp only
    split
    · exact ⟨_, rfl, rfl, rfl, rfl, rfl, rfl⟩
    · split
      · exact ⟨_, rfl, rfl, rfl, rfl, rfl, rfl⟩
      · simp only [Option.getD_some]
        rw [Rt.foundName_unknown hp.prefix hn]
        exact ⟨_, rfl, rfl, rfl, rfl, rfl, rfl⟩

example : (loadAllSymbols demoLoader demoCfg { handle := some 100 }).1 = false ∧
    (loadSymbol demoLoader demoCfg 0 { handle := some 100 }).1 = true := by decide

/-! ### C73 -/

/-- The name with backslashes: character by character the given name, with a backslash
    for each slash. -/
theorem C73_backslashes (name : Str) : (backslashes name).length = name.length ∧ '/' ∉ backslashes name ∧
    ∀ (i : Nat) (c : Char), name[i]? = some c → (backslashes name)[i]? = some (if c = '/' then '\\' else c) := by
  refine ⟨by simp [backslashes], ?_, ?_⟩
  · intro h
    simp only [backslashes, List.mem_map] at h
    obtain ⟨c, _, hc⟩ := h
    split at hc
    · revert hc; decide
    · rename_i hne; exact hne hc
  · intro i c h
    simp [backslashes, List.getElem?_map, h]

/-- What is handed to the system (converted if that was chosen): the name of which each
    slash is replaced.  The library is loaded if and only if the system opens this name,
    with these flags. -/
theorem C73_opened (L : Loader) (C : Cfg) (name : Str) (hn : name ≠ []) (flags : Int) (s : St) (hs : s.handle = none) :
    ∃ k w, (if !C.wide && C.convert then L.widen s.clock (backslashes name) = w ∧ k = s.clock + 1 else w = some (backslashes name) ∧ k = s.clock) ∧
      (loadLibArgs L C (some name) flags s).2.handle = (w.bind fun w => (L.load k w flags).1) ∧
      ((loadLibArgs L C (some name) flags s).1 = true ↔ (loadLibArgs L C (some name) flags s).2.handle ≠ none) := by
  have hb : (if name.contains '/' then backslashes name else name) = backslashes name := by
    split
    · rfl
    · rename_i h
      simp only [List.contains_iff_mem, Bool.not_eq_true] at h
      have h' : '/' ∉ name := by simpa using h
      unfold backslashes
      rw [List.map_congr_left (g := id)]
      · simp
      · intro c hc
        have : c ≠ '/' := fun he => h' (he ▸ hc)
        simp [this]
  have hl : loadLibArgs L C (some name) flags s =
      if libIsLoaded (loadLibrary L C name flags (clearError s)) then (true, loadLibrary L C name flags (clearError s))
      else (false, saveError name (loadLibrary L C name flags (clearError s))) := by
    unfold loadLibArgs
    dsimp only
    have h1 : libIsLoaded (clearError s) = false := by simp [libIsLoaded, clearError, hs]
    rw [h1]
    simp only [Option.getD_some, hn, Bool.false_eq_true, if_false]
  have hh : (loadLibArgs L C (some name) flags s).2.handle = (loadLibrary L C name flags (clearError s)).handle ∧
      ((loadLibArgs L C (some name) flags s).1 = true ↔ (loadLibArgs L C (some name) flags s).2.handle ≠ none) := by
    rw [hl]
    split
    · rename_i h
      exact ⟨rfl, by simpa [libIsLoaded, Option.isSome_iff_ne_none] using h⟩
    · rename_i h
      refine ⟨rfl, ?_⟩
      have : (loadLibrary L C name flags (clearError s)).handle = none := by simpa [libIsLoaded] using h
      simp [saveError, saveToErrbuf, setErrno, this]
  suffices hsuf : ∃ k w, (if !C.wide && C.convert then L.widen s.clock (backslashes name) = w ∧ k = s.clock + 1 else w = some (backslashes name) ∧ k = s.clock) ∧
      (loadLibrary L C name flags (clearError s)).handle = (w.bind fun w => (L.load k w flags).1) by
    obtain ⟨k, w, h1, h2⟩ := hsuf
    exact ⟨k, w, h1, hh.1.trans h2, hh.2⟩
  unfold loadLibrary loadLibraryEx
  rw [hb]
  dsimp only
  split
  · refine ⟨s.clock + 1, L.widen s.clock (backslashes name), ⟨rfl, rfl⟩, ?_⟩
    cases hw : L.widen (clearError s).clock (backslashes name) with
    | some w =>
      have hw' : L.widen s.clock (backslashes name) = some w := hw
      rw [hw']
      rfl
    | none =>
      have hw' : L.widen s.clock (backslashes name) = none := hw
      rw [hw']
      rfl
  · exact ⟨s.clock, some (backslashes name), ⟨rfl, rfl⟩, rfl⟩

/-- The calls that load a library: the given name or the default one, with the given flags
    or the default ones. -/
theorem C73_called (L : Loader) (C : Cfg) (s : St) (hs : s.handle = none) :
    (∀ name flags ns, name ≠ [] → ∃ ok t, step L C s (.loadLibArgs (some name) flags ns) = .ret (.bool ok) t ∧
      (ok = true ↔ t.handle ≠ none) ∧
      ∃ k w, (if !C.wide && C.convert then L.widen s.clock (backslashes name) = w ∧ k = s.clock + 1 else w = some (backslashes name) ∧ k = s.clock) ∧
        t.handle = (w.bind fun w => (L.load k w flags).1)) ∧
    (∀ name ns, step L C s (.loadLibName name) = step L C s (.loadLibArgs name C.flags ns)) ∧
    (∀ ns, step L C s .loadLib = step L C s (.loadLibArgs (some C.lib) C.flags ns)) := by
  refine ⟨?_, fun name ns => rfl, fun ns => rfl⟩
  intro name flags ns hn
  obtain ⟨k, w, h1, h2, h3⟩ := C73_opened L C name hn flags s hs
  exact ⟨_, _, rfl, h3, k, w, h1, h2⟩

example : backslashes (str% "C:/lib/x.dll") = str% "C:\\lib\\x.dll" := by decide

/-! ### C74 -/

/-- The saved path was named by the system for the library that is loaded. -/
def PInv (s : St) : Prop := s.libpath ≠ [] → s.handle ≠ none ∧ Named s.libpath s.log

/-- Handle and path stay, the library was neither opened nor closed. -/
def Ext (s t : St) : Prop := t.handle = s.handle ∧ t.libpath = s.libpath ∧ ∃ b, t.log = s.log ++ b ∧ Quiet b

theorem Ext.refl (s : St) : Ext s s := ⟨rfl, rfl, [], by simp, by intro e he; cases he⟩

theorem Ext.trans {s t u : St} (h1 : Ext s t) (h2 : Ext t u) : Ext s u := by
  obtain ⟨a1, a2, b, a3, a4⟩ := h1
  obtain ⟨c1, c2, d, c3, c4⟩ := h2
  refine ⟨by rw [c1, a1], by rw [c2, a2], b ++ d, by rw [c3, a3]; simp, ?_⟩
  intro e he
  rcases List.mem_append.mp he with h | h
  · exact a4 e h
  · exact c4 e h

theorem Ext.pinv {s t : St} (h : Ext s t) (hs : PInv s) : PInv t := by
  obtain ⟨h1, h2, b, h3, h4⟩ := h
  intro hp
  rw [h2] at hp
  obtain ⟨k1, x, y, k2, k3⟩ := hs hp
  refine ⟨by rw [h1]; exact k1, x, y ++ b, by rw [h3, h2, k2]; simp, ?_⟩
  intro e he
  rcases List.mem_append.mp he with h | h
  · exact k3 e h
  · exact h4 e h

theorem pinv_empty {s : St} (h : s.libpath = []) : PInv s := fun hp => absurd h hp

theorem ext_gdoSym (L : Loader) (x : Ptr) (name : Str) (i : Nat) (s : St) : Ext s (setPtr i (gdoSym L x name s).1 (gdoSym L x name s).2) := by
  unfold gdoSym setPtr
  dsimp only
  split <;> exact ⟨rfl, rfl, [.sym x name (L.sym s.clock x name).1], rfl, by simp [Quiet]⟩

theorem ext_loadOne (L : Loader) (x : Ptr) (name : Str) (i : Nat) (s : St) : Ext s (loadOne L x i name s).2 := by
  unfold loadOne
  split
  · exact Ext.refl s
  · exact ext_gdoSym L x name i s

theorem ext_loadLoop (L : Loader) (x : Ptr) (l : List Str) : ∀ (i : Nat) (s : St), Ext s (loadLoop L x i l s).2 := by
  induction l with
  | nil => intro i s; exact Ext.refl s
  | cons name r ih =>
    intro i s
    unfold loadLoop
    dsimp only
    split
    · exact (ext_gdoSym L x name i s).trans (ih _ _)
    · exact ext_gdoSym L x name i s

theorem kept_path (L : Loader) (C : Cfg) : KeptRet L C PInv where
  load s n f h := by
    unfold loadLibArgs
    dsimp only
    split
    · exact h
    · rename_i hh
      have hn : s.handle = none := by simpa [libIsLoaded, clearError] using hh
      have hp : s.libpath = [] := by
        by_cases hp : s.libpath = []
        · exact hp
        · exact absurd hn (h hp).1
      split
      · exact h
      · have : (loadLibrary L C (n.getD []) f (clearError s)).libpath = s.libpath := (loadLibrary_fields _ f (clearError s)).1
        split
        · exact pinv_empty (this.trans hp)
        · exact pinv_empty (this.trans hp)
  free s h := by
    unfold freeLib
    dsimp only
    split
    · split
      · exact pinv_empty rfl
      · rename_i x _ hr
        refine Ext.pinv (s := s) ⟨rfl, rfl, [.closed x (callFree L x false (clearError s)).1 false], rfl, ?_⟩ h
        intro e he
        simp at he hr
        subst he
        simp [hr]
    · exact pinv_empty rfl
  force s h := by
    unfold forceFreeLib
    dsimp only
    split <;> exact pinv_empty rfl
  auto s h := by
    unfold enableAutorelease
    dsimp only
    split
    · exact h
    · split <;> exact h
  all s h := by
    unfold loadAllSymbols
    dsimp only
    split
    · exact h
    · split
      · exact h
      · exact (ext_loadLoop L _ _ _ (clearError s)).pinv h
  one s n h := by
    unfold loadSymbol
    dsimp only
    split
    · exact h
    · split
      · exact (ext_loadOne L _ _ _ (clearError s)).pinv h
      · exact h
  name s n r h hr := by
    unfold loadSymbolName at hr
    dsimp only at hr
    split at hr
    · cases hr; exact h
    · split at hr
      · cases hr; exact h
      · simp only [Option.map_eq_some_iff] at hr
        obtain ⟨f, _, rfl⟩ := hr
        cases f with
        | none => exact h
        | some q => exact (ext_loadOne L _ _ _ (clearError s)).pinv h
  last s h := by
    unfold lastError
    dsimp only
    split <;> exact h
  path s h := by
    unfold libraryPath
    dsimp only
    split
    · exact h
    · rename_i x hx
      split
      · exact h
      · split
        · rename_i hr
          unfold queryPath at hr ⊢
          dsimp only at hr ⊢
          split at hr
          · cases hr
          · split at hr
            · cases hr
            · rename_i p _ hp
              rw [if_neg hp]
              intro _
              exact ⟨by show s.handle ≠ none; rw [show s.handle = some x from hx]; simp, s.log ++ [.info x], [], by simp [clearError], by intro e he; cases he⟩
        · exact pinv_empty rfl

/-- A path that is returned is that of the library that is loaded: the system named it
    since the library was loaded, and it is neither empty nor cut. -/
theorem C74_path (L : Loader) (C : Cfg) (calls : List Call) (s : St) (hr : run L C {} calls = .ret () s) (p : Str)
    (h : (libraryPath L C s).1 = some p) : s.handle ≠ none ∧ p ≠ [] ∧ Named p (libraryPath L C s).2.log := by
  have h1 : PInv (libraryPath L C s).2 := (kept_path L C).path _ ((kept_path L C).run calls (s := {}) (pinv_empty rfl) hr)
  have h2 : (libraryPath L C s).2.libpath = p ∧ s.handle ≠ none ∧ p ≠ [] := by
    unfold libraryPath at h ⊢
    dsimp only at h ⊢
    split at h
    · cases h
    · rename_i x hx
      have hx' : s.handle ≠ none := by rw [show s.handle = some x from hx]; simp
      split at h
      · rename_i hp
        rw [if_pos hp]
        cases h
        exact ⟨rfl, hx', hp⟩
      · rename_i hp
        rw [if_neg hp]
        split at h
        · rename_i hq
          rw [if_pos hq]
          cases h
          refine ⟨rfl, hx', ?_⟩
          unfold queryPath at hq ⊢
          dsimp only at hq ⊢
          split at hq
          · cases hq
          · split at hq
            · cases hq
            · rename_i q _ hp
              rw [if_neg hp]
              intro h0
              have : q = [] := h0
              exact hp (Or.inl (by simp [this]))
        · cases h
  have := h1 (by rw [h2.1]; exact h2.2.2)
  rw [h2.1] at this
  exact ⟨h2.2.1, h2.2.2, this.2⟩

/-- The path the system names is returned if it fits; a failure saves nothing. -/
theorem C74_found (L : Loader) (C : Cfg) (s : St) (x : Ptr) (hx : s.handle = some x) (hp : s.libpath = []) (p : Str)
    (h : (L.fileName s.clock x).1 = some p) : (libraryPath L C s).1 = if p ≠ [] ∧ p.length < bufLen then some p else none := by
  unfold libraryPath
  dsimp only
  have h1 : (clearError s).handle = some x := hx
  have h2 : ¬ (clearError s).libpath ≠ [] := by simpa [clearError] using hp
  rw [h1]
  simp only
  rw [if_neg h2]
  have hf : (L.fileName (clearError s).clock x).1 = some p := h
  have hq : (queryPath L C x (clearError s)).1 = decide (p ≠ [] ∧ p.length < bufLen) ∧
      ((queryPath L C x (clearError s)).1 = true → (queryPath L C x (clearError s)).2.libpath = p) := by
    unfold queryPath
    simp only [hf]
    split
    · rename_i hc
      refine ⟨?_, fun h0 => by cases h0⟩
      rw [eq_comm, decide_eq_false_iff_not]
      rintro ⟨a, b⟩
      rcases hc with hc | hc
      · exact a (List.length_eq_zero_iff.mp hc)
      · omega
    · rename_i hc
      refine ⟨?_, fun _ => rfl⟩
      rw [eq_comm, decide_eq_true_iff]
      refine ⟨fun h0 => hc (Or.inl (by simp [h0])), ?_⟩
      have : ¬ p.length ≥ bufLen := fun h0 => hc (Or.inr h0)
      omega
  by_cases hc : p ≠ [] ∧ p.length < bufLen
  · have h1 : (queryPath L C x (clearError s)).1 = true := by rw [hq.1]; exact decide_eq_true hc
    rw [if_pos h1, if_pos hc, hq.2 h1]
  · have h1 : ¬ (queryPath L C x (clearError s)).1 = true := by rw [hq.1, decide_eq_true_iff]; exact hc
    rw [if_neg h1, if_neg hc]

/-- Without a library there is no path. -/
theorem C74_none (L : Loader) (C : Cfg) (s : St) (h : s.handle = none) : (libraryPath L C s).1 = none := by
  unfold libraryPath
  dsimp only
  have h1 : (clearError s).handle = none := h
  rw [h1]

example : (libraryPath demoLoader demoCfg { handle := some 100 }).1 = some (str% "C:\\x.dll") := by decide

end Gdo.Win
