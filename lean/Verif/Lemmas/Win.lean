import Verif.Lemmas.Runtime
import Verif.Spec.Win

/-!
The invariant of the generated C code on Windows: that of the other systems
(`Verif/Lemmas/Runtime.lean`), and that of the cached message.
-/

namespace Gdo.Win
open Gdo RtSpec
open Gdo.Rt (Ptr Ev Mode Call Val caseOf foundName printfS Inv inv_open inv_sym inv_info inv_path inv_closed inv_closeFailed)
open WinSpec

section
variable {L : Loader} {C : Cfg}

/-- The invariant of a state. -/
abbrev SInv (C : Cfg) (s : St) : Prop := Inv C.toCfg s.handle s.ptr s.log

theorem inv_init (C : Cfg) : SInv C {} := Rt.inv_init C.toCfg

theorem inv_callLoad {s : St} (h : SInv C s) (hh : s.handle = none) (name : Str) (flags : Int) :
    SInv C { (callLoad L name flags s).2 with handle := (callLoad L name flags s).1 } := by
  have h0 : Inv C.toCfg none s.ptr s.log := by rw [← hh]; exact h
  unfold callLoad
  dsimp only
  cases (L.load s.clock name flags).1 with
  | none => exact h0
  | some x => exact inv_open x h0

theorem inv_loadLibrary {s : St} (h : SInv C s) (hh : s.handle = none) (name : Str) (flags : Int) :
    SInv C (loadLibrary L C name flags s) := by
  unfold loadLibrary loadLibraryEx
  dsimp only
  generalize (if name.contains '/' = true then backslashes name else name) = nm
  split
  · split
    · exact inv_callLoad (s := { s with clock := s.clock + 1 }) h hh _ _
    · show Inv C.toCfg none s.ptr s.log
      rw [← hh]; exact h
  · exact inv_callLoad h hh _ _

theorem inv_loadLibArgs {s : St} (h : SInv C s) (name : Option Str) (flags : Int) : SInv C (loadLibArgs L C name flags s).2 := by
  unfold loadLibArgs
  dsimp only
  split
  · exact h
  · rename_i hh
    have hh' : (clearError s).handle = none := by simpa [libIsLoaded] using hh
    split
    · exact h
    · split
      · exact inv_loadLibrary (s := clearError s) h hh' _ _
      · exact inv_loadLibrary (s := clearError s) h hh' _ _

theorem inv_setNull {s : St} (h : SInv C s) (hn : s.handle = none) : SInv C (setNull C s) := by
  have h0 : Inv C.toCfg none s.ptr s.log := by rw [← hn]; exact h
  refine ⟨?_, h.only, ?_⟩
  · intro x; exact h0.count x
  · intro i p hp
    simp only [setNull] at hp
    rw [h0.null] at hp
    simp at hp

theorem inv_freeLib {s : St} (h : SInv C s) : SInv C (freeLib L C s).2 := by
  unfold freeLib
  dsimp only
  show SInv C (match s.handle with | some _ => _ | none => _ : Bool × St).2
  cases hx : s.handle with
  | some x =>
    have h0 : Inv C.toCfg (some x) s.ptr s.log := by rw [← hx]; exact h
    dsimp only
    split
    · rename_i hr
      have : SInv C (setNull C (callFree L x false (clearError s)).2) :=
        inv_closed (ok := (callFree L x false (clearError s)).1) h0 (Or.inl hr) (fun i => by
          show (if i < C.syms.length then none else s.ptr i) = none
          split
          · rfl
          · exact h.bound (by omega))
      exact this
    · rename_i hr
      have hr' : (L.free s.clock x).1 = false := by simpa [callFree, clearError] using hr
      show Inv C.toCfg s.handle s.ptr (s.log ++ [.closed x (L.free s.clock x).1 false])
      rw [hr', hx]
      exact inv_closeFailed h0
  | none => exact inv_setNull (s := clearError s) h hx

theorem inv_forceFreeLib {s : St} (h : SInv C s) : SInv C (forceFreeLib L C s) := by
  unfold forceFreeLib
  dsimp only
  show SInv C (match s.handle with | some _ => _ | none => _ : St)
  cases hx : s.handle with
  | some x =>
    have h0 : Inv C.toCfg (some x) s.ptr s.log := by rw [← hx]; exact h
    exact inv_closed h0 (Or.inr rfl) (fun i => by
      show (if i < C.syms.length then none else s.ptr i) = none
      split
      · rfl
      · exact h.bound (by omega))
  | none => exact inv_setNull (s := clearError s) h hx

theorem forceFreeLib_handle (s : St) : (forceFreeLib L C s).handle = none := by
  unfold forceFreeLib
  dsimp only
  split <;> rfl

theorem inv_enableAutorelease {s : St} (h : SInv C s) : SInv C (enableAutorelease L C s).2 := by
  unfold enableAutorelease
  dsimp only
  split
  · exact h
  · split <;> exact h

theorem gdoSym_fields (x : Ptr) (name : Str) (s : St) :
    (gdoSym L x name s).1 = (L.sym s.clock x name).1 ∧ (gdoSym L x name s).2.handle = s.handle ∧
    (gdoSym L x name s).2.ptr = s.ptr ∧ (gdoSym L x name s).2.log = s.log ++ [.sym x name (L.sym s.clock x name).1] ∧
    (gdoSym L x name s).2.clock = s.clock + 1 := by
  unfold gdoSym
  dsimp only
  split <;> exact ⟨rfl, rfl, rfl, rfl, rfl⟩

theorem inv_gdoSym {s : St} (h : SInv C s) {x : Ptr} (hx : s.handle = some x) {i : Nat} {name : Str} (hn : C.syms[i]? = some name) :
    SInv C (setPtr i (gdoSym L x name s).1 (gdoSym L x name s).2) ∧
    (setPtr i (gdoSym L x name s).1 (gdoSym L x name s).2).handle = some x := by
  obtain ⟨h1, h2, h3, h4, _⟩ := gdoSym_fields (L := L) x name s
  have h0 : Inv C.toCfg (some x) s.ptr s.log := by rw [← hx]; exact h
  refine ⟨?_, by simp only [setPtr]; rw [h2, hx]⟩
  simp only [SInv, setPtr]
  rw [h1, h2, h3, h4, hx]
  exact inv_sym _ h0 hn

theorem inv_loadLoop {x : Ptr} (l : List Str) : ∀ (i : Nat) (s : St), SInv C s → s.handle = some x → (∀ k name, l[k]? = some name → C.syms[i + k]? = some name) →
    SInv C (loadLoop L x i l s).2 ∧ (loadLoop L x i l s).2.handle = some x := by
  induction l with
  | nil => intro i s h hx _; exact ⟨h, hx⟩
  | cons name r ih =>
    intro i s h hx hl
    unfold loadLoop
    dsimp only
    have hn := hl 0 name rfl
    have := inv_gdoSym (L := L) h hx hn
    split
    · refine ih (i + 1) _ this.1 this.2 ?_
      intro k n hk
      have := hl (k + 1) n (by simpa using hk)
      rw [show i + 1 + k = i + (k + 1) by omega]
      exact this
    · exact this

theorem inv_loadAllSymbols {s : St} (h : SInv C s) : SInv C (loadAllSymbols L C s).2 := by
  unfold loadAllSymbols
  dsimp only
  split
  · exact h
  · show SInv C (match s.handle with | none => _ | some _ => _ : Bool × St).2
    cases hx : s.handle with
    | none => exact h
    | some x => exact (inv_loadLoop (L := L) (C := C) C.syms 0 (clearError s) h hx (by simp)).1

theorem inv_loadOne {s : St} (h : SInv C s) {x : Ptr} (hx : s.handle = some x) {i : Nat} {name : Str} (hn : C.syms[i]? = some name) :
    SInv C (loadOne L x i name s).2 := by
  unfold loadOne
  split
  · exact h
  · exact (inv_gdoSym h hx hn).1

theorem inv_loadSymbol {s : St} (h : SInv C s) (num : Int) : SInv C (loadSymbol L C num s).2 := by
  unfold loadSymbol
  dsimp only
  show SInv C (match s.handle with | none => _ | some _ => _ : Bool × St).2
  cases hx : s.handle with
  | none => exact h
  | some x =>
    dsimp only
    split
    · rename_i i name hc
      exact inv_loadOne (s := clearError s) h hx (Rt.caseOf_some hc).2
    · exact h

theorem inv_loadSymbolName {s : St} (h : SInv C s) {name : Option Str} {r : Bool × St} (hr : loadSymbolName L C name s = some r) :
    SInv C r.2 := by
  unfold loadSymbolName at hr
  dsimp only at hr
  split at hr
  · cases hr; exact h
  · rename_i x hx
    split at hr
    · cases hr; exact h
    · simp only [Option.map_eq_some_iff] at hr
      obtain ⟨f, hf, rfl⟩ := hr
      cases f with
      | none => exact h
      | some q =>
        obtain ⟨i, cur⟩ := q
        unfold foundName at hf
        split at hf
        · have := Rt.findName_some hf
          exact inv_loadOne (s := clearError s) h hx (by simpa using this.2)
        · cases hf

theorem inv_lastError {s : St} (h : SInv C s) : SInv C (lastError L C s).2 := by
  unfold lastError
  dsimp only
  split <;> exact h

theorem inv_queryPath {s : St} (h : SInv C s) {x : Ptr} (hx : s.handle = some x) : SInv C (queryPath L C x s).2 := by
  have h0 : Inv C.toCfg s.handle s.ptr (s.log ++ [.info x]) := by rw [hx]; exact inv_info (by rw [← hx]; exact h)
  unfold queryPath
  dsimp only
  split
  · exact h0
  · split
    · exact h0
    · exact inv_path _ h0

theorem inv_libraryPath {s : St} (h : SInv C s) : SInv C (libraryPath L C s).2 := by
  unfold libraryPath
  dsimp only
  show SInv C (match s.handle with | none => _ | some _ => _ : Option Str × St).2
  cases hx : s.handle with
  | none => exact h
  | some x =>
    dsimp only
    split
    · exact h
    · have := inv_queryPath (L := L) (s := clearError s) h hx
      split <;> exact this

theorem inv_runHandlers : ∀ (n : Nat) {s : St}, SInv C s → SInv C (runHandlers L C n s)
  | 0, _, h => h
  | n + 1, _, h => inv_runHandlers n (inv_forceFreeLib h)

theorem inv_loadLibName {s : St} (h : SInv C s) (n : Option Str) : SInv C (loadLibName L C n s).2 := inv_loadLibArgs h ..

theorem inv_loadLib {s : St} (h : SInv C s) : SInv C (loadLib L C s).2 := inv_loadLibArgs h ..

theorem inv_andSymbols {r : Bool × St} (h : SInv C r.2) : SInv C (andSymbols L C r).2 := by
  unfold andSymbols
  split
  · exact inv_loadAllSymbols h
  · exact h

theorem inv_autoloadLib {s : St} (h : SInv C s) : SInv C (autoloadLib L C s) := by
  unfold autoloadLib
  dsimp only
  split
  · exact inv_enableAutorelease h
  · exact inv_loadLib (inv_enableAutorelease h)

theorem inv_printError {s t : St} (h : SInv C s) {fmt sym msg : Str} (ht : printError C fmt sym msg s = some t) : SInv C t := by
  unfold printError at ht
  simp only [Option.map_eq_some_iff] at ht
  obtain ⟨_, _, rfl⟩ := ht
  split <;> exact h

/-- A predicate holds in the final state, if there is one. -/
def OutAll (P : St → Prop) {α : Type} (o : Out α) : Prop := ∀ s, stateAfter o = some s → P s

/-- A property of states that the basic functions preserve. -/
structure KeptRet (L : Loader) (C : Cfg) (P : St → Prop) : Prop where
  load : ∀ s n f, P s → P (loadLibArgs L C n f s).2
  free : ∀ s, P s → P (freeLib L C s).2
  force : ∀ s, P s → P (forceFreeLib L C s)
  auto : ∀ s, P s → P (enableAutorelease L C s).2
  all : ∀ s, P s → P (loadAllSymbols L C s).2
  one : ∀ s n, P s → P (loadSymbol L C n s).2
  name : ∀ s n r, P s → loadSymbolName L C n s = some r → P r.2
  last : ∀ s, P s → P (lastError L C s).2
  path : ∀ s, P s → P (libraryPath L C s).2

/-- It is preserved also by the printing that is followed by the end of the process. -/
structure Kept (L : Loader) (C : Cfg) (P : St → Prop) : Prop extends KeptRet L C P where
  print : ∀ s t fmt sym msg, P s → printError C fmt sym msg s = some t → P t

variable {P : St → Prop}

theorem Kept.runHandlers (k : Kept L C P) : ∀ (n : Nat) {s : St}, P s → P (runHandlers L C n s)
  | 0, _, h => h
  | n + 1, _, h => k.runHandlers n (k.force _ h)

theorem KeptRet.andSymbols (k : KeptRet L C P) {r : Bool × St} (h : P r.2) : P (andSymbols L C r).2 := by
  unfold Win.andSymbols
  split
  · exact k.all _ h
  · exact h

theorem KeptRet.autoloadLib (k : KeptRet L C P) {s : St} (h : P s) : P (autoloadLib L C s) := by
  unfold Win.autoloadLib
  dsimp only
  split
  · exact k.auto _ h
  · exact k.load _ _ _ (k.auto _ h)

theorem Kept.autoloadFailed (k : Kept L C P) {s : St} (h : P s) (sym : Str) : OutAll P (autoloadFailed L C sym s) := by
  unfold Win.autoloadFailed
  dsimp only
  intro t ht
  split at ht
  · cases ht
  · rename_i s' hs'
    simp only [stateAfter, Option.some.injEq] at ht
    subst ht
    exact k.runHandlers _ (k.force _ (k.print _ _ _ _ _ (k.last _ h) hs'))

theorem Kept.wrapCheckLoaded (k : Kept L C P) {s : St} (h : P s) (i : Nat) : OutAll P (wrapCheckLoaded L C i s) := by
  unfold Win.wrapCheckLoaded
  dsimp only
  split
  · intro t ht; cases ht; exact h
  · split
    · intro t ht
      split at ht
      · cases ht
      · rename_i s' hs'
        cases ht
        exact k.print _ _ _ _ _ h hs'
    · split
      · intro t ht; cases ht; exact k.all _ (k.autoloadLib h)
      · exact k.autoloadFailed (k.all _ (k.autoloadLib h)) _
    · split
      · intro t ht; cases ht; exact k.one _ _ (k.autoloadLib h)
      · exact k.autoloadFailed (k.one _ _ (k.autoloadLib h)) _

theorem Kept.wrapper (k : Kept L C P) {s : St} (h : P s) (i : Nat) : OutAll P (wrapper L C i s) := by
  have hw := k.wrapCheckLoaded h i
  unfold Win.wrapper
  intro t ht
  split at ht
  · rename_i s' he
    rw [he] at hw
    split at ht
    · cases ht; exact hw _ rfl
    · cases ht
  · rename_i he; rw [he] at hw; cases ht; exact hw _ rfl
  · rename_i he; rw [he] at hw; cases ht; exact hw _ rfl
  · cases ht

theorem outAll_ofBool {r : Bool × St} (h : P r.2) : OutAll P (ofBool r) := by
  intro t ht; cases ht; exact h

theorem Kept.step (k : Kept L C P) {s : St} (h : P s) (c : Call) : OutAll P (step L C s c) := by
  cases c with
  | loadLib => exact outAll_ofBool (k.load _ _ _ h)
  | loadLibAndSymbols => exact outAll_ofBool (k.andSymbols (k.load _ _ _ h))
  | loadLibName n => exact outAll_ofBool (k.load _ _ _ h)
  | loadLibNameAndSymbols n => exact outAll_ofBool (k.andSymbols (k.load _ _ _ h))
  | loadLibArgs n f ns => exact outAll_ofBool (k.load _ _ _ h)
  | libIsLoaded => exact outAll_ofBool h
  | freeLib => exact outAll_ofBool (k.free _ h)
  | forceFreeLib => intro t ht; cases ht; exact k.force _ h
  | enableAutorelease => exact outAll_ofBool (k.auto _ h)
  | allSymbolsLoaded => exact outAll_ofBool h
  | noSymbolsLoaded => exact outAll_ofBool h
  | anySymbolLoaded => exact outAll_ofBool h
  | loadAllSymbols => exact outAll_ofBool (k.all _ h)
  | loadSymbol n => exact outAll_ofBool (k.one _ _ h)
  | loadSymbolName n =>
    simp only [Win.step]
    split
    · rename_i r hr
      exact outAll_ofBool (k.name _ _ _ h hr)
    · intro t ht; cases ht
  | lastError => intro t ht; cases ht; exact k.last _ h
  | libraryPath => intro t ht; cases ht; exact k.path _ h
  | wrapped i =>
    simp only [Win.step]
    split
    · have hw := k.wrapper h i
      intro t ht
      split at ht
      · rename_i he; rw [he] at hw; cases ht; exact hw _ rfl
      · rename_i he; rw [he] at hw; cases ht; exact hw _ rfl
      · rename_i he; rw [he] at hw; cases ht; exact hw _ rfl
      · cases ht
    · intro t ht; cases ht; exact h

theorem Kept.run (k : Kept L C P) : ∀ (cs : List Call) {s : St}, P s → OutAll P (run L C s cs)
  | [], _, h => by intro t ht; cases ht; exact h
  | c :: r, s, h => by
    have hs := k.step h c
    unfold Win.run
    split
    · rename_i he; rw [he] at hs; exact k.run r (hs _ rfl)
    · rename_i he; rw [he] at hs; intro t ht; cases ht; exact hs _ rfl
    · rename_i he; rw [he] at hs; intro t ht; cases ht; exact hs _ rfl
    · intro t ht; cases ht

theorem Kept.finish (k : Kept L C P) (cs : List Call) (h : P {}) : OutAll P (finish L C cs) := by
  have hr := k.run cs h
  unfold Win.finish
  intro t ht
  split at ht
  · rename_i he; rw [he] at hr; cases ht; exact k.runHandlers _ (hr _ rfl)
  · exact hr t ht

/-! For calls that return. -/

theorem autoloadFailed_ret {sym : Str} {s t : St} {u : Unit} : autoloadFailed L C sym s ≠ .ret u t := by
  unfold Win.autoloadFailed
  dsimp only
  intro h
  split at h <;> cases h

/-- How the check of a wrapper function can return. -/
theorem wrapCheckLoaded_ret {i : Nat} {s t : St} {u : Unit} (h : wrapCheckLoaded L C i s = .ret u t) :
    ((s.ptr i).isSome = true ∧ t = s) ∨
    ((loadAllSymbols L C (autoloadLib L C s)).1 = true ∧ t = (loadAllSymbols L C (autoloadLib L C s)).2) ∨
    ((loadSymbol L C i (autoloadLib L C s)).1 = true ∧ t = (loadSymbol L C i (autoloadLib L C s)).2) := by
  unfold Win.wrapCheckLoaded at h
  dsimp only at h
  split at h
  · rename_i p hp; cases h; exact Or.inl ⟨by simp [hp], rfl⟩
  · split at h
    · split at h <;> cases h
    · split at h
      · rename_i hr; cases h; exact Or.inr (Or.inl ⟨hr, rfl⟩)
      · exact absurd h autoloadFailed_ret
    · split at h
      · rename_i hr; cases h; exact Or.inr (Or.inr ⟨hr, rfl⟩)
      · exact absurd h autoloadFailed_ret

theorem wrapper_ret {i : Nat} {s t : St} {p : Ptr} (h : wrapper L C i s = .ret p t) : wrapCheckLoaded L C i s = .ret () t ∧ t.ptr i = some p := by
  unfold Win.wrapper at h
  split at h
  · rename_i s' he
    split at h
    · rename_i q hq
      cases h
      exact ⟨he, hq⟩
    · cases h
  · cases h
  · cases h
  · cases h

theorem KeptRet.step (k : KeptRet L C P) {s t : St} (h : P s) {c : Call} {v : Val} (hs : step L C s c = .ret v t) : P t := by
  cases c with
  | loadLib => cases hs; exact k.load _ _ _ h
  | loadLibAndSymbols => cases hs; exact k.andSymbols (k.load _ _ _ h)
  | loadLibName n => cases hs; exact k.load _ _ _ h
  | loadLibNameAndSymbols n => cases hs; exact k.andSymbols (k.load _ _ _ h)
  | loadLibArgs n f ns => cases hs; exact k.load _ _ _ h
  | libIsLoaded => cases hs; exact h
  | freeLib => cases hs; exact k.free _ h
  | forceFreeLib => cases hs; exact k.force _ h
  | enableAutorelease => cases hs; exact k.auto _ h
  | allSymbolsLoaded => cases hs; exact h
  | noSymbolsLoaded => cases hs; exact h
  | anySymbolLoaded => cases hs; exact h
  | loadAllSymbols => cases hs; exact k.all _ h
  | loadSymbol n => cases hs; exact k.one _ _ h
  | loadSymbolName n =>
    simp only [Win.step] at hs
    split at hs
    · rename_i r hr
      cases hs
      exact k.name _ _ _ h hr
    · cases hs
  | lastError => cases hs; exact k.last _ h
  | libraryPath => cases hs; exact k.path _ h
  | wrapped i =>
    simp only [Win.step] at hs
    split at hs
    · split at hs
      · rename_i he
        cases hs
        rcases wrapCheckLoaded_ret (wrapper_ret he).1 with ⟨_, rfl⟩ | ⟨_, rfl⟩ | ⟨_, rfl⟩
        · exact h
        · exact k.all _ (k.autoloadLib h)
        · exact k.one _ _ (k.autoloadLib h)
      all_goals cases hs
    · cases hs; exact h

theorem KeptRet.run (k : KeptRet L C P) : ∀ (cs : List Call) {s t : St} {u : Unit}, P s → run L C s cs = .ret u t → P t
  | [], _, _, _, h, hr => by cases hr; exact h
  | c :: r, s, t, u, h, hr => by
    unfold Win.run at hr
    split at hr
    · rename_i he; exact k.run r (k.step h he) hr
    all_goals cases hr

theorem kept_inv (L : Loader) (C : Cfg) : Kept L C (SInv C) where
  load _ _ _ h := inv_loadLibArgs h _ _
  free _ h := inv_freeLib h
  force _ h := inv_forceFreeLib h
  auto _ h := inv_enableAutorelease h
  all _ h := inv_loadAllSymbols h
  one _ _ h := inv_loadSymbol h _
  name _ _ _ h hr := inv_loadSymbolName h hr
  last _ h := inv_lastError h
  path _ h := inv_libraryPath h
  print _ _ _ _ _ h ht := inv_printError h ht

end

end Gdo.Win
