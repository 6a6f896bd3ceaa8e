import Verif.Props.Runtime

/-!
Properties C46-C48 and C63: error messages of the generated C code.
-/

namespace Gdo.Rt
open Gdo RtSpec

/-! ### C46 -/

/-- A text that tells about an error. -/
def Told (m : Str) : Prop := m ≠ [] ∧ m ≠ str% "no error"

/-- The loader has a message for every failure. -/
structure Tells (L : Loader) : Prop where
  dlopen : ∀ t n f ns, (L.dlopen t n f ns).1 = none → ∃ m, (L.dlopen t n f ns).2 = some m ∧ Told m
  dlsym : ∀ t h n, (L.dlsym t h n).1 = none → ∃ m, (L.dlsym t h n).2 = some m ∧ Told m
  dlclose : ∀ t h, (L.dlclose t h).1 = false → ∃ m, (L.dlclose t h).2 = some m ∧ Told m
  dlinfo : ∀ t h, (L.dlinfo t h).1 = none → ∃ m, (L.dlinfo t h).2 = some m ∧ Told m

theorem told_fit {m : Str} (h : Told m) : Told (fit m) := by
  obtain ⟨h1, h2⟩ := h
  by_cases hl : m.length ≤ bufLen - 1
  · rw [fit, List.take_of_length_le hl]
    exact ⟨h1, h2⟩
  · have hlen : (fit m).length = bufLen - 1 := by
      rw [fit, List.length_take]
      omega
    have hb : bufLen = 8192 := rfl
    constructor
    · intro he
      rw [he] at hlen
      simp [hb] at hlen
    · intro he
      rw [he] at hlen
      simp [hb] at hlen

theorem lastError_told {s : St} (h : Told s.errbuf) : (lastError s).1 = s.errbuf ∧ Told (lastError s).1 := by
  unfold lastError
  dsimp only
  rw [if_neg h.1]
  exact ⟨rfl, h⟩

theorem told_saveError {s : St} (h : ∃ m, s.dlerr = some m ∧ Told m) : Told (saveError s).errbuf := by
  obtain ⟨m, hm, ht⟩ := h
  simp only [saveError, saveToErrbuf, hm]
  exact told_fit ht

theorem told_save {m : Str} (s : St) (h : Told m) : Told (saveToErrbuf (some m) s).errbuf := told_fit h

theorem told_noLibrary (s : St) : Told (noLibrary s).errbuf := told_save s ⟨by decide, by decide⟩

/-- `unknown symbol...` -/
theorem told_unknown {m n : Str} (hm : (str% "u").isPrefixOf m = true) : Told (fit (m ++ n)) := by
  apply told_fit
  cases m with
  | nil => simp at hm
  | cons c r =>
    simp at hm
    subst hm
    exact ⟨by simp, by simp⟩

section
variable {L : Loader} {C : Cfg}

theorem told_loadLibArgs (hL : Tells L) {name : Option Str} {flags : Int} {ns : Bool} {s : St} (h : (loadLibArgs L name flags ns s).1 = false) :
    Told (loadLibArgs L name flags ns s).2.errbuf := by
  unfold loadLibArgs at h ⊢
  dsimp only at h ⊢
  split at h
  · rename_i hc
    rw [if_pos hc]
    exact told_save _ ⟨by decide, by decide⟩
  · rename_i hc
    rw [if_neg hc]
    split at h
    · rename_i hn
      rw [if_pos hn]
      exact told_save _ ⟨by decide, by decide⟩
    · rename_i hn
      rw [if_neg hn]
      split at h
      · cases h
      · rename_i hd
        rw [if_neg hd]
        refine told_saveError (hL.dlopen _ _ _ _ ?_)
        simpa [libIsLoaded, loadLibrary] using hd

theorem told_freeLib (hL : Tells L) {s : St} (h : (freeLib L C s).1 = false) : Told (freeLib L C s).2.errbuf := by
  unfold freeLib at h ⊢
  dsimp only at h ⊢
  simp only [clearError_handle] at h ⊢
  cases hx : s.handle with
  | none => simp only [hx] at h; cases h
  | some x =>
    simp only [hx] at h ⊢
    split at h
    · cases h
    · rename_i hr
      rw [if_neg hr]
      exact told_saveError (hL.dlclose _ _ (by simpa [callDlclose] using hr))

theorem told_enableAutorelease {s : St} (h : (enableAutorelease L C s).1 = false) : Told (enableAutorelease L C s).2.errbuf := by
  unfold enableAutorelease at h ⊢
  dsimp only at h ⊢
  split at h
  · cases h
  · rename_i hc
    rw [if_neg hc]
    split at h
    · cases h
    · rename_i ha
      rw [if_neg ha]
      exact told_save _ ⟨by simp, by simp⟩

theorem told_gdoSym (hL : Tells L) {x : Ptr} {name : Str} {s : St} (h : (gdoSym L x name s).1 = none) : Told (gdoSym L x name s).2.errbuf := by
  have h' : (L.dlsym s.clock x name).1 = none := by rw [← (gdoSym_fields x name s).1]; exact h
  unfold gdoSym
  dsimp only
  rw [if_neg (by simp [h'])]
  exact told_saveError (hL.dlsym _ _ _ h')

theorem told_loadAllSymbols (hL : Tells L) {s : St} (h : (loadAllSymbols L C s).1 = false) : Told (loadAllSymbols L C s).2.errbuf := by
  cases hx : s.handle with
  | none =>
    unfold loadAllSymbols at h ⊢
    dsimp only at h ⊢
    split at h
    · cases h
    · rename_i ha
      rw [if_neg ha]
      simp only [clearError_handle, hx]
      exact told_noLibrary _
  | some x =>
    obtain ⟨name, t, _, h2, _, h4⟩ := C44_error L C s x hx h
    obtain ⟨m, hm, ht⟩ := hL.dlsym t x name h2
    rw [h4, hm]
    exact told_fit ht

theorem told_loadOne (hL : Tells L) {x : Ptr} {i : Nat} {name : Str} {s : St} (h : (loadOne L x i name s).1 = false) :
    Told (loadOne L x i name s).2.errbuf := by
  unfold loadOne at h ⊢
  cases hp : s.ptr i with
  | some p => simp only [hp] at h; cases h
  | none =>
    simp only [hp] at h ⊢
    exact told_gdoSym hL (by simpa using h)

theorem told_loadSymbol (hL : Tells L) {num : Int} {s : St} (h : (loadSymbol L C num s).1 = false) : Told (loadSymbol L C num s).2.errbuf := by
  unfold loadSymbol at h ⊢
  dsimp only at h ⊢
  simp only [clearError_handle] at h ⊢
  cases hx : s.handle with
  | none => simp only; exact told_noLibrary _
  | some x =>
    simp only [hx] at h ⊢
    cases hc : caseOf C num with
    | none => simp only; exact told_unknown rfl
    | some q =>
      simp only [hc] at h ⊢
      exact told_loadOne hL h

theorem told_loadSymbolName (hL : Tells L) {name : Option Str} {s : St} {r : Bool × St} (hr : loadSymbolName L C name s = some r) (h : r.1 = false) :
    Told r.2.errbuf := by
  unfold loadSymbolName at hr
  dsimp only at hr
  simp only [clearError_handle] at hr
  split at hr
  · cases hr; exact told_noLibrary _
  · split at hr
    · cases hr; exact told_save _ ⟨by decide, by decide⟩
    · simp only [Option.map_eq_some_iff] at hr
      obtain ⟨f, _, rfl⟩ := hr
      cases f with
      | none => exact told_unknown rfl
      | some q => exact told_loadOne hL h

/-- The paths the system names fit into the buffer. -/
structure Short (L : Loader) (C : Cfg) : Prop where
  dladdr : C.haveDladdr = true → ∀ t p f, L.dladdr t p = some f → f.length < bufLen
  dlinfo : C.haveDladdr = false → ∀ t h n, (L.dlinfo t h).1 = some (some n) → n.length < bufLen

theorem firstDladdr_some {ps : List (Option Ptr)} {t : Nat} {f : Str} (h : (firstDladdr L t ps).1 = some f) : ∃ t p, L.dladdr t p = some f := by
  induction ps generalizing t with
  | nil => cases h
  | cons p r ih =>
    cases p with
    | none => exact ih h
    | some p =>
      unfold firstDladdr at h
      split at h
      · exact ih h
      · exact ⟨t, p, h⟩

theorem told_libpathDladdr (hS : Short L C) (hd : C.haveDladdr = true) {s : St} (h : (libpathDladdr L C s).1 = false) :
    Told (libpathDladdr L C s).2.errbuf := by
  unfold libpathDladdr at h ⊢
  dsimp only at h ⊢
  split at h
  · rename_i hn
    rw [if_pos hn]
    exact told_save _ ⟨by decide, by decide⟩
  · rename_i hn
    rw [if_neg hn]
    cases hf : (firstDladdr L (clearError s).clock ((List.range C.syms.length).map (clearError s).ptr)).1 with
    | none => simp only; exact told_save _ ⟨by decide, by decide⟩
    | some p =>
      simp only [hf] at h
      rw [if_neg] at h
      · cases h
      · obtain ⟨t, q, hq⟩ := firstDladdr_some hf
        have := hS.dladdr hd _ _ _ hq
        omega

theorem told_libpathDlinfo (hL : Tells L) (hS : Short L C) (hd : C.haveDladdr = false) {x : Ptr} {s : St} (h : (libpathDlinfo L C x s).1 = false) :
    Told (libpathDlinfo L C x s).2.errbuf := by
  unfold libpathDlinfo at h ⊢
  dsimp only at h ⊢
  cases ha : (L.dlinfo (clearError s).clock x).1 with
  | none =>
    simp only
    exact told_saveError (hL.dlinfo _ _ ha)
  | some l =>
    simp only [ha] at h ⊢
    split at h
    · rename_i hn
      rw [if_pos hn]
      exact told_save _ ⟨by decide, by decide⟩
    · rename_i hn
      cases l with
      | none => exact absurd rfl hn
      | some n =>
        have := hS.dlinfo hd _ _ _ ha
        split at h
        · cases h
        · rw [if_neg (by simp only [Option.getD_some]; omega)] at h
          cases h

theorem told_libraryPathDladdr (hS : Short L C) {s : St} (hs : C.haveDladdr = false → Told s.errbuf) (h : (libraryPathDladdr L C s).1 = none) :
    Told (libraryPathDladdr L C s).2.errbuf := by
  unfold libraryPathDladdr at h ⊢
  dsimp only at h ⊢
  split at h
  · rename_i hd
    rw [if_pos hd]
    split at h
    · cases h
    · rename_i hr
      rw [if_neg hr]
      exact told_libpathDladdr hS hd (by simpa using hr)
  · rename_i hd
    rw [if_neg hd]
    exact hs (by simpa using hd)

theorem told_libraryPath (hL : Tells L) (hS : Short L C) {s : St} (h : (libraryPath L C s).1 = none) : Told (libraryPath L C s).2.errbuf := by
  unfold libraryPath at h ⊢
  dsimp only at h ⊢
  split at h
  · rename_i hc
    rw [if_pos hc]
    exact told_save _ ⟨by decide, by decide⟩
  · rename_i hc
    rw [if_neg hc]
    simp only [clearError_handle] at h ⊢
    cases hx : s.handle with
    | none => simp only; exact told_noLibrary _
    | some x =>
      simp only [hx] at h ⊢
      split at h
      · cases h
      · rename_i hp
        rw [if_neg hp]
        split at h
        · rename_i hi
          rw [if_pos hi]
          split at h
          · cases h
          · rename_i hr
            rw [if_neg hr]
            exact told_libraryPathDladdr hS (fun hd => told_libpathDlinfo hL hS hd (by simpa using hr)) h
        · rename_i hi
          rw [if_neg hi]
          refine told_libraryPathDladdr hS (fun hd => absurd ?_ hc) h
          exact ⟨by simpa using hi, hd⟩

end

/-- The call was to do something and its result says that it failed. -/
def Failed : Call → Val → Prop
  | .libIsLoaded, _ | .allSymbolsLoaded, _ | .noSymbolsLoaded, _ | .anySymbolLoaded, _ => False
  | .libraryPath, v => v = .text none
  | _, v => v = .bool false

/-- After a call that failed `gdo_last_error` gives a message other than `no error`, if
    the loader has messages for its failures and the path of the library fits into the
    buffer. -/
theorem C46_partial (L : Loader) (C : Cfg) (hL : Tells L) (hS : Short L C) (s t : St) (c : Call) (v : Val) (h : step L C s c = .ret v t)
    (hf : Failed c v) : (lastError t).1 ≠ [] ∧ (lastError t).1 ≠ str% "no error" := by
  suffices hs : Told t.errbuf from (lastError_told hs).2
  have hand : ∀ r : Bool × St, (r.1 = false → Told r.2.errbuf) → (andSymbols L C r).1 = false → Told (andSymbols L C r).2.errbuf := by
    intro r h1 h2
    unfold andSymbols at h2 ⊢
    split at h2
    · rename_i hr
      rw [if_pos hr]
      exact told_loadAllSymbols hL h2
    · rename_i hr
      rw [if_neg hr]
      exact h1 (by simpa using hr)
  cases c with
  | loadLib => cases h; exact told_loadLibArgs hL (Val.bool.inj hf)
  | loadLibAndSymbols => cases h; exact hand _ (told_loadLibArgs hL) (Val.bool.inj hf)
  | loadLibName n => cases h; exact told_loadLibArgs hL (Val.bool.inj hf)
  | loadLibNameAndSymbols n => cases h; exact hand _ (told_loadLibArgs hL) (Val.bool.inj hf)
  | loadLibArgs n f ns => cases h; exact told_loadLibArgs hL (Val.bool.inj hf)
  | libIsLoaded => exact hf.elim
  | freeLib => cases h; exact told_freeLib hL (Val.bool.inj hf)
  | forceFreeLib => cases h; cases hf
  | enableAutorelease => cases h; exact told_enableAutorelease (Val.bool.inj hf)
  | allSymbolsLoaded => exact hf.elim
  | noSymbolsLoaded => exact hf.elim
  | anySymbolLoaded => exact hf.elim
  | loadAllSymbols => cases h; exact told_loadAllSymbols hL (Val.bool.inj hf)
  | loadSymbol n => cases h; exact told_loadSymbol hL (Val.bool.inj hf)
  | loadSymbolName n =>
    simp only [step] at h
    split at h
    · rename_i r hr
      cases h
      exact told_loadSymbolName hL hr (Val.bool.inj hf)
    · cases h
  | lastError => cases h; cases hf
  | libraryPath => cases h; exact told_libraryPath hL hS (Val.text.inj hf)
  | wrapped i =>
    simp only [step] at h
    split at h
    · cases hw : wrapper L C i s with
      | ret p s' => rw [hw] at h; cases h; cases hf
      | exit c s' => rw [hw] at h; cases h
      | abort s' => rw [hw] at h; cases h
      | ub => rw [hw] at h; cases h
    · cases h; cases hf

/-- `gdo_last_error` never returns an empty text. -/
theorem C46_nonempty (s : St) : (lastError s).1 ≠ [] := by
  unfold lastError
  dsimp only
  split
  · show fit (str% "no error") ≠ []
    decide
  · rename_i h
    exact h

example : Tells { demoLoader with dlinfo := fun _ _ => (none, some (str% "bad handle")) } where
  dlopen t n f ns h := by cases h
  dlsym t h n hn := by
    simp only [demoLoader] at hn ⊢
    split at hn
    · cases hn
    · rename_i hf
      rw [if_neg hf]
      exact ⟨_, rfl, by simp [Told]⟩
  dlclose t h hn := by cases hn
  dlinfo t h hn := ⟨_, rfl, by decide, by decide⟩

example : Short demoLoader demoCfg where
  dladdr _ t p f h := by
    simp only [demoLoader, Option.some.injEq] at h
    subst h
    decide
  dlinfo h := by cases h

example : Failed (.loadSymbol 1) (.bool false) ∧
    ∃ t, step demoLoader demoCfg { handle := some 100 } (.loadSymbol 1) = .ret (.bool false) t :=
  ⟨rfl, _, rfl⟩

/-- A library path of 8192 characters or more. -/
def longPath : Str := List.replicate bufLen '/'

/-- The path is too long for the buffer: NULL is returned and `gdo_last_error` says that
    there was no error. -/
theorem C46_violated_path (L : Loader) (C : Cfg) (s : St) (x : Ptr) (hx : s.handle = some x) (hp : s.libpath = []) (hd : C.haveDladdr = false)
    (hi : C.haveDlinfo = true) (n : Str) (hn : (L.dlinfo s.clock x).1 = some (some n)) (hl : bufLen ≤ n.length) (habs : n.headD ' ' = '/') :
    (libraryPath L C s).1 = none ∧ (lastError (libraryPath L C s).2).1 = str% "no error" := by
  have h0 : n ≠ [] := by
    rintro rfl
    cases habs
  have hh : n.headD '/' = '/' := by
    cases n with
    | nil => rfl
    | cons a r => exact habs
  have key : libpathDlinfo L C x (clearError s) = (false, { clearError s with
      clock := s.clock + 1, dlerr := (L.dlinfo s.clock x).2, log := s.log ++ [.info x] }) := by
    unfold libpathDlinfo
    simp only [clearError_clock, hn, Option.getD_some, h0, if_false, hh, ne_eq, not_true, and_false]
    rw [if_pos (by omega)]
    rfl
  unfold libraryPath
  simp only [hi, clearError_handle, hx, clearError_libpath, hp, ne_eq, not_true, if_false, Bool.true_eq_false, false_and, if_true, key,
    libraryPathDladdr, hd, Bool.false_eq_true]
  exact ⟨trivial, rfl⟩

example : longPath.headD ' ' = '/' ∧ bufLen ≤ longPath.length := by
  refine ⟨?_, by simp [longPath]⟩
  unfold longPath
  rw [show bufLen = 8191 + 1 from rfl, List.replicate_succ]
  rfl

/-- The same where both `dlinfo` and `dladdr` exist, as with glibc. -/
theorem C46_violated : ∃ L C s, Tells L ∧ C.haveDlinfo = true ∧ C.haveDladdr = true ∧ (libraryPath L C s).1 = none ∧
    (lastError (libraryPath L C s).2).1 = str% "no error" := by
  let L : Loader := { demoLoader with
    dlsym := fun _ _ _ => (some 7, none)
    dlinfo := fun _ _ => (some (some longPath), none)
    dladdr := fun _ _ => some longPath }
  let C : Cfg := { demoCfg with syms := [str% "f"] }
  let s : St := { handle := some 100, ptr := fun i => if i = 0 then some 7 else none }
  have hlen : longPath.length = bufLen := by simp [longPath]
  have hne : longPath ≠ [] := by
    intro h
    rw [h] at hlen
    cases hlen
  have hhd : longPath.headD '/' = '/' := by
    unfold longPath
    rw [show bufLen = 8191 + 1 from rfl, List.replicate_succ]
    rfl
  have hgt : longPath.length + 1 > bufLen := by omega
  refine ⟨L, C, s, ?_, rfl, rfl, ?_⟩
  · constructor
    · intro _ _ _ _ h; cases h
    · intro _ _ _ h; cases h
    · intro _ _ h; cases h
    · intro _ _ h; cases h
  obtain ⟨u, hu⟩ : ∃ u : St, u = { clearError s with clock := 1, log := [.info 100] } := ⟨_, rfl⟩
  obtain ⟨w, hw⟩ : ∃ w : St, w = { clearError s with clock := 2, log := [.info 100] } := ⟨_, rfl⟩
  have k1 : libpathDlinfo L C 100 (clearError s) = (false, u) := by
    rw [hu]
    unfold libpathDlinfo
    simp only [L, Option.getD_some, hne, if_false, hhd, ne_eq, not_true, and_false]
    rw [if_pos hgt]
    rfl
  have k2 : firstDladdr L (clearError u).clock ((List.range C.syms.length).map (clearError u).ptr) = (some longPath, 2) := by
    simp [firstDladdr, L, C, s, hu, clearError, List.range_succ, hne]
  have k3 : libpathDladdr L C u = (false, w) := by
    unfold libpathDladdr
    have : noneLoaded C (clearError u) = false := by rw [hu]; rfl
    simp only [this, Bool.false_eq_true, if_false, k2]
    rw [if_pos hgt, hu, hw]
    rfl
  have k4 : libraryPath L C s = (none, { w with libpath := [] }) := by
    have hI : C.haveDlinfo = true := rfl
    have hD : C.haveDladdr = true := rfl
    have hx : s.handle = some 100 := rfl
    have hp : s.libpath = [] := rfl
    unfold libraryPath
    simp only [hI, clearError_handle, hx, clearError_libpath, hp, ne_eq, not_true, if_false, Bool.true_eq_false, false_and, if_true, k1,
      libraryPathDladdr, hD, Bool.false_eq_true, k3]
  rw [k4, hw]
  exact ⟨rfl, rfl⟩

/-- A symbol whose address is NULL: `dlsym` returns NULL without a message, the call
    fails and `gdo_last_error` says that there was no error. -/
theorem C46_violated_null (L : Loader) (C : Cfg) (s : St) (x : Ptr) (hx : s.handle = some x) (i : Nat) (name : Str) (hi : C.syms[i]? = some name)
    (hp : s.ptr i = none) (hd : L.dlsym s.clock x name = (none, none)) :
    (loadSymbol L C i s).1 = false ∧ (lastError (loadSymbol L C i s).2).1 = str% "no error" := by
  have hc : caseOf C (i : Int) = some (i, name) := by
    show (C.syms[i]?).map _ = _
    rw [hi]
    rfl
  obtain ⟨u, hu, he⟩ : ∃ u, loadSymbol L C i s = (false, u) ∧ u.errbuf = [] := by
    unfold loadSymbol
    simp only [clearError_handle, hx, hc]
    unfold loadOne
    simp only [clearError_ptr, hp]
    unfold gdoSym
    simp only [clearError_clock, hd, Option.isSome_none, Bool.false_eq_true, if_false]
    exact ⟨_, rfl, rfl⟩
  rw [hu]
  refine ⟨rfl, ?_⟩
  unfold lastError
  dsimp only
  rw [if_pos he]
  rfl

example : ∃ s : St, s.handle = some 100 ∧ s.ptr 1 = none ∧ demoCfg.syms[1]? = some (str% "g") ∧
    ({ demoLoader with dlsym := fun _ _ _ => (none, none) } : Loader).dlsym s.clock 100 (str% "g") = (none, none) :=
  ⟨{ handle := some 100 }, rfl, rfl, rfl, rfl⟩

/-! ### C47 -/

theorem loadSymbol_ok {L : Loader} {C : Cfg} {i : Nat} {s : St} (h : (loadSymbol L C i s).1 = true) : ((loadSymbol L C i s).2.ptr i).isSome = true := by
  unfold loadSymbol at h ⊢
  dsimp only at h ⊢
  simp only [clearError_handle] at h ⊢
  cases hx : s.handle with
  | none => simp only [hx] at h; cases h
  | some x =>
    simp only [hx] at h ⊢
    cases hc : caseOf C i with
    | none => simp only [hc] at h; cases h
    | some q =>
      obtain ⟨j, name⟩ := q
      have hj := (caseOf_some hc).1
      have : j = i := by omega
      subst this
      simp only [hc] at h ⊢
      unfold loadOne at h ⊢
      simp only [clearError_ptr] at h ⊢
      cases hp : s.ptr j with
      | some p => simp [hp]
      | none =>
        simp only [hp] at h ⊢
        simpa [setPtr] using h

/-- When the check of a wrapper function returns, the pointer of its symbol is set. -/
theorem C47_nonnull (L : Loader) (C : Cfg) (i : Nat) (hi : i < C.syms.length) (s t : St) (h : wrapCheckLoaded L C i s = .ret () t) :
    (t.ptr i).isSome = true := by
  rcases wrapCheckLoaded_ret h with ⟨p, hp, rfl⟩ | ⟨_, hr, rfl⟩ | ⟨_, hr, rfl⟩
  · simp [hp]
  · exact (C44_iff L C _).mp hr i hi
  · exact loadSymbol_ok hr

/-- No text of `%s` and other characters makes `printf` undefined. -/
theorem printfS_plain : ∀ (t : Str) (r : Str) (as : List Str), '%' ∉ t → printfS (t ++ r) as = (printfS r as).map fun x => t ++ x
  | [], r, as, _ => by simp
  | c :: t, r, as, h => by
    have hc : c ≠ '%' := fun he => h (by simp [he])
    have ht : '%' ∉ t := fun he => h (by simp [he])
    rw [List.cons_append, printfS, printfS_plain t r as ht]
    · simp only [Option.map_map]
      rfl
    all_goals intros; simp_all

theorem printfS_s (r a : Str) (as : List Str) : printfS (str% "%s" ++ r) (a :: as) = (printfS r as).map fun x => a ++ x := by
  simp only [List.cons_append, List.nil_append]
  rw [printfS]

theorem printfS_error (t sym msg : Str) (h : '%' ∉ t) : printfS (t ++ str% ": %s: %s") [sym, msg] = some (t ++ str% ": " ++ sym ++ str% ": " ++ msg) := by
  rw [printfS_plain t _ _ h]
  have e1 : printfS (str% ": %s: %s") [sym, msg] = some (str% ": " ++ (sym ++ (str% ": " ++ msg))) := by
    rw [show (str% ": %s: %s") = (str% ": ") ++ (str% "%s" ++ (str% ": " ++ (str% "%s" ++ []))) from rfl,
      printfS_plain _ _ _ (by decide), printfS_s, printfS_plain _ _ _ (by decide), printfS_s]
    simp [printfS]
  rw [e1]
  simp

theorem printfS_error' (sym msg : Str) : printfS (str% "error: %s: %s") [sym, msg] = some (str% "error: " ++ sym ++ str% ": " ++ msg) := by
  have := printfS_error (str% "error") sym msg (by decide)
  simpa using this

theorem printfS_fatal (sym msg : Str) : printfS (str% "fatal error: %s: %s") [sym, msg] = some (str% "fatal error: " ++ sym ++ str% ": " ++ msg) := by
  have := printfS_error (str% "fatal error") sym msg (by decide)
  simpa using this

/-- The lines written when automatic loading has failed. -/
theorem autoloadFailed_eq {L : Loader} {C : Cfg} (hl : '%' ∉ C.lib) (sym : Str) (s : St) :
    ∃ t, autoloadFailed L C sym s = .exit 1 t ∧ t.stderr = s.stderr ++
      (if strstr (lastError s).1 C.lib then str% "error: " else str% "error: " ++ C.lib ++ str% ": ") ++ sym ++ str% ": " ++ (lastError s).1 ++ ['\n'] ∧
      t.handle = none := by
  have hstd : (lastError s).2.stderr = s.stderr := by
    unfold lastError
    dsimp only
    split <;> simp
  have hforce : ∀ u : St, (forceFreeLib L C u).stderr = u.stderr := by
    intro u
    unfold forceFreeLib
    dsimp only
    split <;> rfl
  have hrun : ∀ n (u : St), (runHandlers L C n u).stderr = u.stderr ∧ (u.handle = none → (runHandlers L C n u).handle = none) := by
    intro n
    induction n with
    | zero => intro u; exact ⟨rfl, id⟩
    | succ n ih =>
      intro u
      refine ⟨by rw [runHandlers, (ih _).1, hforce], fun _ => ?_⟩
      rw [runHandlers]
      exact (ih _).2 (forceFreeLib_handle u)
  unfold autoloadFailed
  dsimp only
  by_cases hc : strstr (lastError s).1 C.lib = true
  · rw [if_pos hc, if_pos hc]
    simp only [printError, printfS_error', Option.map_some]
    exact ⟨_, rfl, by rw [(hrun _ _).1, hforce, hstd]; simp, (hrun _ _).2 (forceFreeLib_handle _)⟩
  · rw [if_neg hc, if_neg hc]
    simp only [printError]
    rw [printfS_error (str% "error: " ++ C.lib) sym _ (by simp [hl])]
    simp only [Option.map_some]
    exact ⟨_, rfl, by rw [(hrun _ _).1, hforce, hstd]; simp, (hrun _ _).2 (forceFreeLib_handle _)⟩

/-- A wrapper function calls the address the loader gave for its symbol, or it ends the
    process with a message that names the symbol.  The name of the default library has
    no percent sign. -/
theorem C47_wrapper (L : Loader) (C : Cfg) (hl : '%' ∉ C.lib) (i : Nat) (name : Str) (hi : C.syms[i]? = some name) (s : St) :
    (∃ p t, wrapper L C i s = .ret p t ∧ t.ptr i = some p) ∨
    (∃ t m, (wrapper L C i s = .exit 1 t ∨ wrapper L C i s = .abort t) ∧ t.stderr = s.stderr ++ m ∧ name <:+: m) := by
  have hlt : i < C.syms.length := (List.getElem?_eq_some_iff.mp hi).1
  have hname : C.syms.getD i [] = name := by simp [List.getD_eq_getElem?_getD, hi]
  have hret : ∀ t, wrapCheckLoaded L C i s = .ret () t → ∃ p t, wrapper L C i s = .ret p t ∧ t.ptr i = some p := by
    intro t ht
    have := C47_nonnull L C i hlt s t ht
    obtain ⟨p, hp⟩ := Option.isSome_iff_exists.mp this
    refine ⟨p, t, ?_, hp⟩
    unfold wrapper
    rw [ht]
    simp only [hp]
  have hsym : ∀ (u : St), (∃ b, (loadLib L C u).2.stderr = b ∧ b = u.stderr) := by
    intro u
    refine ⟨_, rfl, ?_⟩
    unfold loadLib loadLibName loadLibArgs
    dsimp only
    split
    · simp [clearError]
    · split
      · simp [clearError]
      · split <;> simp [loadLibrary, clearError]
  have hauto : (autoloadLib L C s).stderr = s.stderr := by
    have he : (enableAutorelease L C s).2.stderr = s.stderr := by
      unfold enableAutorelease
      dsimp only
      split
      · rfl
      · split <;> simp [clearError]
    unfold autoloadLib
    dsimp only
    split
    · exact he
    · obtain ⟨b, h1, h2⟩ := hsym (enableAutorelease L C s).2
      rw [h1, h2, he]
  have hgs : ∀ x nm (u : St) j q, (setPtr j q (gdoSym L x nm u).2).stderr = u.stderr := by
    intro x nm u j q
    unfold gdoSym setPtr
    dsimp only
    split <;> simp
  have hloop : ∀ x (l : List Str) j (u : St), (loadLoop L x j l u).2.stderr = u.stderr := by
    intro x l
    induction l with
    | nil => intro j u; rfl
    | cons nm r ih =>
      intro j u
      unfold loadLoop
      dsimp only
      split
      · rw [ih, hgs]
      · exact hgs ..
  have hfail : ∀ u : St, u.stderr = s.stderr → wrapCheckLoaded L C i s = autoloadFailed L C name u →
      ∃ t m, (wrapper L C i s = .exit 1 t ∨ wrapper L C i s = .abort t) ∧ t.stderr = s.stderr ++ m ∧ name <:+: m := by
    intro u hu hw
    obtain ⟨t, h1, h2, _⟩ := autoloadFailed_eq (L := L) hl name u
    refine ⟨t, (if strstr (lastError u).1 C.lib then str% "error: " else str% "error: " ++ C.lib ++ str% ": ") ++ name ++
      (str% ": " ++ (lastError u).1 ++ ['\n']), Or.inl ?_, ?_, ⟨_, _, rfl⟩⟩
    · unfold wrapper
      rw [hw, h1]
    · rw [h2, hu]
      simp only [List.append_assoc]
  cases hp : s.ptr i with
  | some p =>
    refine Or.inl (hret s ?_)
    unfold wrapCheckLoaded
    simp only [hp]
  | none =>
    cases hm : C.mode with
    | wrap =>
      right
      have hw : wrapCheckLoaded L C i s = .abort { s with stderr := s.stderr ++ (str% "fatal error: " ++ name ++ str% ": " ++
          (if libIsLoaded s then str% "symbol not loaded" else str% "library not loaded")) ++ ['\n'] } := by
        unfold wrapCheckLoaded
        simp only [hp, hm, hname, printError, printfS_fatal, Option.map_some]
      refine ⟨_, (str% "fatal error: ") ++ name ++ (str% ": " ++
          (if libIsLoaded s then str% "symbol not loaded" else str% "library not loaded") ++ ['\n']), Or.inr (by unfold wrapper; rw [hw]), ?_, ⟨_, _, rfl⟩⟩
      simp only [List.append_assoc]
    | autoload =>
      cases hr : (loadAllSymbols L C (autoloadLib L C s)).1 with
      | true =>
        refine Or.inl (hret (loadAllSymbols L C (autoloadLib L C s)).2 ?_)
        unfold wrapCheckLoaded
        simp only [hp, hm, hr, if_true]
      | false =>
        refine Or.inr (hfail (loadAllSymbols L C (autoloadLib L C s)).2 ?_ ?_)
        · rw [← hauto]
          unfold loadAllSymbols
          dsimp only
          split
          · rfl
          · split
            · simp [noLibrary, clearError]
            · exact hloop ..
        · unfold wrapCheckLoaded
          simp only [hp, hm, hr, Bool.false_eq_true, if_false, hname]
    | lazy =>
      cases hr : (loadSymbol L C i (autoloadLib L C s)).1 with
      | true =>
        refine Or.inl (hret (loadSymbol L C i (autoloadLib L C s)).2 ?_)
        unfold wrapCheckLoaded
        simp only [hp, hm, hr, if_true]
      | false =>
        refine Or.inr (hfail (loadSymbol L C i (autoloadLib L C s)).2 ?_ ?_)
        · rw [← hauto]
          unfold loadSymbol
          dsimp only
          split
          · simp [noLibrary, clearError]
          · split
            · unfold loadOne
              split
              · rfl
              · exact hgs ..
            · rfl
        · unfold wrapCheckLoaded
          simp only [hp, hm, hr, Bool.false_eq_true, if_false, hname]

example : ∃ t, wrapper demoLoader demoCfg 0 {} = .ret 7 t ∧ t.handle = some 100 := ⟨_, rfl, rfl⟩

example : ∃ t, wrapper demoLoader demoCfg 1 {} = .exit 1 t ∧ t.stderr = str% "error: x.so: g: undefined symbol: g\n" :=
  ⟨_, rfl, rfl⟩

/-! ### C48 -/

/-- The library cannot be opened: the reason the loader gave is replaced by `no library
    was loaded`, whatever it was. -/
theorem C48_violated (L : Loader) (C : Cfg) (hl : '%' ∉ C.lib) (hm : C.mode ≠ .wrap) (hn : C.lib ≠ []) (i : Nat) (name : Str) (hi : C.syms[i]? = some name)
    (s : St) (hh : s.handle = none) (hnull : ∀ i, s.ptr i = none) (ho : ∀ t n f ns, (L.dlopen t n f ns).1 = none)
    (hlib : strstr (str% "no library was loaded") C.lib = false) :
    ∃ t, wrapper L C i s = .exit 1 t ∧ t.stderr = s.stderr ++ str% "error: " ++ C.lib ++ str% ": " ++ name ++ str% ": no library was loaded\n" := by
  have hname : C.syms.getD i [] = name := by simp [List.getD_eq_getElem?_getD, hi]
  have hlt : i < C.syms.length := (List.getElem?_eq_some_iff.mp hi).1
  have hA : (autoloadLib L C s).handle = none ∧ (autoloadLib L C s).stderr = s.stderr ∧ (autoloadLib L C s).ptr = s.ptr := by
    have he : (enableAutorelease L C s).2.handle = none ∧ (enableAutorelease L C s).2.stderr = s.stderr ∧ (enableAutorelease L C s).2.ptr = s.ptr := by
      unfold enableAutorelease
      dsimp only
      split
      · exact ⟨hh, rfl, rfl⟩
      · split <;> simp [clearError, hh]
    unfold autoloadLib
    dsimp only
    rw [if_neg (by simp [libIsLoaded, he.1])]
    unfold loadLib loadLibName loadLibArgs
    dsimp only
    rw [if_neg (by simp [libIsLoaded, he.1]), if_neg (by simpa using hn),
      if_neg (by simp [libIsLoaded, loadLibrary, ho])]
    simp [loadLibrary, ho, clearError, he.2.1, he.2.2]
  have hfail : ∀ u : St, u.errbuf = str% "no library was loaded" → u.stderr = s.stderr → wrapCheckLoaded L C i s = autoloadFailed L C name u →
      ∃ t, wrapper L C i s = .exit 1 t ∧ t.stderr = s.stderr ++ str% "error: " ++ C.lib ++ str% ": " ++ name ++ str% ": no library was loaded\n" := by
    intro u hu hs hw
    obtain ⟨t, h1, h2, _⟩ := autoloadFailed_eq (L := L) hl name u
    have hle : (lastError u).1 = str% "no library was loaded" := by
      unfold lastError
      dsimp only
      rw [if_neg (by rw [hu]; decide), hu]
    refine ⟨t, by unfold wrapper; rw [hw, h1], ?_⟩
    rw [h2, hle, hlib, hs]
    simp
  have hfit : fit (str% "no library was loaded") = str% "no library was loaded" := by decide
  cases hmm : C.mode with
  | wrap => exact absurd hmm hm
  | autoload =>
    have hr : loadAllSymbols L C (autoloadLib L C s) = (false, noLibrary (clearError (autoloadLib L C s))) := by
      unfold loadAllSymbols
      dsimp only
      rw [if_neg (by
        rw [allLoaded_iff]
        intro ha
        have := ha i hlt
        rw [clearError_ptr, hA.2.2, hnull] at this
        cases this)]
      simp only [clearError_handle, hA.1]
    refine hfail (noLibrary (clearError (autoloadLib L C s))) ?_ ?_ ?_
    · simp [noLibrary, saveToErrbuf, hfit]
    · simp [noLibrary, clearError, hA.2.1]
    · unfold wrapCheckLoaded
      simp only [hnull, hmm, hr, Bool.false_eq_true, if_false, hname]
  | lazy =>
    have hr : loadSymbol L C i (autoloadLib L C s) = (false, noLibrary (clearError (autoloadLib L C s))) := by
      unfold loadSymbol
      simp only [clearError_handle, hA.1]
    refine hfail (noLibrary (clearError (autoloadLib L C s))) ?_ ?_ ?_
    · simp [noLibrary, saveToErrbuf, hfit]
    · simp [noLibrary, clearError, hA.2.1]
    · unfold wrapCheckLoaded
      simp only [hnull, hmm, hr, Bool.false_eq_true, if_false, hname]

/-- The loader's reason is shown if the library can be opened but the symbol is missing:
    the message of the failed `dlsym`. -/
theorem C48_partial (L : Loader) (C : Cfg) (hl : '%' ∉ C.lib) (hm : C.mode = .lazy) (i : Nat) (name : Str) (hi : C.syms[i]? = some name) (s : St) (x : Ptr)
    (hx : s.handle = some x) (hp : s.ptr i = none) (hr : s.freeLibReg = true) (m : Str) (hd : L.dlsym s.clock x name = (none, some m)) (hm0 : m ≠ [])
    (hfit : m.length < bufLen) : ∃ t o, wrapper L C i s = .exit 1 t ∧ t.stderr = s.stderr ++ o ∧ m <:+: o := by
  have hname : C.syms.getD i [] = name := by simp [List.getD_eq_getElem?_getD, hi]
  have hA : autoloadLib L C s = clearError s := by
    unfold autoloadLib enableAutorelease
    simp only [clearError_reg, hr, if_true]
    rw [if_pos (by simp [libIsLoaded, hx])]
  have hc : caseOf C (i : Int) = some (i, name) := by
    show (C.syms[i]?).map _ = _
    rw [hi]
    rfl
  obtain ⟨u, hld, he, hst⟩ : ∃ u, loadSymbol L C i (clearError s) = (false, u) ∧ u.errbuf = m ∧ u.stderr = s.stderr := by
    unfold loadSymbol
    simp only [clearError_handle, hx, hc]
    unfold loadOne
    simp only [clearError_ptr, hp]
    unfold gdoSym
    simp only [clearError_clock, hd, saveError, saveToErrbuf, fit, Option.isSome_none, Bool.false_eq_true, if_false]
    rw [List.take_of_length_le (by omega)]
    exact ⟨_, rfl, rfl, rfl⟩
  have hw : wrapCheckLoaded L C i s = autoloadFailed L C name (loadSymbol L C i (clearError s)).2 := by
    unfold wrapCheckLoaded
    simp only [hp, hm, hA, hld, Bool.false_eq_true, if_false, hname]
  obtain ⟨t, h1, h2, _⟩ := autoloadFailed_eq (L := L) hl name (loadSymbol L C i (clearError s)).2
  have hle : (lastError (loadSymbol L C i (clearError s)).2).1 = m := by
    rw [hld]
    simp [lastError, he, hm0]
  refine ⟨t, (if strstr m C.lib then str% "error: " else str% "error: " ++ C.lib ++ str% ": ") ++ name ++ str% ": " ++ m ++ ['\n'],
    by unfold wrapper; rw [hw, h1], ?_, ⟨_, _, rfl⟩⟩
  rw [h2, hle, hld, hst]
  simp only [List.append_assoc]

example : ∃ t, wrapper { demoLoader with dlopen := fun _ _ _ _ => (none, some (str% "x.so: wrong ELF class")) } demoCfg 0 {} = .exit 1 t ∧
    t.stderr = str% "error: x.so: f: no library was loaded\n" := ⟨_, rfl, rfl⟩

example : ∃ s : St, s.handle = some 100 ∧ s.ptr 1 = none ∧ s.freeLibReg = true ∧ demoCfg.syms[1]? = some (str% "g") ∧
    demoLoader.dlsym s.clock 100 (str% "g") = (none, some (str% "undefined symbol: g")) :=
  ⟨{ handle := some 100, freeLibReg := true }, rfl, rfl, rfl, rfl, rfl⟩

/-! ### C63 -/

/-- The name of the default library is used as a part of a format string: with `%n` in
    it the program is not defined when automatic loading fails. -/
theorem C63_violated_ub : ∃ L C i s, C.lib = str% "lib%n.so" ∧ C.syms[i]? = some (str% "f") ∧ wrapper L C i s = .ub := by
  refine ⟨{ demoLoader with dlopen := fun _ _ _ _ => (none, some (str% "not found")) }, { demoCfg with lib := str% "lib%n.so" }, 0, {}, rfl, rfl, ?_⟩
  rfl

/-- With `%s` in the name the message and the symbol are mixed up and an argument is
    missing. -/
theorem C63_violated_s : ∃ L C i s, C.lib = str% "lib%s.so" ∧ C.syms[i]? = some (str% "f") ∧ wrapper L C i s = .ub := by
  refine ⟨{ demoLoader with dlopen := fun _ _ _ _ => (none, some (str% "not found")) }, { demoCfg with lib := str% "lib%s.so" }, 0, {}, rfl, rfl, ?_⟩
  rfl

/-- With `%%` in the name another name is shown. -/
theorem C63_violated_percent : ∃ L C i s t, C.lib = str% "a%%b" ∧ wrapper L C i s = .exit 1 t ∧
    t.stderr = str% "error: a%b: f: no library was loaded\n" := by
  refine ⟨{ demoLoader with dlopen := fun _ _ _ _ => (none, some (str% "not found")) }, { demoCfg with lib := str% "a%%b" }, 0, {}, _, rfl, rfl, ?_⟩
  rfl

/-- Without percent signs the message contains the name of the library. -/
theorem C63_partial (L : Loader) (C : Cfg) (hl : '%' ∉ C.lib) (sym : Str) (s : St) :
    ∃ t o, autoloadFailed L C sym s = .exit 1 t ∧ t.stderr = s.stderr ++ o ∧ C.lib <:+: o := by
  obtain ⟨t, h1, h2, _⟩ := autoloadFailed_eq (L := L) hl sym s
  have hstr : ∀ (h n : Str), strstr h n = true → n <:+: h := by
    intro h
    induction h with
    | nil => intro n hn; simp only [strstr, List.isEmpty_iff] at hn; subst hn; exact List.infix_refl _
    | cons c r ih =>
      intro n hn
      simp only [strstr, Bool.or_eq_true, List.isPrefixOf_iff_prefix] at hn
      rcases hn with hn | hn
      · exact hn.isInfix
      · exact List.infix_cons (ih n hn)
  refine ⟨t, (if strstr (lastError s).1 C.lib then str% "error: " else str% "error: " ++ C.lib ++ str% ": ") ++ sym ++ str% ": " ++ (lastError s).1 ++ ['\n'],
    h1, by rw [h2]; simp only [List.append_assoc], ?_⟩
  by_cases hc : strstr (lastError s).1 C.lib = true
  · exact (hstr _ _ hc).trans ⟨_, _, rfl⟩
  · rw [if_neg hc]
    exact ⟨str% "error: ", str% ": " ++ sym ++ str% ": " ++ (lastError s).1 ++ ['\n'], by simp only [List.append_assoc]⟩

end Gdo.Rt
