import Verif.Props.Cxx
import Verif.Props.RuntimeError

/-!
Properties C47, C48, C63 for the generated C++ code, and C65-C67: its error messages and
the loading of symbols.
-/

namespace Gdo.Cxx
open Gdo RtSpec
open Gdo.Rt (Ptr Loader Cfg Ev Mode Inv Told Tells strstr)

section
variable {L : Loader} {C : Cfg}

/-! ### Messages -/

theorem told_lit {m : Str} (h : (m ≠ [] ∧ m ≠ str% "no error")) : Told m := h

theorem told_u {m n : Str} (hm : (str% "u").isPrefixOf m = true) : Told (m ++ n) := by
  cases m with
  | nil => simp at hm
  | cons c r =>
    simp at hm
    subst hm
    exact ⟨by simp, by simp⟩

theorem told_saveError {s : S} (h : ∃ m, s.w.dlerr = some m ∧ Told m) : Told (saveError s).o.errmsg := by
  obtain ⟨m, hm, ht⟩ := h
  simpa [saveError, hm] using ht

theorem told_loadFilename (hL : Tells L) {name : Str} {s : S} (h : (loadFilename L name s).1 = false) :
    Told (loadFilename L name s).2.o.errmsg := by
  unfold loadFilename at h ⊢
  dsimp only at h ⊢
  split
  · exact ⟨by simp [setMsg], by simp [setMsg]⟩
  · rename_i hc
    rw [if_neg hc] at h
    split
    · exact ⟨by simp [setMsg], by simp [setMsg]⟩
    · rename_i hn
      rw [if_neg hn] at h
      split
      · rename_i hl
        rw [if_pos hl] at h
        cases h
      · rename_i hl
        refine told_saveError (hL.dlopen s.w.clock name s.o.flags s.o.ns ?_)
        cases ho : (L.dlopen s.w.clock name s.o.flags s.o.ns).1 with
        | none => rfl
        | some x => exact absurd (by simp [libLoaded, loadLib, clearError, ho]) hl

theorem told_symLoad (hL : Tells L) {h : Ptr} {i : Nat} {name : Str} {s : S} (hf : (symLoad L h i name s).1 = false) :
    Told (symLoad L h i name s).2.o.errmsg := by
  have h1 := symLoad_fst (L := L) h i name s
  rw [hf] at h1
  have h2 : (L.dlsym s.w.clock h name).1 = none := by simpa using h1.symm
  obtain ⟨m, hm, ht⟩ := hL.dlsym s.w.clock h name h2
  unfold symLoad
  simp only [h2, Option.isSome_none, Bool.false_eq_true, if_false]
  simpa [saveError, hm] using ht

theorem told_loadLoop (hL : Tells L) {h : Ptr} (l : List Str) : ∀ (i : Nat) (s : S), (loadLoop L h i l s).1 = false →
    Told (loadLoop L h i l s).2.o.errmsg := by
  induction l with
  | nil => intro i s hf; cases hf
  | cons name r ih =>
    intro i s hf
    rw [loadLoop] at hf ⊢
    split
    · rename_i ha
      rw [if_pos ha] at hf
      exact ih _ _ hf
    · rename_i ha
      exact told_symLoad hL (by simpa using ha)

theorem told_invalidHandle (s : S) : Told (invalidHandle s).o.errmsg := ⟨by simp [invalidHandle, setMsg], by simp [invalidHandle, setMsg]⟩

theorem told_loadAllSymbols (hL : Tells L) {s : S} (hf : (loadAllSymbols L C s).1 = false) :
    Told (loadAllSymbols L C s).2.o.errmsg := by
  unfold loadAllSymbols at hf ⊢
  dsimp only at hf ⊢
  split
  · rename_i ha
    rw [if_pos ha] at hf
    cases hf
  · rename_i ha
    rw [if_neg ha] at hf
    split
    · exact told_invalidHandle _
    · rename_i h hh
      rw [show (clearError s).w.handle = some h from hh] at hf
      exact told_loadLoop hL _ _ _ hf

theorem told_loadOne (hL : Tells L) {h : Ptr} {i : Nat} {name : Str} {s : S} (hf : (loadOne L h i name s).1 = false) :
    Told (loadOne L h i name s).2.o.errmsg := by
  unfold loadOne at hf ⊢
  split
  · rename_i hp
    rw [hp] at hf
    cases hf
  · rename_i hp
    rw [hp] at hf
    exact told_symLoad hL hf

theorem told_loadSymbol (hL : Tells L) {num : Int} {s : S} (hf : (loadSymbol L C num s).1 = false) :
    Told (loadSymbol L C num s).2.o.errmsg := by
  unfold loadSymbol at hf ⊢
  dsimp only at hf ⊢
  split
  · exact told_invalidHandle _
  · rename_i h hh
    rw [hh] at hf
    dsimp only at hf
    split
    · rename_i i name hc
      rw [hc] at hf
      exact told_loadOne hL hf
    · exact told_u rfl

theorem told_loadSymbolName (hL : Tells L) {name : Option Str} {s : S} {r : Bool × S} (hr : loadSymbolName L C name s = some r)
    (hf : r.1 = false) : Told r.2.o.errmsg := by
  unfold loadSymbolName at hr
  dsimp only at hr
  split at hr
  · cases hr; exact told_invalidHandle _
  · split at hr
    · cases hr; exact ⟨by simp [setMsg], by simp [setMsg]⟩
    · obtain ⟨f, _, rfl⟩ := Option.map_eq_some_iff.mp hr
      match f, hf with
      | none, _ => exact told_u rfl
      | some (i, cur), hf => exact told_loadOne hL hf

theorem told_free (hL : Tells L) {b : Bool} {s : S} (hf : (free L C b s).1 = false) : Told (free L C b s).2.o.errmsg := by
  unfold free at hf ⊢
  dsimp only at hf ⊢
  split
  · rename_i hh
    rw [hh] at hf
    cases hf
  · rename_i h hh
    rw [hh] at hf
    dsimp only at hf
    split
    · rename_i hr
      rw [if_pos hr] at hf
      cases hf
    · rename_i hr
      refine told_saveError (hL.dlclose s.w.clock h ?_)
      have : (L.dlclose s.w.clock h).1 = false ∧ b = false := by simpa [callDlclose, clearError] using hr
      exact this.1

theorem firstDladdr_ne {s : S} {p : Str} (h : firstDladdr L C s = some p) : p ≠ [] := by
  obtain ⟨i, _, hi⟩ := List.exists_of_findSome?_eq_some h
  cases hp : s.w.ptr i with
  | none => rw [hp] at hi; cases hi
  | some x =>
    rw [hp] at hi
    simp only [Option.bind_eq_bind, Option.bind_some] at hi
    cases hd : L.dladdr s.w.clock x with
    | none => rw [hd] at hi; cases hi
    | some f =>
      rw [hd] at hi
      simp only [Option.bind_some] at hi
      split at hi
      · cases hi
      · cases hi; assumption

theorem pathDladdr_cases (s : S) : ((pathDladdr L C s).1 = false ∧ Told (pathDladdr L C s).2.o.errmsg) ∨
    ((pathDladdr L C s).1 = true ∧ (pathDladdr L C s).2.o.libpath ≠ [] ∧ (pathDladdr L C s).2.o.errmsg = s.o.errmsg) := by
  unfold pathDladdr
  split
  · exact .inl ⟨rfl, by simp [setMsg], by simp [setMsg]⟩
  · dsimp only
    split
    · exact .inl ⟨rfl, by simp [setMsg], by simp [setMsg]⟩
    · rename_i p hp
      exact .inr ⟨rfl, firstDladdr_ne hp, rfl⟩

theorem fit_ne {p : Str} (h : p ≠ []) : Rt.fit p ≠ [] := by
  cases p with
  | nil => exact absurd rfl h
  | cons c r => simp [Rt.fit, Rt.bufLen]

/-- The text found in `/proc/self/maps` is not empty. -/
def MapsNonempty (L : Loader) : Prop := ∀ t h, L.procmap t h ≠ some []

theorem pathDlinfo_cases (hL : Tells L) (hp : MapsNonempty L) (h : Ptr) (s : S) :
    ((pathDlinfo L C h s).1 = false ∧ Told (pathDlinfo L C h s).2.o.errmsg) ∨
    ((pathDlinfo L C h s).1 = true ∧ (pathDlinfo L C h s).2.o.libpath ≠ [] ∧ (pathDlinfo L C h s).2.o.errmsg = s.o.errmsg) := by
  unfold pathDlinfo
  dsimp only
  split
  · rename_i hn
    exact .inl ⟨rfl, told_saveError (hL.dlinfo s.w.clock h hn)⟩
  · split
    · exact .inl ⟨rfl, by simp [setMsg], by simp [setMsg]⟩
    · rename_i hne
      split
      · rename_i p hq
        refine .inr ⟨rfl, fit_ne ?_, rfl⟩
        rintro rfl
        split at hq
        · exact hp _ _ hq
        · cases hq
      · exact .inr ⟨rfl, hne, rfl⟩

theorem libraryPathDladdr_cases (s : S) (hs : Told s.o.errmsg ∨ C.haveDladdr = true) :
    ((libraryPathDladdr L C s).1 = [] ∧ Told (libraryPathDladdr L C s).2.o.errmsg) ∨
    ((libraryPathDladdr L C s).1 ≠ [] ∧ (libraryPathDladdr L C s).2.o.errmsg = s.o.errmsg) := by
  unfold libraryPathDladdr
  split
  · dsimp only
    rcases pathDladdr_cases (L := L) (C := C) s with ⟨h1, h2⟩ | ⟨h1, h2, h3⟩
    · rw [h1]; exact .inl ⟨rfl, h2⟩
    · rw [h1]; exact .inr ⟨h2, h3⟩
  · rename_i hd
    rcases hs with hs | hs
    · exact .inl ⟨rfl, hs⟩
    · exact absurd hs hd

theorem libraryPath_told (hL : Tells L) (hp : MapsNonempty L) (s : S) :
    ((libraryPath L C s).1 = [] → Told (libraryPath L C s).2.o.errmsg) := by
  unfold libraryPath
  dsimp only
  split
  · intro _; exact ⟨by simp [setMsg], by simp [setMsg]⟩
  · rename_i hc
    split
    · intro _; exact told_invalidHandle _
    · rename_i h hh
      split
      · rename_i hl; intro hf; exact absurd hf hl
      · split
        · rcases pathDlinfo_cases (C := C) hL hp h (clearError s) with ⟨h1, h2⟩ | ⟨h1, h2, h3⟩
          · rw [h1]
            simp only [Bool.false_eq_true, if_false]
            intro hf
            rcases libraryPathDladdr_cases (L := L) (C := C) _ (.inl h2) with h4 | h4
            · exact h4.2
            · exact absurd hf h4.1
          · rw [h1]
            intro hf
            exact absurd hf h2
        · rename_i hi
          intro hf
          have hd : C.haveDladdr = true := by
            cases h : C.haveDladdr with
            | true => rfl
            | false => exact absurd ⟨by simpa using hi, h⟩ hc
          rcases libraryPathDladdr_cases (L := L) (C := C) (clearError s) (.inr hd) with h4 | h4
          · exact h4.2
          · exact absurd hf h4.1

end

/-! ### C66 -/

/-- The functions that report errors. -/
def Failed : Member → Val → Prop
  | .loadArgs .., v => v = .bool false
  | .load, v => v = .bool false
  | .loadLibAndSymbols, v => v = .bool false
  | .loadAllSymbols, v => v = .bool false
  | .loadSymbol _, v => v = .bool false
  | .loadSymbolName _, v => v = .bool false
  | .free _, v => v = .bool false
  | .libraryPath, v => v = .text []
  | _, _ => False

/-- Missing: loaders that fail without a message.  Otherwise after a failing call
    `error()` is neither empty nor `no error`. -/
theorem C66_partial (L : Loader) (C : Cfg) (hL : Tells L) (hp : MapsNonempty L) (s t : S) (m : Member) (v : Val)
    (h : member L C s m = some (v, t)) (hf : Failed m v) : error t = t.o.errmsg ∧ Told (error t) := by
  suffices H : Told t.o.errmsg by
    have : error t = t.o.errmsg := by rw [error, if_neg H.1]
    exact ⟨this, this ▸ H⟩
  cases m <;> simp only [Failed] at hf <;> subst hf <;> simp only [member, ofBool, Option.some.injEq, Prod.mk.injEq, Val.bool.injEq, Val.text.injEq] at h
  case loadArgs n f ns => rw [← h.2]; exact told_loadFilename hL h.1
  case load => rw [← h.2]; exact told_loadFilename hL h.1
  case loadLibAndSymbols =>
    rw [← h.2]
    have h1 := h.1
    unfold loadLibAndSymbols at h1 ⊢
    dsimp only at h1 ⊢
    split
    · rename_i hr
      rw [if_pos hr] at h1
      exact told_loadAllSymbols hL h1
    · rename_i hr
      have hr' : (load L s).1 = false := by simpa using hr
      exact told_loadFilename hL hr'
  case loadAllSymbols => rw [← h.2]; exact told_loadAllSymbols hL h.1
  case loadSymbol n => rw [← h.2]; exact told_loadSymbol hL h.1
  case loadSymbolName n =>
    obtain ⟨r, h1, h2⟩ := Option.map_eq_some_iff.mp h
    simp [ofBool] at h2
    rw [← h2.2]
    exact told_loadSymbolName hL h1 h2.1
  case free b => rw [← h.2]; exact told_free hL h.1
  case libraryPath => rw [← h.2]; exact libraryPath_told hL hp s h.1

/-- A loader for the examples: nothing can be opened, and messages are given. -/
def failLoader : Loader where
  dlopen _ n _ _ := (none, some (n ++ str% ": cannot open"))
  dlsym _ _ n := (none, some (str% "undefined symbol: " ++ n))
  dlclose _ _ := (false, some (str% "invalid handle"))
  dlinfo _ _ := (none, some (str% "invalid handle"))
  dladdr _ _ := none
  procmap _ _ := none
  atexit _ := true

example : Tells failLoader ∧ MapsNonempty failLoader := by
  refine ⟨⟨?_, ?_, ?_, ?_⟩, fun t h => by simp [failLoader]⟩
  · intro t n f ns _
    refine ⟨_, rfl, by simp, ?_⟩
    intro he
    have := congrArg List.getLast? he
    simp at this
  · exact fun t h n _ => ⟨_, rfl, by simp, by simp⟩
  · exact fun t h _ => ⟨_, rfl, by simp, by simp⟩
  · exact fun t h _ => ⟨_, rfl, by simp, by simp⟩

example : ∃ t, member failLoader demoCfg ⟨{ filename := str% "x", flags := 1 }, {}⟩ .load = some (.bool false, t) ∧
    error t = str% "x: cannot open" := ⟨_, rfl, rfl⟩

/-- C66 fails: with a loader that fails without a message `error()` says `no error`. -/
theorem C66_violated : ∃ (L : Loader) (C : Cfg) (s t : S), member L C s .load = some (.bool false, t) ∧ error t = str% "no error" :=
  ⟨{ failLoader with dlopen := fun _ _ _ _ => (none, none) }, demoCfg, ⟨{ filename := str% "x", flags := 1 }, {}⟩, _, rfl, rfl⟩

/-- The text is never empty. -/
theorem C66_nonempty (s : S) : error s ≠ [] := by
  unfold error
  split
  · simp
  · assumption

/-! ### C65 -/

/-- The functions that can succeed. -/
def Succeeded : Member → Val → Prop
  | .loadArgs .., v => v = .bool true
  | .load, v => v = .bool true
  | .loadLibAndSymbols, v => v = .bool true
  | .loadAllSymbols, v => v = .bool true
  | .loadSymbol _, v => v = .bool true
  | .loadSymbolName _, v => v = .bool true
  | .free _, v => v = .bool true
  | .libraryPath, v => ∃ t, t ≠ [] ∧ v = .text t
  | _, _ => False

section
variable {L : Loader} {C : Cfg}

theorem clean_loadFilename {name : Str} {s : S} (h : (loadFilename L name s).1 = true) : (loadFilename L name s).2.o.errmsg = [] := by
  unfold loadFilename at h ⊢
  dsimp only at h ⊢
  split
  · rename_i hc; rw [if_pos hc] at h; cases h
  · rename_i hc
    rw [if_neg hc] at h
    split
    · rename_i hn; rw [if_pos hn] at h; cases h
    · rename_i hn
      rw [if_neg hn] at h
      split
      · rfl
      · rename_i hl; rw [if_neg hl] at h; cases h

theorem clean_symLoad {h : Ptr} {i : Nat} {name : Str} {s : S} (hs : s.o.errmsg = []) (hf : (symLoad L h i name s).1 = true) :
    (symLoad L h i name s).2.o.errmsg = [] := by
  unfold symLoad at hf ⊢
  dsimp only at hf ⊢
  split
  · exact hs
  · rename_i hn; rw [if_neg hn] at hf; cases hf

theorem clean_loadLoop {h : Ptr} (l : List Str) : ∀ (i : Nat) (s : S), s.o.errmsg = [] → (loadLoop L h i l s).1 = true →
    (loadLoop L h i l s).2.o.errmsg = [] := by
  induction l with
  | nil => intro i s hs _; exact hs
  | cons name r ih =>
    intro i s hs hf
    rw [loadLoop] at hf ⊢
    split
    · rename_i ha
      rw [if_pos ha] at hf
      exact ih _ _ (clean_symLoad hs ha) hf
    · rename_i ha
      rw [if_neg ha] at hf
      cases hf

theorem clean_loadAllSymbols {s : S} (hf : (loadAllSymbols L C s).1 = true) : (loadAllSymbols L C s).2.o.errmsg = [] := by
  unfold loadAllSymbols at hf ⊢
  dsimp only at hf ⊢
  split
  · rfl
  · rename_i ha
    rw [if_neg ha] at hf
    split
    · rename_i hh; rw [hh] at hf; cases hf
    · rename_i h hh
      rw [hh] at hf
      exact clean_loadLoop _ _ _ rfl hf

theorem clean_loadOne {h : Ptr} {i : Nat} {name : Str} {s : S} (hs : s.o.errmsg = []) (hf : (loadOne L h i name s).1 = true) :
    (loadOne L h i name s).2.o.errmsg = [] := by
  unfold loadOne at hf ⊢
  split
  · exact hs
  · rename_i hp
    rw [hp] at hf
    exact clean_symLoad hs hf

theorem clean_loadSymbol {num : Int} {s : S} (hf : (loadSymbol L C num s).1 = true) : (loadSymbol L C num s).2.o.errmsg = [] := by
  unfold loadSymbol at hf ⊢
  dsimp only at hf ⊢
  split
  · rename_i hh; rw [hh] at hf; cases hf
  · rename_i h hh
    rw [hh] at hf
    dsimp only at hf
    split
    · rename_i i name hc
      rw [hc] at hf
      exact clean_loadOne rfl hf
    · rename_i hc; rw [hc] at hf; cases hf

theorem clean_loadSymbolName {name : Option Str} {s : S} {r : Bool × S} (hr : loadSymbolName L C name s = some r) (hf : r.1 = true) :
    r.2.o.errmsg = [] := by
  unfold loadSymbolName at hr
  dsimp only at hr
  split at hr
  · cases hr; cases hf
  · split at hr
    · cases hr; cases hf
    · obtain ⟨f, _, rfl⟩ := Option.map_eq_some_iff.mp hr
      match f, hf with
      | none, hf => cases hf
      | some (i, cur), hf => exact clean_loadOne rfl hf

theorem clean_free {b : Bool} {s : S} (hf : (free L C b s).1 = true) : (free L C b s).2.o.errmsg = [] := by
  unfold free at hf ⊢
  dsimp only at hf ⊢
  split
  · rfl
  · rename_i h hh
    rw [hh] at hf
    dsimp only at hf
    split
    · rfl
    · rename_i hr; rw [if_neg hr] at hf; cases hf

end

/-- `dlinfo` gives a name when it is asked. -/
def InfoWorks (L : Loader) : Prop := ∀ t h, ∃ n, n ≠ [] ∧ (L.dlinfo t h).1 = some (some n)

/-- Missing: `library_path` when `dlinfo` fails and `dladdr` is used instead.  Otherwise
    after a successful call `error()` says `no error`. -/
theorem C65_partial (L : Loader) (C : Cfg) (hi : C.haveDlinfo = false ∨ C.haveDladdr = false ∨ InfoWorks L) (s t : S) (m : Member) (v : Val)
    (h : member L C s m = some (v, t)) (hf : Succeeded m v) : error t = str% "no error" := by
  suffices H : t.o.errmsg = [] by rw [error, if_pos H]
  cases m <;> simp only [Succeeded] at hf
  case loadArgs n f ns => subst hf; simp [member, ofBool] at h; rw [← h.2]; exact clean_loadFilename h.1
  case load => subst hf; simp [member, ofBool] at h; rw [← h.2]; exact clean_loadFilename h.1
  case loadLibAndSymbols =>
    subst hf
    simp [member, ofBool] at h
    rw [← h.2]
    have h1 := h.1
    unfold loadLibAndSymbols at h1 ⊢
    dsimp only at h1 ⊢
    split
    · rename_i hr
      rw [if_pos hr] at h1
      exact clean_loadAllSymbols h1
    · rename_i hr
      rw [if_neg hr] at h1
      cases h1
  case loadAllSymbols => subst hf; simp [member, ofBool] at h; rw [← h.2]; exact clean_loadAllSymbols h.1
  case loadSymbol n => subst hf; simp [member, ofBool] at h; rw [← h.2]; exact clean_loadSymbol h.1
  case loadSymbolName n =>
    subst hf
    obtain ⟨r, h1, h2⟩ := Option.map_eq_some_iff.mp h
    simp [ofBool] at h2
    rw [← h2.2]
    exact clean_loadSymbolName h1 h2.1
  case free b => subst hf; simp [member, ofBool] at h; rw [← h.2]; exact clean_free h.1
  case libraryPath =>
    obtain ⟨x, hx, rfl⟩ := hf
    simp [member] at h
    obtain ⟨h1, rfl⟩ := h
    rw [← h1] at hx
    clear h1
    unfold libraryPath at hx ⊢
    dsimp only at hx ⊢
    split
    · rename_i hc; rw [if_pos hc] at hx; exact absurd rfl hx
    · rename_i hc
      rw [if_neg hc] at hx
      split
      · rename_i hh; rw [hh] at hx; exact absurd rfl hx
      · rename_i h hh
        rw [hh] at hx
        dsimp only at hx
        split
        · rfl
        · rename_i hl
          rw [if_neg hl] at hx
          have dl : ∀ u : S, u.o.errmsg = [] → (libraryPathDladdr L C u).1 ≠ [] → (libraryPathDladdr L C u).2.o.errmsg = [] := by
            intro u hu hne
            unfold libraryPathDladdr at hne ⊢
            split
            · rename_i hd
              rw [if_pos hd] at hne
              dsimp only at hne ⊢
              split
              · rename_i hr
                rcases pathDladdr_cases (L := L) (C := C) u with ⟨h1, _⟩ | ⟨_, _, h3⟩
                · rw [h1] at hr; cases hr
                · rw [h3]; exact hu
              · rename_i hr; rw [if_neg hr] at hne; exact absurd rfl hne
            · rename_i hd; rw [if_neg hd] at hne; exact absurd rfl hne
          split
          · rename_i hdi
            rw [if_pos hdi] at hx
            have ok : (pathDlinfo L C h (clearError s)).1 = true → (pathDlinfo L C h (clearError s)).2.o.errmsg = [] := by
              unfold pathDlinfo
              dsimp only
              split
              · intro h; cases h
              · split
                · intro h; cases h
                · split <;> exact fun _ => rfl
            split
            · rename_i hr; exact ok hr
            · rename_i hr
              rw [if_neg hr] at hx
              rcases hi with hi | hi | hi
              · rw [hi] at hdi; cases hdi
              · unfold libraryPathDladdr at hx
                rw [hi] at hx
                exact absurd rfl hx
              · obtain ⟨n, hn, hd⟩ := hi s.w.clock h
                exfalso
                apply hr
                unfold pathDlinfo
                have : (callDlinfo L h (clearError s)).1 = some (some n) := hd
                simp only [this, Option.getD_some, hn, if_false]
                split <;> rfl
          · rename_i hdi
            rw [if_neg hdi] at hx
            exact dl _ rfl hx

example : InfoWorks demoLoader := by
  intro t h
  by_cases hh : h = 100
  · exact ⟨str% "/lib/x", by simp, by simp [demoLoader, hh]⟩
  · exact ⟨str% "/lib/y", by simp, by simp [demoLoader, hh]⟩

/-- C65 fails: `dlinfo` fails, `dladdr` gives the path, the message of `dlinfo` stays. -/
theorem C65_violated : ∃ (L : Loader) (C : Cfg) (s t : S),
    member L C s .libraryPath = some (.text (str% "/lib/x"), t) ∧ error t = str% "invalid handle" :=
  ⟨{ demoLoader with dlinfo := fun _ _ => (none, some (str% "invalid handle")) }, demoCfg,
    ⟨{ flags := 1 }, { handle := some 100, ptr := fun i => if i = 0 then some 7 else none }⟩, _, rfl, rfl⟩

/-! ### C67 -/

section
variable {L : Loader} {C : Cfg}

theorem loadLoop_ptr {h : Ptr} (l : List Str) : ∀ (i : Nat) (s : S), (∀ j, j < i → (loadLoop L h i l s).2.w.ptr j = s.w.ptr j) ∧
    (((loadLoop L h i l s).1 = true ∧ ∀ k, k < l.length → (loadLoop L h i l s).2.w.ptr (i + k) ≠ none) ∨
      ((loadLoop L h i l s).1 = false ∧ ∃ k, k < l.length ∧ (loadLoop L h i l s).2.w.ptr (i + k) = none)) := by
  induction l with
  | nil => intro i s; exact ⟨fun _ _ => rfl, .inl ⟨rfl, by simp⟩⟩
  | cons name r ih =>
    intro i s
    rw [loadLoop]
    have hp := symLoad_ptr (L := L) h i name s
    have hf := symLoad_fst (L := L) h i name s
    by_cases ha : (symLoad L h i name s).1 = true
    · rw [if_pos ha]
      obtain ⟨h1, h2⟩ := ih (i + 1) (symLoad L h i name s).2
      refine ⟨fun j hj => ?_, ?_⟩
      · rw [h1 j (by omega), hp]
        simp [show j ≠ i by omega]
      · rcases h2 with ⟨h2, h3⟩ | ⟨h2, k, hk, h3⟩
        · refine .inl ⟨h2, fun k hk => ?_⟩
          rcases k with _ | k
          · show (loadLoop L h (i + 1) r (symLoad L h i name s).2).2.w.ptr i ≠ none
            rw [h1 i (by omega), hp]
            simp only [if_true]
            rw [ha] at hf
            exact Option.isSome_iff_ne_none.mp hf.symm
          · have := h3 k (by simpa using hk)
            rw [show i + (k + 1) = i + 1 + k by omega]
            exact this
        · refine .inr ⟨h2, k + 1, by simpa using hk, ?_⟩
          rw [show i + (k + 1) = i + 1 + k by omega]
          exact h3
    · rw [if_neg ha]
      refine ⟨fun j hj => ?_, .inr ⟨rfl, 0, by simp, ?_⟩⟩
      · rw [hp]
        simp [show j ≠ i by omega]
      · rw [hp]
        simp only [Nat.add_zero, if_true]
        rw [hf] at ha
        simpa using ha

end

/-- Loading all symbols succeeds if and only if all symbol pointers are set afterwards. -/
theorem C67_all (L : Loader) (C : Cfg) (s : S) :
    (loadAllSymbols L C s).1 = true ↔ ∀ i, i < C.syms.length → (loadAllSymbols L C s).2.w.ptr i ≠ none := by
  have hall : ∀ s, allLoaded C s = true ↔ ∀ i, i < C.syms.length → s.w.ptr i ≠ none := by
    intro s
    simp [allLoaded, Option.isSome_iff_ne_none]
  unfold loadAllSymbols
  dsimp only
  by_cases ha : allLoaded C (clearError s) = true
  · rw [if_pos ha]
    exact ⟨fun _ => (hall _).mp ha, fun _ => rfl⟩
  · rw [if_neg ha]
    cases hh : (clearError s).w.handle with
    | none =>
      dsimp only
      exact ⟨fun h => (by cases h), fun h => absurd ((hall _).mpr h) ha⟩
    | some h =>
      dsimp only
      obtain ⟨_, h2⟩ := loadLoop_ptr (L := L) (h := h) C.syms 0 (clearError s)
      simp only [Nat.zero_add] at h2
      rcases h2 with ⟨h2, h3⟩ | ⟨h2, k, hk, h3⟩
      · exact ⟨fun _ => h3, fun _ => h2⟩
      · refine ⟨fun h => (by rw [h2] at h; cases h), fun h => absurd h3 (h k hk)⟩

example : (loadAllSymbols demoLoader { demoCfg with syms := [str% "f"] } ⟨{ flags := 1 }, { handle := some 100 }⟩).1 = true ∧
    (loadAllSymbols demoLoader demoCfg ⟨{ flags := 1 }, { handle := some 100 }⟩).1 = false := ⟨rfl, rfl⟩

/-- The symbol to be loaded has a pointer afterwards, if loading it succeeds. -/
theorem C67_symbol (L : Loader) (C : Cfg) (s : S) (num : Int) (h : (loadSymbol L C num s).1 = true) :
    ∃ i name, num = Int.ofNat i ∧ C.syms[i]? = some name ∧ (loadSymbol L C num s).2.w.ptr i ≠ none := by
  unfold loadSymbol at h ⊢
  dsimp only at h ⊢
  split at h
  · cases h
  · rename_i x hx
    split at h
    · rename_i i name hc
      obtain ⟨h1, h2⟩ := Rt.caseOf_some hc
      refine ⟨i, name, h1, h2, ?_⟩
      unfold loadOne at h ⊢
      split
      · rename_i p hp
        rw [hp]
        simp
      · rename_i hp
        rw [hp] at h
        dsimp only at h
        rw [symLoad_ptr]
        simp only [if_true]
        rw [symLoad_fst] at h
        exact Option.isSome_iff_ne_none.mp h
    · cases h

example : (loadSymbol demoLoader demoCfg 0 ⟨{ flags := 1 }, { handle := some 100 }⟩).1 = true := rfl

/-- Without a library, loading one asks the loader once, with the name, flags and
    namespace stored in the object, or with those given, which are stored.  The handle is
    what it answers. -/
theorem C67_opened (L : Loader) (s : S) (hs : s.w.handle = none) :
    (s.o.filename ≠ [] → (load L s).2.w.handle = (L.dlopen s.w.clock s.o.filename s.o.flags s.o.ns).1 ∧
      ((load L s).1 = true ↔ (load L s).2.w.handle ≠ none) ∧ (load L s).2.w.clock = s.w.clock + 1) ∧
    (∀ n f ns, n ≠ [] → (loadArgs L n f ns s).2.w.handle = (L.dlopen s.w.clock n f ns).1 ∧
      ((loadArgs L n f ns s).1 = true ↔ (loadArgs L n f ns s).2.w.handle ≠ none) ∧ (loadArgs L n f ns s).2.w.clock = s.w.clock + 1) ∧
    (∀ n f ns, (loadArgs L n f ns s).2.o.filename = n ∧ (loadArgs L n f ns s).2.o.flags = f ∧ (loadArgs L n f ns s).2.o.ns = ns) := by
  have main : ∀ n (t : S), t.w.handle = none → n ≠ [] → (loadFilename L n t).2.w.handle = (L.dlopen t.w.clock n t.o.flags t.o.ns).1 ∧
      ((loadFilename L n t).1 = true ↔ (loadFilename L n t).2.w.handle ≠ none) ∧ (loadFilename L n t).2.w.clock = t.w.clock + 1 := by
    intro n t ht hn
    unfold loadFilename
    dsimp only
    rw [if_neg (by simp [libLoaded, clearError, ht]), if_neg hn]
    cases ha : (L.dlopen t.w.clock n t.o.flags t.o.ns).1 with
    | none => simp [libLoaded, loadLib, clearError, ha, saveError]
    | some h => simp [libLoaded, loadLib, clearError, ha]
  refine ⟨fun hn => main _ s hs hn, fun n f ns hn => main n _ hs hn, ?_⟩
  intro n f ns
  unfold loadArgs loadFilename
  dsimp only
  split
  · exact ⟨rfl, rfl, rfl⟩
  · split
    · exact ⟨rfl, rfl, rfl⟩
    · split <;> exact ⟨rfl, rfl, rfl⟩

example : ∃ s : S, s.w.handle = none ∧ s.o.filename ≠ [] := ⟨⟨{ filename := str% "x", flags := 1 }, {}⟩, rfl, by decide⟩

/-- A constructor stores its arguments, the object has no message and no path, and nothing
    else happens; the default constructor takes the default flags and no name. -/
theorem C67_constructed (L : Loader) (C : Cfg) (p : Prog) (i : Nat) (hi : p.obj i = none) :
    (∀ n f ns, ∃ q o, step L C p (.newArgs i n f ns) = .go q ∧ q.obj i = some o ∧ o.filename = n ∧ o.flags = f ∧ o.ns = ns ∧
      o.freeInDtor = true ∧ o.libpath = [] ∧ o.errmsg = [] ∧ q.w = p.w ∧ q.loader = p.loader ∧ ∀ j, j ≠ i → q.obj j = p.obj j) ∧
    (∃ q o, step L C p (.new i) = .go q ∧ q.obj i = some o ∧ o.filename = [] ∧ o.flags = C.flags ∧ o.ns = false ∧
      o.freeInDtor = true ∧ o.libpath = [] ∧ o.errmsg = [] ∧ q.w = p.w ∧ q.loader = p.loader ∧ ∀ j, j ≠ i → q.obj j = p.obj j) ∧
    (∀ j o, p.obj j = some o → ∃ q, step L C p (.copy j i) = .go q ∧ q.obj i = some o ∧ q.w = p.w ∧ q.loader = p.loader ∧
      ∀ k, k ≠ i → q.obj k = p.obj k) := by
  refine ⟨fun n f ns => ⟨p.set i (some { filename := n, flags := f, ns := ns }), { filename := n, flags := f, ns := ns }, ?_, ?_, rfl, rfl, rfl,
      rfl, rfl, rfl, rfl, rfl, ?_⟩,
    ⟨p.set i (some { flags := C.flags }), { flags := C.flags }, ?_, ?_, rfl, rfl, rfl, rfl, rfl, rfl, rfl, rfl, ?_⟩, ?_⟩
  · simp [step, hi]
  · simp [Prog.set]
  · intro j hj
    simp [Prog.set, hj]
  · simp [step, hi]
  · simp [Prog.set]
  · intro j hj
    simp [Prog.set, hj]
  · intro j o hj
    refine ⟨p.set i (some o), ?_, by simp [Prog.set], rfl, rfl, fun k hk => by simp [Prog.set, hk]⟩
    simp [step, hi, hj]

example : (start demoCfg).obj 1 = none := rfl

/-- Calls that are refused return false and change neither the library, nor the symbol
    pointers, nor the history, nor the stored path. -/
theorem C67_refused (L : Loader) (C : Cfg) (s : S) :
    (∀ h, s.w.handle = some h → ∀ n f ns, (loadArgs L n f ns s).1 = false ∧ core (loadArgs L n f ns s).2 = core s) ∧
    (∀ h, s.w.handle = some h → (load L s).1 = false ∧ core (load L s).2 = core s) ∧
    (∀ f ns, (loadArgs L [] f ns s).1 = false ∧ core (loadArgs L [] f ns s).2 = core s) ∧
    (s.w.handle = none → ∀ n, (loadSymbol L C n s).1 = false ∧ core (loadSymbol L C n s).2 = core s) ∧
    (s.w.handle = none → ∀ n, ∃ t, loadSymbolName L C n s = some (false, t) ∧ core t = core s) ∧
    (∀ n : Int, (n < 0 ∨ Int.ofNat C.syms.length ≤ n) → (loadSymbol L C n s).1 = false ∧ core (loadSymbol L C n s).2 = core s) := by
  refine ⟨?_, ?_, ?_, ?_, ?_, ?_⟩
  · intro h hh n f ns
    unfold loadArgs loadFilename
    rw [if_pos (by simp [libLoaded, clearError, hh])]
    exact ⟨rfl, rfl⟩
  · intro h hh
    unfold load loadFilename
    rw [if_pos (by simp [libLoaded, clearError, hh])]
    exact ⟨rfl, rfl⟩
  · intro f ns
    unfold loadArgs loadFilename
    dsimp only
    split <;> exact ⟨rfl, rfl⟩
  · intro hh n
    unfold loadSymbol
    have : (clearError s).w.handle = none := hh
    simp only [this]
    exact ⟨trivial, rfl⟩
  · intro hh n
    unfold loadSymbolName
    have : (clearError s).w.handle = none := hh
    simp only [this]
    exact ⟨_, rfl, rfl⟩
  · intro n hn
    have hc : Rt.caseOf C n = none := by
      match n with
      | .ofNat k =>
        have : C.syms.length ≤ k := by
          rcases hn with hn | hn
          · exact absurd hn (by simp)
          · exact Int.ofNat_le.mp hn
        simp [Rt.caseOf, List.getElem?_eq_none this]
      | .negSucc _ => rfl
    unfold loadSymbol
    dsimp only
    split
    · exact ⟨rfl, rfl⟩
    · simp only [hc]
      exact ⟨trivial, rfl⟩

example : (load demoLoader ⟨{ filename := str% "x", flags := 1 }, { handle := some 100 }⟩).1 = false := rfl

/-! ### C47, C48, C63 -/

section
variable {L : Loader} {C : Cfg}

theorem load_stderr (s : S) : (load L s).2.w.stderr = s.w.stderr := by
  unfold load loadFilename
  dsimp only
  split
  · rfl
  · split
    · rfl
    · split <;> rfl

theorem autoloadLib_stderr (s : S) : (autoloadLib L s).w.stderr = s.w.stderr := by
  unfold autoloadLib
  split
  · rfl
  · exact load_stderr s

theorem symLoad_stderr (h : Ptr) (i : Nat) (name : Str) (s : S) : (symLoad L h i name s).2.w.stderr = s.w.stderr := by
  unfold symLoad
  dsimp only
  split <;> rfl

theorem loadLoop_stderr (h : Ptr) (l : List Str) : ∀ (i : Nat) (s : S), (loadLoop L h i l s).2.w.stderr = s.w.stderr := by
  induction l with
  | nil => intro i s; rfl
  | cons name r ih =>
    intro i s
    rw [loadLoop]
    split
    · rw [ih, symLoad_stderr]
    · exact symLoad_stderr ..

theorem loadAllSymbols_stderr (s : S) : (loadAllSymbols L C s).2.w.stderr = s.w.stderr := by
  unfold loadAllSymbols
  dsimp only
  split
  · rfl
  · split
    · rfl
    · rw [loadLoop_stderr]
      rfl

theorem loadSymbol_stderr (n : Int) (s : S) : (loadSymbol L C n s).2.w.stderr = s.w.stderr := by
  unfold loadSymbol
  dsimp only
  split
  · rfl
  · split
    · unfold loadOne
      split
      · rfl
      · rw [symLoad_stderr]
        rfl
    · rfl

theorem afterLoad_stderr (i : Nat) (s : S) : (afterLoad L C i s).2.w.stderr = s.w.stderr := by
  unfold afterLoad
  split
  · rw [loadSymbol_stderr, autoloadLib_stderr]
  · rw [loadAllSymbols_stderr, autoloadLib_stderr]

theorem strstr_infix : ∀ (h n : Str), strstr h n = true → n <:+: h := by
  intro h
  induction h with
  | nil => intro n hn; simp only [strstr, List.isEmpty_iff] at hn; subst hn; exact List.infix_refl _
  | cons c r ih =>
    intro n hn
    simp only [strstr, Bool.or_eq_true, List.isPrefixOf_iff_prefix] at hn
    rcases hn with hn | hn
    · exact hn.isInfix
    · exact List.infix_cons (ih n hn)

end

/-- A wrapper function of the C++ code calls through a pointer that is not NULL, or it ends
    the process with a message that names the symbol; with automatic loading it also names
    the library, whatever its name is. -/
theorem C47_cxx (L : Loader) (C : Cfg) (i : Nat) (name : Str) (hi : C.syms[i]? = some name) (s : S) :
    match wrapper L C i s with
    | .ret (p, t) => t.w.ptr i = some p
    | .exit t => C.mode ≠ .wrap ∧ ∃ m, t.w.stderr = s.w.stderr ++ m ∧ name <:+: m ∧ C.lib <:+: m
    | .abort w => C.mode = .wrap ∧ ∃ m, w.stderr = s.w.stderr ++ m ∧ name <:+: m
    | .ub => False := by
  have hname : C.syms.getD i [] = name := by simp [List.getD_eq_getElem?_getD, hi]
  have hlt : i < C.syms.length := (List.getElem?_eq_some_iff.mp hi).1
  unfold wrapper
  cases hp : s.w.ptr i with
  | some p => exact hp
  | none =>
    dsimp only
    have hA : C.mode ≠ .wrap → match (match notLoaded L C i s with
      | .ret s =>
        match s.w.ptr i with
        | some p => Out.ret (p, s)
        | none => .ub
      | .exit s => .exit s
      | .abort w => .abort w
      | .ub => .ub) with
    | .ret (p, t) => t.w.ptr i = some p
    | .exit t => C.mode ≠ .wrap ∧ ∃ m, t.w.stderr = s.w.stderr ++ m ∧ name <:+: m ∧ C.lib <:+: m
    | .abort w => C.mode = .wrap ∧ ∃ m, w.stderr = s.w.stderr ++ m ∧ name <:+: m
    | .ub => False := by
      intro hm
      rw [notLoaded_eq]
      by_cases ha : (afterLoad L C i s).1 = true
      · rw [if_pos ha]
        dsimp only
        have : (afterLoad L C i s).2.w.ptr i ≠ none := by
          unfold afterLoad at ha ⊢
          split at ha
          · rename_i hl
            rw [if_pos hl]
            obtain ⟨j, _, h1, _, h2⟩ := C67_symbol L C _ _ ha
            have : j = i := by injection h1 with h1; exact h1.symm
            subst this
            exact h2
          · rename_i hl
            rw [if_neg hl]
            exact (C67_all L C _).mp ha i hlt
        obtain ⟨p, hp⟩ := Option.ne_none_iff_exists'.mp this
        rw [hp]
        exact hp
      · rw [if_neg ha]
        dsimp only
        refine ⟨hm, autoMsg C (C.syms.getD i []) (afterLoad L C i s).2 ++ ['\n'], ?_, ?_, ?_⟩
        · show (afterLoad L C i s).2.w.stderr ++ _ ++ _ = _
          rw [afterLoad_stderr, List.append_assoc]
        · rw [hname]
          unfold autoMsg
          dsimp only
          split
          · exact ⟨str% "error: ", str% ": " ++ error (afterLoad L C i s).2 ++ ['\n'], by simp only [List.append_assoc]⟩
          · exact ⟨str% "error: " ++ C.lib ++ str% ": ", str% ": " ++ error (afterLoad L C i s).2 ++ ['\n'], by simp only [List.append_assoc]⟩
        · unfold autoMsg
          dsimp only
          split
          · rename_i hs
            obtain ⟨a, b, hab⟩ := strstr_infix _ _ hs
            refine ⟨str% "error: " ++ C.syms.getD i [] ++ str% ": " ++ a, b ++ ['\n'], ?_⟩
            rw [← hab]
            simp only [List.append_assoc]
          · exact ⟨str% "error: ", str% ": " ++ C.syms.getD i [] ++ str% ": " ++ error (afterLoad L C i s).2 ++ ['\n'], by simp only [List.append_assoc]⟩
    cases hm : C.mode with
    | wrap =>
      dsimp only
      refine ⟨rfl, _, by unfold notLoadedAbort show'; dsimp only; rw [List.append_assoc], ?_⟩
      rw [hname]
      exact ⟨str% "fatal error: ", str% ": " ++ (if s.w.handle.isSome then str% "symbol not loaded" else str% "library not loaded") ++ ['\n'],
        by simp only [List.append_assoc]⟩
    | _ => rw [hm] at hA; exact hA (by decide)

/-- What a wrapper function called, and what was written. -/
def shown : Out (Ptr × S) → Option Ptr × Str
  | .ret (p, s) => (some p, s.w.stderr)
  | .exit s => (none, s.w.stderr)
  | .abort w => (none, w.stderr)
  | .ub => (none, [])

example : shown (wrapper demoLoader demoCfg 0 ⟨{ filename := str% "x.so", flags := 1 }, {}⟩) = (some 7, []) := rfl

example : shown (wrapper demoLoader demoCfg 1 ⟨{ filename := str% "x.so", flags := 1 }, {}⟩) =
    (none, str% "error: x: g: undefined symbol: g\n") := rfl

/-- With the C++ code the message about failed automatic loading contains the name of the
    library as it was given, also with percent signs. -/
theorem C63_cxx (L : Loader) (C : Cfg) (i : Nat) (name : Str) (hi : C.syms[i]? = some name) (s t : S) (h : wrapper L C i s = .exit t) :
    ∃ m, t.w.stderr = s.w.stderr ++ m ∧ C.lib <:+: m := by
  have := C47_cxx L C i name hi s
  rw [h] at this
  obtain ⟨_, m, h1, _, h2⟩ := this
  exact ⟨m, h1, h2⟩

example : shown (wrapper demoLoader { demoCfg with lib := str% "lib%s%n.so" } 1 ⟨{ filename := str% "x.so", flags := 1 }, {}⟩) =
    (none, str% "error: lib%s%n.so: g: undefined symbol: g\n") := rfl

/-- The library cannot be opened: as in the C code, the reason the loader gave is replaced
    by `no library was loaded`, whatever it was. -/
theorem C48_cxx_violated (L : Loader) (C : Cfg) (hm : C.mode ≠ .wrap) (i : Nat) (name : Str) (hi : C.syms[i]? = some name)
    (s : S) (hh : s.w.handle = none) (hnull : s.w.ptr i = none) (ho : ∀ t n f ns, (L.dlopen t n f ns).1 = none)
    (hlib : strstr (str% "no library was loaded") C.lib = false) :
    ∃ t, wrapper L C i s = .exit t ∧ t.w.stderr = s.w.stderr ++ str% "error: " ++ C.lib ++ str% ": " ++ name ++ str% ": no library was loaded\n" := by
  have hname : C.syms.getD i [] = name := by simp [List.getD_eq_getElem?_getD, hi]
  have hlt : i < C.syms.length := (List.getElem?_eq_some_iff.mp hi).1
  have hA : (autoloadLib L s).w.handle = none ∧ (autoloadLib L s).w.ptr = s.w.ptr := by
    unfold autoloadLib
    rw [if_neg (by simp [libLoaded, hh])]
    unfold load loadFilename
    dsimp only
    rw [if_neg (by simp [libLoaded, clearError, hh])]
    split
    · exact ⟨hh, rfl⟩
    · rw [if_neg (by simp [libLoaded, loadLib, ho])]
      refine ⟨?_, rfl⟩
      simp [saveError, loadLib, ho]
  have hB : (afterLoad L C i s).1 = false ∧ (afterLoad L C i s).2.o.errmsg = str% "no library was loaded" := by
    unfold afterLoad
    have hc : (clearError (autoloadLib L s)).w.handle = none := hA.1
    split
    · unfold loadSymbol
      simp only [hc]
      exact ⟨trivial, rfl⟩
    · unfold loadAllSymbols
      dsimp only
      rw [if_neg]
      · simp only [hc]
        exact ⟨trivial, rfl⟩
      · simp only [allLoaded, List.all_eq_true, List.mem_range]
        intro hall
        have := hall i hlt
        have h2 : (clearError (autoloadLib L s)).w.ptr i = none := by
          show (autoloadLib L s).w.ptr i = none
          rw [hA.2, hnull]
        rw [h2] at this
        cases this
  have he : error (afterLoad L C i s).2 = str% "no library was loaded" := by
    unfold error
    rw [hB.2]
    rfl
  have hw : notLoaded L C i s = .exit { (afterLoad L C i s).2 with w := show' (autoMsg C (C.syms.getD i []) (afterLoad L C i s).2) (afterLoad L C i s).2.w } := by
    rw [notLoaded_eq, hB.1]
    rfl
  refine ⟨{ (afterLoad L C i s).2 with w := show' (autoMsg C (C.syms.getD i []) (afterLoad L C i s).2) (afterLoad L C i s).2.w }, ?_, ?_⟩
  · unfold wrapper
    rw [hnull]
    dsimp only
    rw [hw]
    cases hm' : C.mode <;> first | exact absurd hm' hm | rfl
  · show (afterLoad L C i s).2.w.stderr ++ autoMsg C _ _ ++ ['\n'] = _
    unfold autoMsg
    dsimp only
    rw [afterLoad_stderr, he, hlib, hname]
    simp [List.append_assoc]

example : ∃ (L : Loader) (s : S), (∀ t n f ns, (L.dlopen t n f ns).1 = none ∧ (L.dlopen t n f ns).2 = some (str% "x.so: wrong ELF class")) ∧
    s.w.handle = none ∧ strstr (str% "no library was loaded") demoCfg.lib = false ∧
    shown (wrapper L demoCfg 0 s) = (none, str% "error: x: f: no library was loaded\n") :=
  ⟨{ demoLoader with dlopen := fun _ _ _ _ => (none, some (str% "x.so: wrong ELF class")) }, ⟨{ filename := str% "x.so", flags := 1 }, {}⟩,
    fun _ _ _ _ => ⟨rfl, rfl⟩, rfl, rfl, rfl⟩

/-- A symbol is missing: the message contains the reason the loader gave. Missing for the
    whole statement: a library that cannot be opened, see above. -/
theorem C48_cxx_partial (L : Loader) (C : Cfg) (hm : C.mode = .lazy) (i : Nat) (name : Str) (hi : C.syms[i]? = some name) (s : S) (x : Ptr)
    (hx : s.w.handle = some x) (hp : s.w.ptr i = none) (m : Str) (hd : L.dlsym s.w.clock x name = (none, some m)) (hm0 : m ≠ []) :
    ∃ t o, wrapper L C i s = .exit t ∧ t.w.stderr = s.w.stderr ++ o ∧ m <:+: o := by
  have hA : autoloadLib L s = s := by
    unfold autoloadLib
    rw [if_pos (by simp [libLoaded, hx])]
  have hc : Rt.caseOf C (i : Int) = some (i, name) := by
    show (C.syms[i]?).map _ = _
    rw [hi]
    rfl
  have hx' : (clearError s).w.handle = some x := hx
  have hp' : (clearError s).w.ptr i = none := hp
  have hd' : L.dlsym (clearError s).w.clock x name = (none, some m) := hd
  have hB : (afterLoad L C i s).1 = false ∧ (afterLoad L C i s).2.o.errmsg = m := by
    unfold afterLoad
    rw [if_pos hm, hA]
    unfold loadSymbol
    simp only [hx', hc]
    unfold loadOne
    simp only [hp']
    unfold symLoad
    simp only [hd']
    exact ⟨rfl, rfl⟩
  have he : error (afterLoad L C i s).2 = m := by
    unfold error
    rw [hB.2, if_neg hm0]
  refine ⟨{ (afterLoad L C i s).2 with w := show' (autoMsg C (C.syms.getD i []) (afterLoad L C i s).2) (afterLoad L C i s).2.w },
    autoMsg C (C.syms.getD i []) (afterLoad L C i s).2 ++ ['\n'], ?_, ?_, ?_⟩
  · unfold wrapper
    rw [hp]
    dsimp only
    rw [notLoaded_eq, hB.1, hm]
    rfl
  · show (afterLoad L C i s).2.w.stderr ++ _ ++ _ = _
    rw [afterLoad_stderr, List.append_assoc]
  · unfold autoMsg
    dsimp only
    rw [he]
    split
    · exact ⟨str% "error: " ++ C.syms.getD i [] ++ str% ": ", ['\n'], by simp only [List.append_assoc]⟩
    · exact ⟨str% "error: " ++ C.lib ++ str% ": " ++ C.syms.getD i [] ++ str% ": ", ['\n'], by simp only [List.append_assoc]⟩

example : ∃ s : S, s.w.handle = some 100 ∧ s.w.ptr 1 = none ∧
    demoLoader.dlsym s.w.clock 100 (str% "g") = (none, some (str% "undefined symbol: g")) ∧ demoCfg.mode = .lazy :=
  ⟨⟨{ flags := 1 }, { handle := some 100 }⟩, rfl, rfl, rfl, rfl⟩

/-- A path that is found by `dladdr`: one step of the system's time passes, the path is the one
the system names for a symbol that is loaded, and beside the path and the error state nothing is
changed. -/
theorem C67_path (L : Loader) (C : Cfg) (s : S) (h1 : C.haveDlinfo = false) (h2 : s.o.libpath = []) (h3 : (libraryPath L C s).1 ≠ []) :
    (libraryPath L C s).2.w = { s.w with clock := s.w.clock + 1, dlerr := none, log := s.w.log ++ [.path (libraryPath L C s).1] } ∧
      (libraryPath L C s).2.o.libpath = (libraryPath L C s).1 ∧
      (libraryPath L C s).2.o.filename = s.o.filename ∧ ∃ i p, i < C.syms.length ∧ s.w.ptr i = some p ∧ L.dladdr s.w.clock p = some (libraryPath L C s).1 := by
  unfold libraryPath at h3 ⊢
  dsimp only at h3 ⊢
  split at h3
  · exact absurd rfl h3
  · rename_i hc
    rw [if_neg hc]
    cases hh : (clearError s).w.handle with
    | none => rw [hh] at h3; exact absurd rfl h3
    | some h =>
      rw [hh] at h3
      have e0 : (clearError s).o.libpath = [] := h2
      simp only [e0, h1] at h3 ⊢
      simp only [ne_eq, not_true_eq_false, if_false, Bool.false_eq_true] at h3 ⊢
      unfold libraryPathDladdr at h3 ⊢
      cases hd : C.haveDladdr with
      | false =>
        rw [hd] at h3
        exact absurd rfl h3
      | true =>
        rw [hd] at h3
        simp only [if_true] at h3 ⊢
        unfold pathDladdr at h3 ⊢
        cases hn : noneLoaded C (clearError s) with
        | true =>
          rw [hn] at h3
          exact absurd rfl h3
        | false =>
          rw [hn] at h3
          simp only [Bool.false_eq_true, if_false] at h3 ⊢
          cases hf : firstDladdr L C (clearError s) with
          | none =>
            rw [hf] at h3
            exact absurd rfl h3
          | some p =>
            simp only [if_true]
            refine ⟨rfl, trivial, rfl, ?_⟩
            unfold firstDladdr at hf
            obtain ⟨i, hi, e⟩ := List.exists_of_findSome?_eq_some hf
            simp only [Option.bind_eq_bind, Option.bind_eq_some_iff] at e
            obtain ⟨q, hq, f, hf1, hf2⟩ := e
            split at hf2
            · cases hf2
            · cases hf2
              exact ⟨i, q, List.mem_range.mp hi, hq, hf1⟩

example : (libraryPath demoLoader { demoCfg with haveDlinfo := false, haveDladdr := true } ⟨{ flags := 1 }, { handle := some 100, ptr := fun _ => some 7 }⟩).1 ≠ [] := by decide

end Gdo.Cxx
