import Verif.Props.CxxWinFile
import Verif.Props.CxxError

/-!
Properties C90 and C91: the error messages of the generated C++ code on Windows, and its
wrapper functions.
-/

namespace Gdo.CxxWin
open Gdo RtSpec
open Gdo.Rt (Ptr Ev Mode strstr)
open Gdo.Win (backslashes)

/-! ### C90 -/

/-- What is stored about an error: its code and a message of either type of characters,
    not yet put together. -/
structure Err (s : S) (code : Nat) (m w : Str) : Prop where
  code : s.o.errno = code
  msg : s.o.errmsg = m
  wmsg : s.o.werrmsg = w
  text : s.o.formatted = []
  wtext : s.o.wformatted = []

/-- The text for a code: that of the system, or else the code itself. -/
def Describes (format : Nat → Option Str) (code : Nat) (t : Str) : Prop :=
  match format code with
  | some buf => t = buf.takeWhile (· != nul)
  | none => t = str% "error code: " ++ Nat.toDigits 10 code

/-- The text of a stored error: the message, if there is one, and the text for the code. -/
theorem C90_text (L : Loader) (s : S) (code : Nat) (m w : Str) (h : Err s code m w) :
    (∃ t, Describes (L.formatA s.w.clock) code t ∧ (m ≠ [] → (error L s).1 = m ++ (str% ": " ++ t)) ∧
      (m = [] → w = [] → (error L s).1 = t)) ∧
    (∃ t, Describes (L.formatW s.w.clock) code t ∧ (w ≠ [] → (errorW L s).1 = w ++ (str% ": " ++ t)) ∧
      (w = [] → m = [] → (errorW L s).1 = t)) := by
  have hd : ∀ f, Describes f code (codeText f code) := by
    intro f
    unfold Describes codeText
    cases f code <;> rfl
  refine ⟨⟨_, hd _, fun hm => ?_, fun hm hw => ?_⟩, ⟨_, hd _, fun hw => ?_, fun hw hm => ?_⟩⟩
  · rw [error, if_neg (by rw [h.text]; simp), h.msg, h.wmsg, h.code, withMessage, if_pos hm]
  · rw [error, if_neg (by rw [h.text]; simp), h.msg, h.wmsg, h.code, withMessage, if_neg (by simp [hm]), if_neg (by simp [hw])]
  · rw [errorW, if_neg (by rw [h.wtext]; simp), h.msg, h.wmsg, h.code, withMessage, if_pos hw]
  · rw [errorW, if_neg (by rw [h.wtext]; simp), h.msg, h.wmsg, h.code, withMessage, if_neg (by simp [hw]), if_neg (by simp [hm])]

example : (error demoLoader ⟨{ flags := 0, errno := 127, errmsg := str% "x" }, {}⟩).1 = str% "x: Not found." ∧
    (error demoLoader ⟨{ flags := 0, errno := 5, errmsg := str% "x" }, {}⟩).1 = str% "x: error code: 5" := ⟨rfl, rfl⟩

/-- Not so in the other type of characters: there is a NUL between the message and the
    text for the code, so that read as a C string the reason is missing. -/
theorem C90_violated_nul (L : Loader) (s : S) (code : Nat) (m w : Str) (h : Err s code m w) :
    (∀ n, m = [] → w ≠ [] → nul ∉ w → L.narrow s.w.clock w = some n → n ≠ [] → nul ∉ n → nul ∈ (error L s).1 ∧ cstr (error L s).1 = n) ∧
    (∀ n, w = [] → m ≠ [] → nul ∉ m → L.widen s.w.clock m = some n → n ≠ [] → nul ∉ n → nul ∈ (errorW L s).1 ∧ cstr (errorW L s).1 = n) := by
  have hc : ∀ {n t : Str}, nul ∉ n → cstr (n ++ [nul] ++ t) = n := by
    intro n t hn
    induction n with
    | nil => simp [cstr]
    | cons c r ih =>
      have h1 : c ≠ nul := fun h => hn (by simp [h])
      have h2 := ih (fun h => hn (by simp [h]))
      simp only [cstr, List.cons_append, List.append_assoc] at h2 ⊢
      rw [List.takeWhile_cons, if_pos (by simpa using h1), h2]
  refine ⟨fun n hm hw h0 hn hne h1 => ?_, fun n hw hm h0 hn hne h1 => ?_⟩
  · have : (error L s).1 = n ++ [nul] ++ (str% ": " ++ codeText (L.formatA s.w.clock) code) := by
      rw [error, if_neg (by rw [h.text]; simp), h.msg, h.wmsg, h.code, withMessage, if_neg (by simp [hm]), if_pos hw,
        convertString, if_neg hw, cstr_self h0, hn]
      simp only [hne, if_false]
    rw [this]
    exact ⟨by simp, hc h1⟩
  · have : (errorW L s).1 = n ++ [nul] ++ (str% ": " ++ codeText (L.formatW s.w.clock) code) := by
      rw [errorW, if_neg (by rw [h.wtext]; simp), h.msg, h.wmsg, h.code, withMessage, if_neg (by simp [hw]), if_pos hm,
        convertString, if_neg hm, cstr_self h0, hn]
      simp only [hne, if_false]
    rw [this]
    exact ⟨by simp, hc h1⟩

example : cstr (error demoLoader (loadWide { demoLoader with loadW := fun _ _ _ => (none, 127) } (str% "x") 0 ⟨{ flags := 0 }, {}⟩).2).1 = str% "x" := rfl

section
variable {L : Loader} {C : Cfg}

theorem err_clear (s : S) : Err (clearError s) 0 [] [] := ⟨rfl, rfl, rfl, rfl, rfl⟩

theorem err_of_obj {s t : S} {c m w} (h : Err s c m w) (ho : t.o = s.o) : Err t c m w := by
  obtain ⟨h1, h2, h3, h4, h5⟩ := h
  exact ⟨ho ▸ h1, ho ▸ h2, ho ▸ h3, ho ▸ h4, ho ▸ h5⟩

theorem err_loadFilename (w : Bool) (name : Str) (s : S) :
    ((loadFilename L w name s).1 = true ∧ Err (loadFilename L w name s).2 0 [] []) ∨
    ((loadFilename L w name s).1 = false ∧ ((s.w.handle ≠ none ∧ Err (loadFilename L w name s).2 0 (str% "library already loaded") []) ∨
      (s.w.handle = none ∧ name = [] ∧ Err (loadFilename L w name s).2 123 (str% "empty filename") []) ∨
      (s.w.handle = none ∧ name ≠ [] ∧ Err (loadFilename L w name s).2 (loadLib L w name (clearError s)).w.sysErr
        (if w then [] else name) (if w then name else [])))) := by
  by_cases hs : s.w.handle = none
  · by_cases hn : name = []
    · right
      unfold loadFilename
      dsimp only
      rw [if_neg (by simp [libLoaded, hs]), if_pos hn]
      exact ⟨rfl, .inr (.inl ⟨hs, hn, rfl, rfl, rfl, rfl, rfl⟩)⟩
    · rw [loadFilename_eq w name hn s hs]
      split
      · rename_i hl
        left
        refine ⟨rfl, ?_⟩
        dsimp only
        rw [loadLib_eq] at hl ⊢
        split
        · exact err_of_obj (err_clear (clearError s)) rfl
        · unfold loadExA
          split
          · split
            · exact err_of_obj (err_clear (clearError s)) rfl
            · rename_i hw hc _ hn2
              rw [if_neg hw, loadExA, if_pos hc, hn2] at hl
              exact absurd hl (by simp [libLoaded])
          · exact err_of_obj (err_clear (clearError s)) rfl
      · right
        refine ⟨rfl, .inr (.inr ⟨hs, hn, ?_⟩)⟩
        cases w <;> exact ⟨rfl, rfl, rfl, rfl, rfl⟩
  · right
    unfold loadFilename
    dsimp only
    rw [if_pos (by
      obtain ⟨x, hx⟩ := Option.ne_none_iff_exists'.mp hs
      simp [libLoaded, clearError, hx])]
    exact ⟨rfl, .inl ⟨hs, rfl, rfl, rfl, rfl, rfl⟩⟩

theorem sysErr_narrow (name : Str) (h0 : nul ∉ name) (s : S) (hc : s.o.convert = false) :
    (loadLib L false name (clearError s)).w.sysErr = (L.loadA s.w.clock (backslashes name) s.o.flags).2 := by
  have hc' : (clearError (clearError s)).o.convert = false := hc
  rw [loadLib_eq]
  simp only [Bool.false_eq_true, if_false]
  unfold loadExA
  rw [if_neg (by rw [hc']; simp), cstr_self (backslashes_nul h0)]
  rfl

theorem sysErr_wide (name : Str) (h0 : nul ∉ name) (s : S) :
    (loadLib L true name (clearError s)).w.sysErr = (L.loadW s.w.clock (backslashes name) s.o.flags).2 := by
  rw [loadLib_eq]
  simp only [if_true]
  unfold loadExW
  rw [cstr_self (backslashes_nul h0)]
  rfl

theorem err_failed {w : Bool} {name : Str} {s : S} (hs : s.w.handle = none) (hn : name ≠ []) (hf : (loadFilename L w name s).1 = false) :
    Err (loadFilename L w name s).2 (loadLib L w name (clearError s)).w.sysErr (if w then [] else name) (if w then name else []) := by
  rcases err_loadFilename (L := L) w name s with ⟨h, _⟩ | ⟨_, ⟨h, _⟩ | ⟨_, h, _⟩ | ⟨_, _, h⟩⟩
  · rw [h] at hf; cases hf
  · exact absurd hs h
  · exact absurd h hn
  · exact h

theorem false_of_iff {b : Bool} {x : Option Ptr} (h : b = true ↔ x ≠ none) (hx : x = none) : b = false := by
  cases b with
  | false => rfl
  | true => exact absurd hx (h.mp rfl)

theorem err_narrow (name : Str) (hn : name ≠ []) (h0 : nul ∉ name) (t : S) (hs : t.w.handle = none) (hc : t.o.convert = false) {code : Nat}
    (ha : L.loadA t.w.clock (backslashes name) t.o.flags = (none, code)) : Err (loadFilename L false name t).2 code name [] := by
  have hf := false_of_iff (narrow_main (L := L) name hn h0 t hs hc).2.1 (by rw [ha])
  have he := err_failed hs hn hf
  rw [sysErr_narrow name h0 t hc, ha] at he
  exact he

theorem err_wide (name : Str) (hn : name ≠ []) (h0 : nul ∉ name) (t : S) (hs : t.w.handle = none) {code : Nat}
    (ha : L.loadW t.w.clock (backslashes name) t.o.flags = (none, code)) : Err (loadFilename L true name t).2 code [] name := by
  have hf := false_of_iff (wide_main (L := L) name hn h0 t hs).2.1 (by rw [ha])
  have he := err_failed hs hn hf
  rw [sysErr_wide name h0 t, ha] at he
  exact he

theorem err_conv (name : Str) (hn : name ≠ []) (h0 : nul ∉ name) (t : S) (hs : t.w.handle = none) (hc : t.o.convert = true) {code : Nat} {w : Str}
    (hw : L.widen t.w.clock (backslashes name) = some w) (hne : w ≠ []) (h1 : nul ∉ w)
    (ha : L.loadW (t.w.clock + 1) w t.o.flags = (none, code)) : Err (loadFilename L false name t).2 code name [] := by
  have hf := false_of_iff ((conv_main (L := L) name hn h0 t hs hc).1 w hw hne h1).2 (by rw [ha])
  have he := err_failed hs hn hf
  have hc' : (clearError (clearError t)).o.convert = true := hc
  have hsys : (loadLib L false name (clearError t)).w.sysErr = code := by
    rw [loadLib_eq]
    simp only [Bool.false_eq_true, if_false]
    unfold loadExA
    rw [if_pos hc']
    have : convertString (L.widen t.w.clock) (backslashes name) = some (w ++ [nul]) := by
      unfold convertString
      rw [if_neg (backslashes_ne hn), cstr_self (backslashes_nul h0), hw]
      dsimp only
      rw [if_neg hne]
    simp only [clearError, this]
    unfold loadExW
    rw [cstr_nul h1]
    simp only [opened, tick, ha]
  rw [hsys] at he
  exact he

theorem err_unconv (name : Str) (hn : name ≠ []) (h0 : nul ∉ name) (t : S) (hs : t.w.handle = none) (hc : t.o.convert = true)
    (hw : L.widen t.w.clock (backslashes name) = none) : Err (loadFilename L false name t).2 t.w.sysErr name [] := by
  have hf := ((conv_main (L := L) name hn h0 t hs hc).2 hw).1
  have he := err_failed hs hn hf
  have hc' : (clearError (clearError t)).o.convert = true := hc
  have hsys : (loadLib L false name (clearError t)).w.sysErr = t.w.sysErr := by
    rw [loadLib_eq]
    simp only [Bool.false_eq_true, if_false]
    unfold loadExA
    rw [if_pos hc']
    have : convertString (L.widen t.w.clock) (backslashes name) = none := by
      unfold convertString
      rw [if_neg (backslashes_ne hn), cstr_self (backslashes_nul h0), hw]
    simp only [clearError, this]
    rfl
  rw [hsys] at he
  exact he

end

/-- A library that cannot be opened: the message is the name as it was given, and the code
    is that of `LoadLibraryExA` or `LoadLibraryExW`. -/
theorem C90_open (L : Loader) (name : Str) (hn : name ≠ []) (h0 : nul ∉ name) (flags : Int) (s : S) (hs : s.w.handle = none) (code : Nat) :
    (∀ ns, s.o.convert = false → L.loadA s.w.clock (backslashes name) flags = (none, code) → Err (loadArgs L name flags ns s).2 code name []) ∧
    (L.loadA s.w.clock (backslashes name) flags = (none, code) → Err (loadConv L false name flags s).2 code name []) ∧
    (L.loadW s.w.clock (backslashes name) flags = (none, code) → Err (loadWide L name flags s).2 code [] name) ∧
    (∀ w, L.widen s.w.clock (backslashes name) = some w → w ≠ [] → nul ∉ w → L.loadW (s.w.clock + 1) w flags = (none, code) →
      Err (loadConv L true name flags s).2 code name []) :=
  ⟨fun ns hc ha => err_narrow name hn h0 { s with o := { s.o with wfilename := [], filename := name, flags := flags, ns := ns } } hs hc ha,
    fun ha => err_narrow name hn h0 { s with o := { s.o with convert := false, wfilename := [], filename := name, flags := flags } } hs rfl ha,
    fun ha => err_wide name hn h0 { s with o := { s.o with filename := [], wfilename := name, flags := flags } } hs ha,
    fun _ hw hne h1 ha => err_conv name hn h0 { s with o := { s.o with convert := true, wfilename := [], filename := name, flags := flags } } hs rfl hw hne h1 ha⟩

example : (error demoLoader (loadArgs { demoLoader with loadA := fun _ _ _ => (none, 127) } (str% "x") 0 false ⟨{ flags := 0 }, {}⟩).2).1 =
    str% "x: Not found." := rfl

/-- Not so: if the name cannot be converted, the code and the message about that are lost;
    the code is one the system left behind before, which can be 0. -/
theorem C90_violated_convert (L : Loader) (name : Str) (hn : name ≠ []) (h0 : nul ∉ name) (flags : Int) (s : S) (hs : s.w.handle = none)
    (hw : L.widen s.w.clock (backslashes name) = none) :
    (loadConv L true name flags s).1 = false ∧ Err (loadConv L true name flags s).2 s.w.sysErr name [] :=
  ⟨((C88_converted L name hn h0 flags s hs).2 hw).1, 
    err_unconv name hn h0 { s with o := { s.o with convert := true, wfilename := [], filename := name, flags := flags } } hs rfl hw⟩

example : (error demoLoader (loadConv { demoLoader with widen := fun _ _ => none } true (str% "x") 0 ⟨{ flags := 0 }, {}⟩).2).1 =
    str% "x: Success." := rfl

/-- A library is already loaded: the message says so, but (not as it should be) the code is
    0, so that the text goes on with that for success. -/
theorem C90_violated_loaded (L : Loader) (s : S) (h : s.w.handle ≠ none) :
    (∀ n f ns, Err (loadArgs L n f ns s).2 0 (str% "library already loaded") []) ∧
    (∀ c n f, Err (loadConv L c n f s).2 0 (str% "library already loaded") []) ∧
    (∀ n f, Err (loadWide L n f s).2 0 (str% "library already loaded") []) ∧
    Err (load L s).2 0 (str% "library already loaded") [] := by
  have key : ∀ (w : Bool) (n : Str) (t : S), t.w.handle ≠ none → Err (loadFilename L w n t).2 0 (str% "library already loaded") [] := by
    intro w n t ht
    unfold loadFilename
    dsimp only
    rw [if_pos (by
      obtain ⟨x, hx⟩ := Option.ne_none_iff_exists'.mp ht
      simp [libLoaded, clearError, hx])]
    exact ⟨rfl, rfl, rfl, rfl, rfl⟩
  refine ⟨fun n f ns => key _ _ _ h, fun c n f => key _ _ _ h, fun n f => key _ _ _ h, ?_⟩
  unfold load
  split <;> exact key _ _ _ h

example : (error demoLoader (load demoLoader ⟨{ flags := 0 }, { handle := some 1 }⟩).2).1 = str% "library already loaded: Success." := rfl

/-- Calls that are refused for other reasons. -/
theorem C90_refused (L : Loader) (C : Cfg) (s : S) :
    (s.w.handle = none → (∀ f ns, Err (loadArgs L [] f ns s).2 123 (str% "empty filename") []) ∧
      (∀ c f, Err (loadConv L c [] f s).2 123 (str% "empty filename") []) ∧ (∀ f, Err (loadWide L [] f s).2 123 (str% "empty filename") []) ∧
      (∀ n, Err (loadSymbol L C n s).2 6 [] []) ∧ (∀ n, ∃ t, loadSymbolName L C n s = some (false, t) ∧ Err t 6 [] []) ∧
      (allLoaded C s = false → (loadAllSymbols L C s).1 = false ∧ Err (loadAllSymbols L C s).2 6 [] []) ∧
      (∀ w, pathOf w s.o = [] → (libraryPath L w s).1 = [] ∧ Err (libraryPath L w s).2 6 [] [])) ∧
    (s.w.handle ≠ none → ∀ n : Int, (n < 0 ∨ Int.ofNat C.syms.length ≤ n) →
      Err (loadSymbol L C n s).2 1168 (str% "unknown symbol number: " ++ Rt.showInt n) []) := by
  have key : ∀ (w : Bool) (t : S), t.w.handle = none → Err (loadFilename L w [] t).2 123 (str% "empty filename") [] := by
    intro w t ht
    unfold loadFilename
    dsimp only
    rw [if_neg (by simp [libLoaded, clearError, ht]), if_pos rfl]
    exact ⟨rfl, rfl, rfl, rfl, rfl⟩
  refine ⟨fun h => ⟨fun f ns => key _ _ h, fun c f => key _ _ h, fun f => key _ _ h, fun n => ?_, fun n => ?_, fun ha => ?_, fun w hp => ?_⟩, fun h n hn => ?_⟩
  · unfold loadSymbol
    have : (clearError s).w.handle = none := h
    simp only [this]
    exact ⟨rfl, rfl, rfl, rfl, rfl⟩
  · unfold loadSymbolName
    have : (clearError s).w.handle = none := h
    simp only [this]
    exact ⟨_, rfl, rfl, rfl, rfl, rfl, rfl⟩
  · unfold loadAllSymbols
    have : (clearError s).w.handle = none := h
    have ha' : allLoaded C (clearError s) = false := ha
    simp only [this, ha', Bool.false_eq_true, if_false]
    exact ⟨trivial, rfl, rfl, rfl, rfl, rfl⟩
  · unfold libraryPath getLibraryPath
    have : (clearError s).w.handle = none := h
    have hp' : pathOf w (clearError s).o = [] := by cases w <;> exact hp
    simp only [this, hp', ne_eq, not_true_eq_false, if_false]
    refine ⟨?_, rfl, rfl, rfl, rfl, rfl⟩
    cases w <;> exact hp
  · obtain ⟨x, hx⟩ := Option.ne_none_iff_exists'.mp h
    have hc : Rt.caseOf C.toCfg n = none := by
      match n with
      | .ofNat k =>
        have : C.syms.length ≤ k := by
          rcases hn with hn | hn
          · exact absurd hn (by simp)
          · exact Int.ofNat_le.mp hn
        simp [Rt.caseOf, List.getElem?_eq_none this]
      | .negSucc _ => rfl
    unfold loadSymbol
    have : (clearError s).w.handle = some x := hx
    simp only [this, hc]
    exact ⟨rfl, rfl, rfl, rfl, rfl⟩

example : (error demoLoader (loadSymbol demoLoader demoCfg 7 ⟨{ flags := 0 }, { handle := some 1 }⟩).2).1 =
    str% "unknown symbol number: 7: error code: 1168" := rfl

section
variable {L : Loader} {C : Cfg}

theorem err_symLoad (h : Ptr) (i : Nat) (name : Str) (s : S) :
    ((symLoad L h i name s).1 = true ∧ (L.sym s.w.clock h name).1 ≠ none ∧ (symLoad L h i name s).2.o = s.o) ∨
    ((symLoad L h i name s).1 = false ∧ (L.sym s.w.clock h name).1 = none ∧ Err (symLoad L h i name s).2 (L.sym s.w.clock h name).2 [] []) := by
  unfold symLoad
  dsimp only
  cases ha : (L.sym s.w.clock h name).1 with
  | none => exact .inr ⟨rfl, rfl, rfl, rfl, rfl, rfl, rfl⟩
  | some x => exact .inl ⟨rfl, by simp, rfl⟩

theorem err_loadLoop (h : Ptr) (l : List Str) : ∀ (i : Nat) (s : S),
    ((loadLoop L h i l s).1 = true ∧ (loadLoop L h i l s).2.o = s.o) ∨
    ((loadLoop L h i l s).1 = false ∧ ∃ k name, name ∈ l ∧ (L.sym k h name).1 = none ∧ Err (loadLoop L h i l s).2 (L.sym k h name).2 [] []) := by
  induction l with
  | nil => intro i s; exact .inl ⟨rfl, rfl⟩
  | cons name r ih =>
    intro i s
    rw [loadLoop]
    rcases err_symLoad (L := L) h i name s with ⟨h1, _, h2⟩ | ⟨h1, h2, h3⟩
    · rw [if_pos h1]
      rcases ih (i + 1) (symLoad L h i name s).2 with ⟨h3, h4⟩ | ⟨h3, k, n, hn, h4⟩
      · exact .inl ⟨h3, h4.trans h2⟩
      · exact .inr ⟨h3, k, n, List.mem_cons_of_mem _ hn, h4⟩
    · rw [if_neg (by rw [h1]; simp)]
      exact .inr ⟨rfl, _, name, List.mem_cons_self .., h2, h3⟩

end

/-- Not as it should be: about a symbol that is not found there is only the code of
    `GetProcAddress`, never its name; with the same codes for all symbols the text is the
    same whichever is missing. -/
theorem C90_violated_symbol (L : Loader) (C : Cfg) (s : S) (h : Ptr) (hh : s.w.handle = some h) :
    (∀ i name, C.syms[i]? = some name → s.w.ptr i = none → ∀ code, L.sym s.w.clock h name = (none, code) →
      Err (loadSymbol L C i s).2 code [] []) ∧
    ((loadAllSymbols L C s).1 = false → ∃ k name, name ∈ C.syms ∧ (L.sym k h name).1 = none ∧ Err (loadAllSymbols L C s).2 (L.sym k h name).2 [] []) := by
  have hh' : (clearError s).w.handle = some h := hh
  refine ⟨fun i name hi hp code hc => ?_, fun hf => ?_⟩
  · have hcase : Rt.caseOf C.toCfg (i : Int) = some (i, name) := by
      show Rt.caseOf C.toCfg (Int.ofNat i) = _
      simp [Rt.caseOf, hi]
    have hp' : (clearError s).w.ptr i = none := hp
    unfold loadSymbol
    simp only [hh', hcase]
    unfold loadOne
    rw [hp']
    rcases err_symLoad (L := L) h i name (clearError s) with ⟨_, h1, _⟩ | ⟨_, _, h3⟩
    · exact absurd (by show (L.sym s.w.clock h name).1 = none; rw [hc]) h1
    · have : (L.sym (clearError s).w.clock h name).2 = code := by
        show (L.sym s.w.clock h name).2 = code
        rw [hc]
      rw [this] at h3
      exact h3
  · unfold loadAllSymbols at hf ⊢
    dsimp only at hf ⊢
    split at hf
    · cases hf
    · rename_i ha
      rw [if_neg ha]
      simp only [hh'] at hf ⊢
      rcases err_loadLoop (L := L) h C.syms 0 (clearError s) with ⟨h1, _⟩ | ⟨_, h1⟩
      · rw [h1] at hf; cases hf
      · exact h1

example : (error demoLoader (loadSymbol demoLoader demoCfg 1 ⟨{ flags := 0 }, { handle := some 1 }⟩).2).1 = str% "Not found." := rfl

/-- The answer of `GetModuleFileName` is no path: the call fails, the path is empty, or it
    does not fit into the buffer. -/
def NoPath : Option Str → Prop
  | none => True
  | some p => p = [] ∨ 32768 ≤ p.length

/-- Freeing and asking for the path: the message is the function of the system that failed. -/
theorem C90_system (L : Loader) (C : Cfg) (s : S) (h : Ptr) (hh : s.w.handle = some h) :
    (∀ code, L.free s.w.clock h = (false, code) → (free L C false s).1 = false ∧ Err (free L C false s).2 code (str% "FreeLibrary()") []) ∧
    (∀ a code, L.fileA s.w.clock h = (a, code) → NoPath a → s.o.libpath = [] →
      (libraryPath L false s).1 = [] ∧ Err (libraryPath L false s).2 code (str% "GetModuleFileNameA()") []) ∧
    (∀ a code, L.fileW s.w.clock h = (a, code) → NoPath a → s.o.wlibpath = [] →
      (libraryPath L true s).1 = [] ∧ Err (libraryPath L true s).2 code [] (str% "GetModuleFileNameW()")) := by
  have hh' : (clearError s).w.handle = some h := hh
  have hlen : ∀ p : Str, NoPath (some p) → ¬ (0 < p.length ∧ p.length < Win.bufLen) := by
    intro p hp ⟨h1, h2⟩
    rcases hp with hp | hp
    · rw [hp] at h1; exact absurd h1 (by simp)
    · exact absurd h2 (Nat.not_lt.mpr hp)
  refine ⟨fun code hc => ?_, fun a code hc hn hp => ?_, fun a code hc hn hp => ?_⟩
  · unfold free callFree
    have hc' : L.free (clearError s).w.clock h = (false, code) := hc
    simp only [hh', hc', Bool.or_self, Bool.false_eq_true, if_false]
    exact ⟨trivial, rfl, rfl, rfl, rfl, rfl⟩
  · unfold libraryPath getLibraryPath callFile
    have hp' : pathOf false (clearError s).o = [] := hp
    have hc' : L.fileA (clearError s).w.clock h = (a, code) := hc
    simp only [hh', hp', ne_eq, not_true_eq_false, if_false, Bool.false_eq_true, hc']
    cases a with
    | none => exact ⟨hp, rfl, rfl, rfl, rfl, rfl⟩
    | some p =>
      simp only [hlen p hn, if_false]
      exact ⟨hp, rfl, rfl, rfl, rfl, rfl⟩
  · unfold libraryPath getLibraryPath callFile
    have hp' : pathOf true (clearError s).o = [] := hp
    have hc' : L.fileW (clearError s).w.clock h = (a, code) := hc
    simp only [hh', hp', ne_eq, not_true_eq_false, if_false, if_true, hc']
    cases a with
    | none => exact ⟨hp, rfl, rfl, rfl, rfl, rfl⟩
    | some p =>
      simp only [hlen p hn, if_false]
      exact ⟨hp, rfl, rfl, rfl, rfl, rfl⟩

example : (error demoLoader (free { demoLoader with free := fun _ _ => (false, 127) } demoCfg false ⟨{ flags := 0 }, { handle := some 1 }⟩).2).1 =
    str% "FreeLibrary(): Not found." := rfl

section
variable {L : Loader} {C : Cfg}

/-- After a call nothing is put together yet, and if it succeeded there is no error. -/
def After (ok : Bool) (t : S) : Prop := (ok = true → Err t 0 [] []) ∧ ∃ c m w, Err t c m w

theorem after_err {ok : Bool} {t : S} {c m w} (h : Err t c m w) (hf : ok = false) : After ok t := ⟨fun h => (by rw [hf] at h; cases h), c, m, w, h⟩

theorem after_ok {ok : Bool} {t : S} (h : Err t 0 [] []) : After ok t := ⟨fun _ => h, 0, [], [], h⟩

theorem after_loadFilename (w : Bool) (n : Str) (s : S) : After (loadFilename L w n s).1 (loadFilename L w n s).2 := by
  rcases err_loadFilename (L := L) w n s with ⟨_, h⟩ | ⟨h, ⟨_, h1⟩ | ⟨_, _, h1⟩ | ⟨_, _, h1⟩⟩
  · exact after_ok h
  · exact after_err h1 h
  · exact after_err h1 h
  · exact after_err h1 h

theorem after_load (s : S) : After (load L s).1 (load L s).2 := by
  unfold load
  split <;> exact after_loadFilename ..

theorem after_loadAllSymbols (s : S) : After (loadAllSymbols L C s).1 (loadAllSymbols L C s).2 := by
  unfold loadAllSymbols
  dsimp only
  split
  · exact after_ok (err_clear s)
  · split
    · exact after_err (c := 6) (m := []) (w := []) ⟨rfl, rfl, rfl, rfl, rfl⟩ rfl
    · rename_i h hh
      rcases err_loadLoop (L := L) h C.syms 0 (clearError s) with ⟨_, h1⟩ | ⟨h1, _, _, _, _, h2⟩
      · exact after_ok (err_of_obj (err_clear s) h1)
      · exact after_err h2 h1

theorem after_loadOne (h : Ptr) (i : Nat) (n : Str) (s : S) : After (loadOne L h i n (clearError s)).1 (loadOne L h i n (clearError s)).2 := by
  unfold loadOne
  split
  · exact after_ok (err_clear s)
  · rcases err_symLoad (L := L) h i n (clearError s) with ⟨_, _, h1⟩ | ⟨h1, _, h2⟩
    · exact after_ok (err_of_obj (err_clear s) h1)
    · exact after_err h2 h1

theorem after_loadSymbol (n : Int) (s : S) : After (loadSymbol L C n s).1 (loadSymbol L C n s).2 := by
  unfold loadSymbol
  dsimp only
  split
  · exact after_err (c := 6) (m := []) (w := []) ⟨rfl, rfl, rfl, rfl, rfl⟩ rfl
  · split
    · exact after_loadOne ..
    · exact after_err ⟨rfl, rfl, rfl, rfl, rfl⟩ rfl

theorem after_loadSymbolName {n : Option Str} {s : S} {r : Bool × S} (h : loadSymbolName L C n s = some r) : After r.1 r.2 := by
  unfold loadSymbolName at h
  dsimp only at h
  split at h
  · cases h; exact after_err (c := 6) (m := []) (w := []) ⟨rfl, rfl, rfl, rfl, rfl⟩ rfl
  · split at h
    · cases h; exact after_err ⟨rfl, rfl, rfl, rfl, rfl⟩ rfl
    · obtain ⟨f, _, rfl⟩ := Option.map_eq_some_iff.mp h
      match f with
      | none => exact after_err ⟨rfl, rfl, rfl, rfl, rfl⟩ rfl
      | some (i, cur) => exact after_loadOne ..

theorem after_free (b : Bool) (s : S) : After (free L C b s).1 (free L C b s).2 := by
  unfold free
  dsimp only
  split
  · exact after_ok ⟨rfl, rfl, rfl, rfl, rfl⟩
  · split
    · exact after_ok ⟨rfl, rfl, rfl, rfl, rfl⟩
    · exact after_err ⟨rfl, rfl, rfl, rfl, rfl⟩ rfl

theorem after_libraryPath (w : Bool) (s : S) : After (!(libraryPath L w s).1.isEmpty) (libraryPath L w s).2 := by
  unfold libraryPath getLibraryPath
  dsimp only
  have hb : ∀ {c m v} {t : S}, Err t c m v → pathOf w t.o = pathOf w s.o → pathOf w s.o = [] → After (!(pathOf w t.o).isEmpty) t := by
    intro c m v t h h1 h2
    refine after_err h ?_
    rw [h1, h2]
    rfl
  split
  · exact after_ok (err_clear s)
  · rename_i hp
    have hp' : pathOf w s.o = [] := by
      have : pathOf w (clearError s).o = [] := by simpa using hp
      cases w <;> exact this
    split
    · exact hb (c := 6) (m := []) (v := []) ⟨rfl, rfl, rfl, rfl, rfl⟩ (by cases w <;> rfl) hp'
    · split
      · cases w
        · exact hb (c := _) (m := fileMsg false) (v := []) ⟨rfl, rfl, rfl, rfl, rfl⟩ rfl hp'
        · exact hb (c := _) (m := []) (v := fileMsg true) ⟨rfl, rfl, rfl, rfl, rfl⟩ rfl hp'
      · split
        · cases w <;> exact after_ok ⟨rfl, rfl, rfl, rfl, rfl⟩
        · cases w
          · exact hb (c := _) (m := fileMsg false) (v := []) ⟨rfl, rfl, rfl, rfl, rfl⟩ rfl hp'
          · exact hb (c := _) (m := []) (v := fileMsg true) ⟨rfl, rfl, rfl, rfl, rfl⟩ rfl hp'

theorem after_loadLibAndSymbols (s : S) : After (loadLibAndSymbols L C s).1 (loadLibAndSymbols L C s).2 := by
  unfold loadLibAndSymbols
  dsimp only
  split
  · exact after_loadAllSymbols _
  · rename_i h
    have := after_load (L := L) s
    obtain ⟨_, c, m, w, h1⟩ := this
    exact after_err h1 rfl

end

/-- The functions that can succeed. -/
def Succeeded : Member → Val → Prop
  | .loadArgs .., v => v = .bool true
  | .loadConv .., v => v = .bool true
  | .loadWide .., v => v = .bool true
  | .load, v => v = .bool true
  | .loadLibAndSymbols, v => v = .bool true
  | .loadAllSymbols, v => v = .bool true
  | .loadSymbol _, v => v = .bool true
  | .loadSymbolName _, v => v = .bool true
  | .free _, v => v = .bool true
  | .libraryPath _, v => ∃ t, t ≠ [] ∧ v = .text t
  | _, _ => False

/-- After a successful call there is no error: the code is 0 and there is no message. -/
theorem C90_clean (L : Loader) (C : Cfg) (s t : S) (m : Member) (v : Val) (h : member L C s m = some (v, t)) (hs : Succeeded m v) : Err t 0 [] [] := by
  cases m <;> simp only [Succeeded] at hs <;> simp only [member, ofBool, ofText, Option.some.injEq, Prod.mk.injEq] at h
  case loadArgs n f ns => rw [← h.2]; exact (after_loadFilename ..).1 (Cxx.Val.bool.inj (h.1.trans hs))
  case loadConv c n f => rw [← h.2]; exact (after_loadFilename ..).1 (Cxx.Val.bool.inj (h.1.trans hs))
  case loadWide n f => rw [← h.2]; exact (after_loadFilename ..).1 (Cxx.Val.bool.inj (h.1.trans hs))
  case load => rw [← h.2]; exact (after_load _).1 (Cxx.Val.bool.inj (h.1.trans hs))
  case loadLibAndSymbols => rw [← h.2]; exact (after_loadLibAndSymbols _).1 (Cxx.Val.bool.inj (h.1.trans hs))
  case loadAllSymbols => rw [← h.2]; exact (after_loadAllSymbols _).1 (Cxx.Val.bool.inj (h.1.trans hs))
  case loadSymbol n => rw [← h.2]; exact (after_loadSymbol _ _).1 (Cxx.Val.bool.inj (h.1.trans hs))
  case loadSymbolName n =>
    obtain ⟨r, h1, h2⟩ := Option.map_eq_some_iff.mp h
    simp only [ofBool, Prod.mk.injEq] at h2
    rw [← h2.2]
    exact (after_loadSymbolName h1).1 (Cxx.Val.bool.inj (h2.1.trans hs))
  case free b => rw [← h.2]; exact (after_free _ _).1 (Cxx.Val.bool.inj (h.1.trans hs))
  case libraryPath w =>
    rw [← h.2]
    obtain ⟨x, hx, hv⟩ := hs
    refine (after_libraryPath w s).1 ?_
    have := h.1.trans hv
    simp only [Cxx.Val.text.injEq] at this
    rw [this]
    cases x with
    | nil => exact absurd rfl hx
    | cons c r => rfl

example : ∃ t, member demoLoader demoCfg ⟨{ flags := 0, filename := str% "x", errno := 5, errmsg := str% "old" }, {}⟩ .load = some (.bool true, t) ∧
    Err t 0 [] [] := ⟨_, rfl, rfl, rfl, rfl, rfl, rfl⟩

/-- A text for a code and a message, `own` in the type of characters asked for and `other`
    in the other one. -/
def IsText (conv : Str → Option Str) (format : Nat → Option Str) (own other : Str) (code : Nat) (t : Str) : Prop :=
  ∃ d, Describes format code d ∧ (own ≠ [] → t = own ++ (str% ": " ++ d)) ∧ (own = [] → other = [] → t = d) ∧
    (own = [] → other ≠ [] → t = d ∨ ∃ n, conv (cstr other) = some n ∧ t = n ++ nul :: (str% ": " ++ d))

theorem isText_withMessage (conv : Str → Option Str) (format : Nat → Option Str) (own other : Str) (code : Nat) :
    IsText conv format own other code (withMessage conv own other (codeText format code)) := by
  refine ⟨codeText format code, ?_, fun h => ?_, fun h1 h2 => ?_, fun h1 h2 => ?_⟩
  · unfold Describes codeText
    cases format code <;> rfl
  · rw [withMessage, if_pos h]
  · rw [withMessage, if_neg (by simp [h1]), if_neg (by simp [h2])]
  · rw [withMessage, if_neg (by simp [h1]), if_pos h2, convertString, if_neg h2]
    cases hc : conv (cstr other) with
    | none => exact .inl rfl
    | some n =>
      dsimp only
      by_cases hn : n = []
      · rw [if_pos hn]; exact .inl rfl
      · rw [if_neg hn]; exact .inr ⟨n, rfl, by simp⟩

/-- The texts that were put together belong to the code and the message stored. -/
structure Cur (L : Loader) (o : Obj) : Prop where
  text : o.formatted = [] ∨ ∃ k, IsText (L.narrow k) (L.formatA k) o.errmsg o.werrmsg o.errno o.formatted
  wtext : o.wformatted = [] ∨ ∃ k, IsText (L.widen k) (L.formatW k) o.werrmsg o.errmsg o.errno o.wformatted

section
variable {L : Loader} {C : Cfg}

theorem Cur.of_err {t : S} {c m w} (h : Err t c m w) : Cur L t.o := ⟨.inl h.text, .inl h.wtext⟩

theorem Cur.of_after {ok : Bool} {t : S} (h : After ok t) : Cur L t.o := by
  obtain ⟨_, c, m, w, h⟩ := h
  exact .of_err h

theorem Cur.of_eq {o p : Obj} (h : Cur L o) (h1 : p.errno = o.errno) (h2 : p.errmsg = o.errmsg) (h3 : p.werrmsg = o.werrmsg)
    (h4 : p.formatted = o.formatted) (h5 : p.wformatted = o.wformatted) : Cur L p := by
  refine ⟨?_, ?_⟩
  · rw [h1, h2, h3, h4]; exact h.text
  · rw [h1, h2, h3, h5]; exact h.wtext

theorem Cur.error {s : S} (h : Cur L s.o) : Cur L (error L s).2.o ∧ ∃ k, IsText (L.narrow k) (L.formatA k) s.o.errmsg s.o.werrmsg s.o.errno (error L s).1 := by
  unfold CxxWin.error
  split
  · rename_i hf
    exact ⟨h, h.text.resolve_left hf⟩
  · exact ⟨⟨.inr ⟨s.w.clock, isText_withMessage ..⟩, h.wtext⟩, s.w.clock, isText_withMessage ..⟩

theorem Cur.errorW {s : S} (h : Cur L s.o) : Cur L (errorW L s).2.o ∧ ∃ k, IsText (L.widen k) (L.formatW k) s.o.werrmsg s.o.errmsg s.o.errno (errorW L s).1 := by
  unfold CxxWin.errorW
  split
  · rename_i hf
    exact ⟨h, h.wtext.resolve_left hf⟩
  · exact ⟨⟨h.text, .inr ⟨s.w.clock, isText_withMessage ..⟩⟩, s.w.clock, isText_withMessage ..⟩

theorem cur_member {s t : S} {m : Member} {v : Val} (hs : Cur L s.o) (h : member L C s m = some (v, t)) : Cur L t.o := by
  cases m <;> simp only [member, ofBool, ofText, Option.some.injEq, Prod.mk.injEq] at h
  case loadSymbolName n =>
    obtain ⟨r, h1, h2⟩ := Option.map_eq_some_iff.mp h
    simp only [ofBool, Prod.mk.injEq] at h2
    rw [← h2.2]
    exact .of_after (after_loadSymbolName h1)
  all_goals rw [← h.2]
  case loadArgs n f ns => exact .of_after (after_loadFilename ..)
  case loadConv c n f => exact .of_after (after_loadFilename ..)
  case loadWide n f => exact .of_after (after_loadFilename ..)
  case load => exact .of_after (after_load _)
  case loadLibAndSymbols => exact .of_after (after_loadLibAndSymbols _)
  case libLoaded => exact hs
  case flags => exact hs
  case loadAllSymbols => exact .of_after (after_loadAllSymbols _)
  case loadSymbol n => exact .of_after (after_loadSymbol _ _)
  case allSymbolsLoaded => exact hs
  case noSymbolsLoaded => exact hs
  case anySymbolLoaded => exact hs
  case free b => exact .of_after (after_free _ _)
  case setFreeInDtor b => exact hs.of_eq rfl rfl rfl rfl rfl
  case getFreeInDtor => exact hs
  case libraryPath w => exact .of_after (after_libraryPath w s)
  case filename w =>
    cases w
    · simp only [Bool.false_eq_true, if_false]
      unfold filename
      split
      · exact hs.of_eq rfl rfl rfl rfl rfl
      · exact hs
    · simp only [if_true]
      unfold filenameW
      split
      · exact hs.of_eq rfl rfl rfl rfl rfl
      · exact hs
  case error w =>
    cases w
    · exact hs.error.1
    · exact hs.errorW.1

theorem cur_wrapper {i : Nat} {s t : S} {q : Ptr} (hs : Cur L s.o) (h : wrapper L C i s = .ret (q, t)) : Cur L t.o := by
  unfold wrapper at h
  split at h
  · cases h; exact hs
  · split at h
    · cases h
    · split at h
      · rename_i u hu
        split at h
        · cases h
          unfold notLoaded at hu
          dsimp only at hu
          split at hu
          · cases hu
            unfold afterLoad
            split
            · exact .of_after (after_loadSymbol _ _)
            · exact .of_after (after_loadAllSymbols _)
          · cases hu
        · cases h
      · cases h
      · cases h
      · cases h

end

/-- The texts of all objects are current. -/
def AllCur (L : Loader) (p : Prog) : Prop := (∀ i o, p.obj i = some o → Cur L o) ∧ Cur L p.loader

section
variable {L : Loader} {C : Cfg}

theorem allCur_make {p : Prog} (h : AllCur L p) (i : Nat) (o : Option Obj) (ho : ∀ x, o = some x → Cur L x) : AllCur L (p.make i o) := by
  unfold Prog.make
  split
  · exact h
  · refine ⟨fun j x hj => ?_, h.2⟩
    simp only [Prog.set] at hj
    split at hj
    · exact ho x hj
    · exact h.1 j x hj

theorem allCur_step {p q : Prog} (h : AllCur L p) (op : Op) (hq : step L C p op = .go q) : AllCur L q := by
  have new : ∀ o : Obj, o.formatted = [] → o.wformatted = [] → Cur L o := fun o h1 h2 => ⟨.inl h1, .inl h2⟩
  cases op <;> simp only [step] at hq
  case new i => cases hq; exact allCur_make h i _ (fun x hx => by cases hx; exact new _ rfl rfl)
  case newArgs i n f ns => cases hq; exact allCur_make h i _ (fun x hx => by cases hx; exact new _ rfl rfl)
  case newConv i b n f => cases hq; exact allCur_make h i _ (fun x hx => by cases hx; exact new _ rfl rfl)
  case newWide i n f => cases hq; exact allCur_make h i _ (fun x hx => by cases hx; exact new _ rfl rfl)
  case copy i j =>
    split at hq
    · cases hq; exact allCur_make h j _ (fun x hx => h.1 i x hx)
    · cases hq; exact h
  case destroy i =>
    split at hq
    · cases hq; exact h
    · cases hq
      refine ⟨fun j x hj => ?_, h.2⟩
      simp only [Prog.set] at hj
      split at hj
      · cases hj
      · exact h.1 j x hj
  case call i m =>
    split at hq
    · cases hq; exact h
    · rename_i o ho
      split at hq
      · cases hq
      · rename_i v s hm
        cases hq
        refine ⟨fun j x hj => ?_, h.2⟩
        simp only [Prog.set] at hj
        split at hj
        · cases hj; exact cur_member (h.1 i o ho) hm
        · exact h.1 j x hj
  case wrapped i =>
    split at hq
    · split at hq
      · rename_i q' t hr
        cases hq
        exact ⟨h.1, cur_wrapper h.2 hr⟩
      · cases hq
      · cases hq
      · cases hq
    · cases hq; exact h

theorem allCur_run (ops : List Op) : ∀ {p q : Prog}, AllCur L p → run L C p ops = .go q → AllCur L q := by
  induction ops with
  | nil => intro p q h hq; cases hq; exact h
  | cons op r ih =>
    intro p q h hq
    rw [run] at hq
    cases hs : step L C p op with
    | go x => rw [hs] at hq; exact ih (allCur_step h op hs) hq
    | exited w => rw [hs] at hq; cases hq
    | aborted w => rw [hs] at hq; cases hq
    | ub => rw [hs] at hq; cases hq

end

/-- In any program, what `error()` and `error_w()` of any object return is a text for the
    code and the message stored in that object at the time: no text of an earlier error is
    given, and none of another object. -/
theorem C90_current (L : Loader) (C : Cfg) (ops : List Op) (p : Prog) (h : run L C (start C) ops = .go p) (i : Nat) (o : Obj) (hi : p.obj i = some o) :
    (∃ k, IsText (L.narrow k) (L.formatA k) o.errmsg o.werrmsg o.errno (error L ⟨o, p.w⟩).1) ∧
    (∃ k, IsText (L.widen k) (L.formatW k) o.werrmsg o.errmsg o.errno (errorW L ⟨o, p.w⟩).1) := by
  have h0 : AllCur L (start C) := by
    refine ⟨fun i o ho => (by cases ho), ?_⟩
    unfold start
    dsimp only
    split <;> exact ⟨.inl rfl, .inl rfl⟩
  have hc := (allCur_run ops h0 h).1 i o hi
  exact ⟨(Cur.error (s := ⟨o, p.w⟩) hc).2, (Cur.errorW (s := ⟨o, p.w⟩) hc).2⟩

example : ∃ p o, run demoLoader demoCfg (start demoCfg) [.new 0, .call 0 .load, .call 0 (.error false), .call 0 (.loadSymbol 1)] = .go p ∧ p.obj 0 = some o ∧
    (error demoLoader ⟨o, p.w⟩).1 = str% "error code: 6" := ⟨_, _, rfl, rfl, rfl⟩

/-- Asking for the text changes neither the code nor the message, and asked again it is the
    same text. -/
theorem C90_again (L : Loader) (s : S) :
    ((error L s).1 ≠ [] → error L (error L s).2 = ((error L s).1, (error L s).2)) ∧
    ((errorW L s).1 ≠ [] → errorW L (errorW L s).2 = ((errorW L s).1, (errorW L s).2)) ∧
    (error L s).2.o.errno = s.o.errno ∧ (error L s).2.o.errmsg = s.o.errmsg ∧ (error L s).2.o.werrmsg = s.o.werrmsg ∧
    (errorW L s).2.o.errno = s.o.errno ∧ (errorW L s).2.o.errmsg = s.o.errmsg ∧ (errorW L s).2.o.werrmsg = s.o.werrmsg := by
  refine ⟨fun h => ?_, fun h => ?_, ?_, ?_, ?_, ?_, ?_, ?_⟩
  · have hf : (error L s).2.o.formatted = (error L s).1 := by unfold error; split <;> rfl
    rw [error, if_pos (by rw [hf]; exact h), hf]
  · have hf : (errorW L s).2.o.wformatted = (errorW L s).1 := by unfold errorW; split <;> rfl
    rw [errorW, if_pos (by rw [hf]; exact h), hf]
  · unfold error; split <;> rfl
  · unfold error; split <;> rfl
  · unfold error; split <;> rfl
  · unfold errorW; split <;> rfl
  · unfold errorW; split <;> rfl
  · unfold errorW; split <;> rfl

/-! ### C91 -/

section
variable {L : Loader} {C : Cfg}

theorem loadFilename_shown (w : Bool) (n : Str) (s : S) : (loadFilename L w n s).2.w.shown = s.w.shown := by
  have hl : ∀ t : S, (loadLib L w n t).w.shown = t.w.shown := by
    intro t
    rw [loadLib_eq]
    split
    · rfl
    · unfold loadExA
      split
      · split <;> rfl
      · rfl
  unfold loadFilename
  dsimp only
  split
  · rfl
  · split
    · rfl
    · split
      · rw [hl]; rfl
      · dsimp only
        rw [saveErrorMsg_w, hl]; rfl

theorem autoloadLib_shown (s : S) : (autoloadLib L s).w.shown = s.w.shown := by
  unfold autoloadLib
  split
  · rfl
  · unfold load
    split <;> exact loadFilename_shown ..

theorem symLoad_shown (h : Ptr) (i : Nat) (name : Str) (s : S) : (symLoad L h i name s).2.w.shown = s.w.shown := by
  unfold symLoad
  dsimp only
  split <;> rfl

theorem loadLoop_shown (h : Ptr) (l : List Str) : ∀ (i : Nat) (s : S), (loadLoop L h i l s).2.w.shown = s.w.shown := by
  induction l with
  | nil => intro i s; rfl
  | cons name r ih =>
    intro i s
    rw [loadLoop]
    split
    · rw [ih, symLoad_shown]
    · exact symLoad_shown ..

theorem loadAllSymbols_shown (s : S) : (loadAllSymbols L C s).2.w.shown = s.w.shown := by
  unfold loadAllSymbols
  dsimp only
  split
  · rfl
  · split
    · rfl
    · rw [loadLoop_shown]
      rfl

theorem loadSymbol_shown (n : Int) (s : S) : (loadSymbol L C n s).2.w.shown = s.w.shown := by
  unfold loadSymbol
  dsimp only
  split
  · rfl
  · split
    · unfold loadOne
      split
      · rfl
      · rw [symLoad_shown]
        rfl
    · rfl

theorem afterLoad_shown (i : Nat) (s : S) : (afterLoad L C i s).2.w.shown = s.w.shown := by
  unfold afterLoad
  split
  · rw [loadSymbol_shown, autoloadLib_shown]
  · rw [loadAllSymbols_shown, autoloadLib_shown]

/-- Loading that failed in a wrapper function left a code and no message. -/
theorem afterLoad_err {i : Nat} (hi : i < C.syms.length) {s : S} (hf : (afterLoad L C i s).1 = false) :
    ∃ code, Err (afterLoad L C i s).2 code [] [] ∧
      (((autoloadLib L s).w.handle = none ∧ code = 6) ∨
        ∃ k h name, (autoloadLib L s).w.handle = some h ∧ name ∈ C.syms ∧ L.sym k h name = (none, code)) := by
  unfold afterLoad at hf ⊢
  split at hf
  · rename_i hl
    rw [if_pos hl]
    unfold loadSymbol at hf ⊢
    dsimp only at hf ⊢
    have hcase : Rt.caseOf C.toCfg (i : Int) = some (i, C.syms[i]) := by
      show Rt.caseOf C.toCfg (Int.ofNat i) = _
      simp [Rt.caseOf, hi]
    cases hh : (autoloadLib L s).w.handle with
    | none =>
      have hh' : (clearError (autoloadLib L s)).w.handle = none := hh
      simp only [hh']
      exact ⟨6, ⟨rfl, rfl, rfl, rfl, rfl⟩, .inl ⟨by trivial, rfl⟩⟩
    | some h =>
      have hh' : (clearError (autoloadLib L s)).w.handle = some h := hh
      simp only [hh', hcase] at hf ⊢
      unfold loadOne at hf ⊢
      split at hf
      · cases hf
      · rename_i hp
        rcases err_symLoad (L := L) h i C.syms[i] (clearError (autoloadLib L s)) with ⟨h1, _⟩ | ⟨_, h1, h2⟩
        · rw [h1] at hf; cases hf
        · exact ⟨_, h2, .inr ⟨_, h, C.syms[i], rfl, List.getElem_mem hi, by rw [← h1]⟩⟩
  · rename_i hl
    rw [if_neg hl]
    unfold loadAllSymbols at hf ⊢
    dsimp only at hf ⊢
    split at hf
    · cases hf
    · rename_i ha
      rw [if_neg ha]
      cases hh : (autoloadLib L s).w.handle with
      | none =>
        have hh' : (clearError (autoloadLib L s)).w.handle = none := hh
        simp only [hh']
        exact ⟨6, ⟨rfl, rfl, rfl, rfl, rfl⟩, .inl ⟨by trivial, rfl⟩⟩
      | some h =>
        have hh' : (clearError (autoloadLib L s)).w.handle = some h := hh
        simp only [hh'] at hf ⊢
        rcases err_loadLoop (L := L) h C.syms 0 (clearError (autoloadLib L s)) with ⟨h1, _⟩ | ⟨_, k, name, hn, h1, h2⟩
        · rw [h1] at hf; cases hf
        · exact ⟨_, h2, .inr ⟨k, h, name, rfl, hn, by rw [← h1]⟩⟩

theorem toDigits_nul (n : Nat) : nul ∉ Nat.toDigits 10 n := by
  intro h
  have := Nat.isDigit_of_mem_toDigits (by decide) (by decide) h
  exact absurd this (by decide)

theorem codeText_nul (f : Nat → Option Str) (code : Nat) : nul ∉ codeText f code := by
  unfold codeText
  split
  · exact cstr_no_nul _
  · intro h
    rcases List.mem_append.mp h with h | h
    · exact absurd h (by decide)
    · exact toDigits_nul code h

end

/-- How a wrapper function that fails to load its symbol starts its message. -/
def head (C : Cfg) (m : Str) : Str :=
  if strstr m C.lib then str% "error: " else if C.wide then C.address else str% "error: " ++ C.lib ++ str% ": "

/-- No text in the generated code has a NUL in it. -/
structure NoNul (C : Cfg) : Prop where
  syms : ∀ x ∈ C.syms, nul ∉ x
  lib : nul ∉ C.lib
  address : nul ∉ C.address

section
variable {L : Loader} {C : Cfg}

theorem autoMsg_eq (sym m : Str) : autoMsg C sym m = head C m ++ sym ++ str% ": " ++ m := by
  unfold autoMsg head
  split
  · rfl
  · split <;> rfl

theorem wrapper_eq (hm : C.mode ≠ .wrap) {i : Nat} {s : S} (hp : s.w.ptr i = none) : wrapper L C i s = match notLoaded L C i s with
      | .ret s =>
        match s.w.ptr i with
        | some p => Out.ret (p, s)
        | none => .ub
      | .exit s => .exit s
      | .abort w => .abort w
      | .ub => .ub := by
  unfold wrapper
  rw [hp]
  cases hc : C.mode with
  | wrap => exact absurd hc hm
  | _ => rfl

/-- The end of a wrapper function that cannot load its symbol. -/
theorem wrapper_fail (hN : NoNul C) (hm : C.mode ≠ .wrap) {i : Nat} {name : Str} (hi : C.syms[i]? = some name) {s : S} (hp : s.w.ptr i = none)
    (ha : (afterLoad L C i s).1 = false) {code : Nat} (he : Err (afterLoad L C i s).2 code [] []) :
    ∃ t m k, wrapper L C i s = .exit t ∧ Describes (L.formatA k) code m ∧ t.w.shown = s.w.shown ++ [head C m ++ name ++ str% ": " ++ m] := by
  have hname : C.syms.getD i [] = name := by simp [List.getD_eq_getElem?_getD, hi]
  have hmem : name ∈ C.syms := List.mem_of_getElem? hi
  obtain ⟨⟨m, hd, _, h2⟩, _⟩ := C90_text L _ code [] [] he
  have h3 := h2 rfl rfl
  have hm0 : nul ∉ m := by
    unfold Describes at hd
    split at hd
    · rw [hd]; exact cstr_no_nul _
    · rw [hd]
      intro h
      rcases List.mem_append.mp h with h | h
      · exact absurd h (by decide)
      · exact toDigits_nul code h
  have hnul : nul ∉ head C m ++ name ++ str% ": " ++ m := by
    have hh : nul ∉ head C m := by
      unfold head
      split
      · decide
      · split
        · exact hN.address
        · intro h
          simp only [List.mem_append] at h
          rcases h with (h | h) | h
          · exact absurd h (by decide)
          · exact hN.lib h
          · exact absurd h (by decide)
    intro h
    simp only [List.mem_append] at h
    rcases h with ((h | h) | h) | h
    · exact hh h
    · exact hN.syms name hmem h
    · exact absurd h (by decide)
    · exact hm0 h
  refine ⟨{ (error L (afterLoad L C i s).2).2 with w := show' (autoMsg C (C.syms.getD i []) (error L (afterLoad L C i s).2).1) (error L (afterLoad L C i s).2).2.w },
    m, _, ?_, hd, ?_⟩
  · rw [wrapper_eq hm hp]
    unfold notLoaded
    simp only [ha, Bool.false_eq_true, if_false]
  · rw [h3, hname, autoMsg_eq]
    unfold show'
    dsimp only
    rw [cstr_self hnul]
    have : (error L (afterLoad L C i s).2).2.w.shown = s.w.shown := by
      rw [← afterLoad_shown (L := L) (C := C) i s]
      unfold error
      split <;> rfl
    rw [this]

/-- What becomes of a wrapper function with automatic loading whose symbol is not set. -/
theorem wrapper_auto (hN : NoNul C) (hm : C.mode ≠ .wrap) {i : Nat} {name : Str} (hi : C.syms[i]? = some name) {s : S} (hp : s.w.ptr i = none) :
    (∃ p t, t.w.ptr i = some p ∧ wrapper L C i s = .ret (p, t)) ∨
    (∃ t m code k, wrapper L C i s = .exit t ∧ Describes (L.formatA k) code m ∧
      t.w.shown = s.w.shown ++ [head C m ++ name ++ str% ": " ++ m]) := by
  have hlt : i < C.syms.length := (List.getElem?_eq_some_iff.mp hi).1
  cases ha : (afterLoad L C i s).1 with
  | true =>
    left
    have hn : (afterLoad L C i s).2.w.ptr i ≠ none := by
      unfold afterLoad at ha ⊢
      split at ha
      · rename_i hl
        rw [if_pos hl]
        obtain ⟨j, _, h1, _, h2⟩ := C89_symbol L C _ _ ha
        have : j = i := by injection h1 with h1; exact h1.symm
        subst this
        exact h2
      · rename_i hl
        rw [if_neg hl]
        exact (C89_all L C _).mp ha i hlt
    obtain ⟨p, hq⟩ := Option.ne_none_iff_exists'.mp hn
    refine ⟨p, _, hq, ?_⟩
    rw [wrapper_eq hm hp]
    unfold notLoaded
    simp only [ha, if_true, hq]
  | false =>
    right
    obtain ⟨code, he, _⟩ := afterLoad_err hlt ha
    obtain ⟨t, m, k, h⟩ := wrapper_fail hN hm hi hp ha he
    exact ⟨t, m, code, k, h⟩

end

/-- A wrapper function calls through a pointer that is not NULL, or it ends the process
    with one message that names the symbol, and without wide characters also the library. -/
theorem C91_partial (L : Loader) (C : Cfg) (hN : NoNul C) (i : Nat) (name : Str) (hi : C.syms[i]? = some name) (s : S) :
    match wrapper L C i s with
    | .ret (p, t) => t.w.ptr i = some p
    | .exit t => C.mode ≠ .wrap ∧ ∃ m, t.w.shown = s.w.shown ++ [m] ∧ name <:+: m ∧ (C.wide = false → C.lib <:+: m)
    | .abort w => C.mode = .wrap ∧ w.handle = s.w.handle ∧ w.shown = s.w.shown ++ [str% "fatal error: " ++ name ++ str% ": " ++
        if s.w.handle = none then str% "library not loaded" else str% "symbol not loaded"]
    | .ub => False := by
  have hname : C.syms.getD i [] = name := by simp [List.getD_eq_getElem?_getD, hi]
  cases hp : s.w.ptr i with
  | some p =>
    have : wrapper L C i s = .ret (p, s) := by unfold wrapper; rw [hp]
    rw [this]
    exact hp
  | none =>
    by_cases hm : C.mode = .wrap
    · have : wrapper L C i s = .abort (notLoadedAbort C i s.w) := by unfold wrapper; rw [hp, hm]
      rw [this]
      refine ⟨hm, rfl, ?_⟩
      unfold notLoadedAbort show'
      dsimp only
      rw [hname, cstr_self]
      · cases s.w.handle <;> rfl
      · intro h
        simp only [List.mem_append] at h
        rcases h with ((h | h) | h) | h
        · exact absurd h (by decide)
        · exact hN.syms name (List.mem_of_getElem? hi) h
        · exact absurd h (by decide)
        · split at h <;> exact absurd h (by decide)
    · rcases wrapper_auto (L := L) hN hm hi hp with ⟨p, t, h1, h2⟩ | ⟨t, m, code, k, h1, h2, h3⟩
      · rw [h2]; exact h1
      · rw [h1]
        refine ⟨hm, _, h3, ⟨head C m, str% ": " ++ m, by simp⟩, fun hw => ?_⟩
        unfold head
        split
        · rename_i hs
          obtain ⟨a, b, hab⟩ := Cxx.strstr_infix _ _ hs
          exact ⟨str% "error: " ++ name ++ str% ": " ++ a, b, by rw [← hab]; simp⟩
        · rw [if_neg (by rw [hw]; simp)]
          exact ⟨str% "error: ", str% ": " ++ name ++ str% ": " ++ m, by simp⟩

/-- The reason is told if the library is open: the message ends with the text for the code
    that the system gave for a symbol. -/
theorem C91_reason (L : Loader) (C : Cfg) (hN : NoNul C) (hm : C.mode = .lazy) (i : Nat) (name : Str) (hi : C.syms[i]? = some name) (s : S)
    (h : Ptr) (hh : s.w.handle = some h) (hp : s.w.ptr i = none) (code : Nat) (hd : L.sym s.w.clock h name = (none, code)) :
    ∃ t m k, wrapper L C i s = .exit t ∧ Describes (L.formatA k) code m ∧ t.w.shown = s.w.shown ++ [head C m ++ name ++ str% ": " ++ m] := by
  have hA : autoloadLib L s = s := by simp [autoloadLib, libLoaded, hh]
  have hcase : Rt.caseOf C.toCfg (i : Int) = some (i, name) := by
    show Rt.caseOf C.toCfg (Int.ofNat i) = _
    simp [Rt.caseOf, hi]
  have hh' : (clearError s).w.handle = some h := hh
  have hp' : (clearError s).w.ptr i = none := hp
  have hB : afterLoad L C i s = symLoad L h i name (clearError s) := by
    unfold afterLoad
    rw [if_pos hm, hA]
    unfold loadSymbol
    simp only [hh', hcase]
    unfold loadOne
    rw [hp']
  have hE : (afterLoad L C i s).1 = false ∧ Err (afterLoad L C i s).2 code [] [] := by
    rw [hB]
    rcases err_symLoad (L := L) h i name (clearError s) with ⟨_, h1, _⟩ | ⟨h1, _, h3⟩
    · exact absurd (by show (L.sym s.w.clock h name).1 = none; rw [hd]) h1
    · have : (L.sym (clearError s).w.clock h name).2 = code := by
        show (L.sym s.w.clock h name).2 = code
        rw [hd]
      rw [this] at h3
      exact ⟨h1, h3⟩
  exact wrapper_fail hN (by rw [hm]; decide) hi hp hE.1 hE.2

example : NoNul demoCfg := ⟨by decide, by decide, by decide⟩

/-- What a wrapper function called, and what was shown. -/
def shownBy : Out (Ptr × S) → Option Ptr × List Str
  | .ret (p, s) => (some p, s.w.shown)
  | .exit s => (none, s.w.shown)
  | .abort w => (none, w.shown)
  | .ub => (none, [])

example : shownBy (wrapper demoLoader demoCfg 0 ⟨{ filename := str% "x", flags := 1 }, {}⟩) = (some 7, []) ∧
    shownBy (wrapper demoLoader demoCfg 1 ⟨{ filename := str% "x", flags := 1 }, {}⟩) = (none, [str% "error: x: g: Not found."]) := ⟨rfl, rfl⟩

section
variable {L : Loader} {C : Cfg}

theorem loadFilename_closed (hA : ∀ t n f, (L.loadA t n f).1 = none) (hW : ∀ t n f, (L.loadW t n f).1 = none) (w : Bool) (n : Str) (s : S)
    (hs : s.w.handle = none) : (loadFilename L w n s).2.w.handle = none ∧ (loadFilename L w n s).2.w.ptr = s.w.ptr := by
  have hl : ∀ t : S, (loadLib L w n t).w.handle = none ∧ (loadLib L w n t).w.ptr = t.w.ptr := by
    intro t
    rw [loadLib_eq]
    split
    · exact ⟨hW _ _ _, rfl⟩
    · unfold loadExA
      split
      · split
        · exact ⟨hW _ _ _, rfl⟩
        · exact ⟨rfl, rfl⟩
      · exact ⟨hA _ _ _, rfl⟩
  unfold loadFilename
  dsimp only
  split
  · exact ⟨hs, rfl⟩
  · split
    · exact ⟨hs, rfl⟩
    · split
      · exact hl _
      · dsimp only
        rw [saveErrorMsg_w]
        exact hl _

end

/-- Not so: if the library cannot be opened, the message has neither the name that was
    tried nor the code of the system, but the text for code 6. -/
theorem C91_violated (L : Loader) (C : Cfg) (hN : NoNul C) (hm : C.mode ≠ .wrap) (i : Nat) (name : Str) (hi : C.syms[i]? = some name)
    (s : S) (hh : s.w.handle = none) (hp : s.w.ptr i = none) (hA : ∀ t n f, (L.loadA t n f).1 = none) (hW : ∀ t n f, (L.loadW t n f).1 = none) :
    ∃ t m k, wrapper L C i s = .exit t ∧ Describes (L.formatA k) 6 m ∧ t.w.shown = s.w.shown ++ [head C m ++ name ++ str% ": " ++ m] := by
  have hlt : i < C.syms.length := (List.getElem?_eq_some_iff.mp hi).1
  have hl : (autoloadLib L s).w.handle = none ∧ (autoloadLib L s).w.ptr = s.w.ptr := by
    unfold autoloadLib
    rw [if_neg (by simp [libLoaded, hh])]
    unfold load
    split <;> exact loadFilename_closed hA hW _ _ s hh
  have hf : (afterLoad L C i s).1 = false := by
    have hc : (clearError (autoloadLib L s)).w.handle = none := hl.1
    unfold afterLoad
    split
    · unfold loadSymbol
      simp only [hc]
    · unfold loadAllSymbols
      dsimp only
      rw [if_neg]
      · simp only [hc]
      · simp only [allLoaded, List.all_eq_true, List.mem_range]
        intro hall
        have := hall i hlt
        have h2 : (clearError (autoloadLib L s)).w.ptr i = none := by
          show (autoloadLib L s).w.ptr i = none
          rw [hl.2, hp]
        rw [h2] at this
        cases this
  obtain ⟨code, he, hc⟩ := afterLoad_err hlt hf
  rcases hc with ⟨_, hc⟩ | ⟨k, h, n, hc, _⟩
  · subst hc
    exact wrapper_fail hN hm hi hp hf he
  · rw [hl.1] at hc; cases hc

example : shownBy (wrapper { demoLoader with loadA := fun _ _ _ => (none, 127) } demoCfg 0 ⟨{ filename := str% "x", flags := 1 }, {}⟩) =
    (none, [str% "error: x: f: error code: 6"]) := rfl

/-- Not so: with a wide default library the message has an address instead of the name. -/
theorem C91_violated_wide : ∃ (L : Loader) (C : Cfg) (s t : S) (m : Str), C.wide = true ∧ NoNul C ∧ wrapper L C 0 s = .exit t ∧
    t.w.shown = s.w.shown ++ [m] ∧ ¬ C.lib <:+: m :=
  ⟨{ demoLoader with loadW := fun _ _ _ => (none, 127) }, { demoCfg with wide := true, lib := str% "lib", address := str% "0x7" },
    ⟨{ wfilename := str% "lib", flags := 1 }, {}⟩, _, str% "0x7f: error code: 6", rfl, ⟨by decide, by decide, by decide⟩, rfl, rfl, by decide⟩

end Gdo.CxxWin
