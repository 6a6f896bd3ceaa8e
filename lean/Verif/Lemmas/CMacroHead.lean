import Verif.Lemmas.CMacroCommon
import Verif.Props.Builtin

/-!
Lemmas: the texts of the file name macros, the default library and `common.h` one behind
the other.
-/

set_option maxRecDepth 20000

namespace Gdo.Cpp
open Gdo Rename Tmpl Builtin Sub Opt Tpl Gen

variable {u l : Str}

/-! ### Texts -/

theorem lineText_renamed (hp : Prefixes u l) (t : TName) : renamedLine u l (lineText t) = lineText t := by
  have h : firstKind (parts (lineText t)) = none := by cases t <;> decide +kernel
  have := written_plain hp [] [] h
  rw [lineText_written] at this
  exact (List.cons.inj this).1.symm

theorem shown_plain (names : ParamNames) {ds : List Str} (h : ∀ d ∈ ds, markerLine d = none) (r : List Str) : shown names none (ds ++ r) = ds ++ shown names none r := by
  induction ds with
  | nil => rfl
  | cons d ds ih =>
    rw [List.cons_append, shown, h d (by simp), ih fun x hx => h x (by simp [hx])]
    rfl

/-- The text of the file name macros. -/
theorem file_text (hp : Prefixes u l) (ld : Bool) (names : ParamNames) (protos objs : List Proto) :
    (if ld ∧ TName.filenameMacros ≠ .license then [lineText .filenameMacros] else []) ++ instantiate u l names protos objs (lines .filenameMacros) =
      (processedTexts ld .filenameMacros).map (renamedLine u l) := by
  unfold processedTexts
  rw [List.map_append]
  have h : ∀ d ∈ texts .filenameMacros, markerLine d = none ∧ firstKind (parts d) = none := by
    intro d hd
    have := List.all_eq_true.mp plain_filenameMacros d hd
    simpa using this
  have pair : ∀ {a b c d : List Str}, a = c → b = d → a ++ b = c ++ d := fun h1 h2 => by rw [h1, h2]
  refine pair ?_ ?_
  · split
    · rw [List.map_singleton, lineText_renamed hp]
    · rfl
  · unfold instantiate
    have e := shown_plain names (ds := texts .filenameMacros) (fun d hd => (h d hd).1) []
    rw [List.append_nil, show shown names none [] = [] from rfl, List.append_nil] at e
    rw [show (blocks (lines .filenameMacros)).map joinLines = texts .filenameMacros from rfl, e]
    exact written_lines hp protos objs (List.all_eq_true.mpr fun d hd => by simpa using (h d hd).2)

/-- The lines of `common.h` that depend on the parameter names. -/
def commonTail : List Str :=
  [str% "%PARAM_SKIP_REMOVE_BEGIN%",
   str% "#if defined(GDO_ENABLE_AUTOLOAD) && !defined(GDO_DEFAULT_LIB)",
   str% "# error Auto-loading functions require \"GDO_DEFAULT_LIB\" to be set",
   str% "#endif",
   str% "%PARAM_SKIP_USE_BEGIN%",
   str% "#if defined(GDO_WRAP_FUNCTIONS) || defined(GDO_ENABLE_AUTOLOAD)",
   str% "# error Auto-loading and wrapped functions cannot be used because \"-param=skip\" was set",
   str% "#endif",
   str% "%PARAM_SKIP_END%",
   str% ""]

theorem common_split : texts .commonHeader = commonLines ++ (blocks commonTail).map joinLines := by
  unfold commonLines
  conv => lhs; rw [← List.take_append_drop 405 (texts .commonHeader)]
  refine congrArg (List.take 405 (texts .commonHeader) ++ ·) ?_
  have : decide ((texts .commonHeader).drop 405 = (blocks commonTail).map joinLines) = true := by decide +kernel
  exact of_decide_eq_true this

theorem common_plain : commonLines.all (fun d => (markerLine d).isNone && (firstKind (parts d)).isNone) = true := by decide +kernel

/-- The text of `common.h`. -/
theorem common_text (hp : Prefixes u l) (names : ParamNames) (protos objs : List Proto) :
    instantiate u l names protos objs (lines .commonHeader) = commonLines.map (renamedLine u l) ++ instantiate u l names protos objs commonTail := by
  have h : ∀ d ∈ commonLines, markerLine d = none ∧ firstKind (parts d) = none := by
    intro d hd
    have := List.all_eq_true.mp common_plain d hd
    simpa using this
  unfold instantiate
  rw [show (blocks (lines .commonHeader)).map joinLines = texts .commonHeader from rfl, common_split, shown_plain names fun d hd => (h d hd).1, List.flatMap_append]
  refine congrArg (· ++ _) ?_
  exact written_lines hp protos objs (List.all_eq_true.mpr fun d hd => by simpa using (h d hd).2)

/-! ### Definitions -/

open GenSpec in
theorem run_library (hp : Prefixes u l) {a w : Str} {tsA tsW : List T} (hA : LineOf a tsA) (hW : LineOf w tsW) (oA : BodyOk tsA) (oW : BodyOk tsW)
    (inc : List T → Table) (D : Str → Bool) (t : Table) (b : Str) :
    run inc D (t, []) (libraryDefines u a w ++ b) =
      run inc D ((u ++ str% "_HARDCODED_DEFAULT_LIBW", some ⟨none, false, tsW⟩) :: (u ++ str% "_HARDCODED_DEFAULT_LIBA", some ⟨none, false, tsA⟩) :: t, []) b := by
  have wA := prefix_word hp (s := str% "_HARDCODED_DEFAULT_LIBA") (by decide)
  have wW := prefix_word hp (s := str% "_HARDCODED_DEFAULT_LIBW") (by decide)
  have e : libraryDefines u a w ++ b = str% "#define " ++ (u ++ str% "_HARDCODED_DEFAULT_LIBA") ++ ' ' :: (a ++ '\n' ::
      (str% "#define " ++ (u ++ str% "_HARDCODED_DEFAULT_LIBW") ++ ' ' :: (w ++ '\n' :: b))) := by
    simp [libraryDefines]
  rw [e, run_define wA hA oA.nl oA.first, run_define wW hW oW.nl oW.first]

theorem run_harmless {inc : List T → Table} {S : List Str} {a : Str} (h : Harmless inc S a) (D : Str → Bool) (t : Table) (b : Str) :
    ∃ t', run inc D (t, []) (a ++ b) = run inc D (t' ++ t, []) b ∧ ∀ y ∈ S, t'.lookup y = none := by
  rcases h with rfl | ⟨x, h1, h2⟩
  · exact ⟨[], rfl, fun _ _ => rfl⟩
  · obtain ⟨t', e1, e2⟩ := h2 (isDefined D t)
    refine ⟨t', ?_, e2⟩
    rw [run_whole h1, runLines_start, e1]
    rfl

theorem after_run {inc : List T → Table} {E : Str → Option Macro} {text : Str} {t : Table} (h : run inc (fun x => (E x).isSome) ([], []) text = some (t, [])) :
    after inc E text = some (known E t) := by
  unfold after
  rw [definitions_run, h]
  rfl

/-- The names, with the prefix. -/
def watched (u : Str) : List Str :=
  [u ++ str% "_LIBEXTA", u ++ str% "_LIBNAMEA", u ++ str% "_LIBEXTW", u ++ str% "_LIBNAMEW", u ++ str% "_LIBEXT", u ++ str% "_LIBNAME",
   u ++ str% "_HARDCODED_DEFAULT_LIBA", u ++ str% "_HARDCODED_DEFAULT_LIBW", u ++ str% "_DEFAULT_LIBA", u ++ str% "_DEFAULT_LIBW", u ++ str% "_DEFAULT_LIB",
   str% "_" ++ u ++ str% "_TARGET_WIDECHAR", u ++ str% "_WINAPI", u ++ str% "_USE_DLOPEN", str% "_WIN32", str% "_UNICODE"]

theorem newName_under (u l x : Str) : newName u l (str% "_GDO_" ++ x) = str% "_" ++ u ++ (str% "_" ++ x) := by
  unfold newName
  rw [if_neg (by simp [List.isPrefixOf]), if_pos (by simp [List.isPrefixOf])]
  simp

theorem tracked_names (u l : Str) : tracked.map (newName u l) = watched u := by
  have e : tracked = [str% "GDO_" ++ str% "LIBEXTA", str% "GDO_" ++ str% "LIBNAMEA", str% "GDO_" ++ str% "LIBEXTW", str% "GDO_" ++ str% "LIBNAMEW", str% "GDO_" ++ str% "LIBEXT",
    str% "GDO_" ++ str% "LIBNAME", str% "GDO_" ++ str% "HARDCODED_DEFAULT_LIBA", str% "GDO_" ++ str% "HARDCODED_DEFAULT_LIBW", str% "GDO_" ++ str% "DEFAULT_LIBA",
    str% "GDO_" ++ str% "DEFAULT_LIBW", str% "GDO_" ++ str% "DEFAULT_LIB", str% "_GDO_" ++ str% "TARGET_WIDECHAR", str% "GDO_" ++ str% "WINAPI", str% "GDO_" ++ str% "USE_DLOPEN",
    str% "_WIN32", str% "_UNICODE"] := rfl
  rw [e]
  simp only [List.map_cons, List.map_nil, newName_upper, newName_under]
  rfl

/-! ### The macros behind the texts -/

theorem libTable_names (D : Str → Bool) : ∀ p ∈ libTable D, p.1 ∈ [str% "GDO_DEFAULT_LIBA", str% "GDO_DEFAULT_LIBW", str% "GDO_DEFAULT_LIB", str% "_GDO_TARGET_WIDECHAR"] := by
  intro p hp
  unfold libTable at hp
  simp only [List.mem_append] at hp
  rcases hp with ((((hp | hp) | hp) | hp) | hp) | hp <;> (repeat' split at hp) <;> first
    | exact absurd hp (List.not_mem_nil)
    | (cases List.mem_singleton.mp hp; simp)

theorem winTable_names (D : Str → Bool) : ∀ p ∈ winTable D, p.1 ∈ [str% "GDO_DLFCN_WIN32", str% "GDO_WINAPI"] := by
  intro p hp
  unfold winTable at hp
  (repeat' split at hp) <;> first
    | exact absurd hp (List.not_mem_nil)
    | (cases List.mem_singleton.mp hp; simp)

theorem lookup_absent {t : Table} {N : List Str} (h : ∀ p ∈ t, p.1 ∈ N) {x : Str} (hx : x ∉ N) : t.lookup x = none := by
  rw [List.lookup_eq_none_iff]
  intro p hp
  rw [bne_iff_ne]
  intro e
  exact hx (e ▸ h p hp)

/-- The definitions of `common.h` and of the way of loading. -/
def defaultTable (D : Str → Bool) : Table := libTable (isDefined D (winTable D)) ++ winTable D

theorem defaultTable_names (D : Str → Bool) : ∀ p ∈ defaultTable D, p.1 ∈ allNames := by
  intro p hp
  rcases List.mem_append.mp hp with hp | hp
  · have := libTable_names _ p hp
    revert this
    generalize p.1 = x
    revert x
    decide
  · have := winTable_names _ p hp
    revert this
    generalize p.1 = x
    revert x
    decide

/-- Names that are followed and not defined by these lines. -/
theorem default_keeps (D : Str → Bool) {x : Str} (h : x ∉ [str% "GDO_DEFAULT_LIBA", str% "GDO_DEFAULT_LIBW", str% "GDO_DEFAULT_LIB", str% "_GDO_TARGET_WIDECHAR",
    str% "GDO_DLFCN_WIN32", str% "GDO_WINAPI"]) : (defaultTable D).lookup x = none := by
  unfold defaultTable
  rw [List.lookup_append, lookup_absent (libTable_names _) (by simp at h ⊢; simp [h]), lookup_absent (winTable_names _) (by simp at h ⊢; simp [h])]
  rfl

/-- What the user defines before stays. -/
theorem default_override (D : Str → Bool) {x : Str} (hx : x ∈ [str% "GDO_DEFAULT_LIBA", str% "GDO_DEFAULT_LIBW", str% "GDO_DEFAULT_LIB"]) (h : D x = true) :
    (defaultTable D).lookup x = none := by
  have hw : (winTable D).lookup x = none := lookup_absent (winTable_names _) (by clear h; revert x; decide)
  have hD : isDefined D (winTable D) x = true := by
    unfold isDefined
    rw [hw]
    exact h
  unfold defaultTable
  rw [List.lookup_append, hw, Option.or_none]
  generalize isDefined D (winTable D) = D' at hD ⊢
  simp only [List.mem_cons, List.not_mem_nil, or_false] at hx
  rcases hx with rfl | rfl | rfl
  · have : hasA D' = true := by simp [hasA, hD]
    simp only [libTable, this, hD, List.lookup_append, Bool.not_true, Bool.and_false, Bool.false_and, Bool.false_eq_true, reduceIte]
    (repeat' split) <;> rfl
  · have : hasW D' = true := by simp [hasW, hD]
    simp only [libTable, this, hD, List.lookup_append, Bool.not_true, Bool.and_false, Bool.false_and, Bool.false_eq_true, reduceIte]
    (repeat' split) <;> rfl
  · simp only [libTable, hD, List.lookup_append, Bool.not_true, Bool.and_false, Bool.false_and, Bool.false_eq_true, reduceIte]
    (repeat' split) <;> rfl

/-- Whether wide characters are used. -/
def wideTarget (D : Str → Bool) (u : Str) : Bool := D (str% "_WIN32") && !D (u ++ str% "_USE_DLOPEN") && D (str% "_UNICODE")

theorem default_chosen (D : Str → Bool) (hD : ∀ x ∈ [str% "GDO_DEFAULT_LIBA", str% "GDO_DEFAULT_LIBW", str% "GDO_DEFAULT_LIB", str% "_GDO_TARGET_WIDECHAR", str% "GDO_WINAPI"], D x = false)
    (hA : D (str% "GDO_HARDCODED_DEFAULT_LIBA") = true) (hW : D (str% "GDO_HARDCODED_DEFAULT_LIBW") = true) :
    (defaultTable D).lookup (str% "GDO_DEFAULT_LIBA") = some (some (nameMacro (str% "GDO_HARDCODED_DEFAULT_LIBA"))) ∧
    (defaultTable D).lookup (str% "GDO_DEFAULT_LIBW") = some (some (nameMacro (str% "GDO_HARDCODED_DEFAULT_LIBW"))) ∧
    (defaultTable D).lookup (str% "GDO_DEFAULT_LIB") = some (some (nameMacro (if D (str% "_WIN32") && !D (str% "GDO_USE_DLOPEN") && D (str% "_UNICODE") then str% "GDO_DEFAULT_LIBW"
      else str% "GDO_DEFAULT_LIBA"))) := by
  have key : ∀ x, x ∉ [str% "GDO_DLFCN_WIN32", str% "GDO_WINAPI"] → isDefined D (winTable D) x = D x := by
    intro x hx
    unfold isDefined
    rw [lookup_absent (winTable_names D) hx]
  have kW : isDefined D (winTable D) (str% "GDO_WINAPI") = (D (str% "_WIN32") && !D (str% "GDO_USE_DLOPEN")) := by
    have h0 := hD (str% "GDO_WINAPI") (by simp)
    unfold isDefined winTable
    cases D (str% "_WIN32")
    · simp [h0]
    · cases D (str% "GDO_USE_DLOPEN")
      · rfl
      · simp only [if_true]
        exact h0
  have k1 := (key (str% "GDO_DEFAULT_LIBA") (by decide)).trans (hD _ (by simp))
  have k2 := (key (str% "GDO_DEFAULT_LIBW") (by decide)).trans (hD _ (by simp))
  have k3 := (key (str% "GDO_DEFAULT_LIB") (by decide)).trans (hD _ (by simp))
  have k4 := (key (str% "_GDO_TARGET_WIDECHAR") (by decide)).trans (hD _ (by simp))
  have k5 := (key (str% "GDO_HARDCODED_DEFAULT_LIBA") (by decide)).trans hA
  have k6 := (key (str% "GDO_HARDCODED_DEFAULT_LIBW") (by decide)).trans hW
  have k7 := key (str% "_UNICODE") (by decide)
  unfold defaultTable
  generalize isDefined D (winTable D) = D' at *
  rw [← kW, ← k7]
  have hwide : targetWide D' = (D' (str% "GDO_WINAPI") && D' (str% "_UNICODE")) := by simp [targetWide, k4]
  have ha : hasA D' = true := by simp [hasA, k5]
  have hw : hasW D' = true := by simp [hasW, k6]
  have hl : hasLib D' = true := by
    simp only [hasLib, ha, hw, k3]
    cases targetWide D' <;> rfl
  simp only [libTable, hl, ha, hw, k1, k2, k3, k5, k6, ← hwide]
  cases targetWide D' <;> exact ⟨rfl, rfl, rfl⟩

end Gdo.Cpp
