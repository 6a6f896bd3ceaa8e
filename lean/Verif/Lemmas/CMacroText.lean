import Verif.Lemmas.CMacroExpand
import Verif.Lemmas.CNames

/-!
Lemmas: the definitions of texts one behind the other, and of the file name macros.
-/

set_option maxRecDepth 20000

namespace Gdo.Cpp
open Gdo Rename Tmpl Builtin

/-- The directives of a text, from a state on. -/
def run (inc : List T → Table) (D : Str → Bool) (s : Table × List Cc.Cond) (text : Str) : Option (Table × List Cc.Cond) :=
  (tokens text).bind fun ts => runLines inc D s (splitLines ts)

theorem definitions_run (inc : List T → Table) (D : Str → Bool) (text : Str) :
    definitions inc D text = (run inc D ([], []) text).bind fun s => if s.2 = [] then some s.1 else none := by
  unfold definitions run
  cases tokens text <;> rfl

theorem run_nil (inc : List T → Table) (D : Str → Bool) (s : Table × List Cc.Cond) : run inc D s [] = some s := rfl

theorem pieces_whole (a b : Str) : pieces ((a ++ ['\n']) ++ b) = pieces (a ++ ['\n']) ++ pieces b := by
  have e : (a ++ ['\n']) ++ b = a ++ '\n' :: b := by simp
  rw [e, pieces_sep a (by decide), pieces_sep a (by decide)]
  simp [pieces]

theorem run_whole {a : Str} {x : List T} (h : Whole a x) (inc : List T → Table) (D : Str → Bool) (s : Table × List Cc.Cond) (b : Str) :
    run inc D s (a ++ b) = (runLines inc D s (splitLines x)).bind fun s' => run inc D s' b := by
  obtain ⟨h1, a', rfl⟩ := h
  have e : tokens ((a' ++ ['\n']) ++ b) = (tokens b).map fun ts => x ++ nlT :: ts := by
    unfold tokens
    rw [pieces_whole, lex_append, h1, Option.bind_some]
    cases lex (.gap true) (pieces b) with
    | none => rfl
    | some y =>
      simp only [Option.map_some, Option.bind_some]
      cases flush y.1 <;> simp
  unfold run
  rw [e]
  cases tokens b with
  | none =>
    show none = _
    cases runLines inc D s (splitLines x) <;> rfl
  | some ts =>
    show runLines inc D s (splitLines (x ++ nlT :: ts)) = _
    rw [nlT, splitLines_append, runLines_append]
    rfl

/-- The lines of a template whose tokens are whole. -/
def wholeLines (ls : List Str) : Option (List (List T)) :=
  if okText ls ∧ ls ≠ [] then
    match lineTokens ls with
    | some (.gap true, ts) => if ts.getLast? = some nlT then some (splitLines ts.dropLast) else none
    | _ => none
  else none

theorem run_template {u l : Str} (hp : Prefixes u l) {ls : List Str} {lns : List (List T)} (h : wholeLines ls = some lns) (inc : List T → Table) (D : Str → Bool)
    (s : Table × List Cc.Cond) (b : Str) :
    run inc D s (unlines (ls.map (renamedLine u l)) ++ b) =
      (runLines inc D s (lns.map (·.map (renT (newName u l))))).bind fun s' => run inc D s' b := by
  unfold wholeLines at h
  split at h
  · rename_i hok
    split at h
    · rename_i ts hts
      split at h
      · rename_i hl
        cases h
        have hne : ts ≠ [] := by rintro rfl; cases hl
        have e : ts = ts.dropLast ++ [nlT] := by
          have := List.getLast?_eq_some_iff.mp hl
          obtain ⟨ys, rfl⟩ := this
          simp
        rw [← splitLines_map]
        refine run_whole ⟨?_, ?_⟩ inc D s b
        · rw [lex_template hp hok.1, hts]
          simp only [Option.map_some, renLex]
          congr 2
          conv => lhs; rw [e]
          rw [List.map_append]
          rfl
        · have : ∀ ds : List Str, ds ≠ [] → ∃ a', unlines ds = a' ++ ['\n'] := by
            intro ds hd
            refine ⟨unlines ds.dropLast ++ ds.getLast hd, ?_⟩
            conv => lhs; rw [← List.dropLast_concat_getLast hd]
            simp [unlines]
          exact this _ (by simpa using hok.2)
      · cases h
    · cases h
  · cases h

/-! ### Names that stay different -/

/-- The names stay different with every prefix. -/
def apartNames (W : List Str) : Bool := W.all fun a => a != str% "gdo" && W.all fun b => a == b || Cc.apart (Cc.form a) (Cc.form b)

theorem apart_inj {u l : Str} {W : List Str} (h : apartNames W = true) : ∀ a ∈ W, ∀ b ∈ W, newName u l a = newName u l b → a = b := by
  intro a ha b hb e
  have h1 := List.all_eq_true.mp h a ha
  have h2 := List.all_eq_true.mp h b hb
  rw [Bool.and_eq_true] at h1 h2
  have ha' : a ≠ str% "gdo" := by simpa using h1.1
  have hb' : b ≠ str% "gdo" := by simpa using h2.1
  have h3 := List.all_eq_true.mp h1.2 b hb
  rw [Bool.or_eq_true] at h3
  rcases h3 with h3 | h3
  · simpa using h3
  · rw [Cc.newName_form u l a ha', Cc.newName_form u l b hb'] at e
    exact absurd e (Cc.apart_ne h3)

/-! ### The file name macros -/

def fileTested : List Str :=
  [str% "_WIN32", str% "__MINGW32__", str% "__APPLE__", str% "_AIX", str% "__64BIT__", str% "__LP64__", str% "__ANDROID__", str% "_UNICODE"]

def fileNames : List Str :=
  [str% "GDO_LIBEXTA", str% "GDO_LIBNAMEA", str% "GDO_LIBEXTW", str% "GDO_LIBNAMEW", str% "GDO_LIBEXT", str% "GDO_LIBNAME"]

/-- The definitions of the file name macros. -/
def fileTable (sys : System) (wide : Bool) : Table :=
  [(str% "GDO_LIBNAME", some ⟨some paramNames, false, callBody (if wide then str% "GDO_LIBNAMEW" else str% "GDO_LIBNAMEA") true⟩),
   (str% "GDO_LIBEXT", some ⟨none, false, [⟨true, .ident (if wide then str% "GDO_LIBEXTW" else str% "GDO_LIBEXTA")⟩]⟩),
   (str% "GDO_LIBNAME", none),
   (str% "GDO_LIBEXT", none),
   (str% "GDO_LIBNAMEW", some ⟨some paramNames, false, wideLit :: callBody (str% "GDO_LIBNAMEA") false⟩),
   (str% "GDO_LIBEXTW", some ⟨none, false, [wideLit, ⟨true, .ident (str% "GDO_LIBEXTA")⟩]⟩),
   (str% "GDO_LIBNAMEW", none),
   (str% "GDO_LIBEXTW", none),
   (str% "GDO_LIBNAMEA", some ⟨some paramNames, false, nameBody sys⟩),
   (str% "GDO_LIBNAMEA", none),
   (str% "GDO_LIBEXTA", some ⟨none, false, [⟨true, strLit sys.extension⟩]⟩),
   (str% "GDO_LIBEXTA", none)]

def isWide (D : Str → Bool) : Bool := D (str% "_WIN32") && D (str% "_UNICODE")

def fileTest (D : Str → Bool) (r : Option (Table × List Cc.Cond)) : Bool := r = some (fileTable (systemOf D) (isWide D), [])

theorem fileTest_congr (D D' : Str → Bool) (r : Option (Table × List Cc.Cond)) (h : ∀ x ∈ fileTested, D x = D' x) : fileTest D r = fileTest D' r := by
  have hs : systemOf D = systemOf D' := by
    unfold systemOf
    rw [h (str% "_WIN32") (by decide), h (str% "__MINGW32__") (by decide), h (str% "__APPLE__") (by decide), h (str% "_AIX") (by decide),
      h (str% "__64BIT__") (by decide), h (str% "__LP64__") (by decide), h (str% "__ANDROID__") (by decide)]
  have hw : isWide D = isWide D' := by
    unfold isWide
    rw [h (str% "_WIN32") (by decide), h (str% "_UNICODE") (by decide)]
  unfold fileTest
  rw [hs, hw]

/-- The lines of the file name macros, with the line of the `#line` directive or without. -/
def fileLines (ld : Bool) : List (List T) := (wholeLines (processedTexts ld .filenameMacros)).getD []

theorem fileLines_whole (ld : Bool) : wholeLines (processedTexts ld .filenameMacros) = some (fileLines ld) := by
  have : (wholeLines (processedTexts ld .filenameMacros)).isSome = true := by cases ld <;> decide +kernel
  unfold fileLines
  cases h : wholeLines (processedTexts ld .filenameMacros) with
  | none => rw [h] at this; cases this
  | some x => rfl

theorem fileLines_check (ld : Bool) : checkLines fileTested (fileTested ++ fileNames) (fileLines ld) fileTest = true := by
  cases ld <;> decide +kernel

theorem fileNames_apart : apartNames (fileTested ++ fileNames) = true := by decide +kernel

/-- The definitions of the file name macros, for every prefix and system. -/
theorem run_fileMacros {u l : Str} (hp : Prefixes u l) (ld : Bool) (inc : List T → Table) (D : Str → Bool) (b : Str) :
    run inc D ([], []) (unlines ((processedTexts ld .filenameMacros).map (renamedLine u l)) ++ b) =
      run inc D (renTable (newName u l) (fileTable (systemOf D) (isWide D)), []) b := by
  rw [run_template hp (fileLines_whole ld)]
  obtain ⟨h1, h2⟩ := checkLines_spec (fileLines_check ld) fileTest_congr (fun w => D (newName u l w))
  have h3 := (runLines_ren (u := u) (l := l) (apart_inj fileNames_apart) inc (fun _ => []) D h1 (t := []) (fun _ h => nomatch h) []).1
  have h2 := of_decide_eq_true (show decide _ = true from h2)
  rw [h2] at h3
  rw [show (([], []) : Table × List Cc.Cond) = (renTable (newName u l) [], []) from rfl, h3]
  have e1 : systemOf (fun w => D (newName u l w)) = systemOf D := rfl
  have e2 : isWide (fun w => D (newName u l w)) = isWide D := rfl
  rw [e1, e2]
  rfl

theorem fileTable_names (sys : System) (wide : Bool) : ∀ p ∈ fileTable sys wide, p.1 ∈ fileTested ++ fileNames := by
  cases sys <;> cases wide <;> decide +kernel

theorem known_file {u l : Str} (E : Str → Option Macro) (sys : System) (wide : Bool) {x : Str} (hx : x ∈ fileTested ++ fileNames) {m : Option Macro}
    (h : (fileTable sys wide).lookup x = some m) : known E (renTable (newName u l) (fileTable sys wide)) (newName u l x) = m.map (renMacro (newName u l)) := by
  unfold known
  rw [lookup_ren (apart_inj fileNames_apart) hx (fileTable_names sys wide), h]
  rfl

theorem newName_upper (u l x : Str) : newName u l (str% "GDO_" ++ x) = u ++ (str% "_" ++ x) := by
  unfold newName
  rw [if_pos (by simp [List.isPrefixOf])]
  simp

/-- The macros behind the file name macros. -/
theorem fileMacros_known {u l : Str} (E : Str → Option Macro) (sys : System) (wide : Bool) :
    FileMacros (known E (renTable (newName u l) (fileTable sys wide))) u sys wide := by
  have eA : u ++ str% "_LIBEXTA" = newName u l (str% "GDO_LIBEXTA") := (newName_upper u l (str% "LIBEXTA")).symm
  have eW : u ++ str% "_LIBEXTW" = newName u l (str% "GDO_LIBEXTW") := (newName_upper u l (str% "LIBEXTW")).symm
  have e : u ++ str% "_LIBEXT" = newName u l (str% "GDO_LIBEXT") := (newName_upper u l (str% "LIBEXT")).symm
  have nA : u ++ str% "_LIBNAMEA" = newName u l (str% "GDO_LIBNAMEA") := (newName_upper u l (str% "LIBNAMEA")).symm
  have nW : u ++ str% "_LIBNAMEW" = newName u l (str% "GDO_LIBNAMEW") := (newName_upper u l (str% "LIBNAMEW")).symm
  have n : u ++ str% "_LIBNAME" = newName u l (str% "GDO_LIBNAME") := (newName_upper u l (str% "LIBNAME")).symm
  constructor
  · rw [eA]
    exact known_file (u := u) (l := l) (x := str% "GDO_LIBEXTA") E sys wide (List.elem_iff.mp rfl) rfl
  · rw [nA]
    refine (known_file (u := u) (l := l) (x := str% "GDO_LIBNAMEA") E sys wide (List.elem_iff.mp rfl) rfl).trans ?_
    cases sys <;> rfl
  · rw [eW, eA]
    exact known_file (u := u) (l := l) (x := str% "GDO_LIBEXTW") E sys wide (List.elem_iff.mp rfl) rfl
  · rw [nW, nA]
    exact known_file (u := u) (l := l) (x := str% "GDO_LIBNAMEW") E sys wide (List.elem_iff.mp rfl) rfl
  · rw [e]
    refine (known_file (u := u) (l := l) (x := str% "GDO_LIBEXT") E sys wide (List.elem_iff.mp rfl) rfl).trans ?_
    cases wide
    · rw [if_neg (by simp), if_neg (by simp), eA]; rfl
    · rw [if_pos rfl, if_pos rfl, eW]; rfl
  · rw [n]
    refine (known_file (u := u) (l := l) (x := str% "GDO_LIBNAME") E sys wide (List.elem_iff.mp rfl) rfl).trans ?_
    cases wide
    · rw [if_neg (by simp), if_neg (by simp), nA]; rfl
    · rw [if_pos rfl, if_pos rfl, nW]; rfl

theorem file_other {u l : Str} (sys : System) (wide : Bool) {x : Str} (h : x ∉ fileNames.map (newName u l)) :
    (renTable (newName u l) (fileTable sys wide)).lookup x = none := by
  have key : ∀ q ∈ fileTable sys wide, q.1 ∈ fileNames := by cases sys <;> cases wide <;> decide +kernel
  rw [List.lookup_eq_none_iff]
  intro p hp
  obtain ⟨q, hq, rfl⟩ := List.mem_map.mp hp
  rw [bne_iff_ne]
  intro e
  exact h (e ▸ List.mem_map.mpr ⟨_, key q hq, rfl⟩)

end Gdo.Cpp
