import Verif.Lemmas.CMacroLib

/-!
Lemmas: the macros of the default library behind `common.h`.
-/

set_option maxRecDepth 20000

namespace Gdo.Cpp
open Gdo Rename Tmpl Builtin

/-- The names that are followed through the text. -/
def tracked : List Str :=
  fileNames ++ [str% "GDO_HARDCODED_DEFAULT_LIBA", str% "GDO_HARDCODED_DEFAULT_LIBW", str% "GDO_DEFAULT_LIBA", str% "GDO_DEFAULT_LIBW", str% "GDO_DEFAULT_LIB",
    str% "_GDO_TARGET_WIDECHAR", str% "GDO_WINAPI", str% "GDO_USE_DLOPEN", str% "_WIN32", str% "_UNICODE"]

/-- The lines up to the sections for parameter names. -/
def commonLines : List Str := (texts .commonHeader).take 405

def segment (ld : Bool) : Nat → List Str
  | 0 => (if ld then [lineText .commonHeader] else []) ++ commonLines.take 81
  | 1 => (commonLines.drop 81).take 6
  | 2 => (commonLines.drop 87).take 164
  | 3 => (commonLines.drop 251).take 34
  | _ => commonLines.drop 285

theorem segments (ld : Bool) : (if ld then [lineText .commonHeader] else []) ++ commonLines = segment ld 0 ++ segment ld 1 ++ segment ld 2 ++ segment ld 3 ++ segment ld 4 := by
  have : commonLines = commonLines.take 81 ++ (commonLines.drop 81).take 6 ++ (commonLines.drop 87).take 164 ++ (commonLines.drop 251).take 34 ++ commonLines.drop 285 := by
    have e1 : commonLines.drop 251 = (commonLines.drop 251).take 34 ++ commonLines.drop 285 := by
      conv => lhs; rw [← List.take_append_drop 34 (commonLines.drop 251)]
      rw [List.drop_drop]
    have e2 : commonLines.drop 87 = (commonLines.drop 87).take 164 ++ commonLines.drop 251 := by
      conv => lhs; rw [← List.take_append_drop 164 (commonLines.drop 87)]
      rw [List.drop_drop]
    have e3 : commonLines.drop 81 = (commonLines.drop 81).take 6 ++ commonLines.drop 87 := by
      conv => lhs; rw [← List.take_append_drop 6 (commonLines.drop 81)]
      rw [List.drop_drop]
    conv => lhs; rw [← List.take_append_drop 81 commonLines, e3, e2, e1]
    simp only [List.append_assoc]
  conv => lhs; rw [this]
  simp only [segment, List.append_assoc]

def segLines (ld : Bool) (n : Nat) : List (List T) := (wholeLines (segment ld n)).getD []

theorem segLines_whole (ld : Bool) {n : Nat} (hn : n < 5) : wholeLines (segment ld n) = some (segLines ld n) := by
  have : (wholeLines (segment ld n)).isSome = true := by
    match n, hn with
    | 0, _ => cases ld <;> decide +kernel
    | 1, _ => cases ld <;> decide +kernel
    | 2, _ => cases ld <;> decide +kernel
    | 3, _ => cases ld <;> decide +kernel
    | 4, _ => cases ld <;> decide +kernel
  unfold segLines
  cases h : wholeLines (segment ld n) with
  | none => rw [h] at this; cases this
  | some x => rfl

/-- The names that the lines change differ from those, or are among them, with every prefix. -/
def changesApart (S : List Str) (lns : List (List T)) : Bool :=
  lns.all fun ln => (changedIn ln).all fun n => n != str% "gdo" && S.all fun x => x != str% "gdo" && (n == x || Cc.apart (Cc.form n) (Cc.form x))

theorem changesApart_spec {u l : Str} {S : List Str} {lns : List (List T)} (h : changesApart S lns = true) :
    ∀ ln ∈ lns, ∀ n ∈ changedIn ln, ∀ x ∈ S, newName u l n = newName u l x → n = x := by
  intro ln hl n hn x hx e
  have h1 := List.all_eq_true.mp (List.all_eq_true.mp h ln hl) n hn
  rw [Bool.and_eq_true] at h1
  have h2 := List.all_eq_true.mp h1.2 x hx
  rw [Bool.and_eq_true, Bool.or_eq_true] at h2
  have ha : n ≠ str% "gdo" := by simpa using h1.1
  have hb : x ≠ str% "gdo" := by simpa using h2.1
  rcases h2.2 with h3 | h3
  · simpa using h3
  · rw [Cc.newName_form u l n ha, Cc.newName_form u l x hb] at e
    exact absurd e (Cc.apart_ne h3)

theorem seg_apart (ld : Bool) : changesApart tracked (segLines ld 0) = true ∧ changesApart tracked (segLines ld 2) = true ∧ changesApart tracked (segLines ld 4) = true := by
  cases ld <;> decide +kernel

theorem seg_shape (ld : Bool) : shapeLines tracked [] (segLines ld 0) = some [] ∧ shapeLines tracked [false] (segLines ld 2) = some [] ∧
    shapeLines tracked [] (segLines ld 4) = some [] := by
  cases ld <;> decide +kernel

def emptyMacro : Macro := ⟨none, false, []⟩

/-- A macro that stands for a name. -/
def nameMacro (x : Str) : Macro := ⟨none, false, [⟨true, .ident x⟩]⟩

/-- The definitions for the way of loading. -/
def winTable (D : Str → Bool) : Table :=
  if D (str% "_WIN32") then
    if D (str% "GDO_USE_DLOPEN") then [(str% "GDO_DLFCN_WIN32", some emptyMacro)] else [(str% "GDO_WINAPI", some emptyMacro)]
  else []

def winTested : List Str := [str% "_WIN32", str% "GDO_USE_DLOPEN"]

def winTest (D : Str → Bool) (r : Option (Table × List Cc.Cond)) : Bool :=
  match r with
  | some (t, st) => t = winTable D && st.map (·.last) = [false]
  | none => false

theorem winTest_congr (D D' : Str → Bool) (r : Option (Table × List Cc.Cond)) (h : ∀ x ∈ winTested, D x = D' x) : winTest D r = winTest D' r := by
  have : winTable D = winTable D' := by
    unfold winTable
    rw [h (str% "_WIN32") (by decide), h (str% "GDO_USE_DLOPEN") (by decide)]
  unfold winTest
  rw [this]

def allNames : List Str := str% "GDO_DLFCN_WIN32" :: tracked

theorem allNames_apart : apartNames allNames = true := by decide +kernel

theorem win_check (ld : Bool) : checkLines winTested allNames (segLines ld 1) winTest = true := by
  cases ld <;> decide +kernel

/-- Which names are defined in the end. -/
def targetWide (D : Str → Bool) : Bool := (D (str% "GDO_WINAPI") && D (str% "_UNICODE")) || D (str% "_GDO_TARGET_WIDECHAR")
def hasA (D : Str → Bool) : Bool := D (str% "GDO_DEFAULT_LIBA") || D (str% "GDO_HARDCODED_DEFAULT_LIBA")
def hasW (D : Str → Bool) : Bool := D (str% "GDO_DEFAULT_LIBW") || D (str% "GDO_HARDCODED_DEFAULT_LIBW")
def hasLib (D : Str → Bool) : Bool := D (str% "GDO_DEFAULT_LIB") || (hasA D && !targetWide D) || (hasW D && targetWide D)

/-- The definitions of the default library. -/
def libTable (D : Str → Bool) : Table :=
  (if hasLib D && !hasW D && targetWide D then [(str% "GDO_DEFAULT_LIBW", some (nameMacro (str% "GDO_DEFAULT_LIB")))] else []) ++
  (if hasLib D && !hasA D && !targetWide D then [(str% "GDO_DEFAULT_LIBA", some (nameMacro (str% "GDO_DEFAULT_LIB")))] else []) ++
  (if D (str% "GDO_DEFAULT_LIB") then [] else if hasA D && !targetWide D then [(str% "GDO_DEFAULT_LIB", some (nameMacro (str% "GDO_DEFAULT_LIBA")))]
    else if hasW D && targetWide D then [(str% "GDO_DEFAULT_LIB", some (nameMacro (str% "GDO_DEFAULT_LIBW")))] else []) ++
  (if !D (str% "GDO_DEFAULT_LIBW") && D (str% "GDO_HARDCODED_DEFAULT_LIBW") then [(str% "GDO_DEFAULT_LIBW", some (nameMacro (str% "GDO_HARDCODED_DEFAULT_LIBW")))] else []) ++
  (if !D (str% "GDO_DEFAULT_LIBA") && D (str% "GDO_HARDCODED_DEFAULT_LIBA") then [(str% "GDO_DEFAULT_LIBA", some (nameMacro (str% "GDO_HARDCODED_DEFAULT_LIBA")))] else []) ++
  (if D (str% "GDO_WINAPI") && D (str% "_UNICODE") then [(str% "_GDO_TARGET_WIDECHAR", some emptyMacro)] else [])

def libTested : List Str :=
  [str% "GDO_WINAPI", str% "_UNICODE", str% "_GDO_TARGET_WIDECHAR", str% "GDO_DEFAULT_LIBA", str% "GDO_HARDCODED_DEFAULT_LIBA", str% "GDO_DEFAULT_LIBW",
   str% "GDO_HARDCODED_DEFAULT_LIBW", str% "GDO_DEFAULT_LIB"]

theorem libTable_congr {D D' : Str → Bool} (h : ∀ x ∈ libTested, D x = D' x) : libTable D = libTable D' := by
  unfold libTable hasLib hasA hasW targetWide
  rw [h (str% "GDO_WINAPI") (by decide), h (str% "_UNICODE") (by decide), h (str% "_GDO_TARGET_WIDECHAR") (by decide), h (str% "GDO_DEFAULT_LIBA") (by decide),
    h (str% "GDO_HARDCODED_DEFAULT_LIBA") (by decide), h (str% "GDO_DEFAULT_LIBW") (by decide), h (str% "GDO_HARDCODED_DEFAULT_LIBW") (by decide),
    h (str% "GDO_DEFAULT_LIB") (by decide)]

def libTest (D : Str → Bool) (r : Option (Table × List Cc.Cond)) : Bool := r = some (libTable D, [])

theorem libTest_congr (D D' : Str → Bool) (r : Option (Table × List Cc.Cond)) (h : ∀ x ∈ libTested, D x = D' x) : libTest D r = libTest D' r := by
  unfold libTest
  rw [libTable_congr h]

theorem lib_check (ld : Bool) : checkLines libTested allNames (segLines ld 3) libTest = true := by
  cases ld <;> decide +kernel

theorem isDefined_lookup {D : Str → Bool} {a b : Table} {x : Str} (h : a.lookup x = b.lookup x) : isDefined D a x = isDefined D b x := by
  unfold isDefined
  rw [h]

theorem unlines_append (xs ys : List Str) : unlines (xs ++ ys) = unlines xs ++ unlines ys := by simp [unlines]

/-- The definitions of `common.h`, as far as the names are followed. -/
theorem run_common {u l : Str} (hp : Prefixes u l) (ld : Bool) {inc : List T → Table} (hinc : ∀ r, ∀ x ∈ tracked.map (newName u l), (inc r).lookup x = none)
    (D : Str → Bool) (t : Table) (b : Str) :
    ∃ t', run inc D (t, []) (unlines (((if ld then [lineText .commonHeader] else []) ++ commonLines).map (renamedLine u l)) ++ b) = run inc D (t', []) b ∧
      ∀ x ∈ tracked.map (newName u l), t'.lookup x =
        (renTable (newName u l) (libTable (isDefined (fun w => isDefined D t (newName u l w)) (winTable fun w => isDefined D t (newName u l w))) ++
          winTable fun w => isDefined D t (newName u l w)) ++ t).lookup x := by
  have hinj := apart_inj (u := u) (l := l) allNames_apart
  have hsub : ∀ x ∈ tracked, x ∈ allNames := fun x hx => List.mem_cons_of_mem _ hx
  obtain ⟨t1, st1, a1, a2, a3⟩ := runLines_shape hinc D (changesApart_spec (u := u) (l := l) (seg_apart ld).1) (t := t) (st := []) (seg_shape ld).1
  have hst : st1 = [] := by simpa using a2
  subst hst
  have d1 : ∀ w ∈ tracked, isDefined D t1 (newName u l w) = isDefined D t (newName u l w) := by
    intro w hw
    unfold isDefined
    rw [a3 _ (List.mem_map.mpr ⟨w, hw, rfl⟩)]
  -- the way of loading
  obtain ⟨b1, b2⟩ := checkLines_spec (win_check ld) winTest_congr (fun w => isDefined D t1 (newName u l w))
  have b3 := (runLines_ren (u := u) (l := l) hinj inc (fun _ => []) (isDefined D t1) b1 (t := []) (fun _ h => nomatch h) []).1
  rw [winTest_congr _ (fun w => isDefined D t (newName u l w)) _ (fun x hx => d1 x (by revert x; decide))] at b2
  cases hr : runLines (fun _ => []) (fun w => isDefined D t1 (newName u l w)) ([], []) (segLines ld 1) with
  | none => rw [hr] at b2; cases b2
  | some r =>
  obtain ⟨tw, st2⟩ := r
  rw [hr] at b2 b3
  obtain ⟨b4, b5⟩ : tw = winTable (fun w => isDefined D t (newName u l w)) ∧ st2.map (·.last) = [false] := by
    simpa [winTest] using b2
  subst b4
  have b6 := runLines_start inc D t1 [] ((segLines ld 1).map (·.map (renT (newName u l))))
  rw [show (([], []) : Table × List Cc.Cond) = (renTable (newName u l) [], []) from rfl, b3] at b6
  simp only [Option.map_some] at b6
  -- up to the default library
  obtain ⟨t3, st3, c1, c2, c3⟩ := runLines_shape hinc D (changesApart_spec (u := u) (l := l) (seg_apart ld).2.1)
    (t := renTable (newName u l) (winTable fun w => isDefined D t (newName u l w)) ++ t1) (st := st2) (by rw [b5]; exact (seg_shape ld).2.1)
  have hst : st3 = [] := by simpa using c2
  subst hst
  have hwin : ∀ p ∈ winTable (fun w => isDefined D t (newName u l w)), p.1 ∈ allNames := by
    unfold winTable
    split
    · split <;> intro p hp <;> cases List.mem_singleton.mp hp <;> decide
    · intro p hp; cases hp
  have d3 : ∀ w ∈ tracked, isDefined D t3 (newName u l w) =
      isDefined (fun w => isDefined D t (newName u l w)) (winTable fun w => isDefined D t (newName u l w)) w := by
    intro w hw
    rw [← isDefined_ren hinj (isDefined D t) (hsub w hw) hwin, isDefined_append]
    refine isDefined_lookup ?_
    rw [c3 _ (List.mem_map.mpr ⟨w, hw, rfl⟩), List.lookup_append, List.lookup_append, a3 _ (List.mem_map.mpr ⟨w, hw, rfl⟩)]
  -- the default library
  obtain ⟨e1, e2⟩ := checkLines_spec (lib_check ld) libTest_congr (fun w => isDefined D t3 (newName u l w))
  have e3 := (runLines_ren (u := u) (l := l) hinj inc (fun _ => []) (isDefined D t3) e1 (t := []) (fun _ h => nomatch h) []).1
  rw [libTest_congr _ _ _ (fun x hx => d3 x (by revert x; decide))] at e2
  have e4 := of_decide_eq_true (show decide _ = true from e2)
  rw [e4] at e3
  have e6 := runLines_start inc D t3 [] ((segLines ld 3).map (·.map (renT (newName u l))))
  rw [show (([], []) : Table × List Cc.Cond) = (renTable (newName u l) [], []) from rfl, e3] at e6
  simp only [Option.map_some] at e6
  -- the rest
  obtain ⟨t5, st5, g1, g2, g3⟩ := runLines_shape hinc D (changesApart_spec (u := u) (l := l) (seg_apart ld).2.2)
    (t := renTable (newName u l) (libTable (isDefined (fun w => isDefined D t (newName u l w)) (winTable fun w => isDefined D t (newName u l w)))) ++ t3) (st := [])
    (seg_shape ld).2.2
  have hst : st5 = [] := by simpa using g2
  subst hst
  refine ⟨t5, ?_, ?_⟩
  · rw [segments]
    simp only [List.map_append, unlines_append, List.append_assoc]
    rw [run_template hp (segLines_whole ld (n := 0) (by decide)), a1, Option.bind_some, run_template hp (segLines_whole ld (n := 1) (by decide))]
    rw [b6, Option.bind_some, run_template hp (segLines_whole ld (n := 2) (by decide)), c1, Option.bind_some, run_template hp (segLines_whole ld (n := 3) (by decide)),
      e6, Option.bind_some, run_template hp (segLines_whole ld (n := 4) (by decide)), g1, Option.bind_some]
  · intro x hx
    rw [g3 x hx, List.lookup_append, c3 x hx, List.lookup_append, a3 x hx]
    simp only [renTable, List.map_append, List.append_assoc, List.lookup_append]

end Gdo.Cpp
