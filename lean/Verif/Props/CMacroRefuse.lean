import Verif.Lemmas.CMacroRefuse

/-!
C106: the configurations that the generated header refuses, and what is defined behind it.
-/

set_option maxRecDepth 20000

namespace Gdo.Cpp
open Gdo Rename Tmpl Builtin Gdo.Sub Opt Tpl Gen Pfx

variable {u l : Str} {E E' : Str → Option Macro} {inc : List T → Table} {D : Str → Bool}

/-! ### Specification -/

/-- Automatic loading is asked for. -/
def autoload (D : Str → Bool) (u : Str) : Bool := D (u ++ str% "_ENABLE_AUTOLOAD") || D (u ++ str% "_ENABLE_AUTOLOAD_LAZY")

/-- Names of libraries have wide characters. -/
def wideNamed (D : Str → Bool) (u : Str) : Bool :=
  D (str% "_" ++ u ++ str% "_TARGET_WIDECHAR") || (D (str% "_UNICODE") && (D (u ++ str% "_WINAPI") || (D (str% "_WIN32") && !D (u ++ str% "_USE_DLOPEN"))))

/-- There is a default library. -/
def library (D : Str → Bool) (u : Str) : Bool :=
  D (u ++ str% "_DEFAULT_LIB") ||
    if wideNamed D u then D (u ++ str% "_DEFAULT_LIBW") || D (u ++ str% "_HARDCODED_DEFAULT_LIBW")
    else D (u ++ str% "_DEFAULT_LIBA") || D (u ++ str% "_HARDCODED_DEFAULT_LIBA")

/-- The configuration is refused. -/
def refused (names : ParamNames) (D : Str → Bool) (u : Str) : Bool :=
  match names with
  | .skip => D (u ++ str% "_WRAP_FUNCTIONS") || autoload D u
  | _ => autoload D u && !library D u

/-- The names that `common.h` may define, as they are in the template. -/
def commonDefined : List Str :=
  [str% "GDO_DLFCN_WIN32", str% "GDO_WINAPI", str% "GDO_INLINE", str% "GDO_BUFLEN", str% "GDO_AIX_LOADQUERY_BUFLEN", str% "GDO_FORMAT_MESSAGE_FLAGS",
   str% "GDO_HAVE_DLADDR", str% "GDO_NEED_DLADDR_PROTO", str% "DLADDR_PROTOTYPE", str% "GDO_HAVE_DLINFO", str% "GDO_NEED_DLINFO_PROTO",
   str% "DLINFO_PROTOTYPE", str% "RTLD_DI_LINKMAP", str% "GDO_HAVE_DLMOPEN", str% "GDO_NEED_DLMOPEN_PROTO", str% "DLMOPEN_PROTOTYPE",
   str% "LM_ID_NEWLM", str% "GDO_GCC_ATTRIBUTE", str% "GDO_WRAP_DECL", str% "GDO_WRAP", str% "_GDO_PRAGMA", str% "GDO_WARNING",
   str% "_GDO_TARGET_WIDECHAR", str% "GDO_DEFAULT_LIBA", str% "GDO_DEFAULT_LIBW", str% "GDO_DEFAULT_LIB", str% "RTLD_LAZY", str% "RTLD_NOW",
   str% "RTLD_GLOBAL", str% "RTLD_LOCAL", str% "RTLD_BINDING_MASK", str% "RTLD_CONFGEN", str% "RTLD_DEEPBIND", str% "RTLD_FIRST", str% "RTLD_GROUP",
   str% "RTLD_MEMBER", str% "RTLD_MODEMASK", str% "RTLD_NOAUTODEFER", str% "RTLD_NODELETE", str% "RTLD_NOLOAD", str% "RTLD_PARENT",
   str% "RTLD_TRACE", str% "RTLD_WORLD", str% "DL_LAZY", str% "DONT_RESOLVE_DLL_REFERENCES", str% "LOAD_IGNORE_CODE_AUTHZ_LEVEL",
   str% "LOAD_LIBRARY_AS_DATAFILE", str% "LOAD_LIBRARY_AS_DATAFILE_EXCLUSIVE", str% "LOAD_LIBRARY_AS_IMAGE_RESOURCE",
   str% "LOAD_LIBRARY_SEARCH_APPLICATION_DIR", str% "LOAD_LIBRARY_SEARCH_DEFAULT_DIRS", str% "LOAD_LIBRARY_SEARCH_DLL_LOAD_DIR",
   str% "LOAD_LIBRARY_SEARCH_SYSTEM32", str% "LOAD_LIBRARY_SEARCH_USER_DIRS", str% "LOAD_WITH_ALTERED_SEARCH_PATH",
   str% "LOAD_LIBRARY_REQUIRE_SIGNED_TARGET", str% "LOAD_LIBRARY_SAFE_CURRENT_DIRS", str% "GDO_DEFAULT_FLAGS", str% "GDO_ENABLE_AUTOLOAD"]

/-! ### The text -/

/-- The last lines of `common.h`. -/
def tailLines : ParamNames → List Str
  | .skip =>
    [str% "#if defined(GDO_WRAP_FUNCTIONS) || defined(GDO_ENABLE_AUTOLOAD)",
     str% "# error Auto-loading and wrapped functions cannot be used because \"-param=skip\" was set",
     str% "#endif", str% ""]
  | _ =>
    [str% "#if defined(GDO_ENABLE_AUTOLOAD) && !defined(GDO_DEFAULT_LIB)",
     str% "# error Auto-loading functions require \"GDO_DEFAULT_LIB\" to be set",
     str% "#endif", str% ""]

theorem tail_text (hp : Prefixes u l) (names : ParamNames) (protos objs : List Proto) :
    instantiate u l names protos objs commonTail = (tailLines names).map (renamedLine u l) := by
  have e : shown names none ((blocks commonTail).map joinLines) = tailLines names := by cases names <;> decide +kernel
  unfold instantiate
  rw [e]
  exact written_lines hp protos objs (by cases names <;> decide +kernel)

/-- The first line. -/
def tailFirst (names : ParamNames) : Str := (tailLines names).headD []
def tailMessage (names : ParamNames) : Str := (tailLines names).tail.headD []

theorem tail_split (names : ParamNames) : tailLines names = [tailFirst names] ++ ([tailMessage names] ++ [str% "#endif", str% ""]) := by
  cases names <;> rfl

/-- Its condition. -/
def tailCond (names : ParamNames) : List T := ((wl [tailFirst names]).headD []).drop 2

theorem tail_block (names : ParamNames) : (wholeLines [tailFirst names]).isSome = true ∧
    wl [tailFirst names] = [⟨true, .punct (str% "#")⟩ :: ⟨false, .ident (str% "if")⟩ :: tailCond names] ∧
    plainCond (tailCond names) = true ∧ (asked (tailCond names)).all condTok = true := by
  have h : decide ((wholeLines [tailFirst names]).isSome = true ∧
    wl [tailFirst names] = [⟨true, .punct (str% "#")⟩ :: ⟨false, .ident (str% "if")⟩ :: tailCond names] ∧
    plainCond (tailCond names) = true ∧ (asked (tailCond names)).all condTok = true) = true := by cases names <;> decide +kernel
  exact of_decide_eq_true h

theorem tail_tokens (names : ParamNames) : (asked (tailCond names)).map (fun t => toTok t.tok) =
    match names with
    | .skip => [.word (str% "defined"), .punct (str% "("), .word (str% "GDO_WRAP_FUNCTIONS"), .punct (str% ")"), .punct (str% "||"),
        .word (str% "defined"), .punct (str% "("), .word (str% "GDO_ENABLE_AUTOLOAD"), .punct (str% ")")]
    | _ => [.word (str% "defined"), .punct (str% "("), .word (str% "GDO_ENABLE_AUTOLOAD"), .punct (str% ")"), .punct (str% "&&"), .punct (str% "!"),
        .word (str% "defined"), .punct (str% "("), .word (str% "GDO_DEFAULT_LIB"), .punct (str% ")")] := by
  cases names <;> decide +kernel

def tailRefused (names : ParamNames) (wrap auto lib : Bool) : Bool :=
  match names with
  | .skip => wrap || auto
  | _ => auto && !lib

theorem tail_condition (names : ParamNames) (D : Str → Bool) : Cc.condition D ((asked (tailCond names)).map fun t => toTok t.tok) =
    some (tailRefused names (D (str% "GDO_WRAP_FUNCTIONS")) (D (str% "GDO_ENABLE_AUTOLOAD")) (D (str% "GDO_DEFAULT_LIB"))) := by
  rw [tail_tokens]
  cases names <;> rfl

theorem message_whole (hp : Prefixes u l) (names : ParamNames) :
    ∃ e : List T, Whole (unlines ([tailMessage names].map (renamedLine u l))) (⟨true, .punct (str% "#")⟩ :: ⟨true, .ident (str% "error")⟩ :: e) ∧ ∀ t ∈ e, t.tok ≠ .nl := by
  have e : unlines ([tailMessage names].map (renamedLine u l)) = renamedLine u l (tailMessage names) ++ ['\n'] := by simp [unlines]
  rw [e]
  have fix : ∀ w ∈ [str% "error", str% "Auto", str% "loading", str% "functions", str% "require", str% "to", str% "be", str% "set", str% "and", str% "wrapped", str% "cannot", str% "used",
      str% "because", str% "param", str% "skip", str% "was"], newName u l w = w := fun w hw => newName_fixed (by revert w; decide)
  have key : ∀ d : Str, pieces (renamedLine u l d ++ ['\n']) = mapWords (newName u l) (pieces d) ++ [.other '\n'] := fun d => by
    rw [pieces_sep _ (by decide), pieces_renamedLine hp]
    rfl
  have read : ∃ e : List T, Whole (renamedLine u l (tailMessage .read) ++ ['\n']) (⟨true, .punct (str% "#")⟩ :: ⟨true, .ident (str% "error")⟩ :: e) ∧ ∀ t ∈ e, t.tok ≠ .nl := by
    refine ⟨[⟨true, .ident (str% "Auto")⟩, ⟨false, .punct (str% "-")⟩, ⟨false, .ident (str% "loading")⟩, ⟨true, .ident (str% "functions")⟩, ⟨true, .ident (str% "require")⟩,
      ⟨true, .str [] (newName u l (str% "GDO_DEFAULT_LIB"))⟩, ⟨true, .ident (str% "to")⟩, ⟨true, .ident (str% "be")⟩, ⟨true, .ident (str% "set")⟩], ⟨?_, _, rfl⟩, by simp⟩
    rw [key, show pieces (tailMessage .read) = [.other '#', .other ' ', .word (str% "error"), .other ' ', .word (str% "Auto"), .other '-', .word (str% "loading"), .other ' ',
      .word (str% "functions"), .other ' ', .word (str% "require"), .other ' ', .other '"', .word (str% "GDO_DEFAULT_LIB"), .other '"', .other ' ', .word (str% "to"), .other ' ',
      .word (str% "be"), .other ' ', .word (str% "set")] from by decide +kernel]
    simp only [mapWords, List.map_cons, List.map_nil, fix _ (by simp : str% "error" ∈ _), fix _ (by simp : str% "Auto" ∈ _), fix _ (by simp : str% "loading" ∈ _), fix _ (by simp : str% "functions" ∈ _),
      fix _ (by simp : str% "require" ∈ _), fix _ (by simp : str% "to" ∈ _), fix _ (by simp : str% "be" ∈ _), fix _ (by simp : str% "set" ∈ _)]
    rfl
  cases names with
  | read => exact read
  | create => exact read
  | skip =>
    refine ⟨[⟨true, .ident (str% "Auto")⟩, ⟨false, .punct (str% "-")⟩, ⟨false, .ident (str% "loading")⟩, ⟨true, .ident (str% "and")⟩, ⟨true, .ident (str% "wrapped")⟩,
      ⟨true, .ident (str% "functions")⟩, ⟨true, .ident (str% "cannot")⟩, ⟨true, .ident (str% "be")⟩, ⟨true, .ident (str% "used")⟩, ⟨true, .ident (str% "because")⟩,
      ⟨true, .str [] (str% "-param=skip")⟩, ⟨true, .ident (str% "was")⟩, ⟨true, .ident (str% "set")⟩], ⟨?_, _, rfl⟩, by simp⟩
    rw [key, show pieces (tailMessage .skip) = [.other '#', .other ' ', .word (str% "error"), .other ' ', .word (str% "Auto"), .other '-', .word (str% "loading"), .other ' ',
      .word (str% "and"), .other ' ', .word (str% "wrapped"), .other ' ', .word (str% "functions"), .other ' ', .word (str% "cannot"), .other ' ', .word (str% "be"), .other ' ',
      .word (str% "used"), .other ' ', .word (str% "because"), .other ' ', .other '"', .other '-', .word (str% "param"), .other '=', .word (str% "skip"), .other '"', .other ' ', .word (str% "was"), .other ' ', .word (str% "set")] from by decide +kernel]
    simp only [mapWords, List.map_cons, List.map_nil, fix _ (by simp : str% "error" ∈ _), fix _ (by simp : str% "Auto" ∈ _), fix _ (by simp : str% "loading" ∈ _), fix _ (by simp : str% "functions" ∈ _),
      fix _ (by simp : str% "and" ∈ _), fix _ (by simp : str% "wrapped" ∈ _), fix _ (by simp : str% "be" ∈ _), fix _ (by simp : str% "set" ∈ _), fix _ (by simp : str% "cannot" ∈ _),
      fix _ (by simp : str% "used" ∈ _), fix _ (by simp : str% "because" ∈ _), fix _ (by simp : str% "param" ∈ _), fix _ (by simp : str% "skip" ∈ _), fix _ (by simp : str% "was" ∈ _)]
    rfl

/-- The lines at the end of `common.h`, inside of other conditionals as well. -/
theorem run_tail (hp : Prefixes u l) (names : ParamNames) (protos objs : List Proto) {t : Table} {st : List Cc.Cond} (hs : Cc.active st = true) (b : Str) :
    run inc D (t, st) (unlines (instantiate u l names protos objs commonTail) ++ b) =
      if tailRefused names (isDefined D t (u ++ str% "_WRAP_FUNCTIONS")) (isDefined D t (u ++ str% "_ENABLE_AUTOLOAD")) (isDefined D t (u ++ str% "_DEFAULT_LIB")) then none
      else run inc D (t, st) b := by
  obtain ⟨h1, h2, h3, h4⟩ := tail_block names
  obtain ⟨e, h5, h6⟩ := message_whole hp names
  have h7 : (wholeLines [str% "#endif", str% ""]).isSome = true := by decide +kernel
  have h8 : wl [str% "#endif", str% ""] = [[⟨true, .punct (str% "#")⟩, ⟨false, .ident (str% "endif")⟩], []] := by decide +kernel
  have e1 : newName u l (str% "GDO_WRAP_FUNCTIONS") = u ++ str% "_WRAP_FUNCTIONS" := newName_upper u l (str% "WRAP_FUNCTIONS")
  have e2 : newName u l (str% "GDO_ENABLE_AUTOLOAD") = u ++ str% "_ENABLE_AUTOLOAD" := newName_upper u l (str% "ENABLE_AUTOLOAD")
  have e3 : newName u l (str% "GDO_DEFAULT_LIB") = u ++ str% "_DEFAULT_LIB" := newName_upper u l (str% "DEFAULT_LIB")
  have k3 : newName u l (str% "endif") = str% "endif" := newName_fixed (by decide)
  have hend : ∀ (c : Cc.Cond), run inc D (t, c :: st) (unlines ([str% "#endif", str% ""].map (renamedLine u l)) ++ b) = run inc D (t, st) b := fun c => by
    rw [run_template hp (wl_whole h7), h8]
    simp only [List.map_cons, List.map_nil, renT, renTok, k3]
    rfl
  rw [tail_text hp, tail_split]
  simp only [List.map_append, unlines_append, List.append_assoc]
  rw [run_template hp (wl_whole h1), h2, List.map_singleton]
  simp only [runLines]
  rw [runLine_if h3 h4 hs, tail_condition]
  simp only [e1, e2, e3, Option.map_some, Option.bind_some]
  rw [run_whole h5, splitLines_one (by
    intro t ht
    rcases List.mem_cons.mp ht with rfl | ht
    · simp
    · rcases List.mem_cons.mp ht with rfl | ht
      · simp
      · exact h6 t ht)]
  simp only [runLines]
  rw [runLine_error hs]
  generalize tailRefused names _ _ _ = bb
  cases bb with
  | true => rfl
  | false => exact hend _

/-! ### The default library -/

theorem default_given (D : Str → Bool) (u l : Str) (E : Str → Option Macro) (hD : ∀ w, D w = (E (newName u l w)).isSome) :
    (match (defaultTable D).lookup (str% "GDO_DEFAULT_LIB") with
      | some m => m.map (renMacro (newName u l))
      | none => E (newName u l (str% "GDO_DEFAULT_LIB"))).isSome = library (fun x => (E x).isSome) u := by
  have piece : ∀ (b : Bool) (n : Str) (m : Option Macro), n ≠ str% "GDO_DEFAULT_LIB" → (if b then [(n, m)] else []).lookup (str% "GDO_DEFAULT_LIB") = none := by
    intro b n m h
    cases b
    · rfl
    · simp [List.lookup, beq_eq_false_iff_ne.mpr h.symm]
  have hw : (winTable D).lookup (str% "GDO_DEFAULT_LIB") = none := lookup_absent (winTable_names _) (by decide)
  have lib : (defaultTable D).lookup (str% "GDO_DEFAULT_LIB") =
      (if isDefined D (winTable D) (str% "GDO_DEFAULT_LIB") then [] else if hasA (isDefined D (winTable D)) && !targetWide (isDefined D (winTable D)) then
        [(str% "GDO_DEFAULT_LIB", some (nameMacro (str% "GDO_DEFAULT_LIBA")))]
        else if hasW (isDefined D (winTable D)) && targetWide (isDefined D (winTable D)) then [(str% "GDO_DEFAULT_LIB", some (nameMacro (str% "GDO_DEFAULT_LIBW")))] else []).lookup (str% "GDO_DEFAULT_LIB") := by
    unfold defaultTable libTable
    simp only [List.lookup_append, hw]
    rw [piece _ _ _ (by decide), piece _ _ _ (by decide), piece _ _ _ (by decide), piece _ _ _ (by decide), piece _ _ _ (by decide)]
    simp
  have other : ∀ x, x ≠ str% "GDO_WINAPI" → x ≠ str% "GDO_DLFCN_WIN32" → isDefined D (winTable D) x = D x := by
    intro x h1 h2
    unfold isDefined
    rw [lookup_absent (winTable_names _) (x := x) (by simp [h1, h2])]
  have win : isDefined D (winTable D) (str% "GDO_WINAPI") = (D (str% "GDO_WINAPI") || (D (str% "_WIN32") && !D (str% "GDO_USE_DLOPEN"))) := by
    unfold isDefined winTable
    cases D (str% "_WIN32") <;> cases D (str% "GDO_USE_DLOPEN") <;> simp [List.lookup, emptyMacro]
  have fix1 : newName u l (str% "_WIN32") = str% "_WIN32" := newName_fixed (by decide)
  have fix2 : newName u l (str% "_UNICODE") = str% "_UNICODE" := newName_fixed (by decide)
  have n1 : newName u l (str% "GDO_DEFAULT_LIB") = u ++ str% "_DEFAULT_LIB" := newName_upper u l (str% "DEFAULT_LIB")
  have n2 : newName u l (str% "GDO_DEFAULT_LIBA") = u ++ str% "_DEFAULT_LIBA" := newName_upper u l (str% "DEFAULT_LIBA")
  have n3 : newName u l (str% "GDO_DEFAULT_LIBW") = u ++ str% "_DEFAULT_LIBW" := newName_upper u l (str% "DEFAULT_LIBW")
  have n4 : newName u l (str% "GDO_HARDCODED_DEFAULT_LIBA") = u ++ str% "_HARDCODED_DEFAULT_LIBA" := newName_upper u l (str% "HARDCODED_DEFAULT_LIBA")
  have n5 : newName u l (str% "GDO_HARDCODED_DEFAULT_LIBW") = u ++ str% "_HARDCODED_DEFAULT_LIBW" := newName_upper u l (str% "HARDCODED_DEFAULT_LIBW")
  have n6 : newName u l (str% "GDO_WINAPI") = u ++ str% "_WINAPI" := newName_upper u l (str% "WINAPI")
  have n7 : newName u l (str% "GDO_USE_DLOPEN") = u ++ str% "_USE_DLOPEN" := newName_upper u l (str% "USE_DLOPEN")
  have n8 : newName u l (str% "_GDO_TARGET_WIDECHAR") = str% "_" ++ u ++ str% "_TARGET_WIDECHAR" := newName_under u l (str% "TARGET_WIDECHAR")
  rw [lib]
  unfold hasA hasW targetWide library wideNamed
  rw [win, other _ (by decide) (by decide), other _ (by decide) (by decide), other _ (by decide) (by decide), other _ (by decide) (by decide), other _ (by decide) (by decide),
    other _ (by decide) (by decide), other _ (by decide) (by decide)]
  simp only [hD, fix1, fix2, n1, n2, n3, n4, n5, n6, n7, n8]
  cases h1 : (E (u ++ str% "_DEFAULT_LIB")).isSome with
  | true => simp [h1]
  | false =>
    generalize (E (str% "_" ++ u ++ str% "_TARGET_WIDECHAR")).isSome = b1
    generalize (E (str% "_UNICODE")).isSome = b2
    generalize (E (u ++ str% "_WINAPI")).isSome = b3
    generalize (E (str% "_WIN32")).isSome = b4
    generalize (E (u ++ str% "_USE_DLOPEN")).isSome = b5
    generalize (E (u ++ str% "_DEFAULT_LIBW")).isSome = b6
    generalize (E (u ++ str% "_HARDCODED_DEFAULT_LIBW")).isSome = b7
    generalize (E (u ++ str% "_DEFAULT_LIBA")).isSome = b8
    generalize (E (u ++ str% "_HARDCODED_DEFAULT_LIBA")).isSome = b9
    have hw : ((b2 && (b3 || b4 && !b5)) || b1) = (b1 || (b2 && (b3 || b4 && !b5))) := Bool.or_comm ..
    have hw' : ((b3 || b4 && !b5) && b2 || b1) = (b1 || (b2 && (b3 || b4 && !b5))) := by rw [Bool.and_comm, Bool.or_comm]
    rw [hw']
    generalize (b1 || (b2 && (b3 || b4 && !b5))) = w
    generalize (b6 || b7) = p
    generalize (b8 || b9) = q
    cases w <;> cases p <;> cases q <;> simp [h1, nameMacro]

/-! ### `common.h` -/

/-- The lines up to the checks. -/
def commonAll (ld : Bool) : List Str := lineEntry ld .commonHeader ++ commonLines

theorem commonAll_ok (ld : Bool) : (wholeLines (commonAll ld)).isSome = true ∧ plainText (commonAll ld) = true ∧ (wl (commonAll ld)).all fixedDirective = true ∧
    (wl (commonAll ld)).all (fun ln => (definedIn ln).all (commonDefined.contains ·)) = true := by
  have h : ((wholeLines (commonAll ld)).isSome && plainText (commonAll ld) && (wl (commonAll ld)).all fixedDirective &&
    (wl (commonAll ld)).all (fun ln => (definedIn ln).all (commonDefined.contains ·))) = true := by cases ld <;> decide +kernel
  simp only [Bool.and_eq_true] at h
  exact ⟨h.1.1.1, h.1.1.2, h.1.2, h.2⟩

theorem commonPart_all (s : Settings) (hp : PrefixOk s.pfx) : commonPart s = unlines ((commonAll s.lineDirective).map (renamedLine (toUpper s.pfx) (toLower s.pfx))) :=
  commonPart_ren s hp

/-- The names for automatic loading. -/
def autoNames : List Str := [str% "GDO_ENABLE_AUTOLOAD", str% "GDO_ENABLE_AUTOLOAD_LAZY"]

def autoMacros (D : Str → Bool) : List Str :=
  if D (str% "GDO_ENABLE_AUTOLOAD_LAZY") && !D (str% "GDO_ENABLE_AUTOLOAD") then [str% "GDO_ENABLE_AUTOLOAD"] else []

theorem auto_split (ld : Bool) : commonAll ld = (commonAll ld).take (399 + ld.toNat) ++ (((commonAll ld).drop (399 + ld.toNat)).take 3 ++ (commonAll ld).drop (402 + ld.toNat)) := by
  conv => lhs; rw [← List.take_append_drop (399 + ld.toNat) (commonAll ld), ← List.take_append_drop 3 ((commonAll ld).drop (399 + ld.toNat))]
  rw [List.drop_drop, show 399 + ld.toNat + 3 = 402 + ld.toNat by omega]

theorem auto_ok (ld : Bool) : restOk ((commonAll ld).take (399 + ld.toNat)) autoNames = true ∧
    segOk (((commonAll ld).drop (399 + ld.toNat)).take 3) autoNames autoNames autoMacros = true ∧ restOk ((commonAll ld).drop (402 + ld.toNat)) autoNames = true := by
  have h : (restOk ((commonAll ld).take (399 + ld.toNat)) autoNames && segOk (((commonAll ld).drop (399 + ld.toNat)).take 3) autoNames autoNames autoMacros &&
    restOk ((commonAll ld).drop (402 + ld.toNat)) autoNames) = true := by cases ld <;> decide +kernel
  simp only [Bool.and_eq_true] at h
  exact ⟨h.1.1, h.1.2, h.2⟩

/-- What the headers that are included must leave alone. -/
def checkedNames (u : Str) : List Str := watched u ++ [u ++ str% "_ENABLE_AUTOLOAD", u ++ str% "_ENABLE_AUTOLOAD_LAZY", u ++ str% "_WRAP_FUNCTIONS"]

theorem autoNames_names (u l : Str) : autoNames.map (newName u l) = [u ++ str% "_ENABLE_AUTOLOAD", u ++ str% "_ENABLE_AUTOLOAD_LAZY"] := by
  unfold autoNames
  rw [List.map_cons, List.map_cons, List.map_nil, show newName u l (str% "GDO_ENABLE_AUTOLOAD") = _ from newName_upper u l (str% "ENABLE_AUTOLOAD"),
    show newName u l (str% "GDO_ENABLE_AUTOLOAD_LAZY") = _ from newName_upper u l (str% "ENABLE_AUTOLOAD_LAZY")]
  rfl

theorem auto_behind (s : Settings) (hp : PrefixOk s.pfx) (hinc : ∀ r, ∀ x ∈ checkedNames (toUpper s.pfx), (inc r).lookup x = none) :
    ∃ E', after inc E (commonPart s) = some E' ∧ (E' (toUpper s.pfx ++ str% "_ENABLE_AUTOLOAD")).isSome = autoload (fun x => (E x).isSome) (toUpper s.pfx) := by
  have hq := prefixes_of hp
  have hh : ∀ r, ∀ x ∈ autoNames.map (newName (toUpper s.pfx) (toLower s.pfx)), (inc r).lookup x = none := by
    intro r x hx
    rw [autoNames_names] at hx
    refine hinc r x (List.mem_append_right _ ?_)
    simp only [List.mem_cons, List.not_mem_nil, or_false] at hx ⊢
    rcases hx with h | h <;> simp [h]
  obtain ⟨a1, a2, a3⟩ := auto_ok s.lineDirective
  have e : commonPart s = entriesText (toUpper s.pfx) (toLower s.pfx) [] [] (commonAll s.lineDirective) := by
    rw [commonPart_all s hp]
    unfold entriesText
    rw [written_lines hq [] [] (commonAll_ok s.lineDirective).2.1]
  rw [e, auto_split, entries_append, entries_append]
  generalize hu : toUpper s.pfx = u at *
  generalize hl : toLower s.pfx = l at *
  obtain ⟨E1, h1, e1⟩ := after_lead (E := E) (b := entriesText u l [] [] (((commonAll s.lineDirective).drop (399 + s.lineDirective.toNat)).take 3) ++
    entriesText u l [] [] ((commonAll s.lineDirective).drop (402 + s.lineDirective.toNat))) (rest_harmless (inc := inc) hq a1 [] [] hh)
  obtain ⟨E2, e2, g2, k2⟩ := after_seg hq a2 (fun D D' hD => by unfold autoMacros; rw [hD _ (by simp [autoNames]), hD _ (by simp [autoNames])]) [] [] inc E1
    (entriesText u l [] [] ((commonAll s.lineDirective).drop (402 + s.lineDirective.toNat)))
  obtain ⟨E3, h3, e3⟩ := after_lead (E := E2) (b := []) (rest_harmless (inc := inc) hq a3 [] [] hh)
  rw [List.append_nil, after_nil] at e3
  refine ⟨E3, e1.trans (e2.trans e3), ?_⟩
  rw [autoNames_names] at h1 h3
  have n1 : newName u l (str% "GDO_ENABLE_AUTOLOAD") = u ++ str% "_ENABLE_AUTOLOAD" := newName_upper u l (str% "ENABLE_AUTOLOAD")
  have n2 : newName u l (str% "GDO_ENABLE_AUTOLOAD_LAZY") = u ++ str% "_ENABLE_AUTOLOAD_LAZY" := newName_upper u l (str% "ENABLE_AUTOLOAD_LAZY")
  rw [h3 _ (by simp)]
  have f1 := h1 (u ++ str% "_ENABLE_AUTOLOAD") (by simp)
  have f2 := h1 (u ++ str% "_ENABLE_AUTOLOAD_LAZY") (by simp)
  unfold autoMacros at g2 k2
  simp only [n1, n2, f1, f2] at g2 k2
  unfold autoload
  cases c1 : (E (u ++ str% "_ENABLE_AUTOLOAD_LAZY")).isSome <;> cases c2 : (E (u ++ str% "_ENABLE_AUTOLOAD")).isSome <;> rw [c1, c2] at g2 k2
  · rw [k2 _ (fun _ h => nomatch h), f1]
    simp [c1, c2]
  · rw [k2 _ (fun _ h => nomatch h), f1]
    simp [c1, c2]
  · obtain ⟨n, m, hm, hE⟩ := g2 _ (List.mem_singleton.mpr rfl)
    have hn : n = str% "GDO_ENABLE_AUTOLOAD" := by
      have : macroOf (str% "GDO_ENABLE_AUTOLOAD") = some (str% "GDO_ENABLE_AUTOLOAD", ⟨none, false, []⟩) := by rfl
      rw [this] at hm
      cases hm
      rfl
    rw [hn, n1] at hE
    rw [hE]
    simp [c1]
  · rw [k2 _ (fun _ h => nomatch h), f1]
    simp [c1, c2]

/-- What is defined behind `common.h` without its checks. -/
theorem common_behind (s : Settings) (hp : PrefixOk s.pfx) (hinc : ∀ r, ∀ x ∈ checkedNames (toUpper s.pfx), (inc r).lookup x = none) (E : Str → Option Macro) :
    ∃ x t, Whole (commonPart s) x ∧ runLines inc (fun x => (E x).isSome) ([], []) (splitLines x) = some (t, []) ∧
      (known E t (toUpper s.pfx ++ str% "_ENABLE_AUTOLOAD")).isSome = autoload (fun x => (E x).isSome) (toUpper s.pfx) ∧
      (known E t (toUpper s.pfx ++ str% "_DEFAULT_LIB")).isSome = library (fun x => (E x).isSome) (toUpper s.pfx) ∧
      ∀ y, y ∉ commonDefined.map (newName (toUpper s.pfx) (toLower s.pfx)) → (∀ r, (inc r).lookup y = none) → known E t y = E y := by
  have hq := prefixes_of hp
  obtain ⟨c1, c2, c3, c4⟩ := commonAll_ok s.lineDirective
  obtain ⟨x, hx, hs⟩ := whole_template hq (wl_whole c1)
  rw [← commonPart_all s hp] at hx
  obtain ⟨t, h1, h2⟩ := run_commonPart s hp (fun r x hx => hinc r x (List.mem_append_left _ hx)) E []
  obtain ⟨E', h3, h4⟩ := auto_behind (E := E) s hp hinc
  have h5 := after_run h1
  rw [h3] at h5
  cases h5
  have h6 : runLines inc (fun x => (E x).isSome) ([], []) (splitLines x) = some (t, []) := by
    have := run_whole hx inc (fun x => (E x).isSome) ([], []) []
    rw [List.append_nil, h1] at this
    generalize runLines inc (fun x => (E x).isSome) ([], []) (splitLines x) = y at this
    cases y with
    | none => cases this
    | some y => exact this.symm
  refine ⟨x, t, hx, h6, h4, ?_, fun y hy hi => ?_⟩
  · have h7 := known_common (toUpper s.pfx) (toLower s.pfx) E h2 (x := str% "GDO_DEFAULT_LIB") (by decide)
    have h8 := default_given (fun w => (E (newName (toUpper s.pfx) (toLower s.pfx) w)).isSome) (toUpper s.pfx) (toLower s.pfx) E (fun _ => rfl)
    rw [show known E [] = E from rfl] at h7
    have n : newName (toUpper s.pfx) (toLower s.pfx) (str% "GDO_DEFAULT_LIB") = toUpper s.pfx ++ str% "_DEFAULT_LIB" := newName_upper _ _ (str% "DEFAULT_LIB")
    exact (congrArg Option.isSome ((congrArg (known E t) n).symm.trans h7)).trans h8
  · have h9 := runLines_keeps hi (lns := splitLines x) (fun ln hl hm => by
      rw [hs] at hl
      obtain ⟨ln', hl', rfl⟩ := List.mem_map.mp hl
      obtain ⟨n, hn, rfl⟩ := definedIn_ren (List.all_eq_true.mp c3 ln' hl') y hm
      have := List.all_eq_true.mp (List.all_eq_true.mp c4 ln' hl') n hn
      exact hy (List.mem_map.mpr ⟨n, by simpa using this, rfl⟩)) h6
    unfold known
    rw [h9]
    rfl

theorem refused_eq (names : ParamNames) (D : Str → Bool) (u : Str) : refused names D u = tailRefused names (D (u ++ str% "_WRAP_FUNCTIONS")) (autoload D u) (library D u) := by
  cases names <;> rfl

theorem under_word {u a b : Str} (h : '_' :: (u ++ ('_' :: a)) = u ++ ('_' :: b)) : b = '_' :: a := by
  have := under_rotate h
  simpa using this.symm

/-- Only `common.h` and a header may change whether functions are wrapped; `common.h` does not. -/
theorem wrap_free (u l : Str) : u ++ str% "_WRAP_FUNCTIONS" ∉ commonDefined.map (newName u l) := by
  intro h
  obtain ⟨n, hn, e⟩ := List.mem_map.mp h
  by_cases hu : str% "GDO_" <+: n
  · obtain ⟨x, rfl⟩ := hu
    rw [newName_upper] at e
    have : x = str% "WRAP_FUNCTIONS" := prefixed_inj (u := u) e
    subst this
    revert hn
    decide
  · by_cases hv : str% "_GDO_" <+: n
    · obtain ⟨x, rfl⟩ := hv
      rw [newName_under] at e
      have := under_word (a := x) (b := str% "WRAP_FUNCTIONS") (by simpa using e)
      cases this
    · have fix : ∀ n ∈ commonDefined, ¬ str% "GDO_" <+: n → ¬ str% "_GDO_" <+: n → fixedWord n = true ∧ ¬ str% "_WRAP_FUNCTIONS" <:+ n := by decide +kernel
      obtain ⟨f1, f2⟩ := fix n hn hu hv
      rw [newName_fixed f1] at e
      exact f2 ⟨u, e.symm⟩

/-! ### C106 -/

/-- A configuration that is refused: the rest of the text does not matter. -/
theorem C106_refused (s : Settings) (hp : PrefixOk s.pfx) (hinc : ∀ r, ∀ x ∈ checkedNames (toUpper s.pfx), (inc r).lookup x = none) (protos objs : List Proto)
    (h : refused s.names (fun x => (E x).isSome) (toUpper s.pfx) = true) (b : Str) : after inc E (templateText s protos objs .commonHeader ++ b) = none := by
  obtain ⟨x, t, h1, h2, h3, h4, h5⟩ := common_behind s hp hinc E
  have hw := h5 _ (wrap_free _ _) fun r => hinc r _ (List.mem_append_right _ (by simp))
  unfold templateText
  rw [C100_part s hp, List.append_assoc]
  unfold after
  rw [definitions_run, run_whole h1, h2, Option.bind_some, run_tail (prefixes_of hp) s.names protos objs rfl]
  simp only [isDefined_isSome]
  rw [hw, h3, h4, ← refused_eq s.names (fun x => (E x).isSome), h]
  rfl

/-- Any other configuration is accepted, and only the names of `common.h` are changed. -/
theorem C106_accepted (s : Settings) (hp : PrefixOk s.pfx) (hinc : ∀ r, ∀ x ∈ checkedNames (toUpper s.pfx), (inc r).lookup x = none) (protos objs : List Proto)
    (h : refused s.names (fun x => (E x).isSome) (toUpper s.pfx) = false) :
    ∃ E', (∀ b, after inc E (templateText s protos objs .commonHeader ++ b) = after inc E' b) ∧
      (E' (toUpper s.pfx ++ str% "_ENABLE_AUTOLOAD")).isSome = autoload (fun x => (E x).isSome) (toUpper s.pfx) ∧
      (E' (toUpper s.pfx ++ str% "_DEFAULT_LIB")).isSome = library (fun x => (E x).isSome) (toUpper s.pfx) ∧
      ∀ y, y ∉ commonDefined.map (newName (toUpper s.pfx) (toLower s.pfx)) → (∀ r, (inc r).lookup y = none) → E' y = E y := by
  obtain ⟨x, t, h1, h2, h3, h4, h5⟩ := common_behind s hp hinc E
  have hw := h5 _ (wrap_free _ _) fun r => hinc r _ (List.mem_append_right _ (by simp))
  refine ⟨known E t, fun b => ?_, h3, h4, h5⟩
  refine after_table ?_
  unfold templateText
  rw [C100_part s hp, List.append_assoc, run_whole h1, h2, Option.bind_some, run_tail (prefixes_of hp) s.names protos objs rfl]
  simp only [isDefined_isSome]
  rw [hw, h3, h4, ← refused_eq s.names (fun x => (E x).isSome), h]
  rfl

end Gdo.Cpp
