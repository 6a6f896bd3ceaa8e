import Verif.Model.Options
import Verif.Model.Substitute
import Verif.Model.CommonPrefix
import Verif.Model.Tokenize

/-!
Model of `src/generate.cpp`, of the template store in `src/data.cpp` and of
`process_custom_template` (gendlopen.cpp 178-213).

The state is the file system, standard output and the template store; a failed run
has a final state, too.

Simplifications:

* The path of an output file stands for a directory entry; which one does not change
  during a run.  Other processes do not interfere.
* Reading template files does not depend on the files written.
* Writing to an open file does not fail.
* If an error occurs while a template is processed, the part of the template that was
  written before it is left out.
-/

namespace Gdo.Gen
open Gdo Tpl Opt

/-! ### Texts -/

/-- `utils::front_and_back` (utils.hpp) with strings. -/
def frontAndBack (s a b : Str) : Bool := a.isPrefixOf s && b.isSuffixOf s

/-- `quote_lib` (generate.cpp 118-138). -/
def quoteLib (lib : Str) (wide : Bool) : Str :=
  if wide then
    if lib.length ≥ 3 ∧ frontAndBack lib (str% "L\"") (str% "\"") then lib
    else if lib.length ≥ 2 ∧ frontAndBack lib (str% "\"") (str% "\"") then str% "L" ++ lib
    else str% "L\"" ++ lib ++ str% "\""
  else if lib.length ≥ 2 ∧ frontAndBack lib (str% "\"") (str% "\"") then lib
  else str% "\"" ++ lib ++ str% "\""

/-- The regular expression `(.*?):(.*)` on the whole text (generate.cpp 179-183): the
    groups.  A dot does not match line ends. -/
def splitColon (s : Str) : Option (Str × Str) :=
  if s.any fun c => c = '\n' || c = '\r' then none else splitFirst (str% ":") s

/-- The choice of the texts in `format_libname` (generate.cpp 154-197).  `none`: the
    function returns an empty string.  The string is not empty. -/
def libTexts (s pfx : Str) : Option (Str × Str) :=
  let c := s.headD '\x00'
  if c = 'N' ∨ c = 'n' then
    if prefixedAndLongerCase s (str% "nq:") then some (s.drop 3, s.drop 3) else none
  else if c = 'E' ∨ c = 'e' then
    if prefixedAndLongerCase s (str% "ext:") then
      some (quoteLib (s.drop 4) false ++ str% " " ++ pfx ++ str% "_LIBEXTA",
            quoteLib (s.drop 4) true ++ str% " " ++ pfx ++ str% "_LIBEXTW")
    else none
  else if c = 'A' ∨ c = 'a' then
    if prefixedAndLongerCase s (str% "api:") then
      (splitColon (s.drop 4)).map fun m =>
        (pfx ++ str% "_LIBNAMEA(" ++ m.2 ++ str% "," ++ m.1 ++ str% ")",
         pfx ++ str% "_LIBNAMEW(" ++ m.2 ++ str% "," ++ m.1 ++ str% ")")
    else none
  else some (quoteLib s false, quoteLib s true)

/-- `format_libname` (generate.cpp 150-204). -/
def formatLibname (s pfx : Str) : Str :=
  match libTexts s pfx with
  | none => []
  | some (a, w) =>
    str% "#define " ++ pfx ++ str% "_HARDCODED_DEFAULT_LIBA " ++ a ++ str% "\n" ++
    str% "#define " ++ pfx ++ str% "_HARDCODED_DEFAULT_LIBW " ++ w ++ str% "\n"

/-- `note` (generate.cpp 208-238).  `date` is the text ` on ...`, empty if the time is
    not available. -/
def noteText (printDate : Bool) (date : Str) : Str :=
  str% "// Do not edit this file!\n// It was automatically generated by gendlopen" ++
  (if printDate then date else []) ++ str% ".\n// All changes made will be lost.\n\n"

/-- `extra_defines` (generate.cpp 242-253). -/
def extraDefines (defs : Str) : Str :=
  if defs.isEmpty then [] else str% "/* extra defines */\n" ++ defs ++ str% "\n"

/-- `typedefs` (generate.cpp 256-272). -/
def typedefsText (tdefs : List Str) : Str :=
  if tdefs.isEmpty then []
  else str% "/* typedefs */\n" ++ (tdefs.flatMap fun e => str% "typedef " ++ e ++ str% ";\n") ++ str% "\n"

/-- `includes` (generate.cpp 275-295). -/
def includesText (incs : List Str) (cxx : Bool) : Str :=
  str% "/* extra headers */\n" ++
  (if cxx then str% "#include <cstddef>\n#include <cstring>\n" else str% "#include <stddef.h>\n#include <string.h>\n") ++
  (incs.flatMap fun e => str% "#include " ++ e ++ str% "\n") ++ str% "\n"

/-- The name of the header guard (generate.cpp 305, 335). -/
def guardName (header pfxUpper : Str) : Str := str% "_" ++ pfxUpper ++ str% "_" ++ toUpper header ++ str% "_"

/-- `header_guard_begin` (generate.cpp 297-321). -/
def guardBegin (header pfxUpper : Str) (pragmaOnce cxx : Bool) : Str :=
  (if pragmaOnce then str% "\n#pragma once\n\n"
   else str% "\n#ifndef " ++ guardName header pfxUpper ++ str% "\n#define " ++ guardName header pfxUpper ++ str% "\n\n") ++
  (if cxx then [] else str% "#ifdef __cplusplus\nextern \"C\" {\n#endif\n\n")

/-- `header_guard_end` (generate.cpp 324-337). -/
def guardEnd (header pfxUpper : Str) (pragmaOnce cxx : Bool) : Str :=
  (if cxx then [] else str% "#ifdef __cplusplus\n} /* extern \"C\" */\n#endif\n") ++
  (if pragmaOnce then [] else str% "\n#endif //" ++ guardName header pfxUpper ++ str% "\n")

/-- `include_header` (generate.cpp 339-346). -/
def includeHeader (header pfxUpper : Str) : Str :=
  str% "\n#define " ++ pfxUpper ++ str% "_INCLUDED_IN_BODY\n#include \"" ++ header ++ str% "\"\n\n"

/-- `line_directive` (generate.cpp 373-384): the text and the returned number. -/
def lineDirectiveText (lines : Nat) (on : Bool) (header : Str) : Str × Nat :=
  if on then (str% "#line " ++ Nat.toDigits 10 (lines + 2) ++ str% " \"" ++ header ++ str% "\"\n", 1) else ([], 0)

/-! ### Paths -/

/-- `fs::path::filename`: the text behind the last slash. -/
def filename (p : Str) : Str := (p.reverse.takeWhile (· ≠ '/')).reverse

/-- The length of `fs::path::extension`: the text from the last dot of the file name on,
    nothing if this is its first character or the name is `..`. -/
def extensionLength (p : Str) : Nat :=
  let f := filename p
  if f = str% "." ∨ f = str% ".." then 0
  else
    let e := f.reverse.takeWhile (· ≠ '.')
    if e.length + 1 < f.length then e.length + 1 else 0

/-- `fs::path::replace_extension` with a non-empty extension without a dot. -/
def replaceExtension (p ext : Str) : Str := p.take (p.length - extensionLength p) ++ str% "." ++ ext

/-! ### Template store -/

/-- The templates (list.h). -/
inductive TName
  | license | filenameMacros | commonHeader | commonBody | cHeader | cBody | cxxHeader | cxxBody
  | minCHeader | minCxxHeader | pluginHeader | pluginBody
  deriving DecidableEq, Repr

/-- The file names (list.h). -/
def TName.file : TName → Str
  | .license => str% "license.h"
  | .filenameMacros => str% "filename_macros.h"
  | .commonHeader => str% "common.h"
  | .commonBody => str% "common.c"
  | .cHeader => str% "c.h"
  | .cBody => str% "c.c"
  | .cxxHeader => str% "cxx.hpp"
  | .cxxBody => str% "cxx.cpp"
  | .minCHeader => str% "minimal.h"
  | .minCxxHeader => str% "minimal_cxxeh.hpp"
  | .pluginHeader => str% "plugin.h"
  | .pluginBody => str% "plugin.c"

/-- `std::vector`: the elements, the capacity, and how often the storage has been
    replaced. -/
structure Vec where
  data : List Entry := []
  cap : Nat := 0
  gen : Nat := 0

/-- `push_back`.  `grow` is the capacity of the new storage. -/
def Vec.push (grow : Nat → Nat) (v : Vec) (e : Entry) : Vec :=
  if v.data.length < v.cap then { v with data := v.data ++ [e] }
  else { data := v.data ++ [e], cap := grow v.cap, gen := v.gen + 1 }

/-- The capacities of libstdc++: 1, 2, 4, ... -/
def doubling (c : Nat) : Nat := max 1 (2 * c)

/-- A `const template_t *`. -/
inductive Ptr
  /-- the list that is part of the program -/
  | builtin
  /-- the start of the storage of the vector with this number -/
  | heap (gen : Nat)
  deriving DecidableEq, Repr

/-- `templates::data_*` and `templates::ptr_*` (data.cpp 40-45). -/
structure Mem where
  vec : TName → Vec := fun _ => {}
  ptr : TName → Ptr := fun _ => .builtin

/-! ### State -/

/-- A directory entry. -/
inductive Node
  | file (data : Str)
  | dir (empty : Bool)
  | link
  deriving DecidableEq, Repr

/-- How a path is looked up: the status cannot be read, there is no such directory, or
    the directory entry (which need not exist). -/
inductive Res
  | denied
  | missing
  | at (l : Nat)
  deriving DecidableEq, Repr

structure State where
  node : Nat → Option Node
  stdout : Str := []
  /-- the file that `save::ofs` writes to, `none` is standard output -/
  out : Option Nat := none
  mem : Mem := {}

/-- How a run can fail. -/
inductive Fail
  /-- `file already exists` -/
  | exists (path : Str)
  /-- `failed to open file for writing` -/
  | write (path : Str)
  /-- `failed to open file for reading` -/
  | read (path : Str)
  | subst (e : Sub.SubErr)
  /-- an exception that is not caught by `main` -/
  | terminate
  /-- undefined behaviour -/
  | ub
  deriving DecidableEq, Repr

abbrev M := EStateM Fail State

/-- The environment of a run and the data read before. -/
structure Env where
  /-- bound for the loops of `utils::replace` -/
  n : Nat
  /-- ` on ...` or nothing -/
  date : Str
  builtin : TName → List Entry
  /-- the contents of template files -/
  read : Str → Option Str
  res : Str → Res
  canCreate : Nat → Bool
  canRemove : Nat → Bool
  canWrite : Nat → Bool
  grow : Nat → Nat
  symbols : Symbols

/-- Writing to `save::ofs`. -/
def write (s : Str) : M Unit := modify fun st =>
  match st.out with
  | none => { st with stdout := st.stdout ++ s }
  | some l =>
    match st.node l with
    | some (.file d) => { st with node := fun k => if k = l then some (.file (d ++ s)) else st.node k }
    | _ => st

/-- `ofs.close()` (cio_ofstream.cpp). -/
def closeOut : M Unit := modify fun st => { st with out := none }

/-- `fs::remove`. -/
def remove (env : Env) (path : Str) : M Unit :=
  match env.res path with
  | .denied => throw .terminate
  | .missing => pure ()
  | .at l => do
    let st ← get
    match st.node l with
    | none => pure ()
    | some (.dir false) => throw .terminate
    | some _ =>
      if env.canRemove l then modify fun st => { st with node := fun k => if k = l then none else st.node k }
      else throw .terminate

/-- `ofs.open(path)` (cio_ofstream.hpp 45-56) on a path without a directory entry. -/
def createOut (env : Env) (path : Str) (l : Nat) : M Unit := do
  closeOut
  if env.canCreate l then
    modify fun st => { st with node := fun k => if k = l then some (.file []) else st.node k, out := some l }
  else throw (.write path)

/-- The test for an existing file and `ofs.open` (generate.cpp 362-370). -/
def openNew (env : Env) (path : Str) : M Unit :=
  match env.res path with
  | .denied => throw .terminate
  | .missing => do
    closeOut
    throw (.write path)
  | .at l => do
    let st ← get
    if (st.node l).isSome then throw (.exists path) else createOut env path l

/-- `open_ofstream` (generate.cpp 349-371). -/
def openOut (env : Env) (path : Str) (force : Bool) : M Unit :=
  if path.isEmpty ∨ path = str% "-" then closeOut
  else if force then do
    remove env path
    openNew env path
  else openNew env path

/-- `load_template` (data.cpp 193-214) with `load_from_file` (data.cpp 55-100). -/
def loadTemplate (env : Env) (s : Settings) (t : TName) : M Unit :=
  if s.templatesPath.isEmpty then pure ()
  else
    match env.read (s.templatesPath ++ t.file) with
    | none => throw (.read (s.templatesPath ++ t.file))
    | some text => modify fun st =>
      let v := (loadFromFile t.file false s.lineDirective text).foldl (Vec.push env.grow) (st.mem.vec t)
      { st with mem := { vec := fun k => if k = t then v else st.mem.vec k,
                         ptr := fun k => if k = t then .heap v.gen else st.mem.ptr k } }

/-- Reading `templates::ptr_*`. -/
def getPtr (t : TName) : M (TName × Ptr) := do return (t, (← get).mem.ptr t)

/-- The list that a pointer points to. -/
def deref (env : Env) (p : TName × Ptr) : M (List Entry) := do
  let st ← get
  match p.2 with
  | .builtin => pure (env.builtin p.1)
  | .heap g => if (st.mem.vec p.1).gen = g then pure (st.mem.vec p.1).data else throw .ub

/-- `save_data` (generate.cpp 390-421).  The pointer is an argument: it has been read
    before the function loads the template. -/
def saveData (env : Env) (s : Settings) (p : TName × Ptr) : M Nat := do
  loadTemplate env s p.1
  let list ← deref env p
  let bufs := (Sub.processed { lineDirective := s.lineDirective } list).map fun e => Pfx.applyPrefix s.pfx e.data
  write (bufs.flatMap fun b => b ++ str% "\n")
  return (bufs.map fun b => countLinefeed b + 1).sum

/-- The header and the body template of a format. -/
def pairOf : Format → TName × TName
  | .c => (.cHeader, .cBody)
  | .cxx => (.cxxHeader, .cxxBody)
  | .plugin => (.pluginHeader, .pluginBody)
  | .minimal => (.minCHeader, .minCHeader)
  | .minimalCxx => (.minCxxHeader, .minCxxHeader)

/-- The formats with a single template. -/
def Format.isMinimal : Format → Bool
  | .minimal | .minimalCxx => true
  | _ => false

def Format.isCxx : Format → Bool
  | .cxx | .minimalCxx => true
  | _ => false

/-- `create_template_lists` (data.cpp 137-189). -/
def createLists (env : Env) (s : Settings) (separate : Bool) : M (List (TName × Ptr) × List (TName × Ptr)) := do
  let (h, b) := pairOf s.format
  loadTemplate env s h
  if Format.isMinimal s.format then return ([← getPtr h], [])
  else
    loadTemplate env s b
    let ph ← getPtr h
    let pb ← getPtr b
    loadTemplate env s .commonHeader
    loadTemplate env s .commonBody
    let ch ← getPtr .commonHeader
    let cb ← getPtr .commonBody
    if separate then return ([ch, ph], [cb, pb]) else return ([ch, cb, ph, pb], [])

/-- The settings used by `substitute`. -/
def subConfig (env : Env) (s : Settings) : Sub.Config where
  lineDirective := s.lineDirective
  names := s.names
  pfx := s.pfx
  prototypes := env.symbols.protos
  objects := env.symbols.objs

/-- The lists that pointers point to. -/
def derefAll (env : Env) : List (TName × Ptr) → M (List (List Entry))
  | [] => pure []
  | p :: ps => do
    let l ← deref env p
    let ls ← derefAll env ps
    pure (l :: ls)

/-- The text written by `substitute` and the returned number. -/
def writeSubst : Except Sub.SubErr (List (List (List Sub.Chunk)) × Nat) → M Nat
  | .error e => throw (.subst e)
  | .ok (css, k) => do
    write (Sub.bytes css.flatten.flatten)
    return k

/-- `substitute` (substitute.cpp 367-396) on pointers. -/
def runSubstitute (env : Env) (s : Settings) (ps : List (TName × Ptr)) : M Nat := do
  let lists ← derefAll env ps
  writeSubst (Sub.substitute env.n (subConfig env s) lists)

/-- The text that is appended to `m_defines` (generate.cpp 478-500). -/
def addedDefines (s : Settings) (separate : Bool) (common : Str) (protos : List Proto) : Str :=
  let u := toUpper s.pfx
  (if separate then str% "#define " ++ u ++ str% "_SEPARATE\n" else []) ++
  (if s.defaultLib.isEmpty then [] else formatLibname s.defaultLib u) ++
  str% "#define " ++ u ++ str% "_COMMON_PREFIX \"" ++ common ++ str% "\"\n" ++
  ((protos.filter fun p => (str% "...").isSuffixOf p.args).flatMap fun p =>
    str% "#define " ++ u ++ str% "_HAS_VA_ARGS_" ++ p.symbol ++ str% " 1\n")

/-- `m_separate` after the changes (generate.cpp 433-462). -/
def isSeparate (s : Settings) : Bool := s.separate && s.output ≠ str% "-" && !Format.isMinimal s.format

/-- The output paths (generate.cpp 433-468): header and body. -/
def outputPaths (s : Settings) : Str × Str :=
  if s.output = str% "-" then ([], [])
  else if isSeparate s then
    (replaceExtension s.output (if Format.isCxx s.format then str% "hpp" else str% "h"),
     replaceExtension s.output (if Format.isCxx s.format then str% "cpp" else str% "c"))
  else (s.output, s.output)

/-- The name of the header (generate.cpp 470-476). -/
def headerName (s : Settings) : Str :=
  if s.output = str% "-" then s.pfx ++ (if Format.isCxx s.format then str% ".hpp" else str% ".h")
  else filename (outputPaths s).1

/-- A text that is written and whose lines are counted. -/
def writeCounted (t : Str) : M Nat := do
  write t
  return countLinefeed t

/-- The header (generate.cpp 506-524). -/
def writeHeader (env : Env) (s : Settings) (defines : Str) (ps : List (TName × Ptr)) : M Unit := do
  let cxx := Format.isCxx s.format
  let name := headerName s
  let u := toUpper s.pfx
  openOut env (outputPaths s).1 s.force
  let n1 ← writeCounted (noteText s.printDate env.date)
  let n2 ← saveData env s (← getPtr .license)
  let d := lineDirectiveText (n1 + n2) s.lineDirective name
  write d.1
  let n3 ← writeCounted (guardBegin name u s.pragmaOnce cxx)
  let n4 ← saveData env s (← getPtr .filenameMacros)
  let n5 ← writeCounted (extraDefines defines)
  let n6 ← writeCounted (includesText s.includes cxx)
  let n7 ← writeCounted (typedefsText env.symbols.typedefs)
  let n8 ← runSubstitute env s ps
  let e := lineDirectiveText (n1 + n2 + d.2 + n3 + n4 + n5 + n6 + n7 + n8) s.lineDirective name
  write e.1
  write (guardEnd name u s.pragmaOnce cxx)
  closeOut

/-- The body (generate.cpp 527-535). -/
def writeBody (env : Env) (s : Settings) (ps : List (TName × Ptr)) : M Unit := do
  openOut env (outputPaths s).2 s.force
  write (noteText s.printDate env.date)
  let _ ← saveData env s (← getPtr .license)
  write (includeHeader (headerName s) (toUpper s.pfx))
  let _ ← runSubstitute env s ps

/-- `get_common_prefix` of the symbols (generate.cpp 490-491). -/
def commonPrefix (env : Env) : M Str :=
  match Common.getCommonPrefix (env.symbols.protos.map (·.symbol)) (env.symbols.objs.map (·.symbol)) with
  | none => throw .ub
  | some c => pure c

/-- `generate` (generate.cpp 425-536). -/
def generate (env : Env) (s : Settings) : M Unit := do
  let common ← commonPrefix env
  let r ← createLists env s (isSeparate s)
  writeHeader env s (s.defines ++ addedDefines s (isSeparate s) common env.symbols.protos) r.1
  if r.2.isEmpty then pure () else writeBody env s r.2

/-- The initial `#line` line of a custom template (gendlopen.cpp 195-201). -/
def customLine (s : Settings) : Str :=
  if s.lineDirective then
    str% "#line 1 \"" ++ (if s.customTemplate = str% "-" then str% "<STDIN>" else s.customTemplate) ++ str% "\"\n"
  else []

/-- The text written for a custom template. -/
def writeCustom : Except Sub.SubErr (List (List Sub.Chunk) × Nat × Bool) → M Unit
  | .error e => throw (.subst e)
  | .ok (css, _, _) => write (Sub.bytes css.flatten)

/-- `process_custom_template` (gendlopen.cpp 178-213). -/
def customTemplate (env : Env) (s : Settings) : M Unit :=
  match env.read s.customTemplate with
  | none => throw (.read s.customTemplate)
  | some text => do
    openOut env s.output s.force
    write (customLine s)
    writeCustom (Sub.customTemplate env.n (subConfig env s) text)

/-- What `main` does after the input has been read (main.cpp 47-56).  `printed` is the
    output of `print_symbols_to_stdout`. -/
def run (env : Env) (s : Settings) (printed : Str) : M Unit :=
  if s.printSymbols then modify fun st => { st with stdout := st.stdout ++ printed }
  else if !s.customTemplate.isEmpty then customTemplate env s
  else generate env s

end Gdo.Gen
