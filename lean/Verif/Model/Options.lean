import Verif.Model.Utils
import Verif.Model.Parse

/-!
Model of the option parser (`src/opt_parser.h`), of `src/options.cpp` and of the
setters in `src/gendlopen.cpp`.

`win` is true for the Windows configuration (options.cpp 32-38): it adds the prefix
`/` and the separator `:`; the prefixes `-` and `--` and the separator `=` are there
in both.  An argument is a C string: a text without NUL bytes, followed by one that
may be read.
-/

namespace Gdo.Opt
open Gdo

/-- `output::format` (types.hpp 74-83). -/
inductive Format
  | c | cxx | plugin | minimal | minimalCxx
  deriving DecidableEq, Repr

/-- The members of `gendlopen` that options set (gendlopen.hpp 73-79, 132-148). -/
structure Settings where
  input : Str := []
  output : Str := str% "-"
  format : Format := .c
  names : ParamNames := .read
  customTemplate : Str := []
  defaultLib : Str := []
  force : Bool := false
  separate : Bool := false
  astAllSymbols : Bool := false
  printSymbols : Bool := false
  readOptions : Bool := true
  printDate : Bool := true
  lineDirective : Bool := false
  pragmaOnce : Bool := true
  prefixList : List Str := []
  symbolList : List Str := []
  includes : List Str := []
  defines : Str := []
  templatesPath : Str := []
  pfx : Str := str% "gdo"
  deriving DecidableEq, Repr

/-- Error messages. -/
inductive OptErr
  /-- a message of `_opt_handle_error` -/
  | handle (msg : Str)
  /-- `unknown option: ` -/
  | unknown (s : Str)
  /-- `input file is required` -/
  | inputRequired
  /-- `unknown output format: ` -/
  | format (s : Str)
  /-- `parameter_names: unknown mode: ` -/
  | mode (s : Str)
  /-- `%option string requires an argument: ` -/
  | optionArgument (s : Str)
  /-- `unknown %option string: ` -/
  | optionUnknown (s : Str)
  deriving DecidableEq, Repr

/-- The calls of `std::exit(0)`. -/
inductive Exit
  | help | fullHelp | version
  /-- after dumping the templates into the directory -/
  | dump (dir : Str)
  deriving DecidableEq, Repr

/-- The ways how reading options can stop. -/
inductive Stop
  | exit (e : Exit)
  | error (e : OptErr)
  deriving DecidableEq, Repr

/-! ### Setters -/

/-- `add_inc` (gendlopen.cpp 46-60). -/
def addInc (inc : Str) (s : Settings) : Settings :=
  let e :=
    if prefixedAndLongerCase inc (str% "nq:") then inc.drop 3
    else if 2 ≤ inc.length &&
        (((str% "<").isPrefixOf inc && (str% ">").isSuffixOf inc) ||
         ((str% "\"").isPrefixOf inc && (str% "\"").isSuffixOf inc)) then inc
    else str% "\"" ++ inc ++ str% "\""
  { s with includes := s.includes ++ [e] }

/-- `add_def` (gendlopen.cpp 64-83). -/
def addDef (d : Str) (s : Settings) : Settings :=
  let nv :=
    match splitFirst (str% "=") d with
    | some (a, b) => (a, str% " " ++ b)
    | none => (d, [])
  let name := stripSpaces nv.1
  if name.isEmpty then s
  else { s with defines := s.defines ++ str% "#ifndef " ++ name ++ str% "\n# define " ++ name ++ nv.2 ++
                  str% "\n#endif\n" }

/-- `format(const char *)` (gendlopen.cpp 87-104). -/
def setFormat (str : Str) (s : Settings) : Except Stop Settings :=
  let l := toLower str false
  if l = str% "c" then .ok { s with format := .c }
  else if l = str% "cxx" ∨ l = str% "c++" ∨ l = str% "cpp" then .ok { s with format := .cxx }
  else if l = str% "minimal" ∨ l = str% "minimal-c" then .ok { s with format := .minimal }
  else if l = str% "minimal-cxx" ∨ l = str% "minimal-c++" ∨ l = str% "minimal-cpp" then .ok { s with format := .minimalCxx }
  else if l = str% "plugin" ∨ l = str% "plugin-c" then .ok { s with format := .plugin }
  else .error (.error (.format str))

/-- `parameter_names(const char *)` (gendlopen.cpp 108-119). -/
def setNames (str : Str) (s : Settings) : Except Stop Settings :=
  if eqCase str (str% "skip") then .ok { s with names := .skip }
  else if eqCase str (str% "create") then .ok { s with names := .create }
  else if eqCase str (str% "read") then .ok { s with names := .read }
  else .error (.error (.mode str))

/-! ### `opt_parser.h` -/

/-- `s[i]` of a C string: the terminating NUL may be read, nothing behind it. -/
def cAt (s : Str) (i : Nat) : Ub Char := (s ++ ['\x00'])[i]?

/-- `struct opt_args` (opt_parser.h 74-85). -/
structure Args where
  argv : List Str
  iter : Nat := 0
  current : Str := []
  pfxlen : Nat := 0
  deriving DecidableEq, Repr

/-- The test for a short option (opt_parser.h 243-246). -/
def isShort (p : Str) : Ub Bool := do
  if (← cAt p 0) ≠ '-' then return false
  if (← cAt p 1) = '-' then return false
  return (← cAt p 1) ≠ '\x00'

/-- The test for a long option (opt_parser.h 253-256). -/
def isLong (p : Str) : Ub Bool := do
  if (← cAt p 0) ≠ '-' then return false
  if (← cAt p 1) ≠ '-' then return false
  return (← cAt p 2) ≠ '\x00'

/-- The test for an option with a forward slash (opt_parser.h 263-265). -/
def isSlash (win : Bool) (p : Str) : Ub Bool := do
  if !win then return false
  if (← cAt p 0) ≠ '/' then return false
  return (← cAt p 1) ≠ '\x00'

/-- `opt_iterate` (opt_parser.h 226-275). -/
def iterate (win : Bool) (a : Args) : Ub (Bool × Args) := do
  let a := { a with iter := a.iter + 1 }
  if a.iter ≥ a.argv.length then return (false, a)
  let p ← a.argv[a.iter]?
  let a := { a with current := p }
  if ← isShort p then return (true, { a with pfxlen := 1 })
  if ← isLong p then return (true, { a with pfxlen := 2 })
  if ← isSlash win p then return (true, { a with pfxlen := 1 })
  return (true, { a with pfxlen := 0 })

/-- `opt_arg_eq` (opt_parser.h 279-291). -/
def argEq (a : Args) (opt : Str) : Bool :=
  if opt.isEmpty || a.pfxlen = 0 then false else a.current.drop a.pfxlen == opt

/-- `_opt_handle_error` (opt_parser.h 295-305): the text passed to the callback, which
    throws; the buffer has room for 127 characters. -/
def handleError (pfx opt what : Str) : OptErr :=
  .handle ((str% "option '" ++ pfx ++ opt ++ str% "' " ++ what).take 127)

/-- The prefix characters for messages, and the text behind the prefix
    (opt_parser.h 334-342). -/
def skipPrefix (a : Args) : Ub (Str × Str) := do
  let c ← cAt a.current 0
  let p := a.current.drop 1
  if a.pfxlen = 2 then return ([c, ← cAt p 1], p.drop 1)
  else return ([c], p)

/-- The test for an empty value (opt_parser.h 370-374). -/
def checkValue (pfx opt v : Str) (a : Args) : Except OptErr (Option Str × Args) :=
  if v.isEmpty then .error (handleError pfx opt (str% "has an empty argument")) else .ok (some v, a)

/-- The comparison with the option name and the choice of the value
    (opt_parser.h 344-374). -/
def matchArg (win : Bool) (a : Args) (opt pfx p : Str) : Ub (Except OptErr (Option Str × Args)) :=
  if opt.isPrefixOf p then do
    let e ← cAt p opt.length
    if e = '\x00' then
      let a := { a with iter := a.iter + 1 }
      if a.iter ≥ a.argv.length then return .error (handleError pfx opt (str% "requires an argument"))
      else return checkValue pfx opt (← a.argv[a.iter]?) a
    else if opt.length = 1 then return checkValue pfx opt (p.drop opt.length) a
    else if e = '=' then return checkValue pfx opt (p.drop (opt.length + 1)) a
    else if win ∧ e = ':' then return checkValue pfx opt (p.drop (opt.length + 1)) a
    else return .ok (none, a)
  else return .ok (none, a)

/-- `opt_get_arg` (opt_parser.h 316-377): the value if there is one. -/
def getArg (win : Bool) (a : Args) (opt : Str) : Ub (Except OptErr (Option Str × Args)) := do
  if opt.isEmpty || a.pfxlen = 0 then return .ok (none, a)
  else if (← cAt opt 1) = '\x00' ∧ a.pfxlen ≠ 1 then return .ok (none, a)
  else
    let (pfx, p) ← skipPrefix a
    matchArg win a opt pfx p

/-! ### `options.cpp` -/

/-- A branch of the chain in `parse_cmdline`. -/
inductive Handler
  /-- `o.flag(name)` -/
  | flag (name : Str) (f : Settings → Except Stop Settings)
  /-- `o.arg(p, name)` -/
  | arg (name : Str) (f : Str → Settings → Except Stop Settings)

/-- The branches of `parse_cmdline` in order (options.cpp 94-143). -/
def handlers : List Handler :=
  [.flag (str% "?") fun _ => .error (.exit .help),
   .flag (str% "help") fun _ => .error (.exit .help),
   .flag (str% "full-help") fun _ => .error (.exit .fullHelp),
   .flag (str% "ast-all-symbols") fun s => .ok { s with astAllSymbols := true },
   .arg (str% "D") fun p s => .ok (addDef p s),
   .arg (str% "dump-templates") fun p _ => .error (.exit (.dump p)),
   .arg (str% "format") fun p s => setFormat p s,
   .flag (str% "force") fun s => .ok { s with force := true },
   .arg (str% "include") fun p s => .ok (addInc p s),
   .flag (str% "ignore-options") fun s => .ok { s with readOptions := false },
   .arg (str% "library") fun p s => .ok { s with defaultLib := p },
   .flag (str% "line") fun s => .ok { s with lineDirective := true },
   .flag (str% "no-date") fun s => .ok { s with printDate := false },
   .flag (str% "no-pragma-once") fun s => .ok { s with pragmaOnce := false },
   .arg (str% "out") fun p s => .ok { s with output := p },
   .arg (str% "P") fun p s => .ok { s with prefixList := s.prefixList ++ [p] },
   .arg (str% "prefix") fun p s => .ok { s with pfx := p },
   .arg (str% "param") fun p s => setNames p s,
   .flag (str% "print-symbols") fun s => .ok { s with printSymbols := true },
   .arg (str% "S") fun p s => .ok { s with symbolList := s.symbolList ++ [p] },
   .flag (str% "separate") fun s => .ok { s with separate := true },
   .arg (str% "template") fun p s => .ok { s with customTemplate := p },
   .arg (str% "templates-path") fun p s => .ok { s with templatesPath := appendMissingSeparator p },
   .flag (str% "version") fun _ => .error (.exit .version)]

/-- The chain of branches (options.cpp 94-146). -/
def dispatch (win : Bool) (a : Args) (s : Settings) : List Handler → Ub (Except Stop (Args × Settings))
  | [] => return .error (.error (.unknown a.current))
  | .flag name f :: r =>
    if argEq a name then return (f s).map fun s => (a, s)
    else dispatch win a s r
  | .arg name f :: r => do
    match ← getArg win a name with
    | .error e => return .error (.error e)
    | .ok (some v, a) => return (f v s).map fun s => (a, s)
    | .ok (none, a) => dispatch win a s r

/-- How `parse_cmdline` ends. -/
inductive Outcome
  /-- settings and the arguments that were warned about -/
  | settings (s : Settings) (warnings : List Str)
  | stop (e : Stop)
  deriving DecidableEq, Repr

/-- `options.cpp` 149-153. -/
def finish (s : Settings) (input : Option Str) (warnings : List Str) : Outcome :=
  match input with
  | none => .stop (.error .inputRequired)
  | some i => if i.isEmpty then .stop (.error .inputRequired) else .settings { s with input := i } warnings

/-- The loop of `parse_cmdline` (options.cpp 86-147), at most `n` iterations.  The
    outer `none` is undefined behaviour, the inner one an unfinished loop. -/
def loop (win : Bool) : Nat → Args → Settings → Option Str → List Str → Ub (Option Outcome)
  | 0, _, _, _, _ => return none
  | n + 1, a, s, input, warnings => do
    let (more, a) ← iterate win a
    if !more then return some (finish s input warnings)
    else if a.pfxlen = 0 then
      match input with
      | none => loop win n a s (some a.current) warnings
      | some i => loop win n a s (some i) (warnings ++ [a.current])
    else
      match ← dispatch win a s handlers with
      | .error e => return some (.stop e)
      | .ok (a, s) => loop win n a s input warnings

/-- `parse_cmdline` (options.cpp 75-154).  Each iteration takes an argument, so that
    `argc` iterations and the last test are enough. -/
def parseCmdline (win : Bool) (argv : List Str) : Ub (Option Outcome) :=
  loop win (argv.length + 1) { argv } {} none []

/-- `get_option_len` (options.cpp 52-63). -/
def getOption (token opt : Str) : Except Stop (Option Str) :=
  if opt.isPrefixOf token then
    if token.length > opt.length then .ok (some (token.drop opt.length))
    else .error (.error (.optionArgument token))
  else .ok none

/-- The branches with values of `parse_options` (options.cpp 169-180). -/
def optionHandlers : List (Str × (Str → Settings → Except Stop Settings)) :=
  [(str% "D=", fun p s => .ok (addDef p s)),
   (str% "format=", fun p s => setFormat p s),
   (str% "include=", fun p s => .ok (addInc p s)),
   (str% "library=", fun p s => .ok { s with defaultLib := p }),
   (str% "param=", fun p s => setNames p s),
   (str% "prefix=", fun p s => .ok { s with pfx := p })]

/-- The chain of these branches. -/
def optionDispatch (token : Str) (s : Settings) : List (Str × (Str → Settings → Except Stop Settings)) → Except Stop Settings
  | [] => .error (.error (.optionUnknown token))
  | (name, f) :: r => do
    match ← getOption token name with
    | some v => f v s
    | none => optionDispatch token s r

/-- One iteration of `parse_options` (options.cpp 163-183). -/
def parseOption (s : Settings) (token : Str) : Except Stop Settings :=
  if token = str% "line" then .ok { s with lineDirective := true }
  else if token = str% "no-date" then .ok { s with printDate := false }
  else if token = str% "no-pragma-once" then .ok { s with pragmaOnce := false }
  else optionDispatch token s optionHandlers

/-- `parse_options` (options.cpp 158-185). -/
def parseOptions (s : Settings) (options : List Str) : Except Stop Settings := options.foldlM parseOption s

end Gdo.Opt
