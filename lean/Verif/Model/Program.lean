import Verif.Model.Main
import Verif.Model.Dump
import Verif.Model.Ast
import Verif.Model.ScanError
import Verif.Model.Help

/-!
Model of `src/main.cpp`, of the part of `gendlopen::tokenize` (`src/tokenize.cpp`) that
opens the input, and of the texts of the error messages.

Simplifications:

* The text of `-version` and the name of the program (`utils::progname`) are parameters.
* The rest of a message about a parameter (parameter_names.cpp) is a parameter.
* Warnings, the list of tokens of a declaration that cannot be read (parse.cpp 39-48) and
  the lines `saving ...` are left out.
* Reading the input file does not fail once it is open, and the input and the template
  files do not change during the run.
* The directory of `-dump-templates` exists or has been created.
-/

namespace Gdo.Program
open Gdo Opt Gen

/-! ### Lists of names -/

/-- `operator<` of `std::string` (bytes as unsigned numbers). -/
def strLt : Str → Str → Bool
  | _, [] => false
  | [], _ :: _ => true
  | a :: as, b :: bs => if a.toNat < b.toNat then true else if b.toNat < a.toNat then false else strLt as bs

/-- The place of an element in a sorted list. -/
def insertSorted (x : Str) : List Str → List Str
  | [] => [x]
  | y :: ys => if strLt y x then y :: insertSorted x ys else x :: y :: ys

/-- `std::sort`; equal strings cannot be told apart. -/
def sortNames : List Str → List Str
  | [] => []
  | x :: xs => insertSorted x (sortNames xs)

/-- `std::unique` behind an element. -/
def uniqueFrom (x : Str) : List Str → List Str
  | [] => [x]
  | y :: r => if x = y then uniqueFrom x r else x :: uniqueFrom y r

/-- `std::unique` and `erase`: of neighbours that are equal the first one stays. -/
def uniqueNames : List Str → List Str
  | [] => []
  | x :: r => uniqueFrom x r

/-- `utils::sort_dedup` (utils.hpp 192-201). -/
def sortDedup (l : List Str) : List Str := if l.length > 1 then uniqueNames (sortNames l) else l

/-! ### Messages -/

/-- What surrounds the program. -/
structure World where
  /-- files and templates; the symbols are those of the input -/
  env : Env
  /-- the name of the program -/
  prog : Str
  version : Str
  /-- the type `char` is signed -/
  signedChar : Bool
  /-- messages about parameters (parameter_names.cpp 131-176, 229-265) -/
  paramMsg : ParseErr → Str

/-- Errors that `main` catches. -/
inductive Err
  /-- from `parse_cmdline` -/
  | cmd (e : OptErr)
  /-- tokenize.cpp 380 -/
  | noInput
  /-- tokenize.cpp 384 -/
  | bothStdin
  /-- tokenize.cpp 394 -/
  | openInput (name : Str)
  /-- tokenize.cpp 404-409: the message of the scanner if there is one -/
  | scan (name : Str) (msg : Option Str)
  /-- from `parse_options` -/
  | option (e : OptErr)
  /-- from `parse` -/
  | parse (name : Str) (e : ParseErr)
  /-- from `parse_clang_ast` -/
  | ast (input : Str) (e : Ast.AstErr)
  /-- tokenize.cpp 362 -/
  | typedef (symbol : Str)
  /-- generate.cpp 364 -/
  | exists (path : Str)
  /-- generate.cpp 369, data.cpp 112 -/
  | write (path : Str)
  /-- gendlopen.cpp 188, data.cpp 72 -/
  | read (path : Str)
  /-- substitute.cpp 355 -/
  | mixed (data : Str)
  /-- substitute.cpp 377 -/
  | noPrototypes
  deriving DecidableEq, Repr

/-- The messages of `parse_cmdline` and `parse_options` (options.cpp 36-185, gendlopen.cpp
    103, 118). -/
def optMsg : OptErr → Str
  | .handle m => m
  | .unknown s => str% "unknown option: " ++ s
  | .inputRequired => str% "input file is required"
  | .format s => str% "unknown output format: " ++ s
  | .mode s => str% "parameter_names: unknown mode: " ++ s
  | .optionArgument s => str% "%option string requires an argument: " ++ s
  | .optionUnknown s => str% "unknown %option string: " ++ s

/-- parse.cpp 353-363, clang_ast.cpp 277-287. -/
def notFoundMsg (l : List Str) : Str :=
  str% "the following symbols were not found:" ++ ((sortDedup l).map fun s => ' ' :: s).flatten

/-- `what()`. -/
def Err.what (w : World) : Err → Str
  | .cmd e => optMsg e
  | .noInput => str% "input file required"
  | .bothStdin => str% "cannot read input file and custom template both from STDIN"
  | .openInput n => n ++ str% "\nfailed to open file for reading"
  | .scan n none => n
  | .scan n (some m) => n ++ str% "\n" ++ m
  | .option e => optMsg e
  | .parse n .readFailed => n ++ str% "\nfailed to read prototypes"
  | .parse n .nothingInInput => n ++ str% "\nno function or object prototypes found"
  | .parse n (.multipleDefinitions s) => n ++ str% "\nmultiple definitions of symbol `" ++ s ++ str% "' found"
  | .parse _ (.notFound l) => notFoundMsg l
  | .parse n .nothingFound => str% "no function or object prototypes found in " ++ n
  | .parse n e => n ++ str% "\n" ++ w.paramMsg e
  | .ast _ .noSymbols => str% "Clang AST: no symbols provided to look for\nuse `-S', `-P' or `-ast-all-symbols'"
  | .ast _ (.notFound l) => notFoundMsg l
  | .ast i .nothingFound => str% "no function or object prototypes found in file: " ++ i
  | .typedef s => str% "failed to create typedef for symbol `" ++ s ++ str% "'"
  | .exists p => str% "file already exists: " ++ p
  | .write p => str% "failed to open file for writing: " ++ p
  | .read p => str% "failed to open file for reading: " ++ p
  | .mixed d => str% "cannot mix function, object and regular symbol placeholders:\n" ++ d
  | .noPrototypes => str% "no function or object prototypes"

/-- The error is an `error_cmd` (options.cpp 78, 145, 150; gendlopen.hpp). -/
def Err.isCmd : Err → Bool
  | .cmd (.handle _) | .cmd (.unknown _) | .cmd .inputRequired => true
  | _ => false

/-! ### Reading the input -/

/-- `input_name` (tokenize.cpp 387-389). -/
def inputName (s : Settings) : Str := if s.input = str% "-" then str% "<STDIN>" else str% "file: " ++ s.input

/-- The tokens behind `LEX_AST_BEGIN`, which the scanner returns after `tokenize_stream` has
    ended there. -/
def tokensBehind (text : Str) : List Lex.Tok :=
  ((Lex.run {} text).1.dropWhile fun t => !(t.kind = .astBegin || t.kind = .astFuncvar || t.kind = .astParmvar)).drop 1

/-- The branch for Clang AST files (tokenize.cpp 410-415). -/
def readAst (s : Settings) (text : Str) : Except Err (Settings × Symbols) :=
  match Ast.parseClangAst s.astAllSymbols s.prefixList s.symbolList (tokensBehind text) with
  | .error e => .error (.ast s.input e)
  | .ok st =>
    match createTypedefs (toLower s.pfx) st.objs with
    | .error n => .error (.typedef n)
    | .ok (objs, tds) => .ok (s, ⟨st.protos, objs, tds⟩)

/-- The settings after `%option` lines (tokenize.cpp 418-420). -/
def applyOptions (s : Settings) (options : List Str) : Except Err Settings :=
  if s.readOptions then
    match parseOptions s options with
    | .ok s => .ok s
    | .error (.error e) => .error (.option e)
    | .error (.exit _) => .ok s          -- there is no such option, `C81_no_exit`
  else .ok s

/-- The branch for declarations (tokenize.cpp 417-446). -/
def readText (s : Settings) (vec : List Toks) (options : List Str) : Ub (Except Err (Settings × Symbols)) :=
  match applyOptions s options with
  | .error e => return .error e
  | .ok s => do
    match ← tokenizeDecls vec (toLower s.pfx) s.names s.prefixList s.symbolList with
    | .error (.parse e) => return .error (.parse (inputName s) e)
    | .error (.typedef n) => return .error (.typedef n)
    | .error .lex => return .error (.scan (inputName s) none)
    | .ok sy => return .ok (s, sy)

/-- The error that ends `tokenize_stream` (tokenize.cpp 402-409). -/
def scanFailed (w : World) (s : Settings) (text : Str) : Ub (Except Err (Settings × Symbols)) :=
  match Lex.scanError s.readOptions text with
  | none => return .error (.scan (inputName s) none)
  | some e => do return .error (.scan (inputName s) (some (← e.text w.signedChar)))

/-- `gendlopen::tokenize` (tokenize.cpp 371-446). -/
def tokenize (w : World) (s : Settings) : Ub (Except Err (Settings × Symbols)) :=
  if s.input.isEmpty then return .error .noInput
  else if s.input = str% "-" ∧ s.customTemplate = str% "-" then return .error .bothStdin
  else
    match w.env.read s.input with
    | none => return .error (.openInput (inputName s))
    | some text =>
      match tokenizeStream s.readOptions text with
      | (_, _, .error) => scanFailed w s text
      | (_, _, .ast) => return readAst s text
      | (vec, options, .eof) => readText s vec options

/-! ### The program -/

/-- How the program ends. -/
inductive Result
  /-- exit status, message on standard error, final state -/
  | exit (status : Nat) (message : Str) (st : State)
  /-- an exception that is not caught -/
  | terminate (st : State)
  /-- no end within the bounds -/
  | runs (st : State)
  /-- undefined behaviour -/
  | ub

/-- The handlers of `main` (main.cpp 58-66). -/
def report (w : World) (argv0 : Str) (e : Err) (st : State) : Result :=
  .exit 1
    (w.prog ++ str% ": error: " ++ e.what w ++ str% "\n" ++
      (if e.isCmd then str% "Try `" ++ argv0 ++ str% " -help' for more information.\n" else []))
    st

/-- The end of a step that writes files. -/
def ended (w : World) (argv0 : Str) : EStateM.Result Fail State Unit → Result
  | .ok _ st => .exit 0 [] st
  | .error (.exists p) st => report w argv0 (.exists p) st
  | .error (.write p) st => report w argv0 (.write p) st
  | .error (.read p) st => report w argv0 (.read p) st
  | .error (.subst (.mixed d)) st => report w argv0 (.mixed d) st
  | .error (.subst .noPrototypes) st => report w argv0 .noPrototypes st
  | .error (.subst .more) st => .runs st
  | .error .terminate st => .terminate st
  | .error .ub _ => .ub

/-- The calls of `std::exit` in `parse_cmdline` (options.cpp 95-100, 106-107, 141-142). -/
def stopped (w : World) (win : Bool) (argv0 : Str) (st : State) : Stop → Result
  | .error e => report w argv0 (.cmd e) st
  | .exit .help => .exit 0 [] { st with stdout := st.stdout ++ Help.brief win w.prog }
  | .exit .fullHelp => .exit 0 [] { st with stdout := st.stdout ++ Help.full win w.prog }
  | .exit .version => .exit 0 [] { st with stdout := st.stdout ++ w.version }
  | .exit (.dump d) => ended w argv0 (dumpTemplates w.env d st)

/-- What follows the command line (main.cpp 47-56). -/
def process (w : World) (argv0 : Str) (s : Settings) (st : State) : Result :=
  match tokenize w s with
  | none => .ub
  | some (.error e) => report w argv0 e st
  | some (.ok (s, sy)) => ended w argv0 (Gen.run { w.env with symbols := sy } s (printSymbols sy) st)

/-- The state in which the program starts. -/
def start (node : Nat → Option Node) : State := { node }

/-- `main` (main.cpp 34-70).  Without a first argument the handlers would use a null
    pointer. -/
def main (w : World) (win : Bool) (argv : List Str) (node : Nat → Option Node) : Result :=
  match argv with
  | [] => .ub
  | argv0 :: _ =>
    match parseCmdline win argv with
    | none => .ub
    | some none => .runs (start node)
    | some (some (.stop e)) => stopped w win argv0 (start node) e
    | some (some (.settings s _)) => process w argv0 s (start node)

end Gdo.Program
