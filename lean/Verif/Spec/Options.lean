import Verif.Model.Options

/-!
Specification of the command line: which arguments belong together and what an option
does.
-/

namespace Gdo.Cmd
open Gdo Opt

/-- The name part of an argument that is an option, and whether it has two dashes. -/
def nameOf (win : Bool) : Str → Option (Str × Bool)
  | '-' :: '-' :: c :: r => some (c :: r, true)
  | ['-', '-'] => none
  | '-' :: c :: r => some (c :: r, false)
  | '/' :: c :: r => if win then some (c :: r, false) else none
  | _ => none

/-- The options without an argument. -/
def flagNames : List Str :=
  [str% "?", str% "help", str% "full-help", str% "ast-all-symbols", str% "force", str% "ignore-options", str% "line",
   str% "no-date", str% "no-pragma-once", str% "print-symbols", str% "separate", str% "version"]

/-- The options with an argument. -/
def argNames : List Str :=
  [str% "D", str% "dump-templates", str% "format", str% "include", str% "library", str% "out", str% "P", str% "prefix",
   str% "param", str% "S", str% "template", str% "templates-path"]

/-- What one or two arguments mean. -/
inductive Event
  | input (w : Str)
  | flag (name : Str)
  | value (name v : Str)
  deriving DecidableEq, Repr

/-- An argument list and what it means, each argument being used exactly once. -/
inductive Reads (win : Bool) : List Str → List Event → Prop
  | nil : Reads win [] []
  | input {w r es} : nameOf win w = none → Reads win r es → Reads win (w :: r) (.input w :: es)
  | flag {w r es n l} : nameOf win w = some (n, l) → n ∈ flagNames → Reads win r es → Reads win (w :: r) (.flag n :: es)
  /-- `-opt value`, `--opt value`, `-X value` -/
  | next {w v r es n l} : nameOf win w = some (n, l) → n ∈ argNames → (n.length = 1 → l = false) → v ≠ [] →
      Reads win r es → Reads win (w :: v :: r) (.value n v :: es)
  /-- `-Xvalue` -/
  | joined {w v r es c} : nameOf win w = some (c :: v, false) → [c] ∈ argNames → v ≠ [] →
      Reads win r es → Reads win (w :: r) (.value [c] v :: es)
  /-- `-opt=value`, `--opt=value`, on Windows `-opt:value` -/
  | separated {w v r es n l sep} : nameOf win w = some (n ++ sep :: v, l) → n ∈ argNames → 1 < n.length →
      (sep = '=' ∨ win = true ∧ sep = ':') → v ≠ [] → Reads win r es → Reads win (w :: r) (.value n v :: es)

/-- The texts that stand for a format, in lower case. -/
def formatNames : List (Str × Format) :=
  [(str% "c", .c), (str% "cxx", .cxx), (str% "c++", .cxx), (str% "cpp", .cxx), (str% "minimal", .minimal), (str% "minimal-c", .minimal),
   (str% "minimal-cxx", .minimalCxx), (str% "minimal-c++", .minimalCxx), (str% "minimal-cpp", .minimalCxx),
   (str% "plugin", .plugin), (str% "plugin-c", .plugin)]

/-- The texts that stand for a parameter mode, in lower case. -/
def modeNames : List (Str × ParamNames) := [(str% "skip", .skip), (str% "create", .create), (str% "read", .read)]

/-- What an option without an argument does. -/
def flagEffect (n : Str) (s : Settings) : Except Stop Settings :=
  if n = str% "?" ∨ n = str% "help" then .error (.exit .help)
  else if n = str% "full-help" then .error (.exit .fullHelp)
  else if n = str% "version" then .error (.exit .version)
  else .ok
    { s with
      astAllSymbols := s.astAllSymbols || n = str% "ast-all-symbols"
      force := s.force || n = str% "force"
      readOptions := s.readOptions && n ≠ str% "ignore-options"
      lineDirective := s.lineDirective || n = str% "line"
      printDate := s.printDate && n ≠ str% "no-date"
      pragmaOnce := s.pragmaOnce && n ≠ str% "no-pragma-once"
      printSymbols := s.printSymbols || n = str% "print-symbols"
      separate := s.separate || n = str% "separate" }

/-- Lower case, ASCII letters only. -/
def lower (s : Str) : Str := s.map toLowerC

/-- What an option with an argument does.  For the texts of definitions and includes
    see C40. -/
def valueEffect (n v : Str) (s : Settings) : Except Stop Settings :=
  if n = str% "dump-templates" then .error (.exit (.dump v))
  else if n = str% "format" then
    match formatNames.lookup (lower v) with
    | some f => .ok { s with format := f }
    | none => .error (.error (.format v))
  else if n = str% "param" then
    match modeNames.lookup (lower v) with
    | some m => .ok { s with names := m }
    | none => .error (.error (.mode v))
  else if n = str% "D" then .ok (addDef v s)
  else if n = str% "include" then .ok (addInc v s)
  else .ok
    { s with
      defaultLib := if n = str% "library" then v else s.defaultLib
      output := if n = str% "out" then v else s.output
      pfx := if n = str% "prefix" then v else s.pfx
      customTemplate := if n = str% "template" then v else s.customTemplate
      templatesPath := if n = str% "templates-path" then (if v.getLast? = some '/' then v else v ++ str% "/") else s.templatesPath
      prefixList := s.prefixList ++ (if n = str% "P" then [v] else [])
      symbolList := s.symbolList ++ (if n = str% "S" then [v] else []) }

/-- Settings, input file and ignored arguments. -/
structure State where
  settings : Settings := {}
  input : Option Str := none
  warnings : List Str := []

/-- The first argument that is not an option is the input file, all others are
    ignored with a warning. -/
def eventEffect (st : State) : Event → Except Stop State
  | .input w =>
    match st.input with
    | none => .ok { st with input := some w }
    | some _ => .ok { st with warnings := st.warnings ++ [w] }
  | .flag n => (flagEffect n st.settings).map fun s => { st with settings := s }
  | .value n v => (valueEffect n v st.settings).map fun s => { st with settings := s }

/-- All arguments, from left to right, until one stops the program. -/
def eventsEffect (st : State) (es : List Event) : Except Stop State := es.foldlM eventEffect st

/-- The end: there must be an input file. -/
def outcome : Except Stop State → Outcome
  | .error e => .stop e
  | .ok st =>
    match st.input with
    | some (c :: r) => .settings { st.settings with input := c :: r } st.warnings
    | _ => .stop (.error .inputRequired)

/-- The entries that a `%option` line can have. -/
def optionEvent (token : Str) (e : Event) : Prop :=
  (e = .flag token ∧ token ∈ [str% "line", str% "no-date", str% "no-pragma-once"]) ∨
  ∃ n v, e = .value n v ∧ token = n ++ '=' :: v ∧ v ≠ [] ∧
    n ∈ [str% "D", str% "format", str% "include", str% "library", str% "param", str% "prefix"]

end Gdo.Cmd
