import Verif.Spec.Options

/-!
What a help text says: which options it lists, which names of options it mentions, which
`%option` entries, formats, modes and template keywords.  Only the text is used.
-/

namespace Gdo.Help
open Gdo Cmd

/-- The lines of a text. -/
def linesOf : Str → List Str
  | [] => []
  | '\n' :: r => [] :: linesOf r
  | c :: r =>
    match linesOf r with
    | [] => [[c]]
    | l :: ls => (c :: l) :: ls

/-- How an option is written. -/
inductive Form
  /-- `-opt` -/
  | flag
  /-- `-X<value>` -/
  | joined
  /-- `-opt=<value>` -/
  | separated
  deriving DecidableEq, Repr

/-- The form that the text behind a name shows. -/
def formOf : Str → Form
  | '=' :: _ => .separated
  | '<' :: _ => .joined
  | _ => .flag

/-- The option that a line is about: two spaces, a dash and its name. -/
def entryOf : Str → Option (Str × Form)
  | ' ' :: ' ' :: '-' :: r =>
    let n := r.takeWhile fun c => !(c == ' ' || c == '=' || c == '<')
    some (n, formOf (r.drop n.length))
  | _ => none

/-- The text lists an option. -/
def Lists (text n : Str) (f : Form) : Prop := ∃ l ∈ linesOf text, entryOf l = some (n, f)

/-- The prefixes that the text allows: a dash, two for names with more than one letter, on
    Windows also a slash. -/
def MayPrefix (win : Bool) (n p : Str) : Prop :=
  p = str% "-" ∨ (p = str% "--" ∧ 1 < n.length) ∨ (p = str% "/" ∧ win = true)

/-- The meaning of an argument according to the text. -/
inductive Means (win : Bool) (text : Str) : Str → Event → Prop
  | flag {n p} : Lists text n .flag → MayPrefix win n p → Means win text (p ++ n) (.flag n)
  | joined {n p v} : Lists text n .joined → MayPrefix win n p → v ≠ [] → Means win text (p ++ n ++ v) (.value n v)
  | separated {n p v sep} : Lists text n .separated → MayPrefix win n p → (sep = '=' ∨ win = true ∧ sep = ':') → v ≠ [] →
      Means win text (p ++ n ++ sep :: v) (.value n v)

/-- A command line as the text describes it: options and files.  A file is `-` or does not
    begin like an option. -/
inductive Describes (win : Bool) (text : Str) : List Str → List Event → Prop
  | nil : Describes win text [] []
  | option {w e r es} : Means win text w e → Describes win text r es → Describes win text (w :: r) (e :: es)
  | file {w r es} : (w = str% "-" ∨ (∀ t, w ≠ '-' :: t) ∧ (∀ t, win = true → w ≠ '/' :: t)) → Describes win text r es →
      Describes win text (w :: r) (.input w :: es)

/-- The `%option` entry that a line shows: the name and whether it has a value. -/
def optionEntry (l : Str) : Option (Str × Bool) :=
  if (str% "    %option ").isPrefixOf l then
    let r := l.drop 12
    let n := r.takeWhile (· ≠ '=')
    some (n, !(r.drop n.length).isEmpty)
  else none

def ListsOption (text n : Str) (value : Bool) : Prop := ∃ l ∈ linesOf text, optionEntry l = some (n, value)

/-- Options mentioned inside a line: `` `-name' ``. -/
def mentions : Str → List Str
  | [] => []
  | '`' :: '-' :: r => r.takeWhile (fun c => !(c == '\'' || c == '=')) :: mentions r
  | _ :: r => mentions r

/-- The alternatives behind a mark, separated by commas; the one called default comes with `true`. -/
def alternatives (mark : Str) (l : Str) : List (Str × Bool) :=
  match splitFirst mark l with
  | none => []
  | some (_, r) =>
    (words r).map fun w =>
      match splitFirst (str% " (default)") w with
      | some (a, _) => (a, true)
      | none => (w, false)
where
  words : Str → List Str
    | [] => [[]]
    | ',' :: ' ' :: r => [] :: words r
    | c :: r =>
      match words r with
      | [] => [[c]]
      | w :: ws => (c :: w) :: ws

/-- The keyword of the template language that a line explains. -/
def keywordOf : Str → Option Str
  | ' ' :: ' ' :: ' ' :: ' ' :: '%' :: '%' :: r =>
    some (str% "%%" ++ r.takeWhile (· ≠ ':'))
  | _ => none

end Gdo.Help
