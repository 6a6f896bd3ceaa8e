import Verif.Model.Utils

/-!
Specification of the generated texts: what a library name stands for, and nested
conditionals of the C preprocessor.
-/

namespace Gdo.GenSpec
open Gdo

/-- A text with quotes around it. -/
def Quoted (s : Str) : Prop := ∃ x, s = str% "\"" ++ x ++ str% "\""

/-- A text that begins with `L"` and ends with a quote. -/
def WideQuoted (s : Str) : Prop := ∃ x, s = str% "L\"" ++ x ++ str% "\""

/-- The string literals, narrow and wide, that a name is turned into. -/
inductive Literal : Str → Str → Str → Prop
  | plain {s} : ¬ Quoted s → ¬ WideQuoted s → Literal s (str% "\"" ++ s ++ str% "\"") (str% "L\"" ++ s ++ str% "\"")
  | quoted {s} : Quoted s → Literal s s (str% "L" ++ s)

/-- A text that begins with `mode`, in upper or lower case. -/
def HasMode (mode : Str) (s : Str) : Prop := ∃ m x, s = m ++ x ∧ m.map toLowerC = mode ∧ x ≠ []

/-- The documented modes of `-library` (generate.cpp 141-149): the name, and the values
    of the narrow and of the wide macro. -/
inductive Library (u : Str) : Str → Str → Str → Prop
  | plain {s a w} : ¬ HasMode (str% "nq:") s → ¬ HasMode (str% "ext:") s → ¬ HasMode (str% "api:") s → Literal s a w → Library u s a w
  | unquoted {m x} : m.map toLowerC = str% "nq:" → x ≠ [] → Library u (m ++ x) x x
  | extension {m x a w} : m.map toLowerC = str% "ext:" → x ≠ [] → Literal x a w →
      Library u (m ++ x) (a ++ str% " " ++ u ++ str% "_LIBEXTA") (w ++ str% " " ++ u ++ str% "_LIBEXTW")
  | api {m v x} : m.map toLowerC = str% "api:" → ':' ∉ v → Library u (m ++ v ++ str% ":" ++ x)
      (u ++ str% "_LIBNAMEA(" ++ x ++ str% "," ++ v ++ str% ")") (u ++ str% "_LIBNAMEW(" ++ x ++ str% "," ++ v ++ str% ")")

/-- The definitions of the macros for the default library. -/
def libraryDefines (u a w : Str) : Str :=
  str% "#define " ++ u ++ str% "_HARDCODED_DEFAULT_LIBA " ++ a ++ str% "\n" ++
  str% "#define " ++ u ++ str% "_HARDCODED_DEFAULT_LIBW " ++ w ++ str% "\n"

/-- The lines of a text. -/
def lines : Str → List Str
  | [] => [[]]
  | c :: cs =>
    if c = '\n' then [] :: lines cs
    else
      match lines cs with
      | [] => [[c]]
      | l :: ls => (c :: l) :: ls

def isBlank (c : Char) : Bool := c = ' ' || c = '\t'

def isLetter (c : Char) : Bool := ('a' ≤ c && c ≤ 'z') || ('A' ≤ c && c ≤ 'Z')

/-- The name of the preprocessor directive in a line. -/
def directive (l : Str) : Str :=
  match l.dropWhile isBlank with
  | '#' :: r => (r.dropWhile isBlank).takeWhile isLetter
  | _ => []

def opens (l : Str) : Bool := directive l = str% "if" || directive l = str% "ifdef" || directive l = str% "ifndef"

def closes (l : Str) : Bool := directive l = str% "endif"

/-- The number of open conditionals after some lines.  `none`: an `#endif` without an
    `#if`. -/
def depth : Nat → List Str → Option Nat
  | d, [] => some d
  | d, l :: ls =>
    if opens l then depth (d + 1) ls
    else if closes l then
      match d with
      | 0 => none
      | d + 1 => depth d ls
    else depth d ls

/-- Whole lines. -/
def Whole (t : Str) : Prop := t = [] ∨ ∃ x, t = x ++ str% "\n"

/-- Whole lines in which each `#if` has its `#endif`. -/
def Balanced (t : Str) : Prop := Whole t ∧ ∀ d, depth d (lines t) = some d

end Gdo.GenSpec
