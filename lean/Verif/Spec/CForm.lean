import Verif.Basic

/-!
Specification of C text on the level of comments, literals, brackets and conditional
directives.  In a well-formed text all of them are closed, and brackets that are opened
in a branch of a conditional are closed in this branch, so that they match whatever the
branches are that the compiler takes.
-/

namespace Gdo.CForm
open Gdo

/-- Where the scanner is: in code, behind a slash, in a string or character literal, in a
    comment. -/
inductive Mode
  | code | slash | str | strEsc | chr | chrEsc | line | block | star
  deriving DecidableEq, Repr

/-- The position in a line of code: nothing but blanks so far; behind the `#` of a
    directive; in the name of the directive; elsewhere. -/
inductive Pos
  | start | hash | name (w : Str) | rest
  deriving DecidableEq, Repr

/-- Something that is open: a conditional (`#else` seen or not) or a bracket. -/
inductive Frame
  | cond (orElse : Bool) | paren | square | curly
  deriving DecidableEq, Repr

structure St where
  mode : Mode
  pos : Pos
  /-- the last character was a backslash -/
  bs : Bool
  stack : List Frame
  deriving DecidableEq, Repr

/-- What a directive does with the open conditionals. -/
def directive (w : Str) (stack : List Frame) : Option (List Frame) :=
  if w = str% "if" ∨ w = str% "ifdef" ∨ w = str% "ifndef" then some (.cond false :: stack)
  else if w = str% "elif" then
    match stack with
    | .cond false :: r => some (.cond false :: r)
    | _ => none
  else if w = str% "else" then
    match stack with
    | .cond false :: r => some (.cond true :: r)
    | _ => none
  else if w = str% "endif" then
    match stack with
    | .cond _ :: r => some r
    | _ => none
  else some stack

/-- The directive if its name is complete. -/
def finish (pos : Pos) (stack : List Frame) : Option (List Frame) :=
  match pos with
  | .name w => directive w stack
  | _ => some stack

/-- A bracket is closed. -/
def close (f : Frame) (stack : List Frame) : Option (List Frame) :=
  match stack with
  | g :: r => if f = g then some r else none
  | [] => none

/-- A character that belongs to no word, in code; `stack`: with the directive in front of
    it. -/
def codeStep (s : St) (stack : List Frame) (c : Char) : Option St :=
  if c = ' ' ∨ c = '\t' then
    some ⟨.code, match s.pos with | .name _ => .rest | p => p, false, stack⟩
  else if c = '\n' then some ⟨.code, if s.bs then .rest else .start, false, stack⟩
  else if c = '(' then some ⟨.code, .rest, false, .paren :: stack⟩
  else if c = ')' then (close .paren stack).map fun r => ⟨.code, .rest, false, r⟩
  else if c = '{' then some ⟨.code, .rest, false, .curly :: stack⟩
  else if c = '}' then (close .curly stack).map fun r => ⟨.code, .rest, false, r⟩
  else if c = '[' then some ⟨.code, .rest, false, .square :: stack⟩
  else if c = ']' then (close .square stack).map fun r => ⟨.code, .rest, false, r⟩
  else if c = '#' then some ⟨.code, match s.pos with | .start => .hash | _ => .rest, false, stack⟩
  else if c = '/' then some ⟨.slash, match s.pos with | .name _ => .rest | p => p, false, stack⟩
  else if c = '"' then some ⟨.str, .rest, false, stack⟩
  else if c = '\'' then some ⟨.chr, .rest, false, stack⟩
  else if c = '\\' then some ⟨.code, .rest, true, stack⟩
  else some ⟨.code, .rest, false, stack⟩

/-- A character of a word, in code. -/
def wordChar (pos : Pos) (c : Char) : Pos :=
  match pos with
  | .hash => .name [c]
  | .name w => .name (w ++ [c])
  | _ => .rest

/-- The next character.  `none`: the text is not well-formed. -/
def step (s : St) (c : Char) : Option St :=
  match s.mode with
  | .code =>
    if isWord c then some ⟨.code, wordChar s.pos c, false, s.stack⟩
    else (finish s.pos s.stack).bind fun stack => codeStep s stack c
  | .slash =>
    if c = '*' then some { s with mode := .block }
    else if c = '/' then some { s with mode := .line }
    else if isWord c then some ⟨.code, .rest, false, s.stack⟩
    else codeStep { s with pos := .rest } s.stack c
  | .str =>
    if c = '"' then some { s with mode := .code }
    else if c = '\\' then some { s with mode := .strEsc }
    else if c = '\n' then none
    else some s
  | .strEsc => some { s with mode := .str }
  | .chr =>
    if c = '\'' then some { s with mode := .code }
    else if c = '\\' then some { s with mode := .chrEsc }
    else if c = '\n' then none
    else some s
  | .chrEsc => some { s with mode := .chr }
  | .line =>
    if c = '\n' then
      if s.bs then some { s with bs := false } else some ⟨.code, .start, false, s.stack⟩
    else some { s with bs := c == '\\' }
  | .block => some { s with mode := if c = '*' then .star else .block }
  | .star => some { s with mode := if c = '/' then .code else if c = '*' then .star else .block }

def run (s : St) : Str → Option St
  | [] => some s
  | c :: r => (step s c).bind fun s' => run s' r

/-- At the beginning of a line, with `stack` open. -/
def fresh (stack : List Frame) : St := ⟨.code, .start, false, stack⟩

/-- Whole lines after which nothing is open that was not before: all comments, literals,
    brackets and conditionals are closed in the place where they belong. -/
def WellFormed (t : Str) : Prop := ∀ stack, run (fresh stack) t = some (fresh stack)

/-- Text inside of a line of code, with all brackets closed. -/
def Inline (t : Str) : Prop := ∀ stack, run ⟨.code, .rest, false, stack⟩ t = some ⟨.code, .rest, false, stack⟩

end Gdo.CForm
