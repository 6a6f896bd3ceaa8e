import Verif.Basic

/-!
Specification: the tokens of a C text, and which of them are left when the conditional
directives of the preprocessor were evaluated.

Simplifications: numbers are words, as are identifiers; macros are not expanded, and
directives other than conditionals are left out; a condition is made of `defined`, `!`,
`&&`, `||` and parentheses.  Text that needs more is not accepted.
-/

namespace Gdo.Cc
open Gdo

/-- A token: an identifier or number, a string literal, a character literal, a
    punctuator, the end of a line. -/
inductive Tok
  | word (w : Str)
  | str (s : Str)
  | chr (s : Str)
  | punct (p : Str)
  | nl
  deriving DecidableEq, Repr

/-- What is being read. -/
inductive Scan
  | code
  | word (w : Str)
  | punct (p : Str)
  | str (s : Str)
  | strEsc (s : Str)
  | chr (s : Str)
  | chrEsc (s : Str)
  | line
  | block
  | star
  | splice
  deriving DecidableEq, Repr

/-- The punctuators of two characters. -/
def operators : List Str :=
  [str% "==", str% "!=", str% "<=", str% ">=", str% "&&", str% "||", str% "->", str% "++", str% "--", str% "##", str% "::", str% "<<", str% ">>",
   str% "+=", str% "-="]

/-- The first character of a token. -/
def start (c : Char) : Scan × List Tok :=
  if isWord c then (.word [c], [])
  else if c = ' ' ∨ c = '\t' then (.code, [])
  else if c = '\n' then (.code, [.nl])
  else if c = '"' then (.str [], [])
  else if c = '\'' then (.chr [], [])
  else if c = '\\' then (.splice, [])
  else (.punct [c], [])

/-- One character: the new state and the tokens that are complete.  A punctuator is as
    long as possible. -/
def step : Scan → Char → Option (Scan × List Tok)
  | .code, c => some (start c)
  | .word w, c => if isWord c then some (.word (w ++ [c]), []) else some ((start c).1, .word w :: (start c).2)
  | .punct p, c =>
    if p = ['/'] ∧ c = '*' then some (.block, [])
    else if p = ['/'] ∧ c = '/' then some (.line, [])
    else if p ++ [c] ∈ operators then some (.punct (p ++ [c]), [])
    else some ((start c).1, .punct p :: (start c).2)
  | .str s, c =>
    if c = '"' then some (.code, [.str s])
    else if c = '\\' then some (.strEsc s, [])
    else if c = '\n' then none
    else some (.str (s ++ [c]), [])
  | .strEsc s, c => if c = '\n' then none else some (.str (s ++ ['\\', c]), [])
  | .chr s, c =>
    if c = '\'' then some (.code, [.chr s])
    else if c = '\\' then some (.chrEsc s, [])
    else if c = '\n' then none
    else some (.chr (s ++ [c]), [])
  | .chrEsc s, c => if c = '\n' then none else some (.chr (s ++ ['\\', c]), [])
  | .line, c =>
    if c = '\n' then some (.code, [.nl])
    else if c = '\\' then none
    else some (.line, [])
  | .block, c => if c = '*' then some (.star, []) else some (.block, [])
  | .star, c =>
    if c = '/' then some (.code, [])
    else if c = '*' then some (.star, [])
    else some (.block, [])
  | .splice, c => if c = '\n' then some (.code, []) else none

/-- All the characters of a text. -/
def scan : Scan → Str → Option (Scan × List Tok)
  | s, [] => some (s, [])
  | s, c :: r => (step s c).bind fun a => (scan a.1 r).map fun b => (b.1, a.2 ++ b.2)

/-- The token that ends with the text. -/
def flush : Scan → Option (List Tok)
  | .code => some []
  | .word w => some [.word w]
  | .punct p => some [.punct p]
  | .line => some []
  | _ => none

/-- The tokens of a text. -/
def tokens (t : Str) : Option (List Tok) := (scan .code t).bind fun a => (flush a.1).map (a.2 ++ ·)

/-! ### Conditional directives -/

/-- The lines of a sequence of tokens. -/
def splitLines : List Tok → List (List Tok)
  | [] => [[]]
  | .nl :: r => [] :: splitLines r
  | t :: r =>
    match splitLines r with
    | l :: ls => (t :: l) :: ls
    | [] => [[t]]

/-- An operand of a condition: `defined(x)`, a negation, a condition in parentheses.
    `sub`: how operands (2) and whole conditions (0) are read. -/
def operand (D : Str → Bool) (sub : Nat → List Tok → Option (Bool × List Tok)) : List Tok → Option (Bool × List Tok)
  | .punct p :: r =>
    if p = str% "!" then (sub 2 r).map fun b => (!b.1, b.2)
    else if p = str% "(" then
      (sub 0 r).bind fun b =>
        match b.2 with
        | .punct q :: r' => if q = str% ")" then some (b.1, r') else none
        | _ => none
    else none
  | .word w :: .punct p :: .word x :: .punct q :: r =>
    if w = str% "defined" ∧ p = str% "(" ∧ q = str% ")" then some (D x, r) else none
  | _ => none

/-- The operator that comes next. -/
def operatorIs (op : Str) : List Tok → Bool
  | .punct p :: _ => p = op
  | _ => false

/-- A condition, read from the left; `D`: which macros are defined.  Level 0: `||`,
    level 1: `&&`, level 2: the rest. -/
def cond (D : Str → Bool) : Nat → Nat → List Tok → Option (Bool × List Tok)
  | 0, _, _ => none
  | n + 1, lev, ts =>
    if lev = 0 then
      (cond D n 1 ts).bind fun a =>
        if operatorIs (str% "||") a.2 then (cond D n 0 a.2.tail).map fun b => (a.1 || b.1, b.2) else some a
    else if lev = 1 then
      (cond D n 2 ts).bind fun a =>
        if operatorIs (str% "&&") a.2 then (cond D n 1 a.2.tail).map fun b => (a.1 && b.1, b.2) else some a
    else operand D (cond D n) ts

/-- The condition of `#if` and `#elif`: all the tokens of the line. -/
def condition (D : Str → Bool) (ts : List Tok) : Option Bool :=
  match cond D (3 * ts.length + 3) 0 ts with
  | some (b, []) => some b
  | _ => none

/-- A conditional that was opened: whether one of its groups was used, whether the
    current group is used, whether it was the last one (`#else`). -/
structure Cond where
  taken : Bool
  on : Bool
  last : Bool
  deriving DecidableEq, Repr

/-- Text is used if it is in used groups only. -/
def active (st : List Cond) : Bool := st.all (·.on)

/-- The only token, if it is a word. -/
def only : List Tok → Option Str
  | [.word x] => some x
  | _ => none

/-- A directive: its name and the rest of the line. -/
def directive (D : Str → Bool) (d : Str) (ts : List Tok) (st : List Cond) : Option (List Cond) :=
  let begin (b : Option Bool) : Option (List Cond) :=
    if active st then b.map fun b => ⟨b, b, false⟩ :: st else some (⟨true, false, false⟩ :: st)
  if d = str% "if" then begin (condition D ts)
  else if d = str% "ifdef" then begin ((only ts).map D)
  else if d = str% "ifndef" then begin ((only ts).map fun x => !D x)
  else if d = str% "elif" then
    match st with
    | [] => none
    | c :: r =>
      if c.last then none
      else if c.taken then some (⟨true, false, false⟩ :: r)
      else (condition D ts).map fun b => ⟨b, b, false⟩ :: r
  else if d = str% "else" then
    match st with
    | [] => none
    | c :: r => if c.last then none else some (⟨true, !c.taken, true⟩ :: r)
  else if d = str% "endif" then
    match st with
    | [] => none
    | _ :: r => some r
  else some st

/-- The tokens of the lines that are used, without directives. -/
def used (D : Str → Bool) : List Cond → List (List Tok) → Option (List Tok)
  | st, [] => if st = [] then some [] else none
  | st, l :: ls =>
    match l with
    | .punct p :: r =>
      if p = str% "#" then
        match r with
        | .word d :: ts => (directive D d ts st).bind fun st' => used D st' ls
        | _ => none
      else if active st then (used D st ls).map (l ++ ·) else used D st ls
    | _ => if active st then (used D st ls).map (l ++ ·) else used D st ls

/-- The tokens that the compiler gets, macros not being expanded. -/
def preprocess (D : Str → Bool) (t : Str) : Option (List Tok) := (tokens t).bind fun ts => used D [] (splitLines ts)

end Gdo.Cc
