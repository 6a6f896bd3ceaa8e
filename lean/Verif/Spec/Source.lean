import Verif.Model.Lex

/-!
Specification of source texts as sequences of tokens, white space and comments,
independent of the scanner rules.
-/

namespace Gdo.Spec
open Gdo Gdo.Lex

/-- The text of a C comment between `/*` and `*/`: it does not contain the end mark,
    not even one that is split by a backslash-newline. -/
def CommentBody (body : Str) : Prop :=
  (∀ pre suf, body ++ ['*', '/'] = pre ++ ['*', '/'] ++ suf → suf = []) ∧
  (∀ pre ws suf, (∀ c ∈ ws, isSpace c = true) → body ≠ pre ++ ['*', '\\'] ++ ws ++ ['\n', '/'] ++ suf)

/-- A physical line (without its newline) that is not continued: it does not end in a
    backslash, not even one followed by white space. -/
def LastLine (l : Str) : Prop :=
  '\n' ∉ l ∧ ∀ pre ws, l = pre ++ ['\\'] ++ ws → ∃ c ∈ ws, isSpace c = false

/-- A logical line: physical lines that are continued by a backslash, and a last one
    that is not. -/
structure Logical where
  cont : List Str
  last : Str
  deriving DecidableEq

def Logical.text (l : Logical) : Str :=
  (l.cont.map (· ++ ['\\', '\n'])).flatten ++ l.last ++ ['\n']

/-- Well-formed logical lines. -/
def Logical.Valid (l : Logical) : Prop := (∀ x ∈ l.cont, '\n' ∉ x) ∧ LastLine l.last

/-- A continued line whose last line is not blank. -/
def Logical.NoBlankEnd (l : Logical) : Prop := l.cont = [] ∨ ∃ c ∈ l.last, isSpace c = false

/-- The parts of a preprocessor directive after `#`. -/
inductive DSeg
  | ch (c : Char)
  | cont                       -- a continued line
  | comment (body : Str)       -- a C comment on one line
  deriving DecidableEq

def DSeg.text : DSeg → Str
  | ch c => [c]
  | cont => ['\\', '\n']
  | comment b => ['/', '*'] ++ b ++ ['*', '/']

def dirText (ds : List DSeg) : Str := (ds.map DSeg.text).flatten

/-- Well-formed directives: single characters are not a newline, do not begin a comment
    and do not continue the line; what follows a continuation is not blank. -/
def DirOk : List DSeg → Prop
  | [] => True
  | .ch c :: ds =>
    c ≠ '\n' ∧
    (c = '\\' → ∃ d ds', ds = .ch d :: ds' ∧ isSpace d = false) ∧
    (c = '/' → ∃ d ds', ds = .ch d :: ds' ∧ d ≠ '/' ∧ d ≠ '*' ∧ d ≠ '\\') ∧ DirOk ds
  | .cont :: ds => (∃ c ∈ dirText ds, isSpace c = false) ∧ DirOk ds
  | .comment b :: ds => CommentBody b ∧ '\n' ∉ b ∧ DirOk ds

/-- How a directive ends. -/
inductive DEnd
  | newline
  | line (l : Logical)         -- a `//` comment
  | block (body : Str)         -- a C comment over several lines and a newline
  deriving DecidableEq

def DEnd.text : DEnd → Str
  | newline => ['\n']
  | line l => ['/', '/'] ++ l.text
  | block b => ['/', '*'] ++ b ++ ['*', '/'] ++ ['\n']

def DEnd.Valid : DEnd → Prop
  | newline => True
  | line l => l.Valid ∧ l.NoBlankEnd
  | block b => CommentBody b ∧ '\n' ∈ b

/-- The parts of an option line. -/
inductive OSeg
  | blank (c : Char)
  | word (w : Str)
  | cont
  deriving DecidableEq

def OSeg.text : OSeg → Str
  | blank c => [c]
  | word w => w
  | cont => ['\\', '\n']

def OSeg.tok : OSeg → Option Tok
  | word w => some ⟨.option, w⟩
  | _ => none

def optText (os : List OSeg) : Str := (os.map OSeg.text).flatten

/-- Well-formed option lines: words consist of anything but white space, they neither
    begin nor end with a backslash and are followed by a blank or the end of the line. -/
def OptOk : List OSeg → Prop
  | [] => True
  | .blank c :: os => isSpace c = true ∧ c ≠ '\n' ∧ OptOk os
  | .word w :: os =>
    w ≠ [] ∧ (∀ c ∈ w, isSpace c = false) ∧ w.head? ≠ some '\\' ∧ w.getLast? ≠ some '\\' ∧
    (os = [] ∨ ∃ c os', os = .blank c :: os') ∧ OptOk os
  | .cont :: os => (∃ c ∈ optText os, isSpace c = false) ∧ OptOk os

/-- The pieces of a source text. -/
inductive Piece
  | space (c : Char)
  | cComment (body : Str)
  | lineComment (l : Logical)
  | directive (ds : List DSeg) (e : DEnd)
  | option (c : Char) (os : List OSeg)
  | word (w : Str)
  | punct (c : Char)
  | dots
  deriving DecidableEq

/-- The text of a piece. -/
def Piece.text : Piece → Str
  | space c => [c]
  | cComment b => ['/', '*'] ++ b ++ ['*', '/']
  | lineComment l => ['/', '/'] ++ l.text
  | directive ds e => ['#'] ++ dirText ds ++ e.text
  | option c os => (str% "%option") ++ [c] ++ optText os ++ ['\n']
  | word w => w
  | punct c => [c]
  | dots => ['.', '.', '.']

/-- Well-formed pieces.  (A Clang AST dump is recognised by the word
    `TranslationUnitDecl`, so this name cannot be used in declarations.) -/
def Piece.Valid : Piece → Prop
  | space c => isSpace c = true
  | cComment b => CommentBody b
  | lineComment l => l.Valid ∧ l.NoBlankEnd
  | directive ds e => DirOk ds ∧ e.Valid
  | option c os => isSpace c = true ∧ c ≠ '\n' ∧ OptOk os
  | word w => w ≠ [] ∧ (∀ c ∈ w, isWord c = true) ∧ w ≠ str% "TranslationUnitDecl"
  | punct c => c ∈ ['*', ',', '(', ')', '[', ']', ';', '{', '}', '=']
  | dots => True

/-- The kind of token for a word. -/
def wordKind (w : Str) : TokKind :=
  if w = str% "struct" then .struct_ else if w = str% "union" then .union_
  else if w = str% "enum" then .enum_ else if w = str% "typedef" then .typedef_ else .id

/-- The kind of token for a punctuation character. -/
def punctKind (c : Char) : TokKind :=
  if c = ';' then .semicolon else if c = '{' then .curlyOpen else if c = '}' then .curlyClose
  else if c = '=' then .equal else .other

/-- The tokens a piece stands for. -/
def Piece.toks : Piece → List Tok
  | word w => if w = str% "extern" then [] else [⟨wordKind w, w⟩]
  | punct c => [⟨punctKind c, [c]⟩]
  | dots => [⟨.other, ['.', '.', '.']⟩]
  | option _ os => os.filterMap OSeg.tok
  | _ => []

/-- White space and comments. -/
def Piece.isGap : Piece → Bool
  | space _ | cComment _ | lineComment _ => true
  | _ => false

/-- Tokens. -/
def Piece.isToken : Piece → Bool
  | word _ | punct _ | dots => true
  | _ => false

/-- The tokens of a source text. -/
def tokens (ps : List Piece) : List Tok := (ps.map Piece.toks).flatten

/-- The characters of a source text. -/
def render (ps : List Piece) : Str := (ps.map Piece.text).flatten

/-- Words are separated by something. -/
def Separated : List Piece → Prop
  | .word _ :: .word _ :: _ => False
  | _ :: ps => Separated ps
  | [] => True

/-- The piece ends its line. -/
def Piece.endsLine : Piece → Bool
  | space c => c == '\n'
  | lineComment _ | directive _ _ | option _ _ => true
  | _ => false

/-- Directives are alone on their line up to white space before them, option lines begin
    in the first column.  `start`: at the beginning of a line, `blank`: only white space
    since the beginning of the line. -/
def Placed : Bool → Bool → List Piece → Prop
  | _, _, [] => True
  | start, blank, p :: ps =>
    (match p with
     | .directive _ _ => blank = true
     | .option _ _ => start = true
     | _ => True) ∧
    Placed p.endsLine (p.endsLine || (blank && match p with | .space _ => true | _ => false)) ps

/-- Well-formed source texts. -/
def Source (ps : List Piece) : Prop := (∀ p ∈ ps, p.Valid) ∧ Separated ps ∧ Placed true true ps

end Gdo.Spec
