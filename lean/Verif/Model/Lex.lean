import Verif.Model.Utils

/-!
Model of the scanner `src/lex.l` (flex semantics: longest match, the first rule wins
among equally long matches, `^` needs the beginning of a line, `.` is any byte but
newline).  Each pattern is modelled by a function that gives the length of its longest
match at the front of the input.
-/

namespace Gdo.Lex
open Gdo

/-- Start conditions (lex.l 61-66). -/
inductive Cond
  | initial | ast | option | comment | cComment | pre | preComment
  deriving DecidableEq, Repr

/-- Return values of `yylex` (lex.h 10-26), without `LEX_ERROR`. -/
inductive TokKind
  | astBegin | astFuncvar | astParmvar | option
  | struct_ | union_ | enum_ | typedef_
  | id | other | curlyOpen | curlyClose | equal | semicolon
  deriving DecidableEq, Repr

/-- A returned token with `yytext`. -/
structure Tok where
  kind : TokKind
  text : Str
  deriving DecidableEq, Repr

/-- What the action of a rule does. -/
inductive Act
  | goto (c : Cond)          -- `BEGIN(c)`, no return
  | stay                     -- empty action
  | ret (k : TokKind)        -- `return k`
  | astBegin                 -- `return handle_ast_begin()`
  | illegal                  -- `set_illegal_char(); return LEX_ERROR`
  deriving DecidableEq, Repr

/-- A pattern: length of the longest match at the front of the input. -/
abbrev Pat := Str → Option Nat

/-- A literal. -/
def lit (l : Str) : Pat := fun s => if l.isPrefixOf s then some l.length else none

/-- Any byte except newline, `.` -/
def anyChar : Pat
  | [] => none
  | c :: _ => if c = '\n' then none else some 1

/-- One white space character, `[[:space:]]` -/
def spaceChar : Pat
  | [] => none
  | c :: _ => if isSpace c then some 1 else none

/-- Number of characters up to and including the last newline of a list. -/
def throughLastNl : Str → Nat
  | [] => 0
  | c :: cs =>
    match throughLastNl cs with
    | 0 => if c = '\n' then 1 else 0
    | n + 1 => n + 2

/-- `{split}` (lex.l 46): a backslash, white space (over any number of lines; flex has
    no lazy repetition, `*?` is an optional repetition) that ends in a newline. -/
def split : Pat
  | '\\' :: s =>
    match throughLastNl (s.takeWhile isSpace) with
    | 0 => none
    | n + 1 => some (n + 2)
  | _ => none

/-- `"a"{split}"b"` where `b` is not white space: then all the white space belongs to
    the split. -/
def splitBetween (a b : Char) : Pat
  | x :: '\\' :: s =>
    let ws := s.takeWhile isSpace
    if x = a ∧ ws.getLast? = some '\n' ∧ (s.dropWhile isSpace).head? = some b then some (ws.length + 3)
    else none
  | _ => none

/-- `{bom}` (lex.l 44) -/
def bom : Str := ['\xef', '\xbb', '\xbf']

/-- Rest after an optional `{bom}`. -/
def skipBom (s : Str) : Str := if bom.isPrefixOf s then s.drop 3 else s

/-- Rest after an optional `{col}` (lex.l 45): ESC [ digits/semicolons m. -/
def skipCol (s : Str) : Str :=
  match s with
  | '\x1b' :: '[' :: r =>
    match r.dropWhile (fun c => isDigit c || c == ';') with
    | 'm' :: r' => r'
    | _ => s
  | _ => s

/-- Rest after a literal. -/
def afterLit (l s : Str) : Option Str := if l.isPrefixOf s then some (s.drop l.length) else none

/-- The rest of the line, `.*` -/
def restOfLine (s : Str) : Nat := (s.takeWhile (· ≠ '\n')).length

/-- `{ast_begin}` (lex.l 47) without the `^`. -/
def astBeginPat : Pat := fun s => do
  let r ← afterLit (str% "TranslationUnitDecl") (skipCol (skipBom s))
  let r ← afterLit (str% " 0x") (skipCol (skipCol r))
  return (s.length - r.length) + restOfLine r

/-- `{funcvar}` (lex.l 48) without the `^`. -/
def funcvarPat : Pat := fun s => do
  let r := skipCol s
  let r ← (afterLit (str% "|-") r <|> afterLit (str% "`-") r)
  let r := skipCol (skipCol r)
  let r ← (afterLit (str% "FunctionDecl") r <|> afterLit (str% "VarDecl") r)
  let r ← afterLit (str% " 0x") (skipCol (skipCol r))
  return (s.length - r.length) + restOfLine r

/-- `{parmvar}` (lex.l 49) without the `^`. -/
def parmvarPat : Pat := fun s => do
  let r := skipCol s
  let r ← (afterLit (str% "| |-") r <|> afterLit (str% "| `-") r <|>
           afterLit (str% "  |-") r <|> afterLit (str% "  `-") r)
  let r ← afterLit (str% "ParmVarDecl") (skipCol (skipCol r))
  let r ← afterLit (str% " 0x") (skipCol (skipCol r))
  return (s.length - r.length) + restOfLine r

/-- `{option}` (lex.l 51) without the `^`. -/
def optionPat : Pat := fun s => do
  let r ← afterLit (str% "%option") (skipBom s)
  match r with
  | c :: r => if isSpace c then return s.length - r.length else none
  | [] => none

/-- `{optstr}` (lex.l 52) -/
def optstrPat : Pat := fun s =>
  match (s.takeWhile fun c => !isSpace c).length with
  | 0 => none
  | n + 1 => some (n + 1)

/-- `{preproc}` (lex.l 54) without the `^`: white space over any number of lines. -/
def preprocPat : Pat := fun s =>
  match (skipBom s).dropWhile isSpace with
  | '#' :: r => some (s.length - r.length)
  | _ => none

/-- `{identifier}` (lex.l 56) -/
def identPat : Pat := fun s =>
  match (s.takeWhile isWord).length with
  | 0 => none
  | n + 1 => some (n + 1)

/-- `{other}` (lex.l 57) -/
def otherPat : Pat
  | c :: _ => if c ∈ ['*', ',', '(', ')', '[', ']'] then some 1 else none
  | [] => none

/-- A rule: needs the beginning of a line, pattern, action. -/
structure Rule where
  bol : Bool := false
  pat : Pat
  act : Act

/-- The rules of each start condition in the order of lex.l 70-127.  (All conditions
    are exclusive.) -/
def rules : Cond → List Rule
  | .initial =>
    [ ⟨true, astBeginPat, .astBegin⟩                                -- 70
    , ⟨true, optionPat, .goto .option⟩                              -- 76
    , ⟨false, lit (str% "//"), .goto .comment⟩                      -- 82
    , ⟨false, splitBetween '/' '/', .goto .comment⟩                 -- 83
    , ⟨false, lit (str% "/*"), .goto .cComment⟩                     -- 88
    , ⟨false, splitBetween '/' '*', .goto .cComment⟩                -- 89
    , ⟨true, preprocPat, .goto .pre⟩                                -- 95
    , ⟨false, lit bom, .stay⟩                                       -- 109
    , ⟨false, spaceChar, .stay⟩                                     -- 110
    , ⟨false, lit (str% "extern"), .stay⟩                           -- 112
    , ⟨false, lit (str% "struct"), .ret .struct_⟩                   -- 113
    , ⟨false, lit (str% "union"), .ret .union_⟩                     -- 114
    , ⟨false, lit (str% "enum"), .ret .enum_⟩                       -- 115
    , ⟨false, lit (str% "typedef"), .ret .typedef_⟩                 -- 116
    , ⟨false, identPat, .ret .id⟩                                   -- 118
    , ⟨false, otherPat, .ret .other⟩                                -- 119
    , ⟨false, lit (str% "..."), .ret .other⟩                        -- 120
    , ⟨false, lit (str% "{"), .ret .curlyOpen⟩                      -- 122
    , ⟨false, lit (str% "}"), .ret .curlyClose⟩                     -- 123
    , ⟨false, lit (str% "="), .ret .equal⟩                          -- 124
    , ⟨false, lit (str% ";"), .ret .semicolon⟩                      -- 125
    , ⟨false, anyChar, .illegal⟩ ]                                  -- 127
  | .ast =>
    [ ⟨true, funcvarPat, .ret .astFuncvar⟩                          -- 71
    , ⟨true, parmvarPat, .ret .astParmvar⟩                          -- 72
    , ⟨false, lit ['\n'], .stay⟩                                    -- 73
    , ⟨false, anyChar, .stay⟩ ]                                     -- 74
  | .option =>
    [ ⟨false, split, .stay⟩                                         -- 77
    , ⟨false, optstrPat, .ret .option⟩                              -- 78
    , ⟨false, lit ['\n'], .goto .initial⟩                           -- 79
    , ⟨false, anyChar, .stay⟩ ]                                     -- 80
  | .comment =>
    [ ⟨false, split, .stay⟩                                         -- 84
    , ⟨false, lit ['\n'], .goto .initial⟩                           -- 85
    , ⟨false, anyChar, .stay⟩ ]                                     -- 86
  | .cComment =>
    [ ⟨false, lit (str% "*/"), .goto .initial⟩                      -- 90
    , ⟨false, splitBetween '*' '/', .goto .initial⟩                 -- 91
    , ⟨false, lit ['\n'], .stay⟩                                    -- 92
    , ⟨false, anyChar, .stay⟩ ]                                     -- 93
  | .pre =>
    [ ⟨false, lit (str% "/*"), .goto .preComment⟩                   -- 96
    , ⟨false, splitBetween '/' '*', .goto .cComment⟩                -- 97
    , ⟨false, lit (str% "//"), .goto .comment⟩                      -- 98
    , ⟨false, splitBetween '/' '/', .goto .comment⟩                 -- 99
    , ⟨false, split, .stay⟩                                         -- 100
    , ⟨false, lit ['\n'], .goto .initial⟩                           -- 101
    , ⟨false, anyChar, .stay⟩ ]                                     -- 102
  | .preComment =>
    [ ⟨false, lit (str% "*/"), .goto .pre⟩                          -- 104
    , ⟨false, splitBetween '*' '/', .goto .initial⟩                 -- 105
    , ⟨false, lit ['\n'], .goto .cComment⟩                          -- 106
    , ⟨false, anyChar, .stay⟩ ]                                     -- 107

/-- The longest match of a list of rules, the earlier rule wins a tie. -/
def bestMatch (bol : Bool) (s : Str) : List Rule → Option (Nat × Act)
  | [] => none
  | r :: rs =>
    match (if r.bol && !bol then none else r.pat s) with
    | none => bestMatch bol s rs
    | some n =>
      match bestMatch bol s rs with
      | none => some (n, r.act)
      | some (m, a) => if n < m then some (m, a) else some (n, r.act)

/-- State of the scanner: start condition, `yy_at_bol`, `yylineno`. -/
structure State where
  cond : Cond := .initial
  bol : Bool := true
  line : Nat := 1
  deriving DecidableEq, Repr

/-- How scanning ends. -/
inductive End
  | eof
  | illegal (c : Char) (line : Nat)   -- `set_illegal_char`
  | astNotFirst (line : Nat)          -- `handle_ast_begin`, lex.l 139-142
  | echo                              -- flex's default rule: copy to stdout
  deriving DecidableEq, Repr

/-- State after matching `txt` and `BEGIN(c)`. -/
def State.after (st : State) (txt : Str) (c : Cond) : State :=
  { cond := c, bol := txt.getLast? = some '\n', line := st.line + nlCount txt }

/-- The effect of one match. -/
inductive Step
  | next (st : State) (tok : Option Tok)
  | stop (e : End)
  deriving DecidableEq, Repr

/-- The effect of the action of a rule that matched `txt`. -/
def Act.effect (st : State) (txt : Str) : Act → Step
  | .goto c => .next (st.after txt c) none
  | .stay => .next (st.after txt st.cond) none
  | .ret k => .next (st.after txt st.cond) (some ⟨k, txt⟩)
  | .astBegin =>                                       -- `handle_ast_begin`, lex.l 132-143
    if (st.after txt st.cond).line = 1 then .next (st.after txt .ast) (some ⟨.astBegin, txt⟩)
    else .stop (.astNotFirst (st.after txt st.cond).line)
  | .illegal => .stop (.illegal (strFront txt) (st.after txt st.cond).line)

/-- One match and its action on a non-empty input; the matched text is the second
    component. -/
def step (st : State) (s : Str) : Step × Str :=
  match bestMatch st.bol s (rules st.cond) with
  | none => (.stop .echo, [])
  | some (n, a) => (a.effect st (s.take n), s.take n)

/-- All tokens that repeated calls of `yylex` return, at most `n` matches. -/
def runFuel : Nat → State → Str → List Tok × End
  | 0, _, _ => ([], .echo)
  | _ + 1, _, [] => ([], .eof)
  | n + 1, st, c :: s =>
    match step st (c :: s) with
    | (.stop e, _) => ([], e)
    | (.next st' none, txt) => runFuel n st' ((c :: s).drop txt.length)
    | (.next st' (some t), txt) =>
      let (ts, e) := runFuel n st' ((c :: s).drop txt.length)
      (t :: ts, e)

/-- All tokens of an input.  (`C01_enough_steps`: the bound is never reached.) -/
def run (st : State) (s : Str) : List Tok × End := runFuel (s.length + 1) st s

end Gdo.Lex
