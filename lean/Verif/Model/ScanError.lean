import Verif.Model.Tokenize

/-!
Model of the error messages of the scanner (`src/lex.l` 130-160) and of
`tokenize_stream` (`src/tokenize.cpp` 128-135).

Simplifications: `yylineno` is an unbounded number, and the buffer of 128 characters is
never too small for it.
-/

namespace Gdo.Lex
open Gdo

/-- As `runFuel`, with the value of `yylineno` when the token is returned (the option
    `yylineno` of flex counts the newlines of the match before the action runs). -/
def runLinesFuel : Nat → State → Str → List (Tok × Nat) × End
  | 0, _, _ => ([], .echo)
  | _ + 1, _, [] => ([], .eof)
  | n + 1, st, c :: s =>
    match step st (c :: s) with
    | (.stop e, _) => ([], e)
    | (.next st' none, txt) => runLinesFuel n st' ((c :: s).drop txt.length)
    | (.next st' (some t), txt) =>
      let (ts, e) := runLinesFuel n st' ((c :: s).drop txt.length)
      ((t, st'.line) :: ts, e)

/-- As `run`. -/
def runLines (st : State) (s : Str) : List (Tok × Nat) × End := runLinesFuel (s.length + 1) st s

/-- What the error buffer tells. -/
inductive ScanErr
  /-- `set_illegal_char` (lex.l 146-157) -/
  | illegal (c : Char) (line : Nat)
  /-- `handle_ast_begin` (lex.l 132-143) -/
  | notFirst (line : Nat)
  deriving DecidableEq, Repr

/-- The loop of `tokenize_stream` (tokenize.cpp 64-163): the error that ends it. -/
def scanLoop (ro : Bool) : List (Tok × Nat) → End → Stream → Option ScanErr
  | [], .illegal c l, _ => some (.illegal c l)
  | [], .astNotFirst l, _ => some (.notFirst l)
  | [], .eof, _ => none
  | [], .echo, _ => none
  | (t, l) :: ts, e, st =>
    match streamStep ro st t with
    | .inl st' => scanLoop ro ts e st'
    | .inr .error => some (.illegal (strFront t.text) l)
    | .inr .eof => none
    | .inr .ast => none

/-- The error of `tokenize_stream` on a file content. -/
def scanError (ro : Bool) (s : Str) : Option ScanErr :=
  let (ts, e) := runLines {} s
  scanLoop ro ts e {}

/-- `isgraph` in the "C" locale. -/
def isGraph (c : Char) : Bool := '!' ≤ c && c ≤ '~'

/-- `%02X` of a byte. -/
def hexByte (c : Char) : Str :=
  let digit (n : Nat) : Char := if n < 10 then Char.ofNat (48 + n) else Char.ofNat (55 + n)
  [digit (c.toNat / 16), digit (c.toNat % 16)]

/-- The text in the error buffer (lex.l 132-157).  `signed`: the type `char` is signed.  Then a
    byte above 127 is a negative argument of `isgraph`, which is undefined. -/
def ScanErr.text (signed : Bool) : ScanErr → Ub Str
  | .illegal c l =>
    if signed ∧ 128 ≤ c.toNat then none
    else if isGraph c then some (str% "illegal character [" ++ [c] ++ str% "] at line " ++ natDigits l)
    else some (str% "illegal character [0x" ++ hexByte c ++ str% "] at line " ++ natDigits l)
  | .notFirst l => some (str% "begin of Clang AST found at line " ++ natDigits l ++ str% " instead of line 1")

end Gdo.Lex
