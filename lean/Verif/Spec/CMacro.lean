import Verif.Spec.CLex
import Verif.Spec.Builtin

/-!
Specification: macros of the C preprocessor.  The tokens of a text with the white space
between them, the table of macros that its directives leave, and the expansion of macros
with hide sets.

Simplifications: a line that is continued with a backslash is not continued inside of a
token; two dots are a token; digraphs and trigraphs are not known; a macro that is defined
already is defined anew (a compiler warns); conditions as in `Verif/Spec/CLex.lean`; the
operator `##` has two operands, text that needs more of them in a row is not accepted.
-/

namespace Gdo.Cpp
open Gdo Rename Tmpl

/-! ### Tokens -/

/-- A token: an identifier, a number, a string or character literal with the letters in
    front of it, a punctuator, the end of a line. -/
inductive PTok
  | ident (w : Str)
  | num (s : Str)
  | str (enc s : Str)
  | chr (enc s : Str)
  | punct (p : Str)
  | nl
  deriving DecidableEq, Repr

/-- A token and whether there is white space in front of it. -/
structure T where
  sp : Bool
  tok : PTok
  deriving DecidableEq, Repr

/-- What is being read. -/
inductive Lex
  | gap (sp : Bool)
  | word (sp : Bool) (w : Str)
  | num (sp : Bool) (s : Str)
  | punct (sp : Bool) (p : Str)
  | str (sp : Bool) (enc s : Str)
  | strEsc (sp : Bool) (enc s : Str)
  | chr (sp : Bool) (enc s : Str)
  | chrEsc (sp : Bool) (enc s : Str)
  | line
  | block
  | star
  | splice
  deriving DecidableEq, Repr

/-- The punctuators of more than one character. -/
def punctuators : List Str :=
  [str% "->", str% "++", str% "--", str% "<<", str% ">>", str% "<=", str% ">=", str% "==", str% "!=", str% "&&", str% "||", str% "*=",
   str% "/=", str% "%=", str% "+=", str% "-=", str% "<<=", str% ">>=", str% "&=", str% "^=", str% "|=", str% "##", str% "..", str% "...", str% "::"]

/-- The letters in front of literals. -/
def encodings : List Str := [str% "L", str% "u", str% "U", str% "u8"]

def startsDigit : Str → Bool
  | [] => false
  | c :: _ => '0' ≤ c && c ≤ '9'

/-- A number that ends with the letter of an exponent. -/
def exponent (s : Str) : Bool :=
  match s.getLast? with
  | some c => c = 'e' || c = 'E' || c = 'p' || c = 'P'
  | none => false

/-- The beginning of a token. -/
def begin (sp : Bool) : Piece → Lex × List T
  | .word w => if startsDigit w then (.num sp w, []) else (.word sp w, [])
  | .other c =>
    if c = ' ' ∨ c = '\t' then (.gap true, [])
    else if c = '\n' then (.gap true, [⟨false, .nl⟩])
    else if c = '"' then (.str sp [] [], [])
    else if c = '\'' then (.chr sp [] [], [])
    else if c = '\\' then (.splice, [])
    else (.punct sp [c], [])

/-- The end of a token and the beginning of the next one. -/
def next (t : T) (p : Piece) : Option (Lex × List T) := some ((begin false p).1, t :: (begin false p).2)

/-- One word or other character: the new state and the tokens that are complete. -/
def step : Lex → Piece → Option (Lex × List T)
  | .gap sp, p => some (begin sp p)
  | .word sp w, .word v => next ⟨sp, .ident w⟩ (.word v)
  | .word sp w, .other c =>
    if w ∈ encodings ∧ c = '"' then some (.str sp w [], [])
    else if w ∈ encodings ∧ c = '\'' then some (.chr sp w [], [])
    else next ⟨sp, .ident w⟩ (.other c)
  | .num sp s, .word w => some (.num sp (s ++ w), [])
  | .num sp s, .other c =>
    if c = '.' ∨ ((c = '+' ∨ c = '-') ∧ exponent s) then some (.num sp (s ++ [c]), [])
    else next ⟨sp, .num s⟩ (.other c)
  | .punct sp p, .word w =>
    if p = ['.'] ∧ startsDigit w then some (.num sp ('.' :: w), []) else next ⟨sp, .punct p⟩ (.word w)
  | .punct sp p, .other c =>
    if p = ['/'] ∧ c = '*' then some (.block, [])
    else if p = ['/'] ∧ c = '/' then some (.line, [])
    else if p ++ [c] ∈ punctuators then some (.punct sp (p ++ [c]), [])
    else next ⟨sp, .punct p⟩ (.other c)
  | .str sp e s, .word w => some (.str sp e (s ++ w), [])
  | .str sp e s, .other c =>
    if c = '"' then some (.gap false, [⟨sp, .str e s⟩])
    else if c = '\\' then some (.strEsc sp e s, [])
    else if c = '\n' then none
    else some (.str sp e (s ++ [c]), [])
  | .strEsc sp e s, .word w => some (.str sp e (s ++ '\\' :: w), [])
  | .strEsc sp e s, .other c => if c = '\n' then none else some (.str sp e (s ++ ['\\', c]), [])
  | .chr sp e s, .word w => some (.chr sp e (s ++ w), [])
  | .chr sp e s, .other c =>
    if c = '\'' then some (.gap false, [⟨sp, .chr e s⟩])
    else if c = '\\' then some (.chrEsc sp e s, [])
    else if c = '\n' then none
    else some (.chr sp e (s ++ [c]), [])
  | .chrEsc sp e s, .word w => some (.chr sp e (s ++ '\\' :: w), [])
  | .chrEsc sp e s, .other c => if c = '\n' then none else some (.chr sp e (s ++ ['\\', c]), [])
  | .line, .word _ => some (.line, [])
  | .line, .other c => if c = '\n' then some (.gap true, [⟨false, .nl⟩]) else if c = '\\' then none else some (.line, [])
  | .block, .word _ => some (.block, [])
  | .block, .other c => if c = '*' then some (.star, []) else some (.block, [])
  | .star, .word _ => some (.block, [])
  | .star, .other c => if c = '/' then some (.gap true, []) else if c = '*' then some (.star, []) else some (.block, [])
  | .splice, .word _ => none
  | .splice, .other c => if c = '\n' then some (.gap true, []) else none

/-- All the pieces of a text. -/
def lex : Lex → List Piece → Option (Lex × List T)
  | s, [] => some (s, [])
  | s, p :: r => (step s p).bind fun a => (lex a.1 r).map fun b => (b.1, a.2 ++ b.2)

/-- The token that ends with the text. -/
def flush : Lex → Option (List T)
  | .gap _ => some []
  | .word sp w => some [⟨sp, .ident w⟩]
  | .num sp s => some [⟨sp, .num s⟩]
  | .punct sp p => some [⟨sp, .punct p⟩]
  | .line => some []
  | _ => none

/-- The tokens of a text. -/
def tokens (t : Str) : Option (List T) := (lex (.gap true) (pieces t)).bind fun a => (flush a.1).map (a.2 ++ ·)

/-- The lines of a sequence of tokens. -/
def splitLines : List T → List (List T)
  | [] => [[]]
  | t :: r =>
    if t.tok = .nl then [] :: splitLines r
    else
      match splitLines r with
      | l :: ls => (t :: l) :: ls
      | [] => [[t]]

/-! ### Directives -/

/-- A macro: its parameters if it has a parameter list, whether that ends with three dots,
    the tokens it stands for. -/
structure Macro where
  params : Option (List Str)
  va : Bool
  body : List T
  deriving DecidableEq, Repr

/-- Definitions and removals, the last one first. -/
abbrev Table := List (Str × Option Macro)

/-- The macro of a name; `E`: the macros known before. -/
def known (E : Str → Option Macro) (t : Table) (x : Str) : Option Macro :=
  match t.lookup x with
  | some m => m
  | none => E x

/-- Whether a name is defined; `D`: the names defined before. -/
def isDefined (D : Str → Bool) (t : Table) (x : Str) : Bool :=
  match t.lookup x with
  | some m => m.isSome
  | none => D x

/-- The rest of a parameter list. -/
def paramList : List T → Option (List Str × Bool × List T)
  | ⟨_, .punct p⟩ :: ⟨_, .punct q⟩ :: r => if p = str% "..." ∧ q = str% ")" then some ([], true, r) else none
  | ⟨_, .ident x⟩ :: ⟨_, .punct p⟩ :: r =>
    if p = str% ")" then some ([x], false, r)
    else if p = str% "," then (paramList r).map fun a => (x :: a.1, a.2)
    else none
  | _ => none

/-- A parameter list, from the token behind its parenthesis on. -/
def parameters : List T → Option (List Str × Bool × List T)
  | ⟨sp, .punct p⟩ :: r => if p = str% ")" then some ([], false, r) else paramList (⟨sp, .punct p⟩ :: r)
  | ts => paramList ts

/-- A definition, from the name on.  A parameter list follows the name directly. -/
def definition : List T → Option (Str × Macro)
  | ⟨_, .ident n⟩ :: ⟨sp, t⟩ :: r =>
    if t = .punct (str% "(") ∧ sp = false then (parameters r).map fun a => (n, ⟨some a.1, a.2.1, a.2.2⟩)
    else some (n, ⟨none, false, ⟨sp, t⟩ :: r⟩)
  | [⟨_, .ident n⟩] => some (n, ⟨none, false, []⟩)
  | _ => none

/-- For conditions. -/
def toTok : PTok → Cc.Tok
  | .ident w => .word w
  | .num s => .word s
  | .str _ s => .str s
  | .chr _ s => .chr s
  | .punct p => .punct p
  | .nl => .nl

/-- The tokens of a condition.  `__has_builtin(x)` at its beginning is whether the compiler
    knows `x`, which is told together with what is defined. -/
def asked : List T → List T
  | ⟨sp, .ident w⟩ :: ⟨sp', .punct p⟩ :: r =>
    if w = str% "__has_builtin" ∧ p = str% "(" then ⟨sp, .ident (str% "defined")⟩ :: ⟨sp', .punct p⟩ :: r
    else ⟨sp, .ident w⟩ :: ⟨sp', .punct p⟩ :: r
  | r => r

def conditionals : List Str := [str% "if", str% "ifdef", str% "ifndef", str% "elif", str% "else", str% "endif"]

/-- A directive other than conditionals, in a group that is used; `inc`: what including a
    file does. -/
def action (inc : List T → Table) (d : Str) (r : List T) (t : Table) : Option Table :=
  if d = str% "define" then (definition r).map fun m => (m.1, some m.2) :: t
  else if d = str% "undef" then
    match r with
    | [⟨_, .ident x⟩] => some ((x, none) :: t)
    | _ => none
  else if d = str% "include" then some (inc r ++ t)
  else if d = str% "line" ∨ d = str% "pragma" then some t
  else none

/-- The rest of a line behind `#`. -/
def runDirective (inc : List T → Table) (D : Str → Bool) (s : Table × List Cc.Cond) : List T → Option (Table × List Cc.Cond)
  | [] => some s
  | ⟨_, .ident d⟩ :: r =>
    if d ∈ conditionals then (Cc.directive (isDefined D s.1) d ((asked r).map fun t => toTok t.tok) s.2).map fun st => (s.1, st)
    else if Cc.active s.2 then (action inc d r s.1).map fun t => (t, s.2)
    else some s
  | _ => none

/-- A line. -/
def runLine (inc : List T → Table) (D : Str → Bool) (s : Table × List Cc.Cond) : List T → Option (Table × List Cc.Cond)
  | ⟨_, .punct p⟩ :: r => if p = str% "#" then runDirective inc D s r else some s
  | _ => some s

def runLines (inc : List T → Table) (D : Str → Bool) : Table × List Cc.Cond → List (List T) → Option (Table × List Cc.Cond)
  | s, [] => some s
  | s, l :: ls => (runLine inc D s l).bind fun s' => runLines inc D s' ls

/-- The definitions of a text; every conditional in it is closed. -/
def definitions (inc : List T → Table) (D : Str → Bool) (text : Str) : Option Table :=
  (tokens text).bind fun ts => (runLines inc D ([], []) (splitLines ts)).bind fun s => if s.2 = [] then some s.1 else none

/-- The macros behind a text. -/
def after (inc : List T → Table) (E : Str → Option Macro) (text : Str) : Option (Str → Option Macro) :=
  (definitions inc (fun x => (E x).isSome) text).map fun t => known E t

/-- The end of a line. -/
def nlT : T := ⟨false, .nl⟩

/-- A text that ends with the end of a line, and its tokens but for that end. -/
def Whole (a : Str) (x : List T) : Prop := lex (.gap true) (pieces a) = some (.gap true, x ++ [nlT]) ∧ ∃ a', a = a' ++ ['\n']

/-- A text of whole lines with closed conditionals that neither defines nor removes the
    macros `S`, whatever is defined before. -/
def Harmless (inc : List T → Table) (S : List Str) (a : Str) : Prop :=
  a = [] ∨ ∃ x, Whole a x ∧ ∀ D, ∃ t, runLines inc D ([], []) (splitLines x) = some (t, []) ∧ ∀ y ∈ S, t.lookup y = none

/-! ### Expansion -/

/-- A token that is being expanded, and the macros that it comes from. -/
structure H where
  hide : List Str
  sp : Bool
  tok : PTok
  deriving DecidableEq, Repr

/-- How a token is written. -/
def spell : PTok → Str
  | .ident w => w
  | .num s => s
  | .str e s => e ++ str% "\"" ++ s ++ str% "\""
  | .chr e s => e ++ str% "'" ++ s ++ str% "'"
  | .punct p => p
  | .nl => []

/-- How it is written inside of a literal. -/
def quoted : PTok → Str
  | .str e s => (spell (.str e s)).flatMap fun c => if c = '"' ∨ c = '\\' then ['\\', c] else [c]
  | .chr e s => (spell (.chr e s)).flatMap fun c => if c = '"' ∨ c = '\\' then ['\\', c] else [c]
  | t => spell t

/-- An argument as the content of a string literal. -/
def stringify : List H → Str
  | [] => []
  | t :: r => quoted t.tok ++ r.flatMap fun t => (if t.sp then str% " " else []) ++ quoted t.tok

/-- The arguments, from the token behind the parenthesis on, inside of `d` others; the
    macros that the last parenthesis comes from, the tokens behind it. -/
def arguments : Nat → List H → List H → Option (List (List H) × List Str × List H)
  | _, _, [] => none
  | d, cur, t :: r =>
    if t.tok = .punct (str% ")") then
      match d with
      | 0 => some ([cur], t.hide, r)
      | d + 1 => arguments d (cur ++ [t]) r
    else if t.tok = .punct (str% "(") then arguments (d + 1) (cur ++ [t]) r
    else if t.tok = .punct (str% ",") ∧ d = 0 then (arguments 0 [] r).map fun x => (cur :: x.1, x.2)
    else arguments d (cur ++ [t]) r

/-- Arguments joined by commas. -/
def joined : List (List H) → List H
  | [] => []
  | [a] => a
  | a :: r => a ++ ⟨[], false, .punct (str% ",")⟩ :: joined r

/-- The arguments of the parameters. -/
def bindings (ps : List Str) (va : Bool) (as : List (List H)) : Option (List (Str × List H)) :=
  if ps = [] ∧ va = false ∧ as = [[]] then some []
  else if va then
    if ps.length ≤ as.length then some (ps.zip as ++ [(str% "__VA_ARGS__", joined (as.drop ps.length))]) else none
  else if ps.length = as.length then some (ps.zip as)
  else none

/-- The white space in front of the first token. -/
def withSpace (sp : Bool) : List H → List H
  | [] => []
  | t :: r => { t with sp := sp } :: r

/-- An operand of `##`: arguments are not expanded. -/
def operand (raw : List (Str × List H)) (t : T) : List H :=
  match t.tok with
  | .ident x =>
    match raw.lookup x with
    | some a => withSpace t.sp a
    | none => [⟨[], t.sp, t.tok⟩]
  | _ => [⟨[], t.sp, t.tok⟩]

/-- Two operands as one: their tokens next to each other are written together and must be
    one token then. -/
def paste : List H → List H → Option (List H)
  | [], b => some b
  | [x], y :: r =>
    match tokens (spell x.tok ++ spell y.tok) with
    | some [t] => some (⟨x.hide.filter (· ∈ y.hide), x.sp, t.tok⟩ :: r)
    | _ => none
  | [x], [] => some [x]
  | x :: x' :: a, b => (paste (x' :: a) b).map (x :: ·)

/-- The operators of macro bodies. -/
def isOperator (t : PTok) : Bool := t = .punct (str% "#") || t = .punct (str% "##")

/-- What a macro stands for with its arguments: as they are (`raw`) beside `##` and behind
    `#`, expanded (`ex`) elsewhere. -/
def fill (fn : Bool) (raw : List (Str × List H)) (ex : List (Str × Option (List H))) : List T → Option (List H)
  | [] => some []
  | [t] =>
    match t.tok with
    | .punct p => if p = str% "##" ∨ (p = str% "#" ∧ fn = true) then none else some [⟨[], t.sp, t.tok⟩]
    | .ident x =>
      match ex.lookup x with
      | some a => a.map (withSpace t.sp)
      | none => some [⟨[], t.sp, t.tok⟩]
    | _ => some [⟨[], t.sp, t.tok⟩]
  | t :: t' :: r =>
    if t'.tok = .punct (str% "##") ∧ isOperator t.tok = false then
      match r with
      | [] => none
      | t'' :: r' =>
        if isOperator t''.tok then none
        else (paste (operand raw t) (operand raw t'')).bind fun a => (fill fn raw ex r').map fun b => a ++ b
    else
    match t.tok with
    | .punct p =>
      if p = str% "##" then none
      else if p = str% "#" ∧ fn = true then
        match t'.tok with
        | .ident x => (raw.lookup x).bind fun a => (fill fn raw ex r).map fun b => ⟨[], t.sp, .str [] (stringify a)⟩ :: b
        | _ => none
      else (fill fn raw ex (t' :: r)).map fun b => ⟨[], t.sp, t.tok⟩ :: b
    | .ident x =>
      match ex.lookup x with
      | some a => a.bind fun a => (fill fn raw ex (t' :: r)).map fun b => withSpace t.sp a ++ b
      | none => (fill fn raw ex (t' :: r)).map fun b => ⟨[], t.sp, t.tok⟩ :: b
    | _ => (fill fn raw ex (t' :: r)).map fun b => ⟨[], t.sp, t.tok⟩ :: b

/-- More macros that the tokens come from. -/
def painted (hs : List Str) (ts : List H) : List H := ts.map fun t => { t with hide := hs ++ t.hide }

/-- The expansion of all macros, in at most `n` steps. -/
def expand (E : Str → Option Macro) : Nat → List H → Option (List H)
  | 0, _ => none
  | _ + 1, [] => some []
  | n + 1, t :: r =>
    match t.tok with
    | .ident w =>
      match (if w ∈ t.hide then none else E w) with
      | none => (expand E n r).map (t :: ·)
      | some m =>
        match m.params with
        | none => (fill false [] [] m.body).bind fun b => expand E n (withSpace t.sp (painted (w :: t.hide) b) ++ r)
        | some ps =>
          match r with
          | [] => some [t]
          | o :: r =>
            if o.tok = .punct (str% "(") then
              (arguments 0 [] r).bind fun a =>
                (bindings ps m.va a.1).bind fun raw =>
                  (fill true raw (raw.map fun p => (p.1, expand E n p.2)) m.body).bind fun b =>
                    expand E n (withSpace t.sp (painted (w :: t.hide.filter (· ∈ a.2.1)) b) ++ a.2.2)
            else (expand E n (o :: r)).map (t :: ·)
    | _ => (expand E n r).map (t :: ·)

/-- A name in the code. -/
def name (x : Str) : List H := [⟨[], true, .ident x⟩]

/-- Adjacent string literals are one: whether it is wide, and its content. -/
def literal : List H → Option (Bool × Str)
  | [] => some (false, [])
  | t :: r =>
    match t.tok with
    | .str e s =>
      if e = [] then (literal r).map fun a => (a.1, s ++ a.2)
      else if e = str% "L" then (literal r).map fun a => (true, s ++ a.2)
      else none
    | _ => none

/-- The tokens are a string literal after expansion, whatever number of steps is allowed
    from some number on. -/
def Yields (E : Str → Option Macro) (ts : List H) (wide : Bool) (s : Str) : Prop :=
  ∃ N, ∀ n, N ≤ n → ∃ out, expand E n ts = some out ∧ out ≠ [] ∧ literal out = some (wide, s)

/-- The name `x` in the code stands for a string literal. -/
def StandsFor (E : Str → Option Macro) (x : Str) (wide : Bool) (s : Str) : Prop := Yields E (name x) wide s

/-- The code `text` is a string literal. -/
def Means (E : Str → Option Macro) (text : Str) (wide : Bool) (s : Str) : Prop :=
  ∃ ts, tokens text = some ts ∧ Yields E (ts.map fun t => ⟨[], t.sp, t.tok⟩) wide s

/-- Wherever the name `x` stands in the code, the tokens `ts` take its place, and what
    follows is expanded on its own. -/
def Becomes (E : Str → Option Macro) (x : Str) (ts : List PTok) : Prop :=
  ∃ k, ∀ sp r n, ∃ out, out.map (·.tok) = ts ∧ expand E (n + k) (⟨[], sp, .ident x⟩ :: r) = (expand E n r).map (out ++ ·)

/-- An identifier. -/
def Identifier (s : Str) : Prop := s ≠ [] ∧ (∀ c ∈ s, isWord c = true) ∧ startsDigit s = false

/-! ### File names of libraries -/

/-- Characters of file names besides letters, digits and `_`. -/
def nameMarks : List Char := ['.', '+', '-', '~', '@']

/-- The characters of a name of a library. -/
def NameText (s : Str) : Prop := ∀ c ∈ s, isWord c = true ∨ c ∈ nameMarks

/-- No words of the text are macros. -/
def NoWords (E : Str → Option Macro) (s : Str) : Prop := ∀ w, .word w ∈ pieces s → E w = none

/-- The systems. -/
inductive System
  | mingw | windows | macos | aix32 | aix64 | android | elf
  deriving DecidableEq, Repr

/-- The system that macros tell. -/
def systemOf (D : Str → Bool) : System :=
  if D (str% "_WIN32") then (if D (str% "__MINGW32__") then .mingw else .windows)
  else if D (str% "__APPLE__") then .macos
  else if D (str% "_AIX") then (if D (str% "__64BIT__") || D (str% "__LP64__") then .aix64 else .aix32)
  else if D (str% "__ANDROID__") then .android
  else .elf

/-- The file name of the library `name` with an API number. -/
def System.fileName (name api : Str) : System → Str
  | .mingw => str% "lib" ++ name ++ str% "-" ++ api ++ str% ".dll"
  | .windows => name ++ str% "-" ++ api ++ str% ".dll"
  | .macos => str% "lib" ++ name ++ str% "." ++ api ++ str% ".dylib"
  | .aix32 => str% "lib" ++ name ++ str% ".a(shr.o)"
  | .aix64 => str% "lib" ++ name ++ str% ".a(shr_64.o)"
  | .android => str% "lib" ++ name ++ str% ".so"
  | .elf => str% "lib" ++ name ++ str% ".so." ++ api

/-- The file name extension. -/
def System.extension : System → Str
  | .mingw => str% ".dll"
  | .windows => str% ".dll"
  | .macos => str% ".dylib"
  | .aix32 => str% ".a"
  | .aix64 => str% ".a"
  | .android => str% ".so"
  | .elf => str% ".so"

/-- The characters of a string literal that stand for themselves. -/
def LiteralText (s : Str) : Prop := ∀ c ∈ s, c ≠ '"' ∧ c ≠ '\\' ∧ c ≠ '\n' ∧ c ≠ '\r'

/-- The file `f` that a name given to the tool stands for on a system, and the part `t` of
    the name that compilers look for macros in. -/
inductive Opens (sys : System) : Str → Str → Str → Prop
  | plain {s} : LiteralText s → (∀ c r, s = c :: r → c ∉ str% "NnEeAa") → s ≠ [] → Opens sys s s []
  | quoted {s} : LiteralText s → Opens sys (str% "\"" ++ s ++ str% "\"") s []
  | extension {m s} : m.map Gdo.toLowerC = str% "ext:" → LiteralText s → s ≠ [] → Opens sys (m ++ s) (s ++ sys.extension) []
  | api {m v s} : m.map Gdo.toLowerC = str% "api:" → NameText v → NameText s →
      Opens sys (m ++ v ++ str% ":" ++ s) (sys.fileName s v) (s ++ str% "," ++ v)

end Gdo.Cpp
