import Verif.Basic
import Verif.Model.Parse

/-!
Specification of Clang AST dumps: the lines of interest, with terminal colours and CR LF
line ends, what they declare, and the parameter lists made from it.
-/

namespace Gdo.Spec

/-- The inside of a colour code. -/
def isColor (c : Char) : Bool := isDigit c || c == ';'

/-- A colour code or nothing. -/
def IsCode (c : Str) : Prop :=
  c = [] ∨ ∃ k, c = '\x1b' :: '[' :: (k ++ ['m']) ∧ ∀ x ∈ k, isColor x = true

/-- The second text is the first one without colour codes. -/
inductive Plain : Str → Str → Prop
  | nil : Plain [] []
  | char (c : Char) (s p : Str) : c ≠ '\x1b' → Plain s p → Plain (c :: s) (c :: p)
  | code (k s p : Str) : (∀ x ∈ k, isColor x = true) → Plain s p →
      Plain ('\x1b' :: '[' :: (k ++ 'm' :: s)) p

/-- The colour codes around the marks and keywords of a line. -/
structure Codes where
  c0 : Str := []
  c1 : Str := []
  c2 : Str := []
  c3 : Str := []
  c4 : Str := []

def Codes.Valid (c : Codes) : Prop :=
  IsCode c.c0 ∧ IsCode c.c1 ∧ IsCode c.c2 ∧ IsCode c.c3 ∧ IsCode c.c4

/-- A line of an AST dump (without the newline). -/
inductive ALine
  /-- A function (`fn`) or variable with its name and type; `bar` is the mark, `raw` what
      follows the beginning of the address, `cr` tells whether the line ends in CR LF. -/
  | decl (fn : Bool) (bar : Char) (codes : Codes) (raw : Str) (cr : Bool) (symbol type : Str)
  /-- A parameter with its type, `pre` is what comes in front. -/
  | parm (pre : Str) (codes : Codes) (raw : Str) (cr : Bool) (type : Str)
  /-- Any other line. -/
  | other (text : Str)

/-- `FunctionDecl` or `VarDecl` -/
def declWord (fn : Bool) : Str := if fn then str% "FunctionDecl" else str% "VarDecl"

def crText (cr : Bool) : Str := if cr then ['\r'] else []

/-- The text of a line. -/
def ALine.text : ALine → Str
  | .decl fn bar c raw cr _ _ =>
    c.c0 ++ ([bar, '-'] ++ (c.c1 ++ (c.c2 ++ (declWord fn ++ (c.c3 ++ (c.c4 ++ (str% " 0x" ++ (raw ++ crText cr))))))))
  | .parm pre c raw cr _ =>
    c.c0 ++ (pre ++ (c.c1 ++ (c.c2 ++ (str% "ParmVarDecl" ++ (c.c3 ++ (c.c4 ++ (str% " 0x" ++ (raw ++ crText cr))))))))
  | .other s => s

/-- No line break. -/
def OneLine (s : Str) : Prop := '\r' ∉ s ∧ '\n' ∉ s

/-- The marks in front of a parameter line. -/
def parmMarks : List Str := [str% "| |-", str% "| `-", str% "  |-", str% "  `-"]

/-- The beginnings of declaration and parameter lines. -/
def declMarks : List Str :=
  [str% "|-FunctionDecl 0x", str% "`-FunctionDecl 0x", str% "|-VarDecl 0x", str% "`-VarDecl 0x",
   str% "| |-ParmVarDecl 0x", str% "| `-ParmVarDecl 0x", str% "  |-ParmVarDecl 0x", str% "  `-ParmVarDecl 0x"]

/-- A line as Clang prints it: the name is a word in front of the quoted type, the text
    in front has no quotes; other lines do not begin like a declaration. -/
def ALine.Valid : ALine → Prop
  | .decl _ bar c raw _ symbol type =>
    (bar = '|' ∨ bar = '`') ∧ c.Valid ∧ (∀ x ∈ symbol, isWord x = true) ∧ symbol ≠ [] ∧ '\'' ∉ type ∧
    ∃ junk tail, '\'' ∉ junk ∧ OneLine junk ∧ OneLine type ∧ OneLine tail ∧
      Plain raw (junk ++ (' ' :: (symbol ++ (' ' :: '\'' :: (type ++ ('\'' :: tail))))))
  | .parm pre c raw _ type =>
    pre ∈ parmMarks ∧ c.Valid ∧ '\'' ∉ type ∧
    ∃ junk tail, '\'' ∉ junk ∧ OneLine junk ∧ OneLine type ∧ OneLine tail ∧
      Plain raw (junk ++ (' ' :: '\'' :: (type ++ ('\'' :: tail))))
  | .other s => '\n' ∉ s ∧ ∃ p, Plain s p ∧ ∀ m ∈ declMarks, ¬ m <+: p

/-- The text of an AST dump. -/
def dumpText (codes : Codes) (head : Str) (lines : List ALine) : Str :=
  codes.c0 ++ (str% "TranslationUnitDecl" ++ (codes.c1 ++ (codes.c2 ++ (str% " 0x" ++ (head ++ ('\n' ::
    (lines.map fun l => l.text ++ ['\n']).flatten))))))

/-- A declaration. -/
inductive Item
  | func (symbol type : Str) (params : List Str)
  | var (symbol type : Str)
  deriving DecidableEq, Repr

def Item.symbol : Item → Str
  | .func s _ _ | .var s _ => s

/-- The parameters in the following lines. -/
def parmsOf : List ALine → List Str
  | .parm _ _ _ _ type :: r => type :: parmsOf r
  | .other _ :: r => parmsOf r
  | _ => []

/-- The declarations of a dump. -/
def itemsOf : List ALine → List Item
  | [] => []
  | .decl fn _ _ _ _ symbol type :: r =>
    (if fn then .func symbol type (parmsOf r) else .var symbol type) :: itemsOf r
  | _ :: r => itemsOf r


/-- The type with the name put into the first `(*)`. -/
def insertName (name : Str) : Str → Option Str
  | '(' :: '*' :: ')' :: r => some ('(' :: '*' :: (name ++ ')' :: r))
  | c :: r => (insertName name r).map (c :: ·)
  | [] => none

/-- The declaration of a parameter: the name goes into the first `(*)`, or behind the type. -/
def declareParm (type name : Str) : Str :=
  match insertName name type with
  | some s => s
  | none => if type.getLast? = some '*' then type ++ name else type ++ ' ' :: name

/-- The name of the parameter with this number. -/
def parmName (i : Nat) : Str := 'a' :: Nat.toDigits 10 i

/-- The names of the parameters from number `i` on. -/
def parmNames : Nat → List Str → List Str
  | _, [] => []
  | i, _ :: r => parmName i :: parmNames (i + 1) r

/-- The declarations of the parameters from number `i` on. -/
def parmDecls : Nat → List Str → List Str
  | _, [] => []
  | i, t :: r => declareParm t (parmName i) :: parmDecls (i + 1) r

/-- A list with `, ` in between. -/
def commaList : List Str → Str
  | [] => []
  | [a] => a
  | a :: b :: r => a ++ (str% ", " ++ commaList (b :: r))

/-- `t` is `s` without white space at the ends. -/
def Trimmed (s t : Str) : Prop :=
  (∃ p q, s = p ++ (t ++ q) ∧ (∀ c ∈ p, isSpace c = true) ∧ (∀ c ∈ q, isSpace c = true)) ∧
  (∀ c, t.head? = some c → isSpace c = false) ∧ (∀ c, t.getLast? = some c → isSpace c = false)

/-- There is a `(*)` in the text. -/
def HasPtr (s : Str) : Prop := ∃ a b, s = a ++ (str% "(*)" ++ b)

/-- `p` is the symbol that the declaration stands for. -/
def Item.Reads : Item → Proto → Prop
  | .func symbol type params, p =>
    p.kind = .function ∧ p.symbol = symbol ∧ (∃ front rest, type = front ++ '(' :: rest ∧ '(' ∉ front ∧ Trimmed front p.type) ∧
    p.args = commaList (parmDecls 1 params) ∧ p.paramNames = commaList (parmNames 1 params)
  | .var symbol type, p =>
    (HasPtr type → p.kind = .functionPointer) ∧
    (¬ HasPtr type → '[' ∈ type → p.kind = .objectArray) ∧
    (¬ HasPtr type → '[' ∉ type → p.kind = .object) ∧
    p.symbol = symbol ∧ Trimmed type p.type ∧ p.args = [] ∧ p.paramNames = []

end Gdo.Spec
