import Verif.Model.Parse

/-!
Specification of C declarations as token lists, independent of the parser: what a
user writes (`Decl.print`) and what it means (`Decl.kind`, `Decl.typeText`,
`Decl.name`, `Decl.paramList`).
-/

namespace Gdo.Spec

/-- An identifier (or keyword, or number) token. -/
def IdentTok (t : Str) : Prop := t ≠ [] ∧ ∀ c ∈ t, isWord c = true

instance (t : Str) : Decidable (IdentTok t) := inferInstanceAs (Decidable (_ ∧ _))

/-- The tokens of a type: one word, then words and pointer stars. -/
def TypeToks (T : Toks) : Prop :=
  ∃ h r, T = h :: r ∧ IdentTok h ∧ ∀ t ∈ r, IdentTok t ∨ t = ['*']

/-- The type is one word, or its last token is a star. -/
def OneWordOrPointer (T : Toks) : Prop := T.length = 1 ∨ T.getLast? = some ['*']

/-- Nesting change of a token. -/
def delta (t : Str) : Int :=
  if t.head? = some '(' then 1 else if t.head? = some ')' then -1 else 0

/-- Put a token in front of the first segment. -/
def consHead (t : Str) : List Toks → List Toks
  | [] => [[t]]
  | s :: ss => (t :: s) :: ss

/-- The segments between commas at nesting depth 0. -/
def segments (d : Int) : Toks → List Toks
  | [] => [[]]
  | t :: ts =>
    if t.head? = some ',' ∧ d = 0 then [] :: segments 0 ts
    else consHead t (segments (d + delta t) ts)

/-- The parameters of a parameter list: the segments, a last empty one is not a
    parameter. -/
def paramSegments (ts : Toks) : List Toks :=
  if (segments 0 ts).getLast? = some [] then (segments 0 ts).dropLast else segments 0 ts

/-- Each word followed by a blank. -/
def spaced (ts : Toks) : Str := (ts.map fun t => t ++ [' ']).flatten

/-- The shapes of declarations. -/
inductive Decl
  /-- `T name(params)` -/
  | func (T : Toks) (name : Str) (params : Toks)
  /-- `T (name)(params)` -/
  | funcParen (T : Toks) (name : Str) (params : Toks)
  /-- `T (*name(params))` -/
  | funcPtr1 (T : Toks) (name : Str) (params : Toks)
  /-- `T (**name(params))` -/
  | funcPtr2 (T : Toks) (name : Str) (params : Toks)
  /-- `T (*name)(params)` -/
  | funPtrVar (T : Toks) (name : Str) (params : Toks)
  /-- `T name` -/
  | var (T : Toks) (name : Str)
  /-- `T name[suffix]` -/
  | array (T : Toks) (name : Str) (suffix : Toks)

/-- The tokens of a declaration, without the semicolon. -/
def Decl.print : Decl → Toks
  | func T n ps => T ++ [n, ['(']] ++ ps ++ [[')']]
  | funcParen T n ps => T ++ [['('], n, [')'], ['(']] ++ ps ++ [[')']]
  | funcPtr1 T n ps => T ++ [['('], ['*'], n, ['(']] ++ ps ++ [[')'], [')']]
  | funcPtr2 T n ps => T ++ [['('], ['*'], ['*'], n, ['(']] ++ ps ++ [[')'], [')']]
  | funPtrVar T n ps => T ++ [['('], ['*'], n, [')'], ['(']] ++ ps ++ [[')']]
  | var T n => T ++ [n]
  | array T n s => T ++ [n, ['[']] ++ s ++ [[']']]

/-- The type tokens in front. -/
def Decl.base : Decl → Toks
  | func T _ _ | funcParen T _ _ | funcPtr1 T _ _ | funcPtr2 T _ _
  | funPtrVar T _ _ | var T _ | array T _ _ => T

/-- The declared name. -/
def Decl.name : Decl → Str
  | func _ n _ | funcParen _ n _ | funcPtr1 _ n _ | funcPtr2 _ n _
  | funPtrVar _ n _ | var _ n | array _ n _ => n

/-- Function or kind of object. -/
def Decl.kind : Decl → ProtoKind
  | func .. | funcParen .. | funcPtr1 .. | funcPtr2 .. => .function
  | funPtrVar .. => .functionPointer
  | var .. => .object
  | array .. => .objectArray

/-- The (return) type as text with blanks between the tokens. -/
def Decl.typeText : Decl → Str
  | func T _ _ | funcParen T _ _ | var T _ => spaced T
  | funcPtr1 T _ _ => spaced (T ++ [['*']])
  | funcPtr2 T _ _ => spaced (T ++ [['*'], ['*']])
  | funPtrVar T _ ps => spaced T ++ ['(', '*', ')'] ++ spaced ([['(']] ++ ps ++ [[')']])
  | array T _ s => spaced (T ++ [['[']] ++ s ++ [[']']])

/-- The parameters of functions. -/
def Decl.paramList : Decl → List Toks
  | func _ _ ps | funcParen _ _ ps | funcPtr1 _ _ ps | funcPtr2 _ _ ps => paramSegments ps
  | funPtrVar .. | var .. | array .. => []

/-- A declaration made of a valid type and a valid name (the tokens of the
    parameters or of the array suffix are arbitrary). -/
def Decl.Valid (d : Decl) : Prop := TypeToks d.base ∧ IdentTok d.name

/-- What reading the declaration should give. -/
def Decl.meaning (d : Decl) : Proto :=
  { kind := d.kind, type := d.typeText, symbol := d.name, argsVec := d.paramList }

end Gdo.Spec
