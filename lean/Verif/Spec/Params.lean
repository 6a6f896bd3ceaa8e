import Verif.Spec.Decl

/-! Specification of function parameters as token lists. -/

namespace Gdo.Spec

/-- The shapes of parameters. -/
inductive Param
  /-- words and stars: `const char *name`, `int` -/
  | plain (T : Toks)
  /-- function pointer with or without name: `T (*name)(ps)` -/
  | fptr (T : Toks) (name : Option Str) (ps : Toks)
  /-- array: `T [suffix]` -/
  | arr (T : Toks) (suffix : Toks)
  /-- `...` -/
  | dots

/-- The tokens of a parameter. -/
def Param.print : Param → Toks
  | plain T => T
  | fptr T name ps => T ++ [['('], ['*']] ++ name.toList ++ [[')'], ['(']] ++ ps ++ [[')']]
  | arr T s => T ++ [['[']] ++ s ++ [[']']]
  | dots => [['.', '.', '.']]

/-- Valid types and names. -/
def Param.Valid : Param → Prop
  | plain T => TypeToks T
  | fptr T name _ => TypeToks T ∧ ∀ n ∈ name, IdentTok n
  | arr T _ => TypeToks T
  | dots => True

/-- The parameter with a new name, as text. -/
def Param.named (name : Str) : Param → Str
  | plain T => spaced T ++ name
  | fptr T _ ps => spaced (T ++ [['('], ['*']]) ++ name ++ [' '] ++ spaced ([[')'], ['(']] ++ ps ++ [[')']])
  | arr T s => spaced T ++ name ++ [' '] ++ spaced ([['[']] ++ s ++ [[']']])
  | dots => ['.', '.', '.', ' ']

/-- The name `ak`. -/
def argName (k : Nat) : Str := 'a' :: Nat.toDigits 10 k

/-- Join with ", ". -/
def commaJoin (l : List Str) : Str := List.intercalate [',', ' '] l

/-- The declared name of a parameter: `T name`, `T (*name)(..)`, `T name[..]`. -/
inductive NamedParam : Toks → Str → Prop
  | plain (T : Toks) (n : Str) : TypeToks T → IdentTok n → NamedParam (T ++ [n]) n
  | fptr (T : Toks) (n : Str) (ps : Toks) : TypeToks T → IdentTok n →
      NamedParam (T ++ [['('], ['*'], n, [')'], ['(']] ++ ps ++ [[')']]) n
  | arr (T : Toks) (n : Str) (s : Toks) : TypeToks T → IdentTok n →
      NamedParam (T ++ [n, ['[']] ++ s ++ [[']']]) n

/-- `void` in any capitalisation, as the only parameter. -/
def OnlyVoid (vs : List Toks) : Prop := ∃ t, vs = [[t]] ∧ eqCase t ['v', 'o', 'i', 'd'] = true

end Gdo.Spec
