import Verif.Spec.Decl

/-!
Specification of the C tokens of a text without comments and literals: words, and
single other characters.
-/

namespace Gdo.Spec

/-- The words and the other non-blank characters of a text. -/
def ctokens : Str → List Str
  | [] => []
  | c :: cs =>
    if isSpace c then ctokens cs
    else if isWord c then
      match cs with
      | d :: _ => if isWord d then (match ctokens cs with | [] => [[c]] | w :: ws => (c :: w) :: ws) else [c] :: ctokens cs
      | [] => [[c]]
    else [c] :: ctokens cs

/-- The same declaration with another name. -/
def Decl.rename (new : Str) : Decl → Decl
  | .func T _ ps => .func T new ps
  | .funcParen T _ ps => .funcParen T new ps
  | .funcPtr1 T _ ps => .funcPtr1 T new ps
  | .funcPtr2 T _ ps => .funcPtr2 T new ps
  | .funPtrVar T _ ps => .funPtrVar T new ps
  | .var T _ => .var T new
  | .array T _ s => .array T new s

/-- The C tokens of a declaration. -/
def Decl.ctoks (d : Decl) : List Str := d.print.flatMap ctokens

/-- A function. -/
def Decl.isFunction (d : Decl) : Bool := d.kind = .function

/-- The tokens of the type of what a declaration declares: the return type of a function,
    the declaration without the name for objects. -/
def Decl.typeToks : Decl → List Str
  | .func T _ _ | .funcParen T _ _ | .var T _ => T.flatMap ctokens
  | .funcPtr1 T _ _ => T.flatMap ctokens ++ [['*']]
  | .funcPtr2 T _ _ => T.flatMap ctokens ++ [['*'], ['*']]
  | .funPtrVar T _ ps => (T ++ [['('], ['*'], [')'], ['(']] ++ ps ++ [[')']]).flatMap ctokens
  | .array T _ s => (T ++ [['[']] ++ s ++ [[']']]).flatMap ctokens

end Gdo.Spec
