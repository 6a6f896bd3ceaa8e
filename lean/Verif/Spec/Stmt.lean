import Verif.Spec.Source

/-! Specification of an input as a sequence of statements. -/

namespace Gdo.Spec
open Gdo Gdo.Lex

/-- The words struct, union, enum, typedef. -/
def TokKind.isBlock : TokKind → Bool
  | .struct_ | .union_ | .enum_ | .typedef_ => true
  | _ => false

def semi : Tok := ⟨.semicolon, [';']⟩

/-- Tokens without option entries. -/
def code (ts : List Tok) : List Tok := ts.filter fun t => t.kind != .option

/-- The option entries. -/
def optionsOf (ts : List Tok) : List Str := (ts.filter fun t => t.kind == .option).map (·.text)

/-- The tokens inside of a type definition have balanced braces, starting at depth `d`,
    and semicolons are inside of braces. -/
def Balanced : Nat → List Tok → Prop
  | d, [] => d = 0
  | d, t :: ts =>
    match t.kind with
    | .curlyOpen => Balanced (d + 1) ts
    | .curlyClose => d > 0 ∧ Balanced (d - 1) ts
    | .semicolon => d > 0 ∧ Balanced d ts
    | .astBegin | .astFuncvar | .astParmvar => False
    | _ => Balanced d ts

/-- Statements (possibly with option lines between their tokens). -/
inductive Stmt
  | decl (ts : List Tok)
  | typeDef (kw : Tok) (body : List Tok)
  | empty

/-- The tokens of a declaration. -/
def DeclToks (ts : List Tok) : Prop :=
  (∀ t ∈ ts, t.kind = .id ∨ t.kind = .other ∨ t.kind = .option ∨ TokKind.isBlock t.kind = true) ∧
  ∃ t ts', code ts = t :: ts' ∧ TokKind.isBlock t.kind = false

def Stmt.Valid : Stmt → Prop
  | decl ts => DeclToks ts
  | typeDef kw body => TokKind.isBlock kw.kind = true ∧ Balanced 0 body
  | empty => True

/-- The tokens of a statement, with the semicolon. -/
def Stmt.toks : Stmt → List Tok
  | decl ts => ts ++ [semi]
  | typeDef kw body => kw :: body ++ [semi]
  | empty => [semi]

/-- The tokens of a list of statements. -/
def stmtToks (l : List Stmt) : List Tok := (l.map Stmt.toks).flatten

/-- The declarations of a list of statements. -/
def declsOf (l : List Stmt) : List (List Str) :=
  l.filterMap fun s => match s with
    | .decl ts => some ((code ts).map (·.text))
    | _ => none

end Gdo.Spec
