import Verif.Model.Lex
import Verif.Model.Parse
import Verif.Model.Tokenize

/-!
Model of `src/clang_ast.cpp`: reading declarations from a Clang AST dump.

The `std::regex` matches are modelled by functions on the lines: `.` is any byte but
CR and LF, lazy repetitions take the first match that lets the rest match.
-/

namespace Gdo.Ast
open Gdo Lex

/-- `std::regex_replace` with `\x1B\[[0-9;]*m` and an empty text (clang_ast.cpp 85), at
    most `n` characters. -/
def stripColorsN : Nat → Str → Str
  | 0, s => s
  | _ + 1, [] => []
  | n + 1, c :: cs =>
    if (skipCol (c :: cs)).length < (c :: cs).length then stripColorsN n (skipCol (c :: cs))
    else c :: stripColorsN n cs

/-- All colour codes removed. -/
def stripColors (s : Str) : Str := stripColorsN s.length s

/-- `strip_line` (clang_ast.cpp 76-86). -/
def stripLine (line : Str) : Str := stripColors (deleteSuffix line ['\r'])

/-- No line break, so that `.*` can match. -/
def noBreak (s : Str) : Bool := s.all fun c => c != '\r' && c != '\n'

/-- `.*? '(.*?)'.*` (clang_ast.cpp 96-97): the text between the quotes. -/
def quoted (s : Str) : Option Str :=
  if !noBreak s then none
  else
    match splitFirst (str% " '") s with
    | none => none
    | some (_, r) => if r.contains '\'' then some (r.takeWhile (· ≠ '\'')) else none

/-- `.*? ([a-zA-Z0-9_]*?) '(.*?)'.*` (clang_ast.cpp 141-143): the word in front of the
    quotes and the text between them. -/
def symbolAndType : Str → Option (Str × Str)
  | [] => none
  | c :: cs =>
    if c = ' ' ∧ (str% " '").isPrefixOf (cs.dropWhile isWord)
        ∧ ((cs.dropWhile isWord).drop 2).contains '\'' then
      some (cs.takeWhile isWord, ((cs.dropWhile isWord).drop 2).takeWhile (· ≠ '\''))
    else symbolAndType cs

/-- The first alternative with a match. -/
def afterOneOf (l : List Str) (s : Str) : Option Str := l.findSome? fun x => afterLit x s

/-- The regular expression for parameters (clang_ast.cpp 95-98). -/
def matchParm (line : Str) : Option Str := do
  let r ← afterOneOf [str% "| |-", str% "| `-", str% "  |-", str% "  `-"] line
  let r ← afterLit (str% "ParmVarDecl 0x") r
  quoted r

/-- The regular expressions `reg_func`, `reg_var` (clang_ast.cpp 140-150). -/
def matchDecl (kw line : Str) : Option (Str × Str) := do
  let r ← afterOneOf [str% "|-", str% "`-"] line
  let r ← afterLit (kw ++ str% " 0x") r
  if noBreak r then symbolAndType r else none

/-- The decimal digits of a number (`std::to_string`). -/
def natText (n : Nat) : Str := (Nat.toDigits 10 n)

/-- `args`, `param_names`, `param_count` (clang_ast.cpp 90, 206). -/
structure Args where
  args : Str := []
  names : Str := []
  count : Nat := 1
  deriving DecidableEq, Repr

/-- `get_parameters` (clang_ast.cpp 90-130); `none`: it returns false. -/
def getParameters (text : Str) (a : Args) : Option Args :=
  match matchParm (stripLine text) with
  | none => none
  | some type =>
    let name := 'a' :: natText a.count
    let args :=
      match findPos (str% "(*)") type with
      | some pos => a.args ++ insertAt type (pos + 2) name ++ str% ", "
      | none =>
        let s := a.args ++ type
        (if (str% "*").isSuffixOf s then s else s ++ [' ']) ++ name ++ str% ", "
    some { args := args, names := a.names ++ name ++ str% ", ", count := a.count + 1 }

/-- The loop that reads parameters (clang_ast.cpp 217-221): the parameters and the tokens
    that are left, beginning with the one in the `yytext` buffer. -/
def readParms : List Tok → Args → Args × List Tok
  | [], a => (a, [])
  | t :: ts, a =>
    if t.kind = .astParmvar then
      match getParameters t.text a with
      | some a' => readParms ts a'
      | none => (a, t :: ts)
    else (a, t :: ts)

/-- `m_symbol_list`, `m_prototypes`, `m_objects`. -/
structure State where
  list : List Str
  protos : List Proto := []
  objs : List Proto := []
  deriving DecidableEq, Repr

/-- The filter of `get_declarations` (clang_ast.cpp 171-199): the rest of the symbol list
    or `none` to skip the declaration. -/
def astFilter (mode : FilterMode) (prefixes list : List Str) (symbol : Str) : Option (List Str) :=
  match mode with
  | .prefix => if isPrefixed symbol prefixes then some list else none
  | .list => if (eraseAll list symbol).length < list.length then some (eraseAll list symbol) else none
  | .pfxList =>
    if isPrefixed symbol prefixes then some list
    else if (eraseAll list symbol).length < list.length then some (eraseAll list symbol)
    else none
  | .none => some list

/-- `get_declarations` (clang_ast.cpp 136-243) for the text in the `yytext` buffer and the
    tokens behind it.  `some rest`: it returns 1 and `rest` are the tokens from the current
    one on; `none`: it returns 0. -/
def getDeclarations (mode : FilterMode) (prefixes : List Str) (text : Str) (ts : List Tok) (st : State) :
    State × Option (List Tok) :=
  let line := stripLine text
  let isFunction := strAt line 2 = 'F'
  match matchDecl (if isFunction then str% "FunctionDecl" else str% "VarDecl") line with
  | none => (st, none)
  | some (symbol, type) =>
    match astFilter mode prefixes st.list symbol with
    | none => (st, none)
    | some list =>
      let st := { st with list := list }
      if isFunction then
        match splitFirst ['('] type with
        | none => (st, none)
        | some (front, _) =>
          let (a, rest) := readParms ts {}
          let p : Proto :=
            { kind := .function, symbol := symbol, type := stripSpaces front
              args := deleteSuffix a.args (str% ", "), paramNames := deleteSuffix a.names (str% ", ") }
          ({ st with protos := st.protos ++ [p] }, some rest)
      else
        let kind :=
          if (findPos (str% "(*)") type).isSome then ProtoKind.functionPointer
          else if (findPos ['['] type).isSome then .objectArray
          else .object
        let p : Proto := { kind := kind, symbol := symbol, type := stripSpaces type }
        ({ st with objs := st.objs ++ [p] }, none)

/-- The loops of `parse_clang_ast` (clang_ast.cpp 260-275), at most `n` calls of
    `get_declarations` or skipped tokens.  `inner`: within the inner loop, where the kind of
    the token is not looked at. -/
def astLoop (mode : FilterMode) (prefixes : List Str) : Nat → Bool → List Tok → State → State
  | 0, _, _, st => st
  | _ + 1, _, [], st => st
  | n + 1, inner, t :: ts, st =>
    if !inner && t.kind == .astParmvar then astLoop mode prefixes n false ts st
    else if !inner && t.kind != .astFuncvar then st
    else
      match getDeclarations mode prefixes t.text ts st with
      | (st, some rest) => astLoop mode prefixes n true rest st
      | (st, none) =>
        if mode = .list ∧ st.list = [] then st else astLoop mode prefixes n false ts st

/-- The errors of `parse_clang_ast`. -/
inductive AstErr
  | noSymbols                    -- clang_ast.cpp 256
  | notFound (l : List Str)      -- clang_ast.cpp 287
  | nothingFound                 -- clang_ast.cpp 291
  deriving DecidableEq, Repr

/-- `parse_clang_ast` (clang_ast.cpp 246-293) on the tokens after `LEX_AST_BEGIN`. -/
def parseClangAst (all : Bool) (prefixes symbols : List Str) (ts : List Tok) : Except AstErr FilterState :=
  let mode := if all then FilterMode.none else getFilterMode prefixes symbols
  if !all && mode = .none then .error .noSymbols
  else
    let st := astLoop mode prefixes (ts.length + 1) false ts { list := symbols }
    if (mode = .list ∨ mode = .pfxList) ∧ st.list ≠ [] then .error (.notFound st.list)
    else if st.protos.isEmpty && st.objs.isEmpty then .error .nothingFound
    else .ok ⟨st.protos, st.objs⟩

/-- The tokens after `LEX_AST_BEGIN` of a file, if it is an AST file. -/
def astTokens (s : Str) : Option (List Tok) :=
  match (Lex.run {} s).1 with
  | t :: ts => if t.kind = .astBegin then some ts else none
  | [] => none

end Gdo.Ast
