import Verif.Model.Lex
import Verif.Model.Parse

/-!
Model of `src/tokenize.cpp`: from scanner tokens to token lists per declaration,
removal of superfluous parentheses, formatting of prototypes, typedefs.
-/

namespace Gdo
open Lex

/-- Result value of `tokenize_stream`. -/
inductive StreamEnd
  | eof
  | ast           -- `LEX_AST_BEGIN` (an AST declaration line cannot come before it)
  | error         -- `LEX_ERROR`
  deriving DecidableEq, Repr

/-- Local variables of `tokenize_stream` (tokenize.cpp 55-62): `vec`, `*options`, `tokens`,
    `block`, `curly_count` (an `int`, modelled as an unbounded integer). -/
structure Stream where
  vec : List Toks := []
  options : List Str := []
  tokens : Toks := []
  block : Bool := false
  curly : Int := 0
  deriving DecidableEq, Repr

/-- The body of the loop of `tokenize_stream` (tokenize.cpp 64-163) for a token; `ro`:
    `options != NULL`.  `inr`: the loop ends. -/
def streamStep (ro : Bool) (st : Stream) (t : Tok) : Stream ⊕ StreamEnd :=
  if st.block then
    match t.kind with
    | .struct_ | .union_ | .enum_ | .typedef_ | .id | .other | .equal => .inl st
    | .curlyOpen => .inl { st with curly := st.curly + 1 }
    | .curlyClose => .inl { st with curly := st.curly - 1 }
    | .semicolon => if st.curly < 1 then .inl { st with block := false, tokens := [] } else .inl st
    | .option => if ro then .inl { st with options := st.options ++ [t.text] } else .inl st
    | .astBegin | .astFuncvar | .astParmvar => .inr .ast
  else
    match t.kind with
    | .id | .other => .inl { st with tokens := st.tokens ++ [t.text] }
    | .struct_ | .union_ | .enum_ | .typedef_ =>
      if st.tokens.isEmpty then .inl { st with block := true, curly := 0 }
      else .inl { st with tokens := st.tokens ++ [t.text] }
    | .curlyOpen | .curlyClose | .equal => .inr .error
    | .semicolon =>
      if st.tokens.isEmpty then .inl st
      else .inl { st with vec := st.vec ++ [st.tokens], tokens := [] }
    | .option => if ro then .inl { st with options := st.options ++ [t.text] } else .inl st
    | .astBegin | .astFuncvar | .astParmvar => .inr .ast

/-- The end of `tokenize_stream` (tokenize.cpp 166-172). -/
def streamDone (st : Stream) (e : StreamEnd) : List Toks × List Str × StreamEnd :=
  (if st.tokens.isEmpty then st.vec else st.vec ++ [st.tokens], st.options, e)

/-- The loop of `tokenize_stream` over all tokens the scanner would return. -/
def streamLoop (ro : Bool) : List Tok → End → Stream → List Toks × List Str × StreamEnd
  | [], .eof, st => streamDone st .eof
  | [], .illegal _ _, st => streamDone st .error
  | [], .astNotFirst _, st => streamDone st .error
  | [], .echo, st => streamDone st .error        -- does not happen, `C01_silent`
  | t :: ts, e, st =>
    match streamStep ro st t with
    | .inl st' => streamLoop ro ts e st'
    | .inr r => streamDone st r

/-- `tokenize_stream` (tokenize.cpp 54-173) on a file content: declarations, options,
    return value. -/
def tokenizeStream (ro : Bool) (s : Str) : List Toks × List Str × StreamEnd :=
  let (ts, e) := Lex.run {} s
  streamLoop ro ts e {}

/-! ### Parentheses -/

/-- `entry_t` (tokenize.cpp 43-47). -/
structure PEntry where
  str : Str
  ch : Char
  num : Int
  deriving DecidableEq, Repr

/-- `erase_Rparen` (tokenize.cpp 241-267): `inner`, `outer` are the numbers of the two
    opening parentheses, the list is what follows the inner one.  The inner closing
    parenthesis is erased. -/
def eraseRparen (inner outer : Int) : List PEntry → Option (List PEntry)
  | c :: d :: r =>
    if c.ch = ')' ∧ d.ch = ')' ∧ inner = c.num ∧ outer = d.num then some (d :: r)
    else (eraseRparen inner outer (d :: r)).map (c :: ·)
  | _ => none

/-- `remove_matching_parentheses` (tokenize.cpp 270-287), at most `n` iterations; the
    list is what begins at the iterator. -/
def removeMatching : Nat → List PEntry → List PEntry
  | 0, l => l
  | n + 1, a :: b :: r =>
    if a.ch = '(' ∧ b.ch = '(' then
      match eraseRparen b.num a.num r with
      | some r' => removeMatching n (a :: r')
      | none => a :: removeMatching n (b :: r)
    else a :: removeMatching n (b :: r)
  | _ + 1, l => l

/-- The copying loop (tokenize.cpp 306-329). -/
def toEntries (n : Int) : Toks → List PEntry
  | [] => []
  | e :: es =>
    if strFront e = '(' then ⟨e, '(', n + 1⟩ :: toEntries (n + 1) es
    else if strFront e = ')' then ⟨e, ')', n⟩ :: toEntries (n - 1) es
    else ⟨e, '\x00', 0⟩ :: toEntries n es

/-- `remove_superfluous_parentheses` (tokenize.cpp 290-339).  The number of iterations
    is bounded by the number of tokens as each one advances or erases. -/
def removeSuperfluous (v : Toks) : Toks :=
  if v.length < 4 then v
  else if !v.contains ['('] then v
  else (removeMatching v.length (toEntries 0 v)).map (·.str)

/-! ### Formatting -/

/-- `utils::replace` with a shorter replacement.  (`C18_terminates`: this number of
    iterations is enough.) -/
def replaceAll (src dst s : Str) : Str :=
  match replaceFuel src dst (s.length + 1) s with
  | some r => r
  | none => s

/-- `format_prototype` (tokenize.cpp 214-229). -/
def formatPrototype (s : Str) : Str :=
  let s := stripSpaces s
  let s := replaceAll (str% "( ") (str% "(") s
  let s := replaceAll (str% ") ") (str% ")") s
  let s := replaceAll (str% " )") (str% ")") s
  let s := replaceAll (str% " [") (str% "[") s
  let s := replaceAll (str% " ]") (str% "]") s
  let s := replaceAll (str% "[ ") (str% "[") s
  let s := replaceAll (str% "] ") (str% "]") s
  let s := replaceAll (str% " ,") (str% ",") s
  replaceAll (str% "* ") (str% "*") s

/-! ### Typedefs -/

/-- `s.insert(pos, t)` -/
def insertAt (s : Str) (pos : Nat) (t : Str) : Str := s.take pos ++ t ++ s.drop pos

/-- `fptr_typedef` (tokenize.cpp 177-189); empty if it fails. -/
def fptrTypedef (type name : Str) : Str :=
  match findPos (str% "(*)") type with
  | none => []
  | some pos =>
    if findPos ['('] type ≠ some pos then []
    else insertAt type (pos + 2) name

/-- `array_typedef` (tokenize.cpp 193-210); empty if it fails. -/
def arrayTypedef (type name : Str) : Str :=
  match findPos ['['] type with
  | none => []
  | some pos =>
    if pos > 0 && strAt type (pos - 1) != ' ' then insertAt (insertAt type pos [' ']) (pos + 1) name
    else insertAt type pos name

/-- The loop of `gendlopen::create_typedefs` (tokenize.cpp 344-368): the objects and the
    typedefs, or the symbol of the error. -/
def createTypedefs (pfxLower : Str) : List Proto → Except Str (List Proto × List Str)
  | [] => .ok ([], [])
  | p :: ps =>
    let name := pfxLower ++ ['_'] ++ p.symbol ++ str% "__t"
    let make (mk : Str) : Except Str (List Proto × List Str) :=
      if mk.isEmpty then .error p.symbol
      else
        match createTypedefs pfxLower ps with
        | .error e => .error e
        | .ok (os, ds) => .ok ({ p with type := name } :: os, mk :: ds)
    if p.kind = .functionPointer then make (fptrTypedef p.type name)
    else if p.kind = .objectArray then make (arrayTypedef p.type name)
    else
      match createTypedefs pfxLower ps with
      | .error e => .error e
      | .ok (os, ds) => .ok (p :: os, ds)

/-- The errors of `gendlopen::tokenize` for text input. -/
inductive TokenizeErr
  | lex                     -- tokenize.cpp 403-409
  | parse (e : ParseErr)
  | typedef (s : Str)       -- tokenize.cpp 362
  deriving DecidableEq, Repr

/-- The result of `gendlopen::tokenize`: `m_prototypes`, `m_objects`, `m_typedefs`. -/
structure Symbols where
  protos : List Proto
  objs : List Proto
  typedefs : List Str
  deriving DecidableEq, Repr

/-- Formatting of one entry (tokenize.cpp 434-442). -/
def formatProto (p : Proto) : Proto :=
  { p with type := formatPrototype p.type, args := formatPrototype p.args }

/-- `gendlopen::tokenize` (tokenize.cpp 399-446) from the tokens of a text input on.  The
    settings are those after `parse_options`. -/
def tokenizeDecls (vec : List Toks) (pfxLower : Str) (mode : ParamNames) (prefixes symbols : List Str) :
    Ub (Except TokenizeErr Symbols) := do
  match ← gendlopenParse (vec.map removeSuperfluous) mode prefixes symbols with
  | .error e => return .error (.parse e)
  | .ok st =>
    match createTypedefs pfxLower st.objs with
    | .error s => return .error (.typedef s)
    | .ok (objs, tds) =>
      return .ok ⟨st.protos.map formatProto, objs.map formatProto, tds.map formatPrototype⟩

end Gdo
