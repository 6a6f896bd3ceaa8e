import Verif.Spec.CLex
import Verif.Spec.Builtin

/-!
Specification: the part of C, and of C++, that the templates are written in.  Code is
a tree; the tokens of a tree are given by the grammar, parentheses included.  A name
may end with a keyword and code may be repeated for each symbol, as in a template; all
that is gone when a template is instantiated.
-/

namespace Gdo.Cc
open Gdo Tmpl Rename

/-- A name or a literal as written in a template: a fixed text, a text with a keyword
    behind it, or a text with the value of a keyword behind it. -/
inductive Name
  | fixed (w : Str)
  | hole (pre k : Str)
  | glued (pre v : Str)
  deriving DecidableEq, Repr

/-- The keyword is replaced by its value. -/
def Name.inst (val : Values) : Name → Name
  | .hole p k =>
    match val k with
    | some (v, _) => .glued p v
    | none => .hole p k
  | n => n

/-- A token of a template; `text`: a keyword whose value is more than one token. -/
inductive STok
  | word (n : Name)
  | str (n : Name)
  | chr (n : Name)
  | punct (p : Str)
  | nl
  | text (n : Name)
  deriving DecidableEq, Repr

def STok.inst (val : Values) : STok → STok
  | .word n => .word (n.inst val)
  | .str n => .str (n.inst val)
  | .chr n => .chr (n.inst val)
  | .text n => .text (n.inst val)
  | t => t

/-- A text with the words renamed. -/
def renamed (upper lower : Str) (s : Str) : Str := fillIn upper lower (fun _ => none) false (parts s)

/-- The tokens in the generated text; `none` if a keyword is left. -/
def STok.close (upper lower : Str) : STok → Option (List Tok)
  | .word (.fixed w) => some [.word (newName upper lower w)]
  | .word (.glued p v) => some [.word (newName upper lower p ++ v)]
  | .str (.fixed s) => some [.str (renamed upper lower s)]
  | .str (.glued p v) => some [.str (renamed upper lower p ++ v)]
  | .chr (.fixed s) => some [.chr (renamed upper lower s)]
  | .punct p => some [.punct p]
  | .nl => some [.nl]
  | .text (.glued _ v) => tokens v
  | _ => none

/-- All of them. -/
def closeAll (upper lower : Str) : List STok → Option (List Tok)
  | [] => some []
  | t :: r => (t.close upper lower).bind fun a => (closeAll upper lower r).map (a ++ ·)

/-- A token, or tokens that are repeated for each function, object or symbol. -/
inductive Item
  | tok (t : STok)
  | rep (k : Kind) (ts : List STok)
  deriving DecidableEq, Repr

/-- The values of the keywords for each function, object or symbol. -/
abbrev Insts := Kind → List Values

def Item.inst (I : Insts) : Item → List STok
  | .tok t => [t]
  | .rep k ts => (I k).flatMap fun val => ts.map (STok.inst val)

/-- The tokens, if nothing is repeated. -/
def plain : List Item → Option (List STok)
  | [] => some []
  | .tok t :: r => (plain r).map (t :: ·)
  | .rep _ _ :: _ => none

/-! ### Expressions -/

/-- An expression.  `rep k op a e`: the expression `a op e op e ...`, with `e` for each
    symbol. -/
inductive Expr
  | id (n : Name)
  | str (n : Name)
  | chr (n : Name)
  /-- adjacent string literals -/
  | cat (es : List Expr)
  | call (f : Name) (args : List Expr)
  /-- `::f(...)`, C++ only -/
  | global (f : Str) (args : List Expr)
  | field (e : Expr) (f : Str)
  /-- a member whose name may end with a keyword, or a member of anything but a variable -/
  | member (e : Expr) (n : Name)
  | arrow (e : Expr) (f : Str)
  | index (e i : Expr)
  /-- `e++` -/
  | inc (e : Expr)
  | un (op : Str) (e : Expr)
  | cast (ty : List STok) (e : Expr)
  /-- `reinterpret_cast<...>(e)`, C++ only -/
  | rcast (ty : List STok) (e : Expr)
  | sizeof (e : Expr)
  | sizeofType (ty : List STok)
  | bin (op : Str) (a b : Expr)
  | cond (c a b : Expr)
  | assign (a b : Expr)
  | paren (e : Expr)
  | rep (k : Kind) (op : Str) (a e : Expr)

/-- The precedence of an operator with two operands. -/
def opLevel (op : Str) : Option Nat :=
  if op = str% "*" ∨ op = str% "/" then some 13
  else if op = str% "+" ∨ op = str% "-" then some 12
  else if op = str% "<" ∨ op = str% ">" ∨ op = str% "<=" ∨ op = str% ">=" then some 10
  else if op = str% "==" ∨ op = str% "!=" then some 9
  else if op = str% "|" then some 6
  else if op = str% "&&" then some 5
  else if op = str% "||" then some 4
  else none

/-- The precedence of an expression: 16 for primary and postfix expressions, 15 for unary
    ones. -/
def Expr.level : Expr → Nat
  | .un _ _ => 15
  | .cast _ _ => 15
  | .sizeof _ => 15
  | .sizeofType _ => 15
  | .bin op _ _ => (opLevel op).getD 0
  | .rep _ op _ _ => (opLevel op).getD 0
  | .cond _ _ _ => 3
  | .assign _ _ => 2
  | _ => 16

def punct (p : Str) : Item := .tok (.punct p)
def word (w : Str) : Item := .tok (.word (.fixed w))

mutual
/-- The tokens of an expression.  An operand of lower precedence needs parentheses. -/
def Expr.toks : Expr → Option (List Item)
  | .id n => some [.tok (.word n)]
  | .str n => some [.tok (.str n)]
  | .chr n => some [.tok (.chr n)]
  | .cat es => Expr.toksCat es
  | .call f args => (Expr.toksArgs args).map fun a => .tok (.word f) :: punct (str% "(") :: a ++ [punct (str% ")")]
  | .global f args => (Expr.toksArgs args).map fun a => punct (str% "::") :: word f :: punct (str% "(") :: a ++ [punct (str% ")")]
  | .field e f => if 16 ≤ e.level then e.toks.map fun a => a ++ [punct (str% "."), word f] else none
  | .member e n => if 16 ≤ e.level then e.toks.map fun a => a ++ [punct (str% "."), .tok (.word n)] else none
  | .arrow e f => if 16 ≤ e.level then e.toks.map fun a => a ++ [punct (str% "->"), word f] else none
  | .index e i =>
    if 16 ≤ e.level then e.toks.bind fun a => i.toks.map fun b => a ++ punct (str% "[") :: b ++ [punct (str% "]")] else none
  | .inc e => if 16 ≤ e.level then e.toks.map fun a => a ++ [punct (str% "++")] else none
  | .un op e => if 15 ≤ e.level ∧ (op = str% "!" ∨ op = str% "*" ∨ op = str% "&" ∨ op = str% "-") then e.toks.map fun a => punct op :: a else none
  | .cast ty e => if 15 ≤ e.level then e.toks.map fun a => punct (str% "(") :: ty.map .tok ++ punct (str% ")") :: a else none
  | .rcast ty e =>
    e.toks.map fun a =>
      word (str% "reinterpret_cast") :: punct (str% "<") :: ty.map .tok ++ punct (str% ">") :: punct (str% "(") :: a ++ [punct (str% ")")]
  | .sizeof e => e.toks.map fun a => word (str% "sizeof") :: punct (str% "(") :: a ++ [punct (str% ")")]
  | .sizeofType ty => some (word (str% "sizeof") :: punct (str% "(") :: ty.map .tok ++ [punct (str% ")")])
  | .bin op a b =>
    match opLevel op with
    | some l => if l ≤ a.level ∧ l + 1 ≤ b.level then a.toks.bind fun x => b.toks.map fun y => x ++ punct op :: y else none
    | none => none
  | .cond c a b =>
    if 4 ≤ c.level ∧ 3 ≤ b.level then
      c.toks.bind fun x => a.toks.bind fun y => b.toks.map fun z => x ++ punct (str% "?") :: y ++ punct (str% ":") :: z
    else none
  | .assign a b => if 15 ≤ a.level ∧ 2 ≤ b.level then a.toks.bind fun x => b.toks.map fun y => x ++ punct (str% "=") :: y else none
  | .paren e => e.toks.map fun a => punct (str% "(") :: a ++ [punct (str% ")")]
  | .rep k op a e =>
    match opLevel op with
    | some l =>
      if l ≤ a.level ∧ l + 1 ≤ e.level then
        a.toks.bind fun x => (e.toks.bind plain).map fun y => x ++ [.rep k (.punct op :: y)]
      else none
    | none => none
/-- Arguments, with commas between them. -/
def Expr.toksArgs : List Expr → Option (List Item)
  | [] => some []
  | e :: r =>
    if 2 ≤ e.level then
      e.toks.bind fun a => (Expr.toksArgs r).map fun b => if r.isEmpty then a else a ++ punct (str% ",") :: b
    else none
/-- String literals and macros for them after each other. -/
def Expr.toksCat : List Expr → Option (List Item)
  | [] => some []
  | e :: r => if 16 ≤ e.level then e.toks.bind fun a => (Expr.toksCat r).map fun b => a ++ b else none
end

/-! ### Statements -/

inductive Stmt
  | expr (e : Expr)
  | ret (e : Option Expr)
  /-- `if` without `else` -/
  | if1 (c : Expr) (a : List Stmt)
  /-- `if` with `else` -/
  | if2 (c : Expr) (a b : List Stmt)
  /-- `if` with another `if` behind `else` -/
  | elif (c : Expr) (a b : List Stmt)
  | while (c : Expr) (a : List Stmt)
  /-- a loop with a variable: its type, its name and its first value, the condition, the
      step -/
  | for (ty : List STok) (x : Str) (e c d : Expr) (a : List Stmt)
  /-- the declaration of a variable: its type, its name, the size of an array, its first
      value, further variables -/
  | decl (ty : List STok) (x : Str) (arr : List STok) (init : Option Expr) (more : List STok)
  | switch (e : Expr) (body : List Stmt)
  | case (e : Expr)
  | default
  | brk
  /-- `continue` -/
  | cont
  /-- `throw x(e);`, C++ only -/
  | throw (x : Str) (e : Expr)
  /-- `auto x = [] (pty p) -> ty { body };`, C++ only -/
  | lambda (x : Str) (pty : List STok) (p : Str) (ty : List STok) (body : List Stmt)
  | rep (k : Kind) (body : List Stmt)

/-- The statement behind `else` in `else if`. -/
def Stmt.oneIf : List Stmt → Bool
  | [.if1 _ _] => true
  | [.if2 _ _ _] => true
  | [.elif _ _ _] => true
  | _ => false

mutual
def Stmt.toks : Stmt → Option (List Item)
  | .expr e => e.toks.map fun a => a ++ [punct (str% ";")]
  | .ret none => some [word (str% "return"), punct (str% ";")]
  | .ret (some e) => e.toks.map fun a => word (str% "return") :: a ++ [punct (str% ";")]
  | .if1 c a =>
    c.toks.bind fun x => (Stmt.toksAll a).map fun y =>
      word (str% "if") :: punct (str% "(") :: x ++ punct (str% ")") :: punct (str% "{") :: y ++ [punct (str% "}")]
  | .if2 c a b =>
    c.toks.bind fun x => (Stmt.toksAll a).bind fun y => (Stmt.toksAll b).map fun z =>
      word (str% "if") :: punct (str% "(") :: x ++ punct (str% ")") :: punct (str% "{") :: y ++
        punct (str% "}") :: word (str% "else") :: punct (str% "{") :: z ++ [punct (str% "}")]
  | .elif c a b =>
    if Stmt.oneIf b then
      c.toks.bind fun x => (Stmt.toksAll a).bind fun y => (Stmt.toksAll b).map fun z =>
        word (str% "if") :: punct (str% "(") :: x ++ punct (str% ")") :: punct (str% "{") :: y ++ punct (str% "}") :: word (str% "else") :: z
    else none
  | .for ty x e c d a =>
    if 2 ≤ e.level then
      e.toks.bind fun v => c.toks.bind fun w => d.toks.bind fun y => (Stmt.toksAll a).map fun z =>
        word (str% "for") :: punct (str% "(") :: ty.map .tok ++ word x :: punct (str% "=") :: v ++ punct (str% ";") :: w ++
          punct (str% ";") :: y ++ punct (str% ")") :: punct (str% "{") :: z ++ [punct (str% "}")]
    else none
  | .while c a =>
    c.toks.bind fun x => (Stmt.toksAll a).map fun y =>
      word (str% "while") :: punct (str% "(") :: x ++ punct (str% ")") :: punct (str% "{") :: y ++ [punct (str% "}")]
  | .decl ty x arr none more => some (ty.map .tok ++ word x :: arr.map .tok ++ more.map .tok ++ [punct (str% ";")])
  | .decl ty x arr (some e) more =>
    if 2 ≤ e.level then
      e.toks.map fun b => ty.map .tok ++ word x :: arr.map .tok ++ punct (str% "=") :: b ++ more.map .tok ++ [punct (str% ";")]
    else none
  | .switch e body =>
    e.toks.bind fun x => (Stmt.toksAll body).map fun y =>
      word (str% "switch") :: punct (str% "(") :: x ++ punct (str% ")") :: punct (str% "{") :: y ++ [punct (str% "}")]
  | .case e => e.toks.map fun a => word (str% "case") :: a ++ [punct (str% ":")]
  | .default => some [word (str% "default"), punct (str% ":")]
  | .brk => some [word (str% "break"), punct (str% ";")]
  | .cont => some [word (str% "continue"), punct (str% ";")]
  | .throw x e => e.toks.map fun a => word (str% "throw") :: word x :: punct (str% "(") :: a ++ [punct (str% ")"), punct (str% ";")]
  | .lambda x pty p ty body => (Stmt.toksAll body).map fun b =>
    word (str% "auto") :: word x :: punct (str% "=") :: punct (str% "[") :: punct (str% "]") :: punct (str% "(") :: pty.map .tok ++ word p ::
      punct (str% ")") :: punct (str% "->") :: ty.map .tok ++ punct (str% "{") :: b ++ [punct (str% "}"), punct (str% ";")]
  | .rep k body => ((Stmt.toksAll body).bind plain).map fun a => [.rep k a]
def Stmt.toksAll : List Stmt → Option (List Item)
  | [] => some []
  | s :: r => s.toks.bind fun a => (Stmt.toksAll r).map fun b => a ++ b
end

/-! ### Functions -/

/-- A function: what is in front of its name, its name, the types and names of its
    parameters, its body. -/
structure Fn where
  head : List STok
  name : Str
  params : List (List STok × Str)
  body : List Stmt

/-- The parameters, with commas between them. -/
def paramToks : List (List STok × Str) → List Item
  | [] => []
  | [p] => p.1.map .tok ++ [word p.2]
  | p :: r => p.1.map .tok ++ word p.2 :: punct (str% ",") :: paramToks r

def Fn.toks (f : Fn) : Option (List Item) :=
  (Stmt.toksAll f.body).map fun b =>
    f.head.map .tok ++ word f.name :: punct (str% "(") :: (if f.params.isEmpty then [word (str% "void")] else paramToks f.params) ++
      punct (str% ")") :: punct (str% "{") :: b ++ [punct (str% "}")]

/-- A function that may throw, C++ only. -/
def Fn.throwing (f : Fn) : Option (List Item) :=
  (Stmt.toksAll f.body).map fun b =>
    f.head.map .tok ++ word f.name :: punct (str% "(") :: paramToks f.params ++ punct (str% ")") ::
      word (str% "noexcept") :: punct (str% "(") :: word (str% "false") :: punct (str% ")") :: punct (str% "{") :: b ++ [punct (str% "}")]

/-- A class for exceptions with a message, C++ only. -/
def exceptionToks (x : Str) : List Item :=
  [word (str% "class"), word x, punct (str% ":"), word (str% "public"), word (str% "std"), punct (str% "::"), word (str% "runtime_error"),
   punct (str% "{"), word (str% "public"), punct (str% ":"), word x, punct (str% "("), word (str% "const"), word (str% "std"), punct (str% "::"),
   word (str% "string"), punct (str% "&"), word (str% "message"), punct (str% ")"), punct (str% ":"), word (str% "std"), punct (str% "::"),
   word (str% "runtime_error"), punct (str% "("), word (str% "message"), punct (str% ")"), punct (str% "{"), punct (str% "}"),
   word (str% "virtual"), punct (str% "~"), word x, punct (str% "("), punct (str% ")"), punct (str% "{"), punct (str% "}"), punct (str% "}"),
   punct (str% ";")]

/-- A function, or a declaration up to the semicolon.  `struct`: the declaration of a
    structure: what is in front of the braces, between them and behind them. -/
inductive Top
  | fn (f : Fn)
  | decl (ts : List STok)
  | struct (head : List STok) (fields : List Item) (tail : List STok)
  /-- declarations, some of them for each symbol -/
  | decls (xs : List Item)
  /-- `... noexcept(false) {...}`, C++ only -/
  | throwing (f : Fn)
  /-- `namespace x {`, C++ only -/
  | space (x : Str)
  /-- `};` -/
  | spaceEnd
  /-- a class for exceptions -/
  | exception (x : Str)

/-- No braces and no semicolons. -/
def flat (ts : List STok) : Bool := ts.all fun t => t ≠ .punct (str% ";") && t ≠ .punct (str% "{") && t ≠ .punct (str% "}")

/-- No braces. -/
def Item.noBrace : Item → Bool
  | .tok t => t ≠ .punct (str% "{") && t ≠ .punct (str% "}")
  | .rep _ ts => ts.all fun t => t ≠ .punct (str% "{") && t ≠ .punct (str% "}")

def Top.toks : Top → Option (List Item)
  | .fn f => f.toks
  | .decl ts => if STok.punct (str% ";") ∈ ts.dropLast then none else if ts.getLast? = some (.punct (str% ";")) then some (ts.map .tok) else none
  | .struct a b c =>
    if flat a && flat c && b.all Item.noBrace then
      some (a.map .tok ++ punct (str% "{") :: b ++ punct (str% "}") :: c.map .tok ++ [punct (str% ";")])
    else none
  | .decls xs => if xs.all Item.noBrace then some xs else none
  | .throwing f => f.throwing
  | .space x => some [word (str% "namespace"), word x, punct (str% "{")]
  | .spaceEnd => some [punct (str% "}"), punct (str% ";")]
  | .exception x => some (exceptionToks x)

def progToks : List Top → Option (List Item)
  | [] => some []
  | t :: r => t.toks.bind fun a => (progToks r).map fun b => a ++ b

/-! ### Instances -/

mutual
def Expr.inst (I : Insts) (val : Values) : Expr → Expr
  | .id n => .id (n.inst val)
  | .str n => .str (n.inst val)
  | .chr n => .chr (n.inst val)
  | .cat es => .cat (Expr.instAll I val es)
  | .call f args => .call (f.inst val) (Expr.instAll I val args)
  | .global f args => .global f (Expr.instAll I val args)
  | .field e f => .field (e.inst I val) f
  | .member e n => .member (e.inst I val) (n.inst val)
  | .arrow e f => .arrow (e.inst I val) f
  | .index e i => .index (e.inst I val) (i.inst I val)
  | .inc e => .inc (e.inst I val)
  | .un op e => .un op (e.inst I val)
  | .cast ty e => .cast (ty.map (STok.inst val)) (e.inst I val)
  | .rcast ty e => .rcast (ty.map (STok.inst val)) (e.inst I val)
  | .sizeof e => .sizeof (e.inst I val)
  | .sizeofType ty => .sizeofType (ty.map (STok.inst val))
  | .bin op a b => .bin op (a.inst I val) (b.inst I val)
  | .cond c a b => .cond (c.inst I val) (a.inst I val) (b.inst I val)
  | .assign a b => .assign (a.inst I val) (b.inst I val)
  | .paren e => .paren (e.inst I val)
  | .rep k op a e => (I k).foldl (fun x v => .bin op x (e.inst I v)) (a.inst I val)
def Expr.instAll (I : Insts) (val : Values) : List Expr → List Expr
  | [] => []
  | e :: r => e.inst I val :: Expr.instAll I val r
end

mutual
/-- The statements that a statement of a template stands for. -/
def Stmt.inst (I : Insts) (val : Values) : Stmt → List Stmt
  | .expr e => [.expr (e.inst I val)]
  | .ret none => [.ret none]
  | .ret (some e) => [.ret (some (e.inst I val))]
  | .if1 c a => [.if1 (c.inst I val) (Stmt.instAll I val a)]
  | .if2 c a b => [.if2 (c.inst I val) (Stmt.instAll I val a) (Stmt.instAll I val b)]
  | .elif c a b => [.elif (c.inst I val) (Stmt.instAll I val a) (Stmt.instAll I val b)]
  | .for ty x e c d a => [.for (ty.map (STok.inst val)) x (e.inst I val) (c.inst I val) (d.inst I val) (Stmt.instAll I val a)]
  | .while c a => [.while (c.inst I val) (Stmt.instAll I val a)]
  | .decl ty x arr none more => [.decl (ty.map (STok.inst val)) x (arr.map (STok.inst val)) none (more.map (STok.inst val))]
  | .decl ty x arr (some e) more =>
    [.decl (ty.map (STok.inst val)) x (arr.map (STok.inst val)) (some (e.inst I val)) (more.map (STok.inst val))]
  | .switch e body => [.switch (e.inst I val) (Stmt.instAll I val body)]
  | .case e => [.case (e.inst I val)]
  | .default => [.default]
  | .brk => [.brk]
  | .cont => [.cont]
  | .throw x e => [.throw x (e.inst I val)]
  | .lambda x pty p ty body => [.lambda x (pty.map (STok.inst val)) p (ty.map (STok.inst val)) (Stmt.instAll I val body)]
  | .rep k body => (I k).flatMap fun v => Stmt.instAll I v body
def Stmt.instAll (I : Insts) (val : Values) : List Stmt → List Stmt
  | [] => []
  | s :: r => s.inst I val ++ Stmt.instAll I val r
end

/-- No keyword has a value outside of repeated code. -/
def noValues : Values := fun _ => none

def Fn.inst (I : Insts) (f : Fn) : Fn := { f with body := Stmt.instAll I noValues f.body }

def Top.inst (I : Insts) : Top → Top
  | .fn f => .fn (f.inst I)
  | .decl ts => .decl ts
  | .struct a b c => .struct a ((b.flatMap (Item.inst I)).map .tok) c
  | .decls xs => .decls ((xs.flatMap (Item.inst I)).map .tok)
  | .throwing f => .throwing (f.inst I)
  | .space x => .space x
  | .spaceEnd => .spaceEnd
  | .exception x => .exception x

/-- The data that the lines of a template are repeated for. -/
def insts (protos objs : List Proto) : Insts
  | .function => protos.map (functionValues (width protos))
  | .object => objs.map (objectValues (width objs))
  | .symbol => (protos.map fun p => symbolValues (functionPointer p) p.symbol) ++ (objs.map fun p => symbolValues (objectPointer p) p.symbol)

end Gdo.Cc
