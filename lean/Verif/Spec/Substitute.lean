import Verif.Model.Parse

/-!
Specification of template entries: text with keywords, and what it stands for when
every keyword is replaced by its value at once.
-/

namespace Gdo.Tmpl
open Gdo

/-- A part of a template entry. -/
inductive Item
  | ch (c : Char)
  | kw (name : Str)
  deriving DecidableEq, Repr

/-- How an item is written in the template. -/
def Item.source : Item → Str
  | .ch c => [c]
  | .kw k => str% "%%" ++ k ++ str% "%%"

/-- How an entry is written in the template. -/
def source (ps : List Item) : Str := ps.flatMap Item.source

/-- A character of keyword names. -/
def isNameChar (c : Char) : Bool := isLower c || c == '_'

/-- The text up to the next keyword, if there is one, has a character that is not
    part of keyword names. -/
def Separated : List Item → Prop
  | [] => True
  | .ch c :: r => isNameChar c = false ∨ Separated r
  | .kw _ :: _ => False

/-- A well formed entry: no percent sign except for the keywords, and between two
    keywords a character that is not part of keyword names. -/
def WellFormed : List Item → Prop
  | [] => True
  | .ch c :: r => c ≠ '%' ∧ WellFormed r
  | .kw k :: r => k ≠ [] ∧ (∀ c ∈ k, isNameChar c = true) ∧ Separated r ∧ WellFormed r

/-- The value of a keyword: its text, and whether one blank behind the keyword is
    left out. -/
abbrev Values := Str → Option (Str × Bool)

/-- Every keyword replaced by its value, all at once; a keyword without a value
    stays.  `eat`: a blank is left out if it comes next. -/
def replaceAll (val : Values) : Bool → List Item → Str
  | _, [] => []
  | eat, .ch c :: r => if eat && c == ' ' then replaceAll val false r else c :: replaceAll val false r
  | _, .kw k :: r =>
    match val k with
    | some (v, eat) => v ++ replaceAll val eat r
    | none => Item.source (.kw k) ++ replaceAll val false r

/-- A type that ends with an asterisk. -/
def isPointer (t : Str) : Bool := t.getLast? == some '*'

/-- The type `void`, in any case. -/
def isVoid (t : Str) : Bool := t.map toLowerC == str% "void"

/-- The symbol filled up with blanks to the length `w`. -/
def fill (w : Nat) (s : Str) : Str := s ++ List.replicate (w - s.length) ' '

/-- Length of the longest symbol. -/
def width : List Proto → Nat
  | [] => 0
  | p :: r => max p.symbol.length (width r)

/-- The data of a function: `void` functions return nothing, and no blank is put
    between a type that ends with `*` and what follows. -/
def functionValues (w : Nat) (p : Proto) : Values := fun k =>
  if k = str% "return" then some (if isVoid p.type then ([], true) else (str% "return", false))
  else if k = str% "type" then some (p.type, isPointer p.type)
  else if k = str% "func_symbol" then some (p.symbol, false)
  else if k = str% "func_symbol_pad" then some (fill w p.symbol, false)
  else if k = str% "args" then some (p.args, false)
  else if k = str% "param_names" then some (p.paramNames, false)
  else none

/-- The data of an object. -/
def objectValues (w : Nat) (p : Proto) : Values := fun k =>
  if k = str% "obj_type" then some (p.type, isPointer p.type)
  else if k = str% "obj_symbol" then some (p.symbol, false)
  else if k = str% "obj_symbol_pad" then some (fill w p.symbol, false)
  else none

/-- The type of a pointer to a function. -/
def functionPointer (p : Proto) : Str :=
  p.type ++ (if isPointer p.type then [] else str% " ") ++ str% "(*)(" ++ p.args ++ str% ")"

/-- The type of a pointer to an object. -/
def objectPointer (p : Proto) : Str := p.type ++ (if isPointer p.type then [] else str% " ") ++ str% "*"

/-- The data of any symbol. -/
def symbolValues (type symbol : Str) : Values := fun k =>
  if k = str% "sym_type" then some (type, false)
  else if k = str% "symbol" then some (symbol, false)
  else none

/-- The three classes of keywords. -/
inductive Kind
  | function | object | symbol
  deriving DecidableEq, Repr

/-- The class of a keyword. -/
def kindOf (k : Str) : Option Kind :=
  if k ∈ [str% "return", str% "type", str% "func_symbol", str% "func_symbol_pad", str% "args", str% "param_names"] then
    some .function
  else if k ∈ [str% "obj_type", str% "obj_symbol", str% "obj_symbol_pad"] then some .object
  else if k ∈ [str% "sym_type", str% "symbol"] then some .symbol
  else none

/-- The entry has a keyword of this class. -/
def Uses (ps : List Item) (x : Kind) : Prop := ∃ k, .kw k ∈ ps ∧ kindOf k = some x

end Gdo.Tmpl
