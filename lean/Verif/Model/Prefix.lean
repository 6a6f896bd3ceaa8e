import Verif.Model.Utils

/-!
Model of the prefix replacement (`gendlopen::prefix`, `gendlopen::replace_prefixes`).

`std::regex_replace` with the three ECMAScript patterns is modelled as the leftmost
scan that `std::regex_iterator` makes: at each position the pattern is tried, after
a match the search goes on behind it.  `^` matches at the start of the text only:
the flag `multiline` is not set and `match_prev_avail` is set after the first match.
A pattern is a function from a flag (position is the start of the text) and the
rest of the text to the captured groups, group 0 being the match; no pattern here
matches the empty text.
-/

namespace Gdo.Pfx
open Gdo

/-- The text after a literal part of a pattern. -/
def after (lit s : Str) : Option Str := if lit.isPrefixOf s then some (s.drop lit.length) else none

/-- `[_]?` followed by a literal, after the group `g`: groups 0 and 1.  The optional
    underscore is tried first. -/
def optUnderscore (lit g s : Str) : Option (List Str) :=
  match after ('_' :: lit) s with
  | some _ => some [g ++ '_' :: lit, g ++ str% "_"]
  | none =>
    match after lit s with
    | some _ => some [g ++ lit, g]
    | none => none

/-- `((NOT_IDENT|^)[_]?)(lit)` (gendlopen.cpp 146-152): groups 0 to 3. -/
def matchPrefix (lit : Str) (bol : Bool) (s : Str) : Option (List Str) :=
  let sep :=
    match s with
    | c :: t => if isWord c then none else (optUnderscore lit [c] t).map fun g => g ++ [[c], lit]
    | [] => none
  match sep with
  | some g => some g
  | none => if bol then (optUnderscore lit [] s).map fun g => g ++ [[], lit] else none

/-- `(lit)(NOT_IDENT|$)` after the group `g`: groups 0 to 3. -/
def litEnd (lit g s : Str) : Option (List Str) :=
  match after lit s with
  | some (c :: _) => if isWord c then none else some [g ++ lit ++ [c], g, lit, [c]]
  | some [] => some [g ++ lit, g, lit, []]
  | none => none

/-- `(NOT_IDENT|^)(gdo)(NOT_IDENT|$)` (gendlopen.cpp 154-156). -/
def matchStandalone (lit : Str) (bol : Bool) (s : Str) : Option (List Str) :=
  let sep :=
    match s with
    | c :: t => if isWord c then none else litEnd lit [c] t
    | [] => none
  match sep with
  | some g => some g
  | none => if bol then litEnd lit [] s else none

/-- Value of a decimal digit. -/
def digitVal (c : Char) : Nat := c.toNat - 48

/-- `std::match_results::format` with the ECMAScript rules for `$n` and `$nn`; the
    number of a group that does not exist stands for nothing.  `$$`, `$&`, `` $` ``
    and `$'` are not modelled, they cannot occur in the format strings used. -/
def expand (groups : List Str) : Str → Str
  | '$' :: a :: b :: s =>
    if isDigit a && isDigit b then groups.getD (digitVal a * 10 + digitVal b) [] ++ expand groups s
    else if isDigit a then groups.getD (digitVal a) [] ++ expand groups (b :: s)
    else '$' :: expand groups (a :: b :: s)
  | '$' :: [a] => if isDigit a then groups.getD (digitVal a) [] else ['$', a]
  | c :: s => c :: expand groups s
  | [] => []

/-- `std::regex_replace`.  `skip` is the number of characters of a match that have
    not been passed yet. -/
def regexReplace (m : Bool → Str → Option (List Str)) (fmt : Str) : Bool → Nat → Str → Str
  | _, _, [] => []
  | _, k + 1, _ :: t => regexReplace m fmt false k t
  | bol, 0, c :: t =>
    match m bol (c :: t) with
    | some g => expand g fmt ++ regexReplace m fmt false ((g.getD 0 []).length - 1) t
    | none => c :: regexReplace m fmt false 0 t

/-- `gendlopen::replace_prefixes` (gendlopen.cpp 144-164) with the format strings of
    `gendlopen::prefix` (gendlopen.cpp 123-136); `pfx` is the argument of `-prefix`. -/
def replacePrefixes (pfx s : Str) : Str :=
  let upper := toUpper pfx
  let lower := toLower pfx
  let b := regexReplace (matchPrefix (str% "GDO_")) (str% "$1" ++ upper ++ str% "_") true 0 s
  let b := regexReplace (matchPrefix (str% "gdo_")) (str% "$1" ++ lower ++ str% "_") true 0 b
  regexReplace (matchStandalone (str% "gdo")) (str% "$1" ++ lower ++ str% "$3") true 0 b

/-- The choice of `substitute_line` and `save_data` (substitute.cpp 316-320,
    generate.cpp 405-410).  `none`: no `-prefix`, the default is `gdo`. -/
def applyPrefix (pfx s : Str) : Str := if toUpper pfx = str% "GDO" then s else replacePrefixes pfx s

end Gdo.Pfx
