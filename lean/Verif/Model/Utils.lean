import Verif.Basic

/-!
Model of `src/utils.hpp` and `src/utils.cpp` (string helpers).
-/

namespace Gdo

/-- Outcome of code that may run into undefined behaviour: `none` is undefined
    behaviour (out of bounds access, invalid iterator range, NULL dereference),
    `some a` is a normal return. -/
abbrev Ub (α : Type) := Option α

/-- `utils::str_front` (utils.hpp 149-151): first byte or NUL if empty. -/
def strFront (s : Str) : Char :=
  match s with
  | [] => '\x00'
  | c :: _ => c

/-- `utils::str_at` (utils.hpp 145-147): byte at a position or NUL. -/
def strAt (s : Str) (n : Nat) : Char :=
  match s[n]? with
  | some c => c
  | none => '\x00'

/-- `std::string::find(needle)` as used by `utils::find` (utils.hpp 66-76):
    the search always starts at position 0.  Instead of the position the text
    before and after the first occurrence is returned; the position is the length
    of the first component. -/
def splitFirst (pat : Str) : Str → Option (Str × Str)
  | [] => if pat.isPrefixOf [] then some ([], []) else none
  | c :: cs =>
    if pat.isPrefixOf (c :: cs) then some ([], (c :: cs).drop pat.length)
    else (splitFirst pat cs).map fun r => (c :: r.1, r.2)

/-- `utils::find(haystack, needle, pos)` (utils.hpp 66-70): position of the first
    occurrence. -/
def findPos (pat s : Str) : Option Nat := (splitFirst pat s).map fun r => r.1.length

/-- One iteration of the loop of `utils::replace` (utils.cpp 149-152).  `none`:
    nothing found, the loop ends. -/
def replaceStep (src dst s : Str) : Option Str :=
  (splitFirst src s).map fun r => r.1 ++ dst ++ r.2

/-- `utils::replace(from, to, str)` (utils.cpp 145-153), at most `n` iterations.
    The variable `pos` that the code advances is overwritten by `utils::find`,
    which searches from the start again.  `none`: the loop has not ended yet. -/
def replaceFuel (src dst : Str) : Nat → Str → Option Str
  | 0, _ => none
  | n + 1, s =>
    match replaceStep src dst s with
    | none => some s
    | some s' => replaceFuel src dst n s'

/-- `utils::replace` terminates with result `r`. -/
def Replaces (src dst s r : Str) : Prop := ∃ n, replaceFuel src dst n s = some r

/-- `utils::replace` does not terminate. -/
def ReplaceDiverges (src dst s : Str) : Prop := ∀ n, replaceFuel src dst n s = none

/-- `::toupper` in the "C" locale. -/
def toUpperC (c : Char) : Char := if isLower c then Char.ofNat (c.toNat - 32) else c
/-- `::tolower` in the "C" locale. -/
def toLowerC (c : Char) : Char := if isUpper c then Char.ofNat (c.toNat + 32) else c

/-- `utils::to_upper(s, underscores)` (utils.cpp 72-91).  `::isalnum` on bytes
    above 127 is taken as false ("C" locale). -/
def toUpper (s : Str) (underscores : Bool := true) : Str :=
  s.map fun c => if underscores then (if isAlnum c then toUpperC c else '_') else toUpperC c

/-- `utils::to_lower(s, underscores)` (utils.cpp 94-113). -/
def toLower (s : Str) (underscores : Bool := true) : Str :=
  s.map fun c => if underscores then (if isAlnum c then toLowerC c else '_') else toLowerC c

/-- `utils::is_prefixed` (utils.cpp 116-128). -/
def isPrefixed (s : Str) (list : List Str) : Bool :=
  if s.isEmpty || list.isEmpty then false
  else list.any fun e => e.isPrefixOf s

/-- First loop of `utils::strip_spaces` (utils.cpp 134-136): remove white space
    from the back. -/
def stripBack : Str → Str
  | [] => []
  | c :: cs =>
    match stripBack cs with
    | [] => if isSpace c then [] else [c]
    | d :: ds => c :: d :: ds

/-- Second loop of `utils::strip_spaces` (utils.cpp 139-141). -/
def stripFront : Str → Str
  | [] => []
  | c :: cs => if isSpace c then stripFront cs else c :: cs

/-- `utils::strip_spaces` (utils.cpp 131-142). -/
def stripSpaces (s : Str) : Str := stripFront (stripBack s)

/-- `utils::count_linefeed` (utils.cpp 156-167). -/
def countLinefeed : Str → Nat
  | [] => 0
  | c :: cs => (if c = '\n' then 1 else 0) + countLinefeed cs

/-- `utils::delete_suffix(str, suffix)` (utils.hpp 163-173). -/
def deleteSuffix (s suf : Str) : Str :=
  if suf.isSuffixOf s then s.take (s.length - suf.length) else s

/-- `utils::append_missing_separator` (utils.cpp 192-203), POSIX branch. -/
def appendMissingSeparator (p : Str) : Str :=
  if p.isEmpty || (str% "/").isSuffixOf p then p else p ++ str% "/"

/-- `filter::mode` (types.hpp 98-106). -/
inductive FilterMode
  | none | prefix | list | pfxList
  deriving DecidableEq, Repr

/-- `utils::get_filter_mode` (utils.hpp 177-189). -/
def getFilterMode {α : Type} (prefixes symbols : List α) : FilterMode :=
  if prefixes.length > 0 && symbols.length > 0 then .pfxList
  else if prefixes.length > 0 then .prefix
  else if symbols.length > 0 then .list
  else .none

/-- `utils::strcasecmp(a, b) == 0`: equality up to ASCII case. -/
def eqCase (a b : Str) : Bool := a.map toLowerC == b.map toLowerC

/-- `utils::prefixed_and_longer_case` (utils.hpp 80-84). -/
def prefixedAndLongerCase (s pfx : Str) : Bool :=
  s.length > pfx.length && eqCase (s.take pfx.length) pfx

/-- `parse::is_ident` (parse.hpp 54-56). -/
def isIdent (c : Char) : Bool := isAlnum c || c == '_'

/-- `parse::append_strings(buf, ...)` (parse.hpp 38-52): each string followed by
    a space. -/
def appendStrings (buf : Str) (v : List Str) : Str :=
  v.foldl (fun b e => b ++ e ++ [' ']) buf

end Gdo
