/-
Basic vocabulary of the model: byte strings and character classes.

A C++ `std::string`/`char` sequence is modelled as a list of characters.  A byte
`b` of the C++ program corresponds to the character with code `b`; theorems are
stated for all lists of characters, which includes all byte strings.
-/

namespace Gdo

/-- A byte string (`std::string`, `char *` contents). -/
abbrev Str := List Char

open Lean in
/-- `str% "abc"` is the literal list `['a','b','c']`; it avoids `String.toList`
    in terms that the kernel has to evaluate. -/
macro "str% " s:str : term => do
  let cs := s.getString.toList.toArray.map (fun c => Syntax.mkCharLit c)
  `(([$cs,*] : List Char))

/-- `::isspace` in the "C" locale (ASCII white space including VT and FF). -/
def isSpace (c : Char) : Bool :=
  c == ' ' || c == '\t' || c == '\n' || c == '\x0b' || c == '\x0c' || c == '\r'

/-- `A`..`Z`. -/
def isUpper (c : Char) : Bool := 'A' ≤ c && c ≤ 'Z'
/-- `a`..`z`. -/
def isLower (c : Char) : Bool := 'a' ≤ c && c ≤ 'z'
/-- `0`..`9`. -/
def isDigit (c : Char) : Bool := '0' ≤ c && c ≤ '9'
/-- `[a-zA-Z]` -/
def isAlpha (c : Char) : Bool := isUpper c || isLower c
/-- `[a-zA-Z0-9]` (`::isalnum` in the "C" locale). -/
def isAlnum (c : Char) : Bool := isAlpha c || isDigit c
/-- `[a-zA-Z0-9_]` -/
def isWord (c : Char) : Bool := isAlnum c || c == '_'

/-- Number of newline characters of a string. -/
def nlCount (s : Str) : Nat := s.count '\n'

deriving instance DecidableEq for Except

end Gdo
