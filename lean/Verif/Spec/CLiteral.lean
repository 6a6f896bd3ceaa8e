import Verif.Basic

/-!
Specification: what a C string literal denotes (C17 6.4.4.4 and 6.4.5), for the
escape sequences `\n`, `\t`, `\r`, `\"`, `\\` and `\xH…`.  A hexadecimal escape
sequence takes as many digits as follow, and its value must fit into a byte.
-/

namespace Gdo.CLit
open Gdo

/-- Value of a hexadecimal digit. -/
def hexVal (c : Char) : Option Nat :=
  if '0' ≤ c ∧ c ≤ '9' then some (c.toNat - 48)
  else if 'A' ≤ c ∧ c ≤ 'F' then some (c.toNat - 55)
  else if 'a' ≤ c ∧ c ≤ 'f' then some (c.toNat - 87)
  else none

/-- Where the decoder is: in plain text, after a backslash, after `\x`, or after
    `\x` and at least one digit with the value so far. -/
inductive Mode
  | text | esc | hex0 | hex (v : Nat)
  deriving DecidableEq, Repr

/-- One plain character. -/
def plain (out : Str) (c : Char) : Option (Str × Mode) :=
  if c = '\\' then some (out, .esc)
  else if c = '"' ∨ c = '\n' ∨ c = '\r' then none
  else some (out ++ [c], .text)

/-- One more character of the literal; `none`: not a valid literal. -/
def step : Option (Str × Mode) → Char → Option (Str × Mode)
  | none, _ => none
  | some (out, .text), c => plain out c
  | some (out, .esc), c =>
    if c = 'n' then some (out ++ ['\n'], .text)
    else if c = 't' then some (out ++ ['\t'], .text)
    else if c = 'r' then some (out ++ ['\r'], .text)
    else if c = '"' ∨ c = '\\' then some (out ++ [c], .text)
    else if c = 'x' then some (out, .hex0)
    else none
  | some (out, .hex0), c => (hexVal c).map fun v => (out, .hex v)
  | some (out, .hex v), c =>
    match hexVal c with
    | some d => some (out, .hex (v * 16 + d))
    | none => if v < 256 then plain (out ++ [Char.ofNat v]) c else none

/-- End of the literal. -/
def finish : Option (Str × Mode) → Option Str
  | some (out, .text) => some out
  | some (out, .hex v) => if v < 256 then some (out ++ [Char.ofNat v]) else none
  | _ => none

/-- The bytes that the text between the quotes of a literal denotes. -/
def decode (body : Str) : Option Str := finish (body.foldl step (some ([], .text)))

/-- Adjacent literals are concatenated. -/
def decodeAll : List Str → Option Str
  | [] => some []
  | b :: bs => do
    let x ← decode b
    let y ← decodeAll bs
    return x ++ y

/-- A `std::string` initialised with a literal ends at the first NUL byte. -/
def cString (s : Str) : Str := s.takeWhile (· != '\x00')

end Gdo.CLit
