import Verif.Model.Utils

/-!
Model of `_gdo_fullpath_procmap` (`src/templates/common.c` 113-183): the part that reads
`/proc/self/maps` with `getline` and `sscanf` (common.c 145-182).

Simplifications:

* `PROCMAP_QUERY` is not defined, or the request has failed.
* `sscanf` follows the C standard; numbers out of range become the greatest number
  (`strtoumax`); memory for `%m` is available.
* The file has no NUL bytes.
-/

namespace Gdo.Procmap
open Gdo

/-- A hexadecimal digit. -/
def isHex (c : Char) : Bool := isDigit c || ('a' ≤ c && c ≤ 'f') || ('A' ≤ c && c ≤ 'F')

/-- The value of a hexadecimal digit. -/
def hexVal (c : Char) : Nat :=
  if isDigit c then c.toNat - 48 else if 'a' ≤ c && c ≤ 'f' then c.toNat - 87 else c.toNat - 55

/-- `UINTMAX_MAX`. -/
def uintMax : Nat := 2 ^ 64 - 1

/-- White space in the format, and in front of numbers. -/
def skipWs (s : Str) : Str := s.dropWhile isSpace

/-- An ordinary character in the format. -/
def lit (c : Char) : Str → Option Str
  | [] => none
  | d :: r => if d = c then some r else none

/-- An optional sign: whether it is a minus. -/
def sign : Str → Bool × Str
  | '-' :: r => (true, r)
  | '+' :: r => (false, r)
  | s => (false, s)

/-- An optional `0x` in front of a hexadecimal digit. -/
def hexPrefix : Str → Str
  | '0' :: x :: d :: r => if (x = 'x' || x = 'X') && isHex d then d :: r else '0' :: x :: d :: r
  | s => s

/-- The number that digits stand for. -/
def hexNum (ds : Str) : Nat := ds.foldl (fun a c => 16 * a + hexVal c) 0

/-- `%jx`: the number and the rest. -/
def scanHex (s : Str) : Option (Nat × Str) :=
  let m := sign (skipWs s)
  let t := hexPrefix m.2
  let ds := t.takeWhile isHex
  if ds.isEmpty then none
  else
    let v := min (hexNum ds) uintMax
    some (if m.1 then (uintMax + 1 - v) % (uintMax + 1) else v, t.dropWhile isHex)

/-- `%*u`: the rest. -/
def skipDec (s : Str) : Option Str :=
  let t := (sign (skipWs s)).2
  if (t.takeWhile isDigit).isEmpty then none else some (t.dropWhile isDigit)

/-- The characters of `[rwxsp-]`. -/
def isMode (c : Char) : Bool := c = 'r' || c = 'w' || c = 'x' || c = 's' || c = 'p' || c = '-'

/-- `%4[rwxsp-]`: the rest. -/
def scanMode (s : Str) : Option Str :=
  let m := (s.take 4).takeWhile isMode
  if m.isEmpty then none else some (s.drop m.length)

/-- `%m[^\n]`. -/
def scanLine (s : Str) : Option Str :=
  let p := s.takeWhile (· ≠ '\n')
  if p.isEmpty then none else some p

/-- `sscanf(line, "%jx-%jx %4[rwxsp-] %*u %*u:%*u %*u %m[^\n]", ...)` (common.c 161-162):
    start, end and path if the return value is 4. -/
def scan (line : Str) : Option (Nat × Nat × Str) := do
  let (a, s) ← scanHex line
  let s ← lit '-' s
  let (b, s) ← scanHex s
  let s ← scanMode (skipWs s)
  let s ← skipDec (skipWs s)
  let s ← skipDec (skipWs s)
  let s ← lit ':' s
  let s ← skipDec s
  let s ← skipDec (skipWs s)
  let p ← scanLine (skipWs s)
  return (a, b, p)

/-- The lines that `getline` reads. -/
def lines : Str → List Str
  | [] => []
  | c :: r =>
    if c = '\n' then [c] :: lines r
    else match lines r with
      | [] => [[c]]
      | l :: ls => (c :: l) :: ls

/-- The loop (common.c 158-172): the path of the first line that matches. -/
def search (addr : Nat) : List Str → Option Str
  | [] => none
  | l :: r =>
    match scan l with
    | some (a, b, p) => if addr ≥ a ∧ addr < b then some p else search addr r
    | none => search addr r

/-- `_gdo_fullpath_procmap` (common.c 113-183): the text written to the buffer if the
    return value is true.  `maps`: the contents of `/proc/self/maps`, `none` if it cannot
    be opened. -/
def fullpath (maps : Option Str) (addr bufsize : Nat) : Option Str :=
  match maps with
  | none => none
  | some text =>
    match search addr (lines text) with
    | some p => if p.length < bufsize then some p else none
    | none => none

end Gdo.Procmap
