import Verif.Model.Parse

/-!
Model of `get_common_prefix` (generate.cpp 60-108).
-/

namespace Gdo.Common
open Gdo

/-- `s.c_str()[pos]`: the byte at `pos`, NUL at the end, undefined behind it. -/
def cStrAt (s : Str) (pos : Nat) : Ub Char :=
  match s[pos]? with
  | some c => some c
  | none => if pos = s.length then some '\x00' else none

/-- The loop of `compare_chars_at` (generate.cpp 66-74) over the entries other than
    the first symbol; `true`: they differ. -/
def compareLoop (front : Str) (pos : Nat) : List Str → Ub Bool
  | [] => some false
  | s :: r => do
    let c ← cStrAt s pos
    let f ← cStrAt front pos
    if c = '\x00' ∨ c ≠ f then some true else compareLoop front pos r

/-- The symbols that are compared with the first one (`it != it0`, generate.cpp 67
    and 94): it0 is the first function or, if there is none, the first object.  An
    iterator of the other list is taken to be different. -/
def others (prot obj : List Str) : List Str × List Str :=
  match prot with
  | _ :: r => (r, obj)
  | [] => ([], obj.drop 1)

/-- The loop of `get_common_prefix` (generate.cpp 97-103), `n` characters of the
    first symbol being left: the position where it stops. -/
def commonLoop (front : Str) (prot obj : List Str) : Nat → Nat → Ub Nat
  | i, 0 => some i
  | i, n + 1 => do
    let a ← compareLoop front i prot
    if a then return i
    let b ← compareLoop front i obj
    if b then return i
    commonLoop front prot obj (i + 1) n

/-- `get_common_prefix` (generate.cpp 86-106) on the symbol names. -/
def getCommonPrefix (prot obj : List Str) : Ub Str :=
  if prot.length + obj.length < 2 then some []
  else
    let front := (prot ++ obj).headD []
    let o := others prot obj
    (commonLoop front o.1 o.2 0 front.length).map fun i => front.take i

end Gdo.Common
