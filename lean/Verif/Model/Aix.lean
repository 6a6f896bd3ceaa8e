import Verif.Model.Runtime

/-!
Model of the library path on AIX: `_gdo_aix_parse_ldinfo` (`src/templates/common.c` 57-92),
`_gdo_libpath_from_symptr` and `_gdo_library_path` (`src/templates/c.c` 724-787), and
`gdo_library_path` (c.c 642-684) as compiled for AIX.

Simplifications: as in `Verif/Model/Runtime.lean`.  The buffer filled by `loadquery` is
given by the structures that begin at its offsets; reading where no structure begins has no
defined behaviour.  Addresses are numbers without overflow.
-/

namespace Gdo.Aix
open Gdo Rt

/-- `struct ld_info`; the file name is followed by the name of the archive member. -/
structure LdInfo where
  next : Nat
  textorg : Nat
  textsize : Nat
  dataorg : Nat
  datasize : Nat
  path : Str
  member : Str
  deriving DecidableEq, Repr

/-- The test for the address (common.c 67-68). -/
def covers (e : LdInfo) (sym : Nat) : Bool :=
  (decide (sym ≥ e.textorg) && decide (sym < e.textorg + e.textsize)) ||
  (decide (sym ≥ e.dataorg) && decide (sym < e.dataorg + e.datasize))

/-- `_gdo_aix_parse_ldinfo` (common.c 57-92) from offset `off` on, at most `n` structures;
    the result is the structure whose file name is returned. -/
def parse (buf : Nat → Option LdInfo) (sym : Nat) : Nat → Nat → Ub (Option LdInfo)
  | 0, _ => none
  | n + 1, off =>
    match buf off with
    | none => none
    | some e =>
      if covers e sym then some (if e.path = [] then none else some e)
      else if e.next = 0 then some none
      else parse buf sym n (off + e.next)

/-- `_gdo_libpath_from_symptr` (c.c 724-762): the text written to `libpath`. -/
def fromSymptr (buf : Nat → Option LdInfo) (n : Nat) (sym : Option Ptr) : Ub (Option Str) :=
  match sym with
  | none => some none
  | some a => do
    match ← parse buf a n 0 with
    | none => return none
    | some e =>
      if e.member ≠ [] then
        if e.path.length + e.member.length + 3 > bufLen then return none
        else return some (e.path ++ str% "(" ++ e.member ++ str% ")")
      else if e.path.length + 1 > bufLen then return none
      else return some e.path

/-- The repeated lines (c.c 776-778): the first symbol with a path. -/
def firstPath (buf : Nat → Option LdInfo) (n : Nat) : List (Option Ptr) → Ub (Option Str)
  | [] => some none
  | p :: ps => do
    match ← fromSymptr buf n p with
    | some t => return some t
    | none => firstPath buf n ps

/-- `_gdo_library_path` (c.c 764-787); `query`: what `loadquery` fills the buffer with,
    `none` if it fails. -/
def queryPath (C : Cfg) (query : Option (Nat → Option LdInfo)) (n : Nat) (s : St) : Ub (Bool × St) :=
  if noneLoaded C s then some (false, saveToErrbuf (some (str% "no symbols were loaded")) s)
  else
    match query with
    | none => some (false, saveToErrbuf (some (str% "loadquery() failed to get the library path")) s)
    | some buf => do
      match ← firstPath buf n ((List.range C.syms.length).map s.ptr) with
      | some t => return (true, { s with libpath := t })
      | none => return (false, saveToErrbuf (some (str% "loadquery() failed to get the library path")) s)

/-- `gdo_library_path` (c.c 642-684). -/
def libraryPath (C : Cfg) (query : Option (Nat → Option LdInfo)) (n : Nat) (s : St) : Ub (Option Str × St) :=
  let s := clearError s
  if libIsLoaded s then
    if s.libpath ≠ [] then some (some s.libpath, s)
    else do
      let r ← queryPath C query n s
      if r.1 then return (some r.2.libpath, r.2) else return (none, { r.2 with libpath := [] })
  else some (none, noLibrary s)

end Gdo.Aix
