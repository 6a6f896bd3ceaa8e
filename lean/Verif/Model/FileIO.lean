import Verif.Basic

/-!
Model of `src/open_file.{hpp,cpp}` and of `src/cio_ofstream.{hpp,cpp}`.

`open_file`: a `FILE *` is NULL, `stdin` or the result of a call of `fopen`; the results are
numbered, as `fopen` never returns a pointer that is in use.  Closing a pointer that is not open
is undefined behaviour.

`cio::ofstream`: the file system decides for every call whether opening and writing works.
Simplification: a write either adds its whole text or nothing, and buffering is left out.
`std::ofstream` keeps an error state: after a failed write nothing is written until the stream is
opened again.
-/

namespace Gdo.IO
open Gdo

/-! ### `open_file` -/

/-- A value of type `FILE *`. -/
inductive Fp
  | null
  | stdin
  | file (n : Nat)
  deriving DecidableEq, Repr

/-- The C library: the files opened so far, with the paths, and those that are open. -/
structure Lib where
  paths : List Str := []
  live : List Nat := []
  stdinOpen : Bool := true
  deriving DecidableEq, Repr

/-- `fopen(path, "rb")`; `ok` tells whether the file can be opened. -/
def fopen (ok : Str → Bool) (path : Str) (l : Lib) : Fp × Lib :=
  if ok path then (.file l.paths.length, { l with paths := l.paths ++ [path], live := l.paths.length :: l.live })
  else (.null, l)

/-- `fclose`. -/
def fclose (fp : Fp) (l : Lib) : Option Lib :=
  match fp with
  | .null => none
  | .stdin => some { l with stdinOpen := false }
  | .file n => if n ∈ l.live then some { l with live := l.live.erase n } else none

/-- `open_file::close` (open_file.cpp 77-84): the new value of `m_fp`. -/
def closeFile (fp : Fp) (l : Lib) : Option (Fp × Lib) := do
  let l ← if fp ≠ .null ∧ fp ≠ .stdin then fclose fp l else some l
  return (.stdin, l)

/-- `open_file::open` (open_file.cpp 59-70). -/
def openFile (ok : Str → Bool) (path : Str) (fp : Fp) (l : Lib) : Option (Fp × Lib) := do
  let (_, l) ← closeFile fp l
  return if path.isEmpty ∨ path = str% "-" then (.stdin, l) else fopen ok path l

/-- `open_file::is_open` (open_file.cpp 72-75). -/
def isOpen (fp : Fp) : Bool := fp ≠ .null

/-- What can be done with objects.  `ok` tells which files `fopen` can open at this time. -/
inductive FOp
  /-- the default constructor -/
  | create (i : Nat)
  /-- the constructors with a path (open_file.cpp 39-47) -/
  | createPath (i : Nat) (ok : Str → Bool) (path : Str)
  | open (i : Nat) (ok : Str → Bool) (path : Str)
  | close (i : Nat)
  /-- the destructor (open_file.cpp 49-52) -/
  | destroy (i : Nat)
  /-- the copy constructor, which the compiler adds -/
  | copy (i j : Nat)

/-- The objects that exist (`m_fp` of each) and the C library. -/
structure FState where
  obj : Nat → Option Fp := fun _ => none
  lib : Lib := {}

/-- Store `m_fp`. -/
def FState.set (s : FState) (i : Nat) (o : Option Fp) (l : Lib) : FState :=
  { obj := fun k => if k = i then o else s.obj k, lib := l }

/-- One call.  `none` is undefined behaviour, including objects that are used before their
    construction or after their destruction. -/
def fstep (s : FState) : FOp → Option FState
  | .create i => if s.obj i = none then some (s.set i (some .null) s.lib) else none
  | .createPath i ok path => do
    if s.obj i = none then
      let (fp, l) ← openFile ok path .null s.lib
      some (s.set i (some fp) l)
    else none
  | .open i ok path => do
    let (fp, l) ← openFile ok path (← s.obj i) s.lib
    return s.set i (some fp) l
  | .close i => do
    let (fp, l) ← closeFile (← s.obj i) s.lib
    return s.set i (some fp) l
  | .destroy i => do
    let (_, l) ← closeFile (← s.obj i) s.lib
    return s.set i none l
  | .copy i j => do
    if s.obj j = none then
      let fp ← s.obj i
      some (s.set j (some fp) s.lib)
    else none

/-- A sequence of calls. -/
def frun (ops : List FOp) : Option FState := ops.foldlM fstep {}

/-! ### `cio::ofstream` -/

/-- What can be done with the object, and how the file system reacts. -/
inductive OOp
  /-- `open(const std::filesystem::path &)` -/
  | openPath (path : Str) (ok : Bool)
  /-- `open(const std::string &)` -/
  | open (file : Str) (ok : Bool)
  | close
  /-- `operator<<` -/
  | write (text : Str) (ok : Bool)
  deriving DecidableEq, Repr

/-- The members, standard output and the files. -/
structure OState where
  /-- the file of `m_ofs` -/
  ofs : Option Str := none
  /-- no error in `m_ofs` -/
  good : Bool := true
  /-- `m_optr` points to `m_ofs` -/
  toFile : Bool := false
  cout : Str := []
  files : Str → Option Str

/-- `close` (cio_ofstream.cpp 55-62). -/
def oclose (s : OState) : OState := { s with ofs := none, toFile := false }

/-- `open_path` (cio_ofstream.hpp 45-57). -/
def openPath (path : Str) (ok : Bool) (s : OState) : Bool × OState :=
  let s := oclose s
  if ok then
    (true, { s with ofs := some path, good := true, toFile := true, files := fun p => if p = path then some [] else s.files p })
  else (false, { s with good := false })

/-- `open(const std::string &)` (cio_ofstream.cpp 44-53). -/
def oopen (file : Str) (ok : Bool) (s : OState) : Bool × OState :=
  if file = str% "-" then (true, oclose s) else openPath file ok s

/-- `operator<<` (cio_ofstream.hpp 69-73): `*m_optr << obj`.  Writing to a `std::ofstream` that is
    not open fails. -/
def owrite (text : Str) (ok : Bool) (s : OState) : OState :=
  if s.toFile then
    match s.ofs with
    | none => { s with good := false }
    | some path =>
      if s.good && ok then { s with files := fun p => if p = path then (s.files p).map (· ++ text) else s.files p }
      else { s with good := false }
  else { s with cout := s.cout ++ text }

/-- One call; the result is that of `open`, and true for the others. -/
def ostep (s : OState) : OOp → Bool × OState
  | .openPath p ok => openPath p ok s
  | .open f ok => oopen f ok s
  | .close => (true, oclose s)
  | .write t ok => (true, owrite t ok s)

/-- A sequence of calls, and the destructor (cio_ofstream.cpp 34-37) is `close`. -/
def orun (s : OState) (ops : List OOp) : OState := ops.foldl (fun s op => (ostep s op).2) s

end Gdo.IO
