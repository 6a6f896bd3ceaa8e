import Verif.Model.Win

/-!
Model of the minimal templates `src/templates/minimal.h` and
`src/templates/minimal_cxxeh.hpp`.  The two differ in how an error is reported only: a
returned text or an exception.  The functions are those compiled for dlfcn; how those for
Windows and AIX are obtained from them is said at `Os`.

Simplifications: as in `Verif/Model/Runtime.lean`.
-/

namespace Gdo.Min
open Gdo Rt

/-- `gdo_hndl` (minimal.h 18-32) and the process around it. -/
structure St where
  handle : Option Ptr := none
  ptr : Nat → Option Ptr := fun _ => none
  clock : Nat := 0
  log : List Ev := []

/-- `RTLD_LAZY`. -/
def rtldLazy : Int := 1

/-- How loading fails. -/
inductive Err where
  | null
  | empty
  | library (name : Str)
  | symbol (name : Str)
  deriving DecidableEq, Repr

/-- The text returned by the C function (minimal.h 66-68, 81, 97). -/
def Err.text : Err → Str
  | .null => str% "filename is <NULL>"
  | .empty => str% "filename is empty"
  | .library _ => str% "failed to load library"
  | .symbol s => str% "failed to load symbol: " ++ s

/-- The exceptions of the C++ function (minimal_cxxeh.hpp 75-91). -/
inductive Exn where
  | libraryError (what : Str)
  | symbolError (what : Str)
  deriving DecidableEq, Repr

/-- The exception thrown by the C++ function (minimal_cxxeh.hpp 104-108, 120, 139). -/
def Err.exn : Err → Exn
  | .null => .libraryError (str% "<NULL>")
  | .empty => .libraryError (str% "<EMPTY>")
  | .library n => .libraryError n
  | .symbol s => .symbolError s

/-- The call of `dlclose` (minimal.h 41-47, minimal_cxxeh.hpp 59-65). -/
def close (L : Loader) (s : St) : St :=
  match s.handle with
  | some h => { s with clock := s.clock + 1, log := s.log ++ [.closed h (L.dlclose s.clock h).1 true] }
  | none => s

/-- `gdo_free_library` (minimal.h 39-51), `gdo::free_library` (minimal_cxxeh.hpp 57-69). -/
def free (L : Loader) (syms : List Str) (s : St) : St :=
  let s := close L s
  { s with handle := none, ptr := fun i => if i < syms.length then none else s.ptr i }

/-- The call of `dlsym` and the assignment of the pointer (minimal.h 92-94, minimal_cxxeh.hpp 134-136). -/
def loadOne (L : Loader) (h : Ptr) (i : Nat) (name : Str) (s : St) : St :=
  let a := (L.dlsym s.clock h name).1
  { s with clock := s.clock + 1, ptr := fun j => if j = i then a else s.ptr j, log := s.log ++ [.sym h name a] }

/-- The repeated lines (minimal.h 91-98, minimal_cxxeh.hpp 133-140), from symbol `i` on. -/
def loadLoop (L : Loader) (syms : List Str) (h : Ptr) : Nat → List Str → St → Option Err × St
  | _, [], s => (none, s)
  | i, name :: r, s =>
    let s := loadOne L h i name s
    if (s.ptr i).isSome then loadLoop L syms h (i + 1) r s else (some (.symbol name), free L syms s)

/-- The call of `dlopen` (minimal.h 77, minimal_cxxeh.hpp 116). -/
def openLib (L : Loader) (name : Str) (s : St) : St :=
  let a := (L.dlopen s.clock name rtldLazy false).1
  { s with
    handle := a
    clock := s.clock + 1
    log := match a with
      | some h => s.log ++ [.opened h]
      | none => s.log }

/-- `gdo_load_library_and_symbols` (minimal.h 63-103),
    `gdo::load_library_and_symbols` (minimal_cxxeh.hpp 102-141). -/
def load (L : Loader) (syms : List Str) (name : Option Str) (s : St) : Option Err × St :=
  match name with
  | none => (some .null, s)
  | some [] => (some .empty, s)
  | some n =>
    let s := openLib L n s
    match s.handle with
    | none => (some (.library n), s)
    | some h => loadLoop L syms h 0 syms s

/-- The systems the code can be compiled for (minimal.h 1-6, 71-78, 84-89,
    minimal_cxxeh.hpp 4-9, 111-117, 126-130). -/
inductive Os where
  | dlfcn (L : Loader)
  /-- dlfcn, `_AIX` is defined -/
  | aix (L : Loader)
  /-- `GDO_WINAPI` is defined -/
  | windows (W : Win.Loader)

/-- `RTLD_LAZY | RTLD_MEMBER` on AIX. -/
def aixFlags : Int := (4 ||| 0x40000 : Nat)

/-- The calls of the functions of the system, as if they were those of dlfcn: on AIX `dlopen`
    gets other flags (minimal.h 75, minimal_cxxeh.hpp 114); on Windows the functions are
    `LoadLibraryA`, that is `LoadLibraryEx` without flags, `GetProcAddress` and `FreeLibrary`
    (minimal.h 43, 73, 86, minimal_cxxeh.hpp 61, 112, 127). -/
def Os.loader : Os → Loader
  | .dlfcn L => L
  | .aix L => { L with dlopen := fun t n _ ns => L.dlopen t n aixFlags ns }
  | .windows W => {
      dlopen := fun t n _ _ => ((W.load t n 0).1, none)
      dlsym := fun t h n => ((W.sym t h n).1, none)
      dlclose := fun t h => ((W.free t h).1, none)
      dlinfo := fun _ _ => (none, none)
      dladdr := fun _ _ => none
      procmap := fun _ _ => none
      atexit := W.atexit }

/-- Whether `GDO_WINAPI` is defined. -/
def Os.isWin : Os → Bool
  | .windows _ => true
  | _ => false

/-- Whether `_AIX` is defined. -/
def Os.isAix : Os → Bool
  | .aix _ => true
  | _ => false

/-- The two functions. -/
inductive Call where
  | load (name : Option Str)
  | free
  deriving Repr

/-- A call. -/
def step (L : Loader) (syms : List Str) (s : St) : Call → St
  | .load n => (load L syms n s).2
  | .free => free L syms s

/-- A sequence of calls. -/
def run (L : Loader) (syms : List Str) (s : St) (calls : List Call) : St := calls.foldl (step L syms) s

end Gdo.Min
