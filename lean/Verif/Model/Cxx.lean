import Verif.Model.Runtime

/-!
Model of the generated C++ code: `src/templates/cxx.cpp` and `src/templates/cxx.hpp`,
compiled for dlfcn (`GDO_WINAPI` not defined).

Simplifications: as in `Verif/Model/Runtime.lean`, whose loader, settings and history are
used.  A `std::string` is the list of its characters, none of them NUL.  The message
callback is the default one.  Calls of member functions with objects that do not exist
are left out.  Copying an object is the implicit copy constructor.
-/

namespace Gdo.Cxx
open Gdo
open Gdo.Rt (Ptr Loader Cfg Ev Mode bufLen fit showInt caseOf foundName strstr)

/-- The members that are not static (cxx.hpp 95-100, 181). -/
structure Obj where
  filename : Str := []
  flags : Int
  ns : Bool := false
  freeInDtor : Bool := true
  libpath : Str := []
  errmsg : Str := []

/-- The static handle, the symbol pointers (cxx.cpp 39-44) and the process around them. -/
structure World where
  handle : Option Ptr := none
  ptr : Nat → Option Ptr := fun _ => none
  clock : Nat := 0
  dlerr : Option Str := none
  log : List Ev := []
  stderr : Str := []

/-- An object and the world. -/
structure S where
  o : Obj
  w : World

/-! ### Error messages -/

/-- Assignment to `m_errmsg`. -/
def setMsg (m : Str) (s : S) : S := { s with o := { s.o with errmsg := m } }

/-- Assignment to `m_libpath`, the system having named the path. -/
def setPath (p : Str) (s : S) : S := { o := { s.o with libpath := p }, w := { s.w with log := s.w.log ++ [.path p] } }

/-- `clear_error` (cxx.cpp 331-335). -/
def clearError (s : S) : S := { o := { s.o with errmsg := [] }, w := { s.w with dlerr := none } }

/-- `save_error` (cxx.cpp 339-343). -/
def saveError (s : S) : S := { o := { s.o with errmsg := s.w.dlerr.getD [] }, w := { s.w with dlerr := none } }

/-- `set_error_invalid_handle` (cxx.cpp 347-351). -/
def invalidHandle (s : S) : S := setMsg (str% "no library was loaded") (clearError s)

/-- `error` (cxx.cpp 986-989). -/
def error (s : S) : Str := if s.o.errmsg = [] then str% "no error" else s.o.errmsg

/-! ### Loading and freeing -/

/-- `lib_loaded` (cxx.cpp 653-656). -/
def libLoaded (s : S) : Bool := s.w.handle.isSome

/-- `load_lib` (cxx.cpp 355-359). -/
def loadLib (L : Loader) (name : Str) (s : S) : S :=
  let s := clearError s
  let a := L.dlopen s.w.clock name s.o.flags s.o.ns
  { s with w := { s.w with
    handle := a.1
    clock := s.w.clock + 1
    dlerr := a.2
    log := match a.1 with
      | some h => s.w.log ++ [.opened h]
      | none => s.w.log } }

/-- `load_filename` (cxx.cpp 518-542). -/
def loadFilename (L : Loader) (name : Str) (s : S) : Bool × S :=
  let s := clearError s
  if libLoaded s then (false, setMsg (str% "library already loaded") s)
  else if name = [] then (false, setMsg (str% "empty filename") s)
  else
    let s := loadLib L name s
    if libLoaded s then (true, s) else (false, saveError s)

/-- `load(filename, flags, new_namespace)` (cxx.cpp 591-601). -/
def loadArgs (L : Loader) (name : Str) (flags : Int) (ns : Bool) (s : S) : Bool × S :=
  loadFilename L name { s with o := { s.o with filename := name, flags := flags, ns := ns } }

/-- `load()` (cxx.cpp 633-642). -/
def load (L : Loader) (s : S) : Bool × S := loadFilename L s.o.filename s

/-- The end of `free` (cxx.cpp 831-840). -/
def setNull (C : Cfg) (s : S) : S :=
  { o := { s.o with libpath := [] }
    w := { s.w with handle := none, ptr := fun i => if i < C.syms.length then none else s.w.ptr i } }

/-- The call of `dlclose` in `free` (cxx.cpp 814). -/
def callDlclose (L : Loader) (h : Ptr) (force : Bool) (s : S) : Bool × S :=
  let a := L.dlclose s.w.clock h
  (a.1, { s with w := { s.w with clock := s.w.clock + 1, dlerr := a.2, log := s.w.log ++ [.closed h a.1 force] } })

/-- `free` (cxx.cpp 807-841). -/
def free (L : Loader) (C : Cfg) (force : Bool) (s : S) : Bool × S :=
  let s := clearError s
  match s.w.handle with
  | none => (true, setNull C s)
  | some h =>
    let r := callDlclose L h force s
    if r.1 || force then (true, setNull C r.2) else (false, saveError r.2)

/-! ### Symbols -/

/-- `all_symbols_loaded` (cxx.cpp 768-777). -/
def allLoaded (C : Cfg) (s : S) : Bool := (List.range C.syms.length).all fun i => (s.w.ptr i).isSome

/-- `no_symbols_loaded` (cxx.cpp 781-790). -/
def noneLoaded (C : Cfg) (s : S) : Bool := (List.range C.syms.length).all fun i => (s.w.ptr i).isNone

/-- `any_symbol_loaded` (cxx.cpp 794-803). -/
def anyLoaded (C : Cfg) (s : S) : Bool := (List.range C.syms.length).any fun i => (s.w.ptr i).isSome

/-- `sym_load` and the assignment of its result (cxx.cpp 504-513, 681-683, 706-708,
    752-754). -/
def symLoad (L : Loader) (h : Ptr) (i : Nat) (name : Str) (s : S) : Bool × S :=
  let a := L.dlsym s.w.clock h name
  let s := { s with w := { s.w with
    clock := s.w.clock + 1
    dlerr := a.2
    log := s.w.log ++ [.sym h name a.1]
    ptr := fun j => if j = i then a.1 else s.w.ptr j } }
  if a.1.isSome then (true, s) else (false, saveError s)

/-- The repeated lines of `load_all_symbols` (cxx.cpp 680-685), from symbol `i` on. -/
def loadLoop (L : Loader) (h : Ptr) : Nat → List Str → S → Bool × S
  | _, [], s => (true, s)
  | i, name :: r, s =>
    let a := symLoad L h i name s
    if a.1 then loadLoop L h (i + 1) r a.2 else (false, a.2)

/-- `load_all_symbols` (cxx.cpp 667-688). -/
def loadAllSymbols (L : Loader) (C : Cfg) (s : S) : Bool × S :=
  let s := clearError s
  if allLoaded C s then (true, s)
  else match s.w.handle with
    | none => (false, invalidHandle s)
    | some h => loadLoop L h 0 C.syms s

/-- `load_lib_and_symbols` (cxx.cpp 646-649). -/
def loadLibAndSymbols (L : Loader) (C : Cfg) (s : S) : Bool × S :=
  let r := load L s
  if r.1 then loadAllSymbols L C r.2 else (false, r.2)

/-- The repeated lines for one symbol (cxx.cpp 705-710, 751-756). -/
def loadOne (L : Loader) (h : Ptr) (i : Nat) (name : Str) (s : S) : Bool × S :=
  match s.w.ptr i with
  | some _ => (true, s)
  | none => symLoad L h i name s

/-- `load_symbol(symbol_num)` (cxx.cpp 692-720). -/
def loadSymbol (L : Loader) (C : Cfg) (num : Int) (s : S) : Bool × S :=
  let s := clearError s
  match s.w.handle with
  | none => (false, invalidHandle s)
  | some h =>
    match caseOf C num with
    | some (i, name) => loadOne L h i name s
    | none => (false, setMsg (str% "unknown symbol number: " ++ showInt num) s)

/-- What is done with the result of the search for a name (cxx.cpp 751-763). -/
def loadFound (L : Loader) (h : Ptr) (name : Str) (s : S) : Option (Nat × Str) → Bool × S
  | some (i, cur) => loadOne L h i cur s
  | none => (false, setMsg (str% "unknown symbol: " ++ name) s)

/-- `load_symbol(symbol)` (cxx.cpp 724-764).  The search is that of the C code
    (`Rt.foundName`; cxx.cpp 740-750). -/
def loadSymbolName (L : Loader) (C : Cfg) (sym : Option Str) (s : S) : Ub (Bool × S) :=
  let s := clearError s
  match s.w.handle with
  | none => some (false, invalidHandle s)
  | some h =>
    let name := sym.getD []
    if name = [] then some (false, setMsg (str% "empty symbol name") s)
    else (foundName C name).map (loadFound L h name s)

/-! ### The path of the library -/

/-- The call of `dlinfo` (cxx.cpp 449). -/
def callDlinfo (L : Loader) (h : Ptr) (s : S) : Option (Option Str) × S :=
  let a := L.dlinfo s.w.clock h
  (a.1, { s with w := { s.w with clock := s.w.clock + 1, dlerr := a.2, log := s.w.log ++ [.info h] } })

/-- `get_library_path_dlinfo` (cxx.cpp 444-472). -/
def pathDlinfo (L : Loader) (C : Cfg) (h : Ptr) (s : S) : Bool × S :=
  let r := callDlinfo L h s
  match r.1 with
  | none => (false, saveError r.2)
  | some l =>
    let name := l.getD []
    if name = [] then (false, setMsg (str% "dlinfo() failed to get library path") r.2)
    else
      let full := if C.linux ∧ name.headD '/' ≠ '/' then L.procmap r.2.w.clock h else none
      match full with
      | some p => (true, setPath (fit p) r.2)
      | none => (true, setPath name r.2)

/-- The first symbol pointer `dladdr` has a name for (cxx.cpp 486-488, common.c 40-45). -/
def firstDladdr (L : Loader) (C : Cfg) (s : S) : Option Str :=
  (List.range C.syms.length).findSome? fun i => do
    let p ← s.w.ptr i
    let f ← L.dladdr s.w.clock p
    if f = [] then none else some f

/-- `get_library_path_dladdr` (cxx.cpp 476-496). -/
def pathDladdr (L : Loader) (C : Cfg) (s : S) : Bool × S :=
  if noneLoaded C s then (false, setMsg (str% "no symbols were loaded") s)
  else
    let t := { s with w := { s.w with clock := s.w.clock + 1 } }
    match firstDladdr L C s with
    | none => (false, setMsg (str% "dladdr() failed to get library path") t)
    | some p => (true, setPath p t)

/-- The end of `library_path` (cxx.cpp 974-981). -/
def libraryPathDladdr (L : Loader) (C : Cfg) (s : S) : Str × S :=
  if C.haveDladdr then
    let r := pathDladdr L C s
    if r.1 then (r.2.o.libpath, r.2) else ([], r.2)
  else ([], s)

/-- `library_path` (cxx.cpp 939-982). -/
def libraryPath (L : Loader) (C : Cfg) (s : S) : Str × S :=
  let s := clearError s
  if C.haveDlinfo = false ∧ C.haveDladdr = false then ([], setMsg (str% "function not implemented") s)
  else match s.w.handle with
    | none => ([], invalidHandle s)
    | some h =>
      if s.o.libpath ≠ [] then (s.o.libpath, s)
      else if C.haveDlinfo then
        let r := pathDlinfo L C h s
        if r.1 then (r.2.o.libpath, r.2) else libraryPathDladdr L C r.2
      else libraryPathDladdr L C s

/-! ### Member functions -/

/-- The public member functions (cxx.hpp 250-415). -/
inductive Member where
  | loadArgs (name : Str) (flags : Int) (ns : Bool)
  | load
  | loadLibAndSymbols
  | libLoaded
  | flags
  | loadAllSymbols
  | loadSymbol (num : Int)
  | loadSymbolName (name : Option Str)
  | allSymbolsLoaded
  | noSymbolsLoaded
  | anySymbolLoaded
  | free (force : Bool)
  | setFreeInDtor (b : Bool)
  | getFreeInDtor
  | libraryPath
  | filename
  | error
  deriving Repr

/-- What a member function returns. -/
inductive Val where
  | bool (b : Bool)
  | int (n : Int)
  | text (t : Str)
  | none
  deriving DecidableEq, Repr

/-- A function that returns a truth value. -/
def ofBool (r : Bool × S) : Val × S := (.bool r.1, r.2)

/-- A call of a member function. -/
def member (L : Loader) (C : Cfg) (s : S) : Member → Ub (Val × S)
  | .loadArgs n f ns => some (ofBool (loadArgs L n f ns s))
  | .load => some (ofBool (load L s))
  | .loadLibAndSymbols => some (ofBool (loadLibAndSymbols L C s))
  | .libLoaded => some (ofBool (libLoaded s, s))
  | .flags => some (.int s.o.flags, s)
  | .loadAllSymbols => some (ofBool (loadAllSymbols L C s))
  | .loadSymbol n => some (ofBool (loadSymbol L C n s))
  | .loadSymbolName n => (loadSymbolName L C n s).map ofBool
  | .allSymbolsLoaded => some (ofBool (allLoaded C s, s))
  | .noSymbolsLoaded => some (ofBool (noneLoaded C s, s))
  | .anySymbolLoaded => some (ofBool (anyLoaded C s, s))
  | .free b => some (ofBool (free L C b s))
  | .setFreeInDtor b => some (.none, { s with o := { s.o with freeInDtor := b } })
  | .getFreeInDtor => some (.bool s.o.freeInDtor, s)
  | .libraryPath => some (.text (libraryPath L C s).1, (libraryPath L C s).2)
  | .filename => some (.text s.o.filename, s)
  | .error => some (.text (error s), s)

/-- The destructor (cxx.cpp 582-587). -/
def destroy (L : Loader) (C : Cfg) (o : Obj) (w : World) : World :=
  if o.freeInDtor then (free L C true ⟨o, w⟩).2.w else w

/-! ### Wrapper functions -/

/-- What becomes of a call. -/
inductive Out (α : Type) where
  | ret (a : α)
  /-- `std::exit(1)` was called, before static objects are destroyed -/
  | exit (s : S)
  | abort (w : World)
  | ub

/-- Output of the message by the default callback (cxx.cpp 23-30). -/
def show' (m : Str) (w : World) : World := { w with stderr := w.stderr ++ m ++ ['\n'] }

/-- The message of `not_loaded` with automatic loading (cxx.cpp 1039-1046). -/
def autoMsg (C : Cfg) (sym : Str) (s : S) : Str :=
  let m := error s
  if strstr m C.lib then str% "error: " ++ sym ++ str% ": " ++ m
  else str% "error: " ++ C.lib ++ str% ": " ++ sym ++ str% ": " ++ m

/-- The loading of the library in `not_loaded` (cxx.cpp 1021-1023). -/
def autoloadLib (L : Loader) (s : S) : S := if libLoaded s then s else (load L s).2

/-- `not_loaded` with automatic loading (cxx.cpp 1012-1049); `s.o` is `_loader`. -/
def notLoaded (L : Loader) (C : Cfg) (i : Nat) (s : S) : Out S :=
  let sym := C.syms.getD i []
  let s := autoloadLib L s
  let r := if C.mode = .lazy then loadSymbol L C i s else loadAllSymbols L C s
  if r.1 then .ret r.2 else .exit { r.2 with w := show' (autoMsg C sym r.2) r.2.w }

/-- `not_loaded` without automatic loading (cxx.cpp 1055-1063). -/
def notLoadedAbort (C : Cfg) (i : Nat) (w : World) : World :=
  let sym := C.syms.getD i []
  show' (str% "fatal error: " ++ sym ++ str% ": " ++
    if w.handle.isSome then str% "symbol not loaded" else str% "library not loaded") w

/-- A wrapper function (cxx.hpp 471-478) with the default hook: the address that is
    called, a call through NULL being undefined. -/
def wrapper (L : Loader) (C : Cfg) (i : Nat) (s : S) : Out (Ptr × S) :=
  match s.w.ptr i with
  | some p => .ret (p, s)
  | none =>
    match C.mode with
    | .wrap => .abort (notLoadedAbort C i s.w)
    | _ =>
      match notLoaded L C i s with
      | .ret s =>
        match s.w.ptr i with
        | some p => .ret (p, s)
        | none => .ub
      | .exit s => .exit s
      | .abort w => .abort w
      | .ub => .ub

/-! ### Programs -/

/-- What a program can do; objects are named by numbers. -/
inductive Op where
  /-- the constructors (cxx.cpp 546-557) -/
  | new (i : Nat)
  | newArgs (i : Nat) (name : Str) (flags : Int) (ns : Bool)
  /-- the copy constructor: object `j` is a copy of `i` -/
  | copy (i j : Nat)
  | destroy (i : Nat)
  | call (i : Nat) (m : Member)
  /-- the wrapper function of a symbol -/
  | wrapped (i : Nat)
  deriving Repr

/-- The program: its objects, `_loader` (cxx.cpp 1008) and the world. -/
structure Prog where
  obj : Nat → Option Obj
  loader : Obj
  w : World

/-- The start of the program: `_loader` was constructed. -/
def start (C : Cfg) : Prog where
  obj _ := none
  loader := { filename := C.lib, flags := C.flags }
  w := {}

/-- An object is put in place. -/
def Prog.set (p : Prog) (i : Nat) (o : Option Obj) : Prog := { p with obj := fun j => if j = i then o else p.obj j }

/-- How a program goes on. -/
inductive Res where
  | go (p : Prog)
  /-- the process has ended, static objects were destroyed -/
  | exited (w : World)
  | aborted (w : World)
  | ub

/-- One step.  Constructing where an object is, or using one that does not exist, does
    nothing. -/
def step (L : Loader) (C : Cfg) (p : Prog) : Op → Res
  | .new i => .go (if (p.obj i).isSome then p else p.set i (some { flags := C.flags }))
  | .newArgs i n f ns => .go (if (p.obj i).isSome then p else p.set i (some { filename := n, flags := f, ns := ns }))
  | .copy i j => .go (if (p.obj j).isSome then p else if (p.obj i).isSome then p.set j (p.obj i) else p)
  | .destroy i =>
    match p.obj i with
    | none => .go p
    | some o => .go { p.set i none with w := destroy L C o p.w }
  | .call i m =>
    match p.obj i with
    | none => .go p
    | some o =>
      match member L C ⟨o, p.w⟩ m with
      | none => .ub
      | some (_, s) => .go { p.set i (some s.o) with w := s.w }
  | .wrapped i =>
    if i < C.syms.length then
      match wrapper L C i ⟨p.loader, p.w⟩ with
      | .ret (_, s) => .go { p with loader := s.o, w := s.w }
      | .exit s => .exited (destroy L C s.o s.w)
      | .abort w => .aborted w
      | .ub => .ub
    else .go p

/-- A program. -/
def run (L : Loader) (C : Cfg) (p : Prog) : List Op → Res
  | [] => .go p
  | c :: r =>
    match step L C p c with
    | .go p => run L C p r
    | .exited w => .exited w
    | .aborted w => .aborted w
    | .ub => .ub

/-- The end of the program: `_loader` is destroyed. -/
def finish (L : Loader) (C : Cfg) (ops : List Op) : Res :=
  match run L C (start C) ops with
  | .go p => .exited (destroy L C p.loader p.w)
  | r => r

end Gdo.Cxx
