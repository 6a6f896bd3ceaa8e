import Verif.Model.Cxx
import Verif.Model.Win

/-!
Model of the generated C++ code compiled for Windows (`GDO_WINAPI` defined):
`src/templates/cxx.cpp`, `src/templates/cxx.hpp` and `src/templates/common.c`.

Simplifications: as in `Verif/Model/Cxx.lean`.  Text is a list of characters whatever the
type of characters, but here it can contain NUL characters; `cstr` is what a function that
takes a C string sees.  The two calls in `convert_string` that measure and convert are one.
`LocalFree` and the C++ library do not change the last error code.
-/

namespace Gdo.CxxWin
open Gdo
open Gdo.Rt (Ptr Ev Mode showInt caseOf foundName strstr)
open Gdo.Win (errInvalidHandle errInvalidParameter errInvalidName errNotFound bufLen backslashes)

/-- The character that ends a C string. -/
def nul : Char := '\x00'

/-- The text up to the first NUL: what `c_str()` hands on. -/
def cstr (t : Str) : Str := t.takeWhile (· != nul)

/-- The behaviour of Windows and the C library.  The first argument is the number of calls
    made before.  The second component of an answer is the code `GetLastError` gives
    afterwards. -/
structure Loader where
  /-- `LoadLibraryExA`: name, flags -/
  loadA : Nat → Str → Int → Option Ptr × Nat
  /-- `LoadLibraryExW` -/
  loadW : Nat → Str → Int → Option Ptr × Nat
  /-- `GetProcAddress` -/
  sym : Nat → Ptr → Str → Option Ptr × Nat
  /-- `FreeLibrary`: whether the return value is TRUE -/
  free : Nat → Ptr → Bool × Nat
  /-- `GetModuleFileNameA`: the path, `none` if it fails -/
  fileA : Nat → Ptr → Option Str × Nat
  /-- `GetModuleFileNameW` -/
  fileW : Nat → Ptr → Option Str × Nat
  /-- `FormatMessageA`: the text for a code -/
  formatA : Nat → Nat → Option Str
  /-- `FormatMessageW` -/
  formatW : Nat → Nat → Option Str
  /-- `mbstowcs_s`: the converted text without the NUL -/
  widen : Nat → Str → Option Str
  /-- `wcstombs_s` -/
  narrow : Nat → Str → Option Str

/-- What is fixed when the code is generated and compiled. -/
structure Cfg extends Rt.Cfg where
  /-- `_GDO_TARGET_WIDECHAR` (common.h 252-254) -/
  wide : Bool
  /-- what an output stream writes for the address of a text of wide characters -/
  address : Str

/-- The members that are not static (cxx.hpp 90-100, 141-143). -/
structure Obj where
  convert : Bool := false
  filename : Str := []
  wfilename : Str := []
  libpath : Str := []
  wlibpath : Str := []
  flags : Int
  ns : Bool := false
  freeInDtor : Bool := true
  errno : Nat := 0
  errmsg : Str := []
  werrmsg : Str := []
  formatted : Str := []
  wformatted : Str := []

/-- The static handle, the symbol pointers (cxx.cpp 39-44) and the process around them. -/
structure World where
  handle : Option Ptr := none
  ptr : Nat → Option Ptr := fun _ => none
  clock : Nat := 0
  /-- what `GetLastError` returns -/
  sysErr : Nat := 0
  log : List Ev := []
  /-- the messages shown in boxes or written to the standard error output -/
  shown : List Str := []

/-- An object and the world. -/
structure S where
  o : Obj
  w : World

/-- A call of the system. -/
def tick (s : S) : S := { s with w := { s.w with clock := s.w.clock + 1 } }

/-- `convert_string` (cxx.cpp 110-140), `conv` being `mbstowcs_s` or `wcstombs_s` at this
    time: the output is as long as the converted text with its NUL.  `none` is a failure,
    which leaves the output empty. -/
def convertString (conv : Str → Option Str) (t : Str) : Option Str :=
  if t = [] then some []
  else
    match conv (cstr t) with
    | none => none
    | some r => if r = [] then none else some (r ++ [nul])

/-! ### Error messages -/

/-- `clear_error` (cxx.cpp 144-151). -/
def clearError (s : S) : S :=
  { s with o := { s.o with errno := 0, errmsg := [], werrmsg := [], formatted := [], wformatted := [] } }

/-- Assignment to `m_last_errno` (cxx.cpp 14). -/
def setErrno (code : Nat) (s : S) : S := { s with o := { s.o with errno := code } }

/-- Assignment to `m_errmsg`. -/
def setMsg (m : Str) (s : S) : S := { s with o := { s.o with errmsg := m } }

/-- Assignment to `m_werrmsg`. -/
def setWmsg (m : Str) (s : S) : S := { s with o := { s.o with werrmsg := m } }

/-- `save_error()` (cxx.cpp 155-159). -/
def saveError (s : S) : S := setErrno s.w.sysErr (clearError s)

/-- `save_error(msg)`: wide or narrow (cxx.cpp 163-177). -/
def saveErrorMsg (wide : Bool) (m : Str) (s : S) : S := if wide then setWmsg m (saveError s) else setMsg m (saveError s)

/-- `set_error_invalid_handle` (cxx.cpp 181-185). -/
def invalidHandle (s : S) : S := setErrno errInvalidHandle (clearError s)

/-- The text for the code in `format_error_message` (cxx.cpp 300-311). -/
def codeText (format : Nat → Option Str) (code : Nat) : Str :=
  match format code with
  | some buf => cstr buf
  | none => str% "error code: " ++ Nat.toDigits 10 code

/-- The rest of `format_error_message` (cxx.cpp 313-322): `own` is the message in the type
    of characters asked for, `other` the one in the other type. -/
def withMessage (conv : Str → Option Str) (own other text : Str) : Str :=
  if own ≠ [] then own ++ (str% ": " ++ text)
  else if other ≠ [] then
    match convertString conv other with
    | some t => t ++ (str% ": " ++ text)
    | none => text
  else text

/-- `error` (cxx.cpp 895-902). -/
def error (L : Loader) (s : S) : Str × S :=
  if s.o.formatted ≠ [] then (s.o.formatted, s)
  else
    let m := withMessage (L.narrow s.w.clock) s.o.errmsg s.o.werrmsg (codeText (L.formatA s.w.clock) s.o.errno)
    (m, tick { s with o := { s.o with formatted := m } })

/-- `error_w` (cxx.cpp 904-911). -/
def errorW (L : Loader) (s : S) : Str × S :=
  if s.o.wformatted ≠ [] then (s.o.wformatted, s)
  else
    let m := withMessage (L.widen s.w.clock) s.o.werrmsg s.o.errmsg (codeText (L.formatW s.w.clock) s.o.errno)
    (m, tick { s with o := { s.o with wformatted := m } })

/-! ### Loading and freeing -/

/-- `lib_loaded` (cxx.cpp 653-656). -/
def libLoaded (s : S) : Bool := s.w.handle.isSome

/-- The answer of `LoadLibraryEx`, stored in `m_handle` (cxx.cpp 227, 240). -/
def opened (a : Option Ptr × Nat) (s : S) : S :=
  { s with w := { s.w with
    handle := a.1
    clock := s.w.clock + 1
    sysErr := a.2
    log := match a.1 with
      | some h => s.w.log ++ [.opened h]
      | none => s.w.log } }

/-- `load_library_ex(const std::wstring &)` (cxx.cpp 188-190). -/
def loadExW (L : Loader) (name : Str) (s : S) : S := opened (L.loadW s.w.clock (cstr name) s.o.flags) s

/-- `load_library_ex(const std::string &)` (cxx.cpp 193-208). -/
def loadExA (L : Loader) (name : Str) (s : S) : S :=
  if s.o.convert then
    match convertString (L.widen s.w.clock) name with
    | some w => loadExW L w (tick s)
    | none =>
      let s := setMsg (str% "mbstowcs_s: failed to convert filename") (setErrno errInvalidName (tick s))
      { s with w := { s.w with handle := none } }
  else opened (L.loadA s.w.clock (cstr name) s.o.flags) s

/-- `load_lib` (cxx.cpp 217-241). -/
def loadLib (L : Loader) (wide : Bool) (name : Str) (s : S) : S :=
  let s := clearError s
  let name := if name.contains '/' then backslashes name else name
  if wide then loadExW L name s else loadExA L name s

/-- `load_filename` (cxx.cpp 518-542). -/
def loadFilename (L : Loader) (wide : Bool) (name : Str) (s : S) : Bool × S :=
  let s := clearError s
  if libLoaded s then (false, setMsg (str% "library already loaded") s)
  else if name = [] then (false, setMsg (str% "empty filename") (setErrno errInvalidName s))
  else
    let s := loadLib L wide name s
    if libLoaded s then (true, s) else (false, saveErrorMsg wide name s)

/-- `load(filename, flags, new_namespace)` (cxx.cpp 591-601). -/
def loadArgs (L : Loader) (name : Str) (flags : Int) (ns : Bool) (s : S) : Bool × S :=
  loadFilename L false name { s with o := { s.o with wfilename := [], filename := name, flags := flags, ns := ns } }

/-- `load(convert, filename, flags)` (cxx.cpp 607-616). -/
def loadConv (L : Loader) (convert : Bool) (name : Str) (flags : Int) (s : S) : Bool × S :=
  loadFilename L false name { s with o := { s.o with convert := convert, wfilename := [], filename := name, flags := flags } }

/-- `load(filename, flags)` with wide characters (cxx.cpp 620-627). -/
def loadWide (L : Loader) (name : Str) (flags : Int) (s : S) : Bool × S :=
  loadFilename L true name { s with o := { s.o with filename := [], wfilename := name, flags := flags } }

/-- `load()` (cxx.cpp 633-642). -/
def load (L : Loader) (s : S) : Bool × S :=
  if s.o.wfilename ≠ [] then loadFilename L true s.o.wfilename s else loadFilename L false s.o.filename s

/-- The end of `free` (cxx.cpp 831-840). -/
def setNull (C : Cfg) (s : S) : S :=
  { o := { s.o with libpath := [], wlibpath := [] }
    w := { s.w with handle := none, ptr := fun i => if i < C.syms.length then none else s.w.ptr i } }

/-- The call of `FreeLibrary` in `free` (cxx.cpp 814, common.c 13-16). -/
def callFree (L : Loader) (h : Ptr) (force : Bool) (s : S) : Bool × S :=
  let a := L.free s.w.clock h
  (a.1, { s with w := { s.w with clock := s.w.clock + 1, sysErr := a.2, log := s.w.log ++ [.closed h a.1 force] } })

/-- `free` (cxx.cpp 807-841). -/
def free (L : Loader) (C : Cfg) (force : Bool) (s : S) : Bool × S :=
  let s := clearError s
  match s.w.handle with
  | none => (true, setNull C s)
  | some h =>
    let r := callFree L h force s
    if r.1 || force then (true, setNull C r.2) else (false, saveErrorMsg false (str% "FreeLibrary()") r.2)

/-! ### Symbols -/

/-- `all_symbols_loaded` (cxx.cpp 768-777). -/
def allLoaded (C : Cfg) (s : S) : Bool := (List.range C.syms.length).all fun i => (s.w.ptr i).isSome

/-- `no_symbols_loaded` (cxx.cpp 781-790). -/
def noneLoaded (C : Cfg) (s : S) : Bool := (List.range C.syms.length).all fun i => (s.w.ptr i).isNone

/-- `any_symbol_loaded` (cxx.cpp 794-803). -/
def anyLoaded (C : Cfg) (s : S) : Bool := (List.range C.syms.length).any fun i => (s.w.ptr i).isSome

/-- `sym_load` and the assignment of its result (cxx.cpp 504-513, 681-683, 706-708,
    752-754). -/
def symLoad (L : Loader) (h : Ptr) (i : Nat) (name : Str) (s : S) : Bool × S :=
  let a := L.sym s.w.clock h name
  let s := { s with w := { s.w with
    clock := s.w.clock + 1
    sysErr := a.2
    log := s.w.log ++ [.sym h name a.1]
    ptr := fun j => if j = i then a.1 else s.w.ptr j } }
  if a.1.isSome then (true, s) else (false, saveError s)

/-- The repeated lines of `load_all_symbols` (cxx.cpp 680-685), from symbol `i` on. -/
def loadLoop (L : Loader) (h : Ptr) : Nat → List Str → S → Bool × S
  | _, [], s => (true, s)
  | i, name :: r, s =>
    let a := symLoad L h i name s
    if a.1 then loadLoop L h (i + 1) r a.2 else (false, a.2)

/-- `load_all_symbols` (cxx.cpp 667-688). -/
def loadAllSymbols (L : Loader) (C : Cfg) (s : S) : Bool × S :=
  let s := clearError s
  if allLoaded C s then (true, s)
  else match s.w.handle with
    | none => (false, invalidHandle s)
    | some h => loadLoop L h 0 C.syms s

/-- `load_lib_and_symbols` (cxx.cpp 646-649). -/
def loadLibAndSymbols (L : Loader) (C : Cfg) (s : S) : Bool × S :=
  let r := load L s
  if r.1 then loadAllSymbols L C r.2 else (false, r.2)

/-- The repeated lines for one symbol (cxx.cpp 705-710, 751-756). -/
def loadOne (L : Loader) (h : Ptr) (i : Nat) (name : Str) (s : S) : Bool × S :=
  match s.w.ptr i with
  | some _ => (true, s)
  | none => symLoad L h i name s

/-- `load_symbol(symbol_num)` (cxx.cpp 692-720). -/
def loadSymbol (L : Loader) (C : Cfg) (num : Int) (s : S) : Bool × S :=
  let s := clearError s
  match s.w.handle with
  | none => (false, invalidHandle s)
  | some h =>
    match caseOf C.toCfg num with
    | some (i, name) => loadOne L h i name s
    | none => (false, setMsg (str% "unknown symbol number: " ++ showInt num) (setErrno errNotFound s))

/-- What is done with the result of the search for a name (cxx.cpp 751-763). -/
def loadFound (L : Loader) (h : Ptr) (name : Str) (s : S) : Option (Nat × Str) → Bool × S
  | some (i, cur) => loadOne L h i cur s
  | none => (false, setMsg (str% "unknown symbol: " ++ name) (setErrno errNotFound s))

/-- `load_symbol(symbol)` (cxx.cpp 724-764).  The search is that of the C code
    (`Rt.foundName`; cxx.cpp 740-750).  The argument is a C string. -/
def loadSymbolName (L : Loader) (C : Cfg) (sym : Option Str) (s : S) : Ub (Bool × S) :=
  let s := clearError s
  match s.w.handle with
  | none => some (false, invalidHandle s)
  | some h =>
    let name := cstr (sym.getD [])
    if name = [] then some (false, setMsg (str% "empty symbol name") (setErrno errInvalidParameter s))
    else (foundName C.toCfg name).map (loadFound L h name s)

/-! ### The path of the library -/

/-- Assignment to the stored path, the system having named it. -/
def setPath (wide : Bool) (p : Str) (s : S) : S :=
  { o := if wide then { s.o with wlibpath := p } else { s.o with libpath := p }
    w := { s.w with log := s.w.log ++ [.path p] } }

/-- The stored path. -/
def pathOf (wide : Bool) (o : Obj) : Str := if wide then o.wlibpath else o.libpath

/-- The call of `GetModuleFileName` (cxx.cpp 244-250, 269). -/
def callFile (L : Loader) (wide : Bool) (h : Ptr) (s : S) : Option Str × S :=
  let a := if wide then L.fileW s.w.clock h else L.fileA s.w.clock h
  (a.1, { s with w := { s.w with clock := s.w.clock + 1, sysErr := a.2, log := s.w.log ++ [.info h] } })

/-- The name of the function in messages (cxx.cpp 279). -/
def fileMsg (wide : Bool) : Str := if wide then str% "GetModuleFileNameW()" else str% "GetModuleFileNameA()"

/-- `get_library_path` (cxx.cpp 254-280). -/
def getLibraryPath (L : Loader) (wide : Bool) (s : S) : S :=
  let s := clearError s
  if pathOf wide s.o ≠ [] then s
  else match s.w.handle with
    | none => invalidHandle s
    | some h =>
      let r := callFile L wide h s
      match r.1 with
      | none => saveErrorMsg wide (fileMsg wide) r.2
      | some p => if 0 < p.length ∧ p.length < bufLen then setPath wide (cstr p) r.2 else saveErrorMsg wide (fileMsg wide) r.2

/-- `library_path`, `library_path_w` (cxx.cpp 881-891). -/
def libraryPath (L : Loader) (wide : Bool) (s : S) : Str × S :=
  let s := getLibraryPath L wide s
  (pathOf wide s.o, s)

/-! ### The file name -/

/-- `filename` (cxx.cpp 915-922). -/
def filename (L : Loader) (s : S) : Str × S :=
  if s.o.filename = [] ∧ s.o.wfilename ≠ [] then
    let t := (convertString (L.narrow s.w.clock) s.o.wfilename).getD []
    (t, tick { s with o := { s.o with filename := t } })
  else (s.o.filename, s)

/-- `filename_w` (cxx.cpp 924-931). -/
def filenameW (L : Loader) (s : S) : Str × S :=
  if s.o.wfilename = [] ∧ s.o.filename ≠ [] then
    let t := (convertString (L.widen s.w.clock) s.o.filename).getD []
    (t, tick { s with o := { s.o with wfilename := t } })
  else (s.o.wfilename, s)

/-! ### Member functions -/

/-- The public member functions (cxx.hpp 209-415). -/
inductive Member where
  | loadArgs (name : Str) (flags : Int) (ns : Bool)
  | loadConv (convert : Bool) (name : Str) (flags : Int)
  | loadWide (name : Str) (flags : Int)
  | load
  | loadLibAndSymbols
  | libLoaded
  | flags
  | loadAllSymbols
  | loadSymbol (num : Int)
  | loadSymbolName (name : Option Str)
  | allSymbolsLoaded
  | noSymbolsLoaded
  | anySymbolLoaded
  | free (force : Bool)
  | setFreeInDtor (b : Bool)
  | getFreeInDtor
  | libraryPath (wide : Bool)
  | filename (wide : Bool)
  | error (wide : Bool)
  deriving DecidableEq, Repr

/-- What a member function returns. -/
abbrev Val := Cxx.Val

/-- A function that returns a truth value. -/
def ofBool (r : Bool × S) : Val × S := (.bool r.1, r.2)

/-- A function that returns a text. -/
def ofText (r : Str × S) : Val × S := (.text r.1, r.2)

/-- A call of a member function. -/
def member (L : Loader) (C : Cfg) (s : S) : Member → Ub (Val × S)
  | .loadArgs n f ns => some (ofBool (loadArgs L n f ns s))
  | .loadConv b n f => some (ofBool (loadConv L b n f s))
  | .loadWide n f => some (ofBool (loadWide L n f s))
  | .load => some (ofBool (load L s))
  | .loadLibAndSymbols => some (ofBool (loadLibAndSymbols L C s))
  | .libLoaded => some (ofBool (libLoaded s, s))
  | .flags => some (.int s.o.flags, s)
  | .loadAllSymbols => some (ofBool (loadAllSymbols L C s))
  | .loadSymbol n => some (ofBool (loadSymbol L C n s))
  | .loadSymbolName n => (loadSymbolName L C n s).map ofBool
  | .allSymbolsLoaded => some (ofBool (allLoaded C s, s))
  | .noSymbolsLoaded => some (ofBool (noneLoaded C s, s))
  | .anySymbolLoaded => some (ofBool (anyLoaded C s, s))
  | .free b => some (ofBool (free L C b s))
  | .setFreeInDtor b => some (.none, { s with o := { s.o with freeInDtor := b } })
  | .getFreeInDtor => some (.bool s.o.freeInDtor, s)
  | .libraryPath b => some (ofText (libraryPath L b s))
  | .filename b => some (ofText (if b then filenameW L s else filename L s))
  | .error b => some (ofText (if b then errorW L s else error L s))

/-- The destructor (cxx.cpp 582-587). -/
def destroy (L : Loader) (C : Cfg) (o : Obj) (w : World) : World :=
  if o.freeInDtor then (free L C true ⟨o, w⟩).2.w else w

/-! ### Wrapper functions -/

/-- What becomes of a call. -/
inductive Out (α : Type) where
  | ret (a : α)
  /-- `std::exit(1)` was called, before static objects are destroyed -/
  | exit (s : S)
  | abort (w : World)
  | ub

/-- The default callback (cxx.cpp 23-30): it is given a C string. -/
def show' (m : Str) (w : World) : World := { w with shown := w.shown ++ [cstr m] }

/-- The message of `not_loaded` with automatic loading (cxx.cpp 1039-1046).  With wide
    characters the three literals are one text of wide characters. -/
def autoMsg (C : Cfg) (sym m : Str) : Str :=
  if strstr m C.lib then str% "error: " ++ sym ++ str% ": " ++ m
  else if C.wide then C.address ++ sym ++ str% ": " ++ m
  else str% "error: " ++ C.lib ++ str% ": " ++ sym ++ str% ": " ++ m

/-- The loading of the library in `not_loaded` (cxx.cpp 1021-1023). -/
def autoloadLib (L : Loader) (s : S) : S := if libLoaded s then s else (load L s).2

/-- The loading of symbols in `not_loaded` (cxx.cpp 1025-1037). -/
def afterLoad (L : Loader) (C : Cfg) (i : Nat) (s : S) : Bool × S :=
  if C.mode = .lazy then loadSymbol L C i (autoloadLib L s) else loadAllSymbols L C (autoloadLib L s)

/-- `not_loaded` with automatic loading (cxx.cpp 1012-1049); `s.o` is `_loader`. -/
def notLoaded (L : Loader) (C : Cfg) (i : Nat) (s : S) : Out S :=
  let sym := C.syms.getD i []
  let r := afterLoad L C i s
  if r.1 then .ret r.2
  else
    let e := error L r.2
    .exit { e.2 with w := show' (autoMsg C sym e.1) e.2.w }

/-- `not_loaded` without automatic loading (cxx.cpp 1055-1063). -/
def notLoadedAbort (C : Cfg) (i : Nat) (w : World) : World :=
  let sym := C.syms.getD i []
  show' (str% "fatal error: " ++ sym ++ str% ": " ++
    if w.handle.isSome then str% "symbol not loaded" else str% "library not loaded") w

/-- A wrapper function (cxx.hpp 471-478) with the default hook: the address that is
    called, a call through NULL being undefined. -/
def wrapper (L : Loader) (C : Cfg) (i : Nat) (s : S) : Out (Ptr × S) :=
  match s.w.ptr i with
  | some p => .ret (p, s)
  | none =>
    match C.mode with
    | .wrap => .abort (notLoadedAbort C i s.w)
    | _ =>
      match notLoaded L C i s with
      | .ret s =>
        match s.w.ptr i with
        | some p => .ret (p, s)
        | none => .ub
      | .exit s => .exit s
      | .abort w => .abort w
      | .ub => .ub

/-! ### Programs -/

/-- What a program can do; objects are named by numbers. -/
inductive Op where
  /-- the constructors (cxx.cpp 546-576) -/
  | new (i : Nat)
  | newArgs (i : Nat) (name : Str) (flags : Int) (ns : Bool)
  | newConv (i : Nat) (convert : Bool) (name : Str) (flags : Int)
  | newWide (i : Nat) (name : Str) (flags : Int)
  /-- the copy constructor: object `j` is a copy of `i` -/
  | copy (i j : Nat)
  | destroy (i : Nat)
  | call (i : Nat) (m : Member)
  /-- the wrapper function of a symbol -/
  | wrapped (i : Nat)
  deriving Repr

/-- The program: its objects, `_loader` (cxx.cpp 1008) and the world. -/
structure Prog where
  obj : Nat → Option Obj
  loader : Obj
  w : World

/-- The start of the program: `_loader` was constructed. -/
def start (C : Cfg) : Prog where
  obj _ := none
  loader := if C.wide then { wfilename := C.lib, flags := C.flags } else { filename := C.lib, flags := C.flags }
  w := {}

/-- An object is put in place. -/
def Prog.set (p : Prog) (i : Nat) (o : Option Obj) : Prog := { p with obj := fun j => if j = i then o else p.obj j }

/-- An object is constructed, where there is none. -/
def Prog.make (p : Prog) (i : Nat) (o : Option Obj) : Prog := if (p.obj i).isSome then p else p.set i o

/-- How a program goes on. -/
inductive Res where
  | go (p : Prog)
  /-- the process has ended, static objects were destroyed -/
  | exited (w : World)
  | aborted (w : World)
  | ub

/-- One step.  Constructing where an object is, or using one that does not exist, does
    nothing. -/
def step (L : Loader) (C : Cfg) (p : Prog) : Op → Res
  | .new i => .go (p.make i (some { flags := C.flags }))
  | .newArgs i n f ns => .go (p.make i (some { filename := n, flags := f, ns := ns }))
  | .newConv i b n f => .go (p.make i (some { convert := b, filename := n, flags := f }))
  | .newWide i n f => .go (p.make i (some { wfilename := n, flags := f }))
  | .copy i j => .go (if (p.obj i).isSome then p.make j (p.obj i) else p)
  | .destroy i =>
    match p.obj i with
    | none => .go p
    | some o => .go { p.set i none with w := destroy L C o p.w }
  | .call i m =>
    match p.obj i with
    | none => .go p
    | some o =>
      match member L C ⟨o, p.w⟩ m with
      | none => .ub
      | some (_, s) => .go { p.set i (some s.o) with w := s.w }
  | .wrapped i =>
    if i < C.syms.length then
      match wrapper L C i ⟨p.loader, p.w⟩ with
      | .ret (_, s) => .go { p with loader := s.o, w := s.w }
      | .exit s => .exited (destroy L C s.o s.w)
      | .abort w => .aborted w
      | .ub => .ub
    else .go p

/-- A program. -/
def run (L : Loader) (C : Cfg) (p : Prog) : List Op → Res
  | [] => .go p
  | c :: r =>
    match step L C p c with
    | .go p => run L C p r
    | .exited w => .exited w
    | .aborted w => .aborted w
    | .ub => .ub

/-- The end of the program: `_loader` is destroyed. -/
def finish (L : Loader) (C : Cfg) (ops : List Op) : Res :=
  match run L C (start C) ops with
  | .go p => .exited (destroy L C p.loader p.w)
  | r => r

end Gdo.CxxWin
