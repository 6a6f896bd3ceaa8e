import Verif.Model.CommonPrefix

/-!
Model of the generated C code: `src/templates/c.c`, `src/templates/c.h` and
`src/templates/common.c`, compiled for dlfcn (`GDO_WINAPI` not defined).

Simplifications:

* A C string is the list of its characters without the final NUL; a `const char *`
  argument is an `Option`, `none` being a null pointer.
* The buffers `errbuf` and `libpath` hold C strings.
* A pointer other than NULL is a number, NULL is `none`.
* The lines of the templates with `%%symbol%%` are repeated for each symbol in the
  order of `Cfg.syms`; the pointer number `i` is that of symbol number `i`, and `i` is
  the value of the enumerator `GDO_LOAD_...` (c.h 31-34).
* The default library macro is defined.  Without it `gdo_load_lib`,
  `gdo_load_lib_and_symbols` and automatic loading do not exist.
* AIX and dlfcn-win32 are left out.
* One thread.
-/

namespace Gdo.Rt
open Gdo

/-- An address other than NULL. -/
abbrev Ptr := Nat

/-- `GDO_BUFLEN` (common.h 116). -/
def bufLen : Nat := 8 * 1024

/-- The behaviour of the dynamic loader and the C library.  The first argument is the
    number of calls made before, so that every call may be answered differently.  The
    second component of an answer is the message `dlerror` gives afterwards. -/
structure Loader where
  /-- `dlopen`, `dlmopen`: name, flags, new namespace -/
  dlopen : Nat → Str → Int → Bool → Option Ptr × Option Str
  dlsym : Nat → Ptr → Str → Option Ptr × Option Str
  /-- `true`: the return value is 0 -/
  dlclose : Nat → Ptr → Bool × Option Str
  /-- `none`: the return value is -1; else `l_name` of the link map -/
  dlinfo : Nat → Ptr → Option (Option Str) × Option Str
  /-- `dli_fname` if the return value is not 0 -/
  dladdr : Nat → Ptr → Option Str
  /-- the path in `/proc/self/maps` (`_gdo_fullpath_procmap`, common.c 113-183) -/
  procmap : Nat → Ptr → Option Str
  /-- `true`: the return value is 0 -/
  atexit : Nat → Bool

/-- What wrapper functions do with a symbol that was not loaded (c.c 907-967). -/
inductive Mode where
  /-- only `GDO_WRAP_FUNCTIONS` -/
  | wrap
  /-- `GDO_ENABLE_AUTOLOAD` -/
  | autoload
  /-- `GDO_ENABLE_AUTOLOAD_LAZY` -/
  | lazy
  deriving DecidableEq, Repr

/-- What is fixed when the code is generated and compiled. -/
structure Cfg where
  syms : List Str
  /-- `GDO_COMMON_PREFIX` -/
  pfx : Str
  /-- `GDO_DEFAULT_LIB` -/
  lib : Str
  /-- `GDO_DEFAULT_FLAGS` -/
  flags : Int
  mode : Mode
  haveDlinfo : Bool
  haveDladdr : Bool
  linux : Bool
  /-- the name of `gdo_force_free_lib` with the prefix that was asked for -/
  freeName : Str := str% "gdo_force_free_lib"

/-- The calls of the dynamic loader that concern a handle. -/
inductive Ev where
  | opened (h : Ptr)
  | sym (h : Ptr) (name : Str) (res : Option Ptr)
  /-- `forced`: called by `gdo_force_free_lib` -/
  | closed (h : Ptr) (ok forced : Bool)
  | info (h : Ptr)
  /-- the system names the file of the library -/
  | path (p : Str)
  deriving DecidableEq, Repr

/-- `gdo_hndl` (c.h 40-63) and the process around it. -/
structure St where
  handle : Option Ptr := none
  ptr : Nat → Option Ptr := fun _ => none
  libpath : Str := []
  errbuf : Str := []
  freeLibReg : Bool := false
  /-- the number of loader calls made -/
  clock : Nat := 0
  /-- what `dlerror` returns -/
  dlerr : Option Str := none
  log : List Ev := []
  /-- how often `gdo_force_free_lib` is registered with `atexit` -/
  handlers : Nat := 0
  /-- text written to the standard error output -/
  stderr : Str := []

/-! ### Error messages -/

/-- `snprintf(buf, GDO_BUFLEN, "%s", msg)` (c.c 77-78). -/
def fit (msg : Str) : Str := msg.take (bufLen - 1)

/-- `_gdo_save_to_errbuf` (c.c 93-104). -/
def saveToErrbuf (msg : Option Str) (s : St) : St :=
  match msg with
  | some m => { s with errbuf := fit m }
  | none => { s with errbuf := [] }

/-- `_gdo_clear_error` (c.c 135-139). -/
def clearError (s : St) : St := { s with dlerr := none, errbuf := [] }

/-- `_gdo_save_error` (c.c 142-146); `dlerror` forgets its message. -/
def saveError (s : St) : St := saveToErrbuf s.dlerr { s with dlerr := none }

/-- `_gdo_set_error_no_library_loaded` (c.c 149-152). -/
def noLibrary (s : St) : St := saveToErrbuf (some (str% "no library was loaded")) s

/-- `gdo_last_error` (c.c 625-633). -/
def lastError (s : St) : Str × St :=
  let s := if s.errbuf = [] then saveToErrbuf (some (str% "no error")) s else s
  (s.errbuf, s)

/-! ### Loading and freeing -/

/-- `gdo_lib_is_loaded` (c.c 323-326). -/
def libIsLoaded (s : St) : Bool := s.handle.isSome

/-- `_gdo_load_library` (c.c 267), `_gdo_call_dlopen` (common.c 25-36). -/
def loadLibrary (L : Loader) (name : Str) (flags : Int) (ns : Bool) (s : St) : St :=
  let a := L.dlopen s.clock name flags ns
  { s with
    handle := a.1
    clock := s.clock + 1
    dlerr := a.2
    log := match a.1 with
      | some h => s.log ++ [.opened h]
      | none => s.log }

/-- `gdo_load_lib_args` (c.c 210-236). -/
def loadLibArgs (L : Loader) (name : Option Str) (flags : Int) (ns : Bool) (s : St) : Bool × St :=
  let s := clearError s
  if libIsLoaded s then (false, saveToErrbuf (some (str% "library already loaded")) s)
  else if name.getD [] = [] then (false, saveToErrbuf (some (str% "empty filename")) s)
  else
    let s := loadLibrary L (name.getD []) flags ns s
    if libIsLoaded s then (true, s) else (false, saveError s)

/-- `gdo_load_lib_name` (c.c 188-191). -/
def loadLibName (L : Loader) (C : Cfg) (name : Option Str) (s : St) : Bool × St := loadLibArgs L name C.flags false s

/-- `gdo_load_lib` (c.c 163-166). -/
def loadLib (L : Loader) (C : Cfg) (s : St) : Bool × St := loadLibName L C (some C.lib) s

/-- `_gdo_call_dlclose` (common.c 13-20). -/
def callDlclose (L : Loader) (h : Ptr) (forced : Bool) (s : St) : Bool × St :=
  let a := L.dlclose s.clock h
  (a.1, { s with clock := s.clock + 1, dlerr := a.2, log := s.log ++ [.closed h a.1 forced] })

/-- The end of `gdo_free_lib` and `gdo_force_free_lib` (c.c 350-354, 373-377). -/
def setNull (C : Cfg) (s : St) : St :=
  { s with libpath := [], handle := none, ptr := fun i => if i < C.syms.length then none else s.ptr i }

/-- `gdo_free_lib` (c.c 334-357). -/
def freeLib (L : Loader) (C : Cfg) (s : St) : Bool × St :=
  let s := clearError s
  match s.handle with
  | some h =>
    let r := callDlclose L h false s
    if r.1 then (true, setNull C r.2) else (false, saveError r.2)
  | none => (true, setNull C s)

/-- `gdo_force_free_lib` (c.c 365-378). -/
def forceFreeLib (L : Loader) (C : Cfg) (s : St) : St :=
  let s := clearError s
  match s.handle with
  | some h => setNull C (callDlclose L h true s).2
  | none => setNull C s

/-- `gdo_enable_autorelease` (c.c 386-399). -/
def enableAutorelease (L : Loader) (C : Cfg) (s : St) : Bool × St :=
  let s := clearError s
  if s.freeLibReg then (true, s)
  else
    let ok := L.atexit s.clock
    let s := { s with clock := s.clock + 1 }
    if ok then (true, { s with freeLibReg := true, handlers := s.handlers + 1 })
    else (false, saveToErrbuf (some (str% "atexit(): failed to register `" ++ C.freeName ++ str% "()'")) s)

/-! ### Symbols -/

/-- `gdo_all_symbols_loaded` (c.c 407-416). -/
def allLoaded (C : Cfg) (s : St) : Bool := (List.range C.syms.length).all fun i => (s.ptr i).isSome

/-- `gdo_no_symbols_loaded` (c.c 424-433). -/
def noneLoaded (C : Cfg) (s : St) : Bool := (List.range C.syms.length).all fun i => (s.ptr i).isNone

/-- `gdo_any_symbol_loaded` (c.c 441-450). -/
def anyLoaded (C : Cfg) (s : St) : Bool := (List.range C.syms.length).any fun i => (s.ptr i).isSome

/-- `_gdo_sym` (c.c 483-492), `_gdo_call_dlsym` (common.c 3-10). -/
def gdoSym (L : Loader) (h : Ptr) (name : Str) (s : St) : Option Ptr × St :=
  let a := L.dlsym s.clock h name
  let s := { s with clock := s.clock + 1, dlerr := a.2, log := s.log ++ [.sym h name a.1] }
  if a.1.isSome then (a.1, s) else (a.1, saveError s)

/-- The assignment of a symbol pointer. -/
def setPtr (i : Nat) (p : Option Ptr) (s : St) : St := { s with ptr := fun j => if j = i then p else s.ptr j }

/-- The repeated lines of `gdo_load_all_symbols` (c.c 473-478), from symbol `i` on. -/
def loadLoop (L : Loader) (h : Ptr) : Nat → List Str → St → Bool × St
  | _, [], s => (true, s)
  | i, name :: r, s =>
    let a := gdoSym L h name s
    let s := setPtr i a.1 a.2
    if a.1.isSome then loadLoop L h (i + 1) r s else (false, s)

/-- `gdo_load_all_symbols` (c.c 458-481). -/
def loadAllSymbols (L : Loader) (C : Cfg) (s : St) : Bool × St :=
  let s := clearError s
  if allLoaded C s then (true, s)
  else match s.handle with
    | none => (false, noLibrary s)
    | some h => loadLoop L h 0 C.syms s

/-- The repeated lines for one symbol in `gdo_load_symbol` and `gdo_load_symbol_name`
    (c.c 513-518, 563-568). -/
def loadOne (L : Loader) (h : Ptr) (i : Nat) (name : Str) (s : St) : Bool × St :=
  match s.ptr i with
  | some _ => (true, s)
  | none =>
    let a := gdoSym L h name s
    (a.1.isSome, setPtr i a.1 a.2)

/-- A decimal number as printed by `%d`. -/
def showInt : Int → Str
  | .ofNat n => Nat.toDigits 10 n
  | .negSucc n => '-' :: Nat.toDigits 10 (n + 1)

/-- The value of `symbol_num` as an index of the symbols: the `case` labels. -/
def caseOf (C : Cfg) : Int → Option (Nat × Str)
  | .ofNat n => (C.syms[n]?).map fun name => (n, name)
  | .negSucc _ => none

/-- `gdo_load_symbol` (c.c 500-528). -/
def loadSymbol (L : Loader) (C : Cfg) (num : Int) (s : St) : Bool × St :=
  let s := clearError s
  match s.handle with
  | none => (false, noLibrary s)
  | some h =>
    match caseOf C num with
    | some (i, name) => loadOne L h i name s
    | none => (false, { s with errbuf := fit (str% "unknown symbol number: " ++ showInt num) })

/-- `strncmp(a, b, n) == 0`. -/
def strncmpEq : Str → Str → Nat → Bool
  | _, _, 0 => true
  | [], [], _ => true
  | a :: r, b :: t, n + 1 => a = b && strncmpEq r t n
  | _, _, _ => false

/-- The C string `str + n`; behind the final NUL it is not defined. -/
def plus (str : Str) (n : Nat) : Ub Str := if n ≤ str.length then some (str.drop n) else none

/-- The condition in c.c 562. -/
def nameMatches (sym cur : Str) (n : Nat) : Ub Bool :=
  if sym.length = cur.length then do
    let a ← plus sym n
    let b ← plus cur n
    return a = b
  else some false

/-- The repeated lines of `gdo_load_symbol_name` (c.c 560-569), from symbol `i` on:
    the first symbol that matches. -/
def findName (sym : Str) (n : Nat) : Nat → List Str → Ub (Option (Nat × Str))
  | _, [] => some none
  | i, cur :: r => do
    if ← nameMatches sym cur n then return some (i, cur) else findName sym n (i + 1) r

/-- The search of the name, after the prefix was compared (c.c 551-562). -/
def foundName (C : Cfg) (name : Str) : Ub (Option (Nat × Str)) :=
  if C.pfx.length = 0 ∨ strncmpEq name C.pfx C.pfx.length then findName name C.pfx.length 0 C.syms else some none

/-- What is done with the result of the search (c.c 563-575). -/
def loadFound (L : Loader) (h : Ptr) (name : Str) (s : St) : Option (Nat × Str) → Bool × St
  | some (i, cur) => loadOne L h i cur s
  | none => (false, { s with errbuf := fit (str% "unknown symbol: " ++ name) })

/-- `gdo_load_symbol_name` (c.c 536-576). -/
def loadSymbolName (L : Loader) (C : Cfg) (sym : Option Str) (s : St) : Ub (Bool × St) :=
  let s := clearError s
  match s.handle with
  | none => some (false, noLibrary s)
  | some h =>
    let name := sym.getD []
    if name = [] then some (false, saveToErrbuf (some (str% "empty symbol name")) s)
    else (foundName C name).map (loadFound L h name s)

/-! ### The path of the library -/

/-- `_gdo_libpath_dlinfo` (c.c 795-828). -/
def libpathDlinfo (L : Loader) (C : Cfg) (h : Ptr) (s : St) : Bool × St :=
  let s := clearError s
  let a := L.dlinfo s.clock h
  let s := { s with clock := s.clock + 1, dlerr := a.2, log := s.log ++ [.info h] }
  match a.1 with
  | none => (false, saveError s)
  | some l =>
    let name := l.getD []
    if name = [] then (false, saveToErrbuf (some (str% "dlinfo() failed to get library path")) s)
    else
      let full := if C.linux ∧ name.headD '/' ≠ '/' then L.procmap s.clock h else none
      match full with
      | some p => (true, { s with libpath := fit p, log := s.log ++ [.path (fit p)] })
      | none => if name.length + 1 > bufLen then (false, s) else (true, { s with libpath := name, log := s.log ++ [.path name] })

/-- The first pointer `dladdr` has a name for (c.c 847-851, common.c 40-45), and the
    number of loader calls made then. -/
def firstDladdr (L : Loader) : Nat → List (Option Ptr) → Option Str × Nat
  | t, [] => (none, t)
  | t, none :: r => firstDladdr L t r
  | t, some p :: r => if ((L.dladdr t p).getD []) = [] then firstDladdr L (t + 1) r else (L.dladdr t p, t + 1)

/-- `_gdo_libpath_dladdr` (c.c 833-867). -/
def libpathDladdr (L : Loader) (C : Cfg) (s : St) : Bool × St :=
  let s := clearError s
  if noneLoaded C s then (false, saveToErrbuf (some (str% "no symbols were loaded")) s)
  else
    let a := firstDladdr L s.clock ((List.range C.syms.length).map s.ptr)
    let s := { s with clock := a.2 }
    match a.1 with
    | none => (false, saveToErrbuf (some (str% "dladdr() failed to get library path")) s)
    | some p => if p.length + 1 > bufLen then (false, s) else (true, { s with libpath := p, log := s.log ++ [.path p] })

/-- The last part of `gdo_library_path` (c.c 674-683). -/
def libraryPathDladdr (L : Loader) (C : Cfg) (s : St) : Option Str × St :=
  if C.haveDladdr then
    let r := libpathDladdr L C s
    if r.1 then (some r.2.libpath, r.2) else (none, { r.2 with libpath := [] })
  else (none, { s with libpath := [] })

/-- `gdo_library_path` (c.c 642-684). -/
def libraryPath (L : Loader) (C : Cfg) (s : St) : Option Str × St :=
  let s := clearError s
  if C.haveDlinfo = false ∧ C.haveDladdr = false then
    (none, saveToErrbuf (some (str% "function not implemented")) s)
  else match s.handle with
    | none => (none, noLibrary s)
    | some h =>
      if s.libpath ≠ [] then (some s.libpath, s)
      else if C.haveDlinfo then
        let r := libpathDlinfo L C h s
        if r.1 then (some r.2.libpath, r.2) else libraryPathDladdr L C r.2
      else libraryPathDladdr L C s

/-! ### Wrapper functions -/

/-- What becomes of a call. -/
inductive Out (α : Type) where
  | ret (a : α) (s : St)
  /-- `exit(code)` was called, the registered functions were run -/
  | exit (code : Nat) (s : St)
  | abort (s : St)
  | ub

/-- `printf` with string arguments only: other conversions than `%s` and `%%` and
    missing arguments are not defined here. -/
def printfS : Str → List Str → Ub Str
  | [], _ => some []
  | '%' :: '%' :: r, as => (printfS r as).map fun t => '%' :: t
  | '%' :: 's' :: r, a :: as => (printfS r as).map fun t => a ++ t
  | '%' :: _, _ => none
  | c :: r, as => (printfS r as).map fun t => c :: t

/-- `strstr(hay, needle) != NULL` (c.c 62-69). -/
def strstr (hay needle : Str) : Bool :=
  match hay with
  | [] => needle.isEmpty
  | _ :: r => needle.isPrefixOf hay || strstr r needle

/-- `_gdo_print_error` (c.c 884-904). -/
def printError (fmt sym msg : Str) (s : St) : Ub St :=
  (printfS fmt [sym, msg]).map fun t => { s with stderr := s.stderr ++ t ++ ['\n'] }

/-- `exit`: the registered functions are called. -/
def runHandlers (L : Loader) (C : Cfg) : Nat → St → St
  | 0, s => s
  | n + 1, s => runHandlers L C n (forceFreeLib L C s)

/-- The end of `_gdo_wrap_check_loaded` with automatic loading (c.c 939-949). -/
def autoloadFailed (L : Loader) (C : Cfg) (sym : Str) (s : St) : Out Unit :=
  let r := lastError s
  let fmt := if strstr r.1 C.lib then str% "error: %s: %s" else str% "error: " ++ C.lib ++ str% ": %s: %s"
  match printError fmt sym r.1 r.2 with
  | none => .ub
  | some s =>
    let s := forceFreeLib L C s
    .exit 1 (runHandlers L C s.handlers s)

/-- The loading of the library in `_gdo_wrap_check_loaded` (c.c 916-923). -/
def autoloadLib (L : Loader) (C : Cfg) (s : St) : St :=
  let s := (enableAutorelease L C s).2
  if libIsLoaded s then s else (loadLib L C s).2

/-- `_gdo_wrap_check_loaded(GDO_RAWPTR_sym, GDO_LOAD_sym, "sym")` (c.c 907-967, c.h
    231-232) for symbol number `i`. -/
def wrapCheckLoaded (L : Loader) (C : Cfg) (i : Nat) (s : St) : Out Unit :=
  let sym := C.syms.getD i []
  match s.ptr i with
  | some _ => .ret () s
  | none =>
    match C.mode with
    | .wrap =>
      let msg := if libIsLoaded s then str% "symbol not loaded" else str% "library not loaded"
      match printError (str% "fatal error: %s: %s") sym msg s with
      | none => .ub
      | some s => .abort s
    | .autoload =>
      let r := loadAllSymbols L C (autoloadLib L C s)
      if r.1 then .ret () r.2 else autoloadFailed L C sym r.2
    | .lazy =>
      let r := loadSymbol L C i (autoloadLib L C s)
      if r.1 then .ret () r.2 else autoloadFailed L C sym r.2

/-- A wrapper function (c.h 245-269) with the default hook: the address that is called,
    a call through NULL being undefined. -/
def wrapper (L : Loader) (C : Cfg) (i : Nat) (s : St) : Out Ptr :=
  match wrapCheckLoaded L C i s with
  | .ret _ s =>
    match s.ptr i with
    | some p => .ret p s
    | none => .ub
  | .exit c s => .exit c s
  | .abort s => .abort s
  | .ub => .ub

/-! ### Sequences of calls -/

/-- The functions a program can call (c.h 84-174) and the wrapper functions. -/
inductive Call where
  | loadLib
  | loadLibAndSymbols
  | loadLibName (name : Option Str)
  | loadLibNameAndSymbols (name : Option Str)
  | loadLibArgs (name : Option Str) (flags : Int) (ns : Bool)
  | libIsLoaded
  | freeLib
  | forceFreeLib
  | enableAutorelease
  | allSymbolsLoaded
  | noSymbolsLoaded
  | anySymbolLoaded
  | loadAllSymbols
  | loadSymbol (num : Int)
  | loadSymbolName (name : Option Str)
  | lastError
  | libraryPath
  /-- the wrapper function of symbol number `i` -/
  | wrapped (i : Nat)
  deriving Repr

/-- What a call returns. -/
inductive Val where
  | bool (b : Bool)
  | text (t : Option Str)
  | none
  deriving DecidableEq, Repr

/-- A function that returns a truth value. -/
def ofBool (r : Bool × St) : Out Val := .ret (.bool r.1) r.2

/-- `a && gdo_load_all_symbols()` (c.c 178, 201). -/
def andSymbols (L : Loader) (C : Cfg) (r : Bool × St) : Bool × St := if r.1 then loadAllSymbols L C r.2 else (false, r.2)

/-- A call. -/
def step (L : Loader) (C : Cfg) (s : St) : Call → Out Val
  | .loadLib => ofBool (loadLib L C s)
  | .loadLibAndSymbols => ofBool (andSymbols L C (loadLib L C s))
  | .loadLibName n => ofBool (loadLibName L C n s)
  | .loadLibNameAndSymbols n => ofBool (andSymbols L C (loadLibName L C n s))
  | .loadLibArgs n f ns => ofBool (loadLibArgs L n f ns s)
  | .libIsLoaded => ofBool (libIsLoaded s, s)
  | .freeLib => ofBool (freeLib L C s)
  | .forceFreeLib => .ret .none (forceFreeLib L C s)
  | .enableAutorelease => ofBool (enableAutorelease L C s)
  | .allSymbolsLoaded => ofBool (allLoaded C s, s)
  | .noSymbolsLoaded => ofBool (noneLoaded C s, s)
  | .anySymbolLoaded => ofBool (anyLoaded C s, s)
  | .loadAllSymbols => ofBool (loadAllSymbols L C s)
  | .loadSymbol n => ofBool (loadSymbol L C n s)
  | .loadSymbolName n =>
    match loadSymbolName L C n s with
    | some r => ofBool r
    | none => .ub
  | .lastError => .ret (.text (some (lastError s).1)) (lastError s).2
  | .libraryPath => .ret (.text (libraryPath L C s).1) (libraryPath L C s).2
  | .wrapped i =>
    if i < C.syms.length then
      match wrapper L C i s with
      | .ret _ s => .ret .none s
      | .exit c s => .exit c s
      | .abort s => .abort s
      | .ub => .ub
    else .ret .none s

/-- A sequence of calls; it ends early when the process ends. -/
def run (L : Loader) (C : Cfg) (s : St) : List Call → Out Unit
  | [] => .ret () s
  | c :: r =>
    match step L C s c with
    | .ret _ s => run L C s r
    | .exit n s => .exit n s
    | .abort s => .abort s
    | .ub => .ub

/-- The end of `main`: `exit` is called. -/
def finish (L : Loader) (C : Cfg) (calls : List Call) : Out Unit :=
  match run L C {} calls with
  | .ret _ s => .exit 0 (runHandlers L C s.handlers s)
  | o => o

end Gdo.Rt
