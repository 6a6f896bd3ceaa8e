import Verif.Model.Runtime

/-!
Model of the generated C code compiled for Windows (`GDO_WINAPI` defined):
`src/templates/c.c`, `src/templates/c.h` and `src/templates/common.c`.

Simplifications: as in `Verif/Model/Runtime.lean`, whose calls and settings are used
(`haveDlinfo`, `haveDladdr` and `linux` have no meaning here).  Text is a list of
characters whatever the type of characters; conversion between the two is the identity,
except in `mbstowcs_s`.  `free` and `LocalFree` do not change the last error code.
-/

namespace Gdo.Win
open Gdo
open Gdo.Rt (Ptr Ev Mode Call Val caseOf showInt foundName printfS strstr)

/-- `GDO_BUFLEN` (common.h 114). -/
def bufLen : Nat := 32 * 1024

/-- The behaviour of Windows and the C library.  The first argument is the number of calls
    made before.  The second component of an answer is the code `GetLastError` gives
    afterwards. -/
structure Loader where
  /-- `LoadLibraryEx`: name, flags -/
  load : Nat → Str → Int → Option Ptr × Nat
  /-- `GetProcAddress` -/
  sym : Nat → Ptr → Str → Option Ptr × Nat
  /-- `FreeLibrary`: whether the return value is TRUE -/
  free : Nat → Ptr → Bool × Nat
  /-- `GetModuleFileName`: the path, `none` if it fails -/
  fileName : Nat → Ptr → Option Str × Nat
  /-- `FormatMessage`: the text for a code -/
  format : Nat → Nat → Option Str
  /-- `mbstowcs_s` -/
  widen : Nat → Str → Option Str
  /-- `true`: the return value is 0 -/
  atexit : Nat → Bool

/-- What is fixed when the code is generated and compiled. -/
structure Cfg extends Rt.Cfg where
  /-- `_GDO_TARGET_WIDECHAR` -/
  wide : Bool
  /-- `GDO_CONVERT_FILENAME` -/
  convert : Bool
  /-- `GDO_USE_MESSAGE_BOX` -/
  box : Bool

/-- `gdo_hndl` (c.h 40-63) and the process around it. -/
structure St where
  handle : Option Ptr := none
  ptr : Nat → Option Ptr := fun _ => none
  libpath : Str := []
  errbuf : Str := []
  formatted : Str := []
  lastErrno : Nat := 0
  freeLibReg : Bool := false
  clock : Nat := 0
  /-- what `GetLastError` returns -/
  sysErr : Nat := 0
  log : List Ev := []
  handlers : Nat := 0
  /-- the messages shown in boxes or written to the standard error output -/
  shown : List Str := []

/-! ### Error messages -/

/-- `_sntprintf_s(buf, GDO_BUFLEN, _TRUNCATE, ...)` (c.c 73-75). -/
def fit (msg : Str) : Str := msg.take (bufLen - 1)

/-- The same for the buffer `formatted` (c.h 61). -/
def fitFormatted (C : Cfg) (msg : Str) : Str := msg.take ((if C.wide then 32 * 1024 else 64 * 1024) - 1)

/-- `_gdo_save_to_errbuf` (c.c 93-104). -/
def saveToErrbuf (msg : Str) (s : St) : St := { s with errbuf := fit msg, formatted := [] }

/-- `GDO_SET_LAST_ERRNO` (c.c 87). -/
def setErrno (code : Nat) (s : St) : St := { s with lastErrno := code }

/-- `_gdo_clear_error` (c.c 109-114). -/
def clearError (s : St) : St := { s with errbuf := [], formatted := [], lastErrno := 0 }

/-- `_gdo_save_error` (c.c 118-122). -/
def saveError (msg : Str) (s : St) : St := saveToErrbuf msg (setErrno s.sysErr s)

/-- `ERROR_INVALID_HANDLE`. -/
def errInvalidHandle : Nat := 6
/-- `ERROR_INVALID_PARAMETER`. -/
def errInvalidParameter : Nat := 87
/-- `ERROR_INVALID_NAME`. -/
def errInvalidName : Nat := 123
/-- `ERROR_NOT_FOUND`. -/
def errNotFound : Nat := 1168

/-- `_gdo_set_error_no_library_loaded` (c.c 125-129). -/
def noLibrary (s : St) : St := saveToErrbuf (str% "no library was loaded") (setErrno errInvalidHandle s)

/-- The text saved in `formatted` (c.c 603-622). -/
def message (L : Loader) (s : St) : Str :=
  match L.format s.clock s.lastErrno with
  | some buf => if s.errbuf ≠ [] then s.errbuf ++ str% ": " ++ buf else buf
  | none =>
    if s.errbuf ≠ [] then s.errbuf ++ str% ": error code: " ++ Nat.toDigits 10 s.lastErrno
    else str% "error code: " ++ Nat.toDigits 10 s.lastErrno

/-- `gdo_last_error` (c.c 584-624). -/
def lastError (L : Loader) (C : Cfg) (s : St) : Str × St :=
  if s.formatted ≠ [] then (s.formatted, s)
  else
    let m := fitFormatted C (message L s)
    (m, { s with formatted := m, clock := s.clock + 1 })

/-! ### Loading and freeing -/

/-- `gdo_lib_is_loaded` (c.c 323-326). -/
def libIsLoaded (s : St) : Bool := s.handle.isSome

/-- The call of `LoadLibraryEx`. -/
def callLoad (L : Loader) (name : Str) (flags : Int) (s : St) : Option Ptr × St :=
  let a := L.load s.clock name flags
  (a.1, { s with
    clock := s.clock + 1
    sysErr := a.2
    log := match a.1 with
      | some h => s.log ++ [.opened h]
      | none => s.log })

/-- `_gdo_load_library_ex` (c.c 296-314) with `_gdo_mbstowcs` (c.c 274-294). -/
def loadLibraryEx (L : Loader) (C : Cfg) (name : Str) (flags : Int) (s : St) : Option Ptr × St :=
  if !C.wide && C.convert then
    match L.widen s.clock name with
    | some w => callLoad L w flags { s with clock := s.clock + 1 }
    | none => (none, saveToErrbuf (str% "mbstowcs_s: failed to convert filename") (setErrno errInvalidName { s with clock := s.clock + 1 }))
  else callLoad L name flags s

/-- The loop that replaces path separators (c.c 252-256). -/
def backslashes (name : Str) : Str := name.map fun c => if c = '/' then '\\' else c

/-- `_gdo_load_library` (c.c 239-269). -/
def loadLibrary (L : Loader) (C : Cfg) (name : Str) (flags : Int) (s : St) : St :=
  let r := loadLibraryEx L C (if name.contains '/' then backslashes name else name) flags s
  { r.2 with handle := r.1 }

/-- `gdo_load_lib_args` (c.c 210-236). -/
def loadLibArgs (L : Loader) (C : Cfg) (name : Option Str) (flags : Int) (s : St) : Bool × St :=
  let s := clearError s
  if libIsLoaded s then (false, saveToErrbuf (str% "library already loaded") s)
  else if name.getD [] = [] then (false, saveToErrbuf (str% "empty filename") (setErrno errInvalidName s))
  else
    let s := loadLibrary L C (name.getD []) flags s
    if libIsLoaded s then (true, s) else (false, saveError (name.getD []) s)

/-- `gdo_load_lib_name` (c.c 188-191). -/
def loadLibName (L : Loader) (C : Cfg) (name : Option Str) (s : St) : Bool × St := loadLibArgs L C name C.flags s

/-- `gdo_load_lib` (c.c 163-166). -/
def loadLib (L : Loader) (C : Cfg) (s : St) : Bool × St := loadLibName L C (some C.lib) s

/-- `_gdo_call_dlclose` (common.c 13-20). -/
def callFree (L : Loader) (h : Ptr) (forced : Bool) (s : St) : Bool × St :=
  let a := L.free s.clock h
  (a.1, { s with clock := s.clock + 1, sysErr := a.2, log := s.log ++ [.closed h a.1 forced] })

/-- The end of `gdo_free_lib` and `gdo_force_free_lib` (c.c 350-354, 373-377). -/
def setNull (C : Cfg) (s : St) : St :=
  { s with libpath := [], handle := none, ptr := fun i => if i < C.syms.length then none else s.ptr i }

/-- `gdo_free_lib` (c.c 334-357). -/
def freeLib (L : Loader) (C : Cfg) (s : St) : Bool × St :=
  let s := clearError s
  match s.handle with
  | some h =>
    let r := callFree L h false s
    if r.1 then (true, setNull C r.2) else (false, saveError (str% "FreeLibrary()") r.2)
  | none => (true, setNull C s)

/-- `gdo_force_free_lib` (c.c 365-378). -/
def forceFreeLib (L : Loader) (C : Cfg) (s : St) : St :=
  let s := clearError s
  match s.handle with
  | some h => setNull C (callFree L h true s).2
  | none => setNull C s

/-- `gdo_enable_autorelease` (c.c 386-399). -/
def enableAutorelease (L : Loader) (C : Cfg) (s : St) : Bool × St :=
  let s := clearError s
  if s.freeLibReg then (true, s)
  else
    let ok := L.atexit s.clock
    let s := { s with clock := s.clock + 1 }
    if ok then (true, { s with freeLibReg := true, handlers := s.handlers + 1 })
    else (false, saveToErrbuf (str% "atexit(): failed to register `" ++ C.freeName ++ str% "()'") s)

/-! ### Symbols -/

/-- `gdo_all_symbols_loaded` (c.c 407-416). -/
def allLoaded (C : Cfg) (s : St) : Bool := (List.range C.syms.length).all fun i => (s.ptr i).isSome

/-- `gdo_no_symbols_loaded` (c.c 424-433). -/
def noneLoaded (C : Cfg) (s : St) : Bool := (List.range C.syms.length).all fun i => (s.ptr i).isNone

/-- `gdo_any_symbol_loaded` (c.c 441-450). -/
def anyLoaded (C : Cfg) (s : St) : Bool := (List.range C.syms.length).any fun i => (s.ptr i).isSome

/-- `_gdo_sym` (c.c 483-492), `_gdo_call_dlsym` (common.c 3-10). -/
def gdoSym (L : Loader) (h : Ptr) (name : Str) (s : St) : Option Ptr × St :=
  let a := L.sym s.clock h name
  let s := { s with clock := s.clock + 1, sysErr := a.2, log := s.log ++ [.sym h name a.1] }
  if a.1.isSome then (a.1, s) else (a.1, saveError name s)

/-- The assignment of a symbol pointer. -/
def setPtr (i : Nat) (p : Option Ptr) (s : St) : St := { s with ptr := fun j => if j = i then p else s.ptr j }

/-- The repeated lines of `gdo_load_all_symbols` (c.c 473-478), from symbol `i` on. -/
def loadLoop (L : Loader) (h : Ptr) : Nat → List Str → St → Bool × St
  | _, [], s => (true, s)
  | i, name :: r, s =>
    let a := gdoSym L h name s
    let s := setPtr i a.1 a.2
    if a.1.isSome then loadLoop L h (i + 1) r s else (false, s)

/-- `gdo_load_all_symbols` (c.c 458-481). -/
def loadAllSymbols (L : Loader) (C : Cfg) (s : St) : Bool × St :=
  let s := clearError s
  if allLoaded C s then (true, s)
  else match s.handle with
    | none => (false, noLibrary s)
    | some h => loadLoop L h 0 C.syms s

/-- The repeated lines for one symbol (c.c 513-518, 563-568). -/
def loadOne (L : Loader) (h : Ptr) (i : Nat) (name : Str) (s : St) : Bool × St :=
  match s.ptr i with
  | some _ => (true, s)
  | none =>
    let a := gdoSym L h name s
    (a.1.isSome, setPtr i a.1 a.2)

/-- `gdo_load_symbol` (c.c 500-528). -/
def loadSymbol (L : Loader) (C : Cfg) (num : Int) (s : St) : Bool × St :=
  let s := clearError s
  match s.handle with
  | none => (false, noLibrary s)
  | some h =>
    match caseOf C.toCfg num with
    | some (i, name) => loadOne L h i name s
    | none => (false, { setErrno errNotFound s with errbuf := fit (str% "unknown symbol number: " ++ showInt num) })

/-- What is done with the result of the search (c.c 563-575). -/
def loadFound (L : Loader) (h : Ptr) (name : Str) (s : St) : Option (Nat × Str) → Bool × St
  | some (i, cur) => loadOne L h i cur s
  | none => (false, { setErrno errNotFound s with errbuf := fit (str% "unknown symbol: " ++ name) })

/-- `gdo_load_symbol_name` (c.c 536-576).  The search is that of the other systems. -/
def loadSymbolName (L : Loader) (C : Cfg) (sym : Option Str) (s : St) : Ub (Bool × St) :=
  let s := clearError s
  match s.handle with
  | none => some (false, noLibrary s)
  | some h =>
    let name := sym.getD []
    if name = [] then some (false, saveToErrbuf (str% "empty symbol name") (setErrno errInvalidParameter s))
    else (foundName C.toCfg name).map (loadFound L h name s)

/-! ### The path of the library -/

/-- The name of the function in messages (c.c 692-694). -/
def fileNameMsg (C : Cfg) : Str := if C.wide then str% "GetModuleFileNameW()" else str% "GetModuleFileNameA()"

/-- `_gdo_library_path` (c.c 688-721). -/
def queryPath (L : Loader) (C : Cfg) (h : Ptr) (s : St) : Bool × St :=
  let a := L.fileName s.clock h
  let s := { s with clock := s.clock + 1, sysErr := a.2, log := s.log ++ [.info h] }
  match a.1 with
  | none => (false, saveError (fileNameMsg C) s)
  | some p =>
    if p.length = 0 ∨ p.length ≥ bufLen then (false, saveError (fileNameMsg C) { s with libpath := fit p })
    else (true, { s with libpath := p, log := s.log ++ [.path p] })

/-- `gdo_library_path` (c.c 642-684). -/
def libraryPath (L : Loader) (C : Cfg) (s : St) : Option Str × St :=
  let s := clearError s
  match s.handle with
  | none => (none, noLibrary s)
  | some h =>
    if s.libpath ≠ [] then (some s.libpath, s)
    else
      let r := queryPath L C h s
      if r.1 then (some r.2.libpath, r.2) else (none, { r.2 with libpath := [] })

/-! ### Wrapper functions -/

/-- What becomes of a call. -/
inductive Out (α : Type) where
  | ret (a : α) (s : St)
  /-- `exit(code)` was called, the registered functions were run -/
  | exit (code : Nat) (s : St)
  | abort (s : St)
  | ub

/-- `_gdo_print_error` (c.c 884-904). -/
def printError (C : Cfg) (fmt sym msg : Str) (s : St) : Ub St :=
  (printfS fmt [sym, msg]).map fun t =>
    if C.box then { s with errbuf := fit t, shown := s.shown ++ [fit t] }
    else { s with shown := s.shown ++ [t ++ ['\n']] }

/-- `exit`: the registered functions are called. -/
def runHandlers (L : Loader) (C : Cfg) : Nat → St → St
  | 0, s => s
  | n + 1, s => runHandlers L C n (forceFreeLib L C s)

/-- The end of `_gdo_wrap_check_loaded` with automatic loading (c.c 939-949). -/
def autoloadFailed (L : Loader) (C : Cfg) (sym : Str) (s : St) : Out Unit :=
  let r := lastError L C s
  let fmt := if strstr r.1 C.lib then str% "error: %s: %s" else str% "error: " ++ C.lib ++ str% ": %s: %s"
  match printError C fmt sym r.1 r.2 with
  | none => .ub
  | some s =>
    let s := forceFreeLib L C s
    .exit 1 (runHandlers L C s.handlers s)

/-- The loading of the library in `_gdo_wrap_check_loaded` (c.c 916-923). -/
def autoloadLib (L : Loader) (C : Cfg) (s : St) : St :=
  let s := (enableAutorelease L C s).2
  if libIsLoaded s then s else (loadLib L C s).2

/-- `_gdo_wrap_check_loaded` (c.c 907-967, c.h 231-232) for symbol number `i`. -/
def wrapCheckLoaded (L : Loader) (C : Cfg) (i : Nat) (s : St) : Out Unit :=
  let sym := C.syms.getD i []
  match s.ptr i with
  | some _ => .ret () s
  | none =>
    match C.mode with
    | .wrap =>
      let msg := if libIsLoaded s then str% "symbol not loaded" else str% "library not loaded"
      match printError C (str% "fatal error: %s: %s") sym msg s with
      | none => .ub
      | some s => .abort s
    | .autoload =>
      let r := loadAllSymbols L C (autoloadLib L C s)
      if r.1 then .ret () r.2 else autoloadFailed L C sym r.2
    | .lazy =>
      let r := loadSymbol L C i (autoloadLib L C s)
      if r.1 then .ret () r.2 else autoloadFailed L C sym r.2

/-- A wrapper function (c.h 245-269) with the default hook: the address that is called,
    a call through NULL being undefined. -/
def wrapper (L : Loader) (C : Cfg) (i : Nat) (s : St) : Out Ptr :=
  match wrapCheckLoaded L C i s with
  | .ret _ s =>
    match s.ptr i with
    | some p => .ret p s
    | none => .ub
  | .exit c s => .exit c s
  | .abort s => .abort s
  | .ub => .ub

/-! ### Sequences of calls -/

/-- A function that returns a truth value. -/
def ofBool (r : Bool × St) : Out Val := .ret (.bool r.1) r.2

/-- `a && gdo_load_all_symbols()` (c.c 178, 201). -/
def andSymbols (L : Loader) (C : Cfg) (r : Bool × St) : Bool × St := if r.1 then loadAllSymbols L C r.2 else (false, r.2)

/-- A call. -/
def step (L : Loader) (C : Cfg) (s : St) : Call → Out Val
  | .loadLib => ofBool (loadLib L C s)
  | .loadLibAndSymbols => ofBool (andSymbols L C (loadLib L C s))
  | .loadLibName n => ofBool (loadLibName L C n s)
  | .loadLibNameAndSymbols n => ofBool (andSymbols L C (loadLibName L C n s))
  | .loadLibArgs n f _ => ofBool (loadLibArgs L C n f s)
  | .libIsLoaded => ofBool (libIsLoaded s, s)
  | .freeLib => ofBool (freeLib L C s)
  | .forceFreeLib => .ret .none (forceFreeLib L C s)
  | .enableAutorelease => ofBool (enableAutorelease L C s)
  | .allSymbolsLoaded => ofBool (allLoaded C s, s)
  | .noSymbolsLoaded => ofBool (noneLoaded C s, s)
  | .anySymbolLoaded => ofBool (anyLoaded C s, s)
  | .loadAllSymbols => ofBool (loadAllSymbols L C s)
  | .loadSymbol n => ofBool (loadSymbol L C n s)
  | .loadSymbolName n =>
    match loadSymbolName L C n s with
    | some r => ofBool r
    | none => .ub
  | .lastError => .ret (.text (some (lastError L C s).1)) (lastError L C s).2
  | .libraryPath => .ret (.text (libraryPath L C s).1) (libraryPath L C s).2
  | .wrapped i =>
    if i < C.syms.length then
      match wrapper L C i s with
      | .ret _ s => .ret .none s
      | .exit c s => .exit c s
      | .abort s => .abort s
      | .ub => .ub
    else .ret .none s

/-- A sequence of calls; it ends early when the process ends. -/
def run (L : Loader) (C : Cfg) (s : St) : List Call → Out Unit
  | [] => .ret () s
  | c :: r =>
    match step L C s c with
    | .ret _ s => run L C s r
    | .exit n s => .exit n s
    | .abort s => .abort s
    | .ub => .ub

/-- The end of `main`: `exit` is called. -/
def finish (L : Loader) (C : Cfg) (calls : List Call) : Out Unit :=
  match run L C {} calls with
  | .ret _ s => .exit 0 (runHandlers L C s.handlers s)
  | o => o

end Gdo.Win
