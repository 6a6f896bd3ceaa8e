import Verif.Model.CSystem
import Verif.Model.Win

/-!
Model of what the generated C code is executed with when it is compiled for Windows: the
macros of `src/templates/common.h`, `src/templates/c.h` and `src/templates/c.c` that are
used in the code, the structure `gdo_hndl` (c.h 40-63), the functions of Windows and the C
library, and the memory that is given by the system.

Simplifications:

* The answers of the system are those of `Win.Loader`.  When a file name is converted,
  `mbstowcs_s` is called a second time for the same text; the answer is the same.
* There is always enough memory: `malloc` and `_tcsdup` do not fail.
* Text is a list of characters whatever the type of characters; `GDO_XHS` (c.c 15-17) is
  `%s` in both cases.
* Comparison functions return 0 or 1; only whether it is 0 matters in the code.
* `atexit` is used for `gdo_force_free_lib` only and `MessageBox` for an error; other uses
  are not described and count as undefined.  So do a pointer given to the wrong one of
  `free` and `LocalFree`, and memory that is used after it was freed.
-/

namespace Gdo.Cc.W
open Gdo Tmpl Win
open Gdo.Rt (Ptr Ev)

/-- Memory given by the system. -/
structure Block where
  addr : Nat
  /-- the C string in it, if something was written to it -/
  text : Option Str
  /-- bytes -/
  size : Nat
  /-- whether it is to be freed with `LocalFree` -/
  sys : Bool

/-- The state. -/
structure World where
  s : St
  heap : List Block := []

/-- An address that is not in use. -/
def fresh (hp : List Block) : Nat := (hp.foldl (fun n b => max n b.addr) 0) + 1

def block (p : Nat) (hp : List Block) : Option Block := hp.find? fun b => b.addr = p

/-- `free` and `LocalFree`. -/
def release (p : Nat) (sys : Bool) (hp : List Block) : Option (List Block) :=
  match block p hp with
  | some b => if b.sys = sys then some (hp.filter fun b => b.addr ≠ p) else none
  | none => none

/-- Something is written to a block. -/
def write (p : Nat) (t : Str) (hp : List Block) : List Block := hp.map fun b => if b.addr = p then { b with text := some t } else b

/-- The size of `gdo_char_t` (common.h). -/
def charSize (C : Cfg) : Nat := if C.wide then 2 else 1

/-- The members of `gdo_hndl` that are arrays of characters (c.h 53, 54, 61). -/
def isBuf (b : Str) : Bool := b = str% "errbuf" || b = str% "libpath" || b = str% "formatted"

def getBuf (b : Str) (g : World) : Str :=
  if b = str% "errbuf" then g.s.errbuf else if b = str% "libpath" then g.s.libpath else g.s.formatted

def setBuf (b : Str) (t : Str) (g : World) : World :=
  if b = str% "errbuf" then { g with s := { g.s with errbuf := t } }
  else if b = str% "libpath" then { g with s := { g.s with libpath := t } }
  else { g with s := { g.s with formatted := t } }

/-- How many characters there is space for in them. -/
def bufSize (C : Cfg) (b : Str) : Nat := if b = str% "formatted" then (if C.wide then 32 * 1024 else 64 * 1024) else bufLen

/-- The other members of `gdo_hndl` (c.h 42, 44, 46). -/
def get (f : Str) (g : World) : Option V :=
  if f = str% "handle" then some (.ofPtr g.s.handle)
  else if f = str% "free_lib_reg" then some (.ofBool g.s.freeLibReg)
  else if f = str% "last_errno" then some (.int g.s.lastErrno)
  else none

def set (f : Str) (v : V) (g : World) : Option World :=
  if f = str% "handle" then
    match v with
    | .null => some { g with s := { g.s with handle := none } }
    | .ptr p => some { g with s := { g.s with handle := some p } }
    | _ => none
  else if f = str% "free_lib_reg" then
    match v with
    | .int 0 => some { g with s := { g.s with freeLibReg := false } }
    | .int 1 => some { g with s := { g.s with freeLibReg := true } }
    | _ => none
  else if f = str% "last_errno" then
    match v with
    | .int (.ofNat n) => some { g with s := { g.s with lastErrno := n } }
    | _ => none
  else none

/-- The pointers of the symbols (c.h 50-51). -/
def setSym (i : Nat) (v : V) (g : World) : Option World :=
  match v with
  | .null => some { g with s := setPtr i none g.s }
  | .ptr p => some { g with s := setPtr i (some p) g.s }
  | _ => none

/-- Characters in memory given by the system. -/
def getIn (p : Nat) (path : List Step) (g : World) : Option V :=
  match path with
  | [.index i] => ((block p g.heap).bind (·.text)).bind fun t => charAt t i
  | _ => none

def setIn (p : Nat) (path : List Step) (v : V) (g : World) : Option World :=
  match path, v with
  | [.index i], .chr c => ((block p g.heap).bind (·.text)).bind fun t => if i < t.length then some { g with heap := write p (t.set i c) g.heap } else none
  | _, _ => none

/-- The string that a pointer points to. -/
def text (g : World) : V → Option Str
  | .str t => some t
  | .buf b => if isBuf b then some (getBuf b g) else none
  | .ptr p => (block p g.heap).bind (·.text)
  | .mem p i _ => ((block p g.heap).bind (·.text)).map (·.drop i)
  | _ => none

/-- Macros (common.h 116, 213, 390-395, c.c 15-17, c.h 9, and those of Windows). -/
def const (C : Cfg) (w : Str) : Option V :=
  if w = str% "NULL" then some .null
  else if w = str% "true" then some (.int 1)
  else if w = str% "false" then some (.int 0)
  else if w = str% "TRUE" then some (.int 1)
  else if w = str% "GDO_DEFAULT_LIB" then some (.str C.lib)
  else if w = str% "GDO_DEFAULT_FLAGS" then some (.int C.flags)
  else if w = str% "GDO_COMMON_PREFIX" then some (.str C.pfx)
  else if w = str% "GDO_BUFLEN" then some (.int bufLen)
  else if w = str% "GDO_XHS" then some (.str (str% "%s"))
  else if w = str% "ERROR_INVALID_HANDLE" then some (.int errInvalidHandle)
  else if w = str% "ERROR_INVALID_PARAMETER" then some (.int errInvalidParameter)
  else if w = str% "ERROR_INVALID_NAME" then some (.int errInvalidName)
  else if w = str% "ERROR_NOT_FOUND" then some (.int errNotFound)
  else if w = str% "LANG_NEUTRAL" then some (.int 0)
  else if w = str% "SUBLANG_DEFAULT" then some (.int 1)
  else if w = str% "MB_OK" then some (.int 0)
  else if w = str% "MB_ICONERROR" then some (.int 16)
  else if w = str% "GDO_FORMAT_MESSAGE_FLAGS" then some (.obj w)
  else if w = str% "_TRUNCATE" then some (.obj w)
  else if w = str% "stderr" then some (.obj w)
  else none

section
variable (L : Loader) (C : Cfg)

/-! ### Windows -/

/-- `LoadLibraryEx`, `LoadLibraryExW`. -/
def sysLoad : List V → M World → R World V
  | [a, .null, .int flags], m =>
    match text m.g a with
    | some name => .ok (.ofPtr (callLoad L name flags m.g.s).1) { m with g := { m.g with s := (callLoad L name flags m.g.s).2 } }
    | none => .ub
  | _, _ => .ub

/-- `GetProcAddress`. -/
def sysProc : List V → M World → R World V
  | [.ptr h, .str name], m =>
    let a := L.sym m.g.s.clock h name
    .ok (.ofPtr a.1) { m with g := { m.g with s := { m.g.s with clock := m.g.s.clock + 1, sysErr := a.2, log := m.g.s.log ++ [.sym h name a.1] } } }
  | _, _ => .ub

/-- `FreeLibrary`. -/
def sysFreeLibrary : List V → M World → R World V
  | [.ptr h], m =>
    let a := L.free m.g.s.clock h
    .ok (.int (if a.1 then 1 else 0)) { m with g := { m.g with s := { m.g.s with
      clock := m.g.s.clock + 1, sysErr := a.2, log := m.g.s.log ++ [.closed h a.1 (isForced m.frames)] } } }
  | _, _ => .ub

/-- `GetLastError`. -/
def sysLastError : List V → M World → R World V
  | [], m => .ok (.int m.g.s.sysErr) m
  | _, _ => .ub

/-- `GDO_SET_LAST_ERRNO` (c.c 87). -/
def sysSetErrno : List V → M World → R World V
  | [.int (.ofNat n)], m => .ok .void { m with g := { m.g with s := setErrno n m.g.s } }
  | _, _ => .ub

/-- `GetModuleFileName`: nothing, the beginning of the path if there is not enough space, or
    the path. -/
def sysFileName : List V → M World → R World V
  | [.ptr h, .buf b, .int n], m =>
    if b = str% "libpath" ∧ n = bufLen then
      let a := L.fileName m.g.s.clock h
      let s := { m.g.s with clock := m.g.s.clock + 1, sysErr := a.2, log := m.g.s.log ++ [.info h] }
      match a.1 with
      | none => .ok (.int 0) { m with g := { m.g with s := s } }
      | some p =>
        if p.length < bufLen then
          .ok (.int p.length) { m with g := { m.g with s := { s with libpath := p, log := if p = [] then s.log else s.log ++ [.path p] } } }
        else .ok (.int bufLen) { m with g := { m.g with s := { s with libpath := fit p } } }
    else .ub
  | _, _ => .ub

/-- `MAKELANGID`. -/
def sysLang : List V → M World → R World V
  | [.int a, .int b], m => .ok (.int (b * 1024 + a)) m
  | _, _ => .ub

/-- `FormatMessage`, which gives a new block of memory. -/
def sysFormat : List V → M World → R World V
  | [.obj o, .null, .int (.ofNat code), .int lang, .loc d x, .int 0, .null], m =>
    if o = str% "GDO_FORMAT_MESSAGE_FLAGS" ∧ lang = 1024 then
      let s := { m.g.s with clock := m.g.s.clock + 1 }
      match L.format m.g.s.clock code with
      | some t =>
        let p := fresh m.g.heap
        (storeVar d x (.ptr p) { m with g := ⟨s, ⟨p, some t, (t.length + 1) * charSize C, true⟩ :: m.g.heap⟩ }).bind fun _ m => .ok (.int t.length) m
      | none => .ok (.int 0) { m with g := { m.g with s := s } }
    else .ub
  | _, _ => .ub

/-- `LocalFree`. -/
def sysLocalFree : List V → M World → R World V
  | [.ptr p], m =>
    match release p true m.g.heap with
    | some hp => .ok .null { m with g := { m.g with heap := hp } }
    | none => .ub
  | _, _ => .ub

/-- `MessageBox`. -/
def sysBox : List V → M World → R World V
  | [.null, a, .str title, .int style], m =>
    if title = str% "Error" ∧ style = 16 then
      match text m.g a with
      | some t => .ok (.int 1) { m with g := { m.g with s := { m.g.s with shown := m.g.s.shown ++ [t] } } }
      | none => .ub
    else .ub
  | _, _ => .ub

/-! ### The C library -/

/-- `malloc`. -/
def sysMalloc : List V → M World → R World V
  | [.int (.ofNat n)], m => .ok (.ptr (fresh m.g.heap)) { m with g := { m.g with heap := ⟨fresh m.g.heap, none, n, false⟩ :: m.g.heap } }
  | _, _ => .ub

/-- `free`. -/
def sysFree : List V → M World → R World V
  | [a], m =>
    match (match a with
      | .ptr p => release p false m.g.heap
      | .mem p 0 _ => release p false m.g.heap
      | .null => some m.g.heap
      | _ => none) with
    | some hp => .ok .void { m with g := { m.g with heap := hp } }
    | none => .ub
  | _, _ => .ub

/-- `_tcsdup`. -/
def sysDup : List V → M World → R World V
  | [a], m =>
    match text m.g a with
    | some t => .ok (.mem (fresh m.g.heap) 0 (t.length + 1))
        { m with g := { m.g with heap := ⟨fresh m.g.heap, some t, (t.length + 1) * charSize C, false⟩ :: m.g.heap } }
    | none => .ub
  | _, _ => .ub

/-- `_tcschr`. -/
def sysChr : List V → M World → R World V
  | [a, .chr c], m => .of m ((text m.g a).map fun t => if c ∈ t then .str (t.dropWhile (· ≠ c)) else .null)
  | _, _ => .ub

/-- `mbstowcs_s`: how long the result is, and the conversion. -/
def sysWiden : List V → M World → R World V
  | [.loc d x, .null, .int 0, a, .obj o], m =>
    if o = str% "_TRUNCATE" then
      match text m.g a with
      | some t =>
        let m' := { m with g := { m.g with s := { m.g.s with clock := m.g.s.clock + 1 } } }
        match L.widen m.g.s.clock t with
        | some w => (storeVar d x (.int (w.length + 1 : Nat)) m').bind fun _ m => .ok (.int 0) m
        | none => (storeVar d x (.int 0) m').bind fun _ m => .ok (.int 42) m
      | none => .ub
    else .ub
  | [.loc d x, .ptr p, .int (.ofNat n), a, .obj o], m =>
    if o = str% "_TRUNCATE" then
      match text m.g a, block p m.g.heap with
      | some t, some b =>
        if n * 2 ≤ b.size ∧ 0 < n then
          match L.widen (m.g.s.clock - 1) t with
          | some w =>
            if w.length < n then
              (storeVar d x (.int (w.length + 1 : Nat)) { m with g := { m.g with heap := write p w m.g.heap } }).bind fun _ m => .ok (.int 0) m
            else (storeVar d x (.int n) { m with g := { m.g with heap := write p (w.take (n - 1)) m.g.heap } }).bind fun _ m => .ok (.int 80) m
          | none => (storeVar d x (.int 0) { m with g := { m.g with heap := write p [] m.g.heap } }).bind fun _ m => .ok (.int 42) m
        else .ub
      | _, _ => .ub
    else .ub
  | _, _ => .ub

/-- `atexit`. -/
def sysAtexit : List V → M World → R World V
  | [.fn f], m =>
    if f = str% "gdo_force_free_lib" then
      let ok := L.atexit m.g.s.clock
      let s := { m.g.s with clock := m.g.s.clock + 1 }
      if ok then .ok (.int 0) { m with g := { m.g with s := { s with handlers := s.handlers + 1 } } } else .ok (.int 1) { m with g := { m.g with s := s } }
    else .ub
  | _, _ => .ub

def sysExit : List V → M World → R World V
  | [.int n], m => .exit n m
  | _, _ => .ub

def sysAbort : List V → M World → R World V
  | [], m => .abort m
  | _, _ => .ub

def sysStrlen : List V → M World → R World V
  | [a], m => .of m ((text m.g a).map fun s => .int s.length)
  | _, _ => .ub

def sysStrcmp : List V → M World → R World V
  | [a, b], m => .of m ((text m.g a).bind fun s => (text m.g b).map fun t => .int (if s = t then 0 else 1))
  | _, _ => .ub

def sysStrncmp : List V → M World → R World V
  | [a, b, .int (.ofNat n)], m =>
    .of m ((text m.g a).bind fun s => (text m.g b).map fun t => .int (if s.take n = t.take n then 0 else 1))
  | _, _ => .ub

/-- `_tcsstr`. -/
def sysStrstr : List V → M World → R World V
  | [a, b], m => .of m ((text m.g a).bind fun s => (text m.g b).map fun t => .ofStr (search t s))
  | _, _ => .ub

/-- The end of the next two functions. -/
def printTo (b f : Str) (as : List V) (m : M World) : R World V :=
  if isBuf b ∧ .buf b ∉ as then
    match format (text m.g) f as with
    | some t => .ok (.int t.length) { m with g := setBuf b (t.take (bufSize C b - 1)) m.g }
    | none => .ub
  else .ub

/-- `GDO_SNPRINTF` (c.c 74-75); the arguments must not overlap with the destination. -/
def sysSnprintf : List V → M World → R World V
  | .buf b :: .str f :: as, m => printTo C b f as m
  | _, _ => .ub

/-- `_sntprintf_s`. -/
def sysSntprintf : List V → M World → R World V
  | .buf b :: .int n :: .obj o :: .str f :: as, m => if o = str% "_TRUNCATE" ∧ n = bufSize C b then printTo C b f as m else .ub
  | _, _ => .ub

/-- `_ftprintf_s`: the beginning of a message. -/
def sysFprintf : List V → M World → R World V
  | .obj o :: .str f :: as, m =>
    if o = str% "stderr" then
      match format (text m.g) f as with
      | some t => .ok (.int t.length) { m with g := { m.g with s := { m.g.s with shown := m.g.s.shown ++ [t] } } }
      | none => .ub
    else .ub
  | _, _ => .ub

/-- `_fputtc`: a character behind the last message. -/
def sysFputc : List V → M World → R World V
  | [.chr c, .obj o], m =>
    if o = str% "stderr" then
      .ok (.chr c) { m with g := { m.g with s := { m.g.s with shown := m.g.s.shown.dropLast ++ [m.g.s.shown.getLast?.getD [] ++ [c]] } } }
    else .ub
  | _, _ => .ub

/-- `_T` (c.h 9). -/
def sysT : List V → M World → R World V
  | [v], m => .ok v m
  | _, _ => .ub

def sysTable : List (Str × (List V → M World → R World V)) :=
  [(str% "_T", sysT),
   (str% "LoadLibraryEx", sysLoad L),
   (str% "LoadLibraryExW", sysLoad L),
   (str% "GetProcAddress", sysProc L),
   (str% "FreeLibrary", sysFreeLibrary L),
   (str% "GetLastError", sysLastError),
   (str% "GDO_SET_LAST_ERRNO", sysSetErrno),
   (str% "GetModuleFileName", sysFileName L),
   (str% "MAKELANGID", sysLang),
   (str% "FormatMessage", sysFormat L C),
   (str% "LocalFree", sysLocalFree),
   (str% "MessageBox", sysBox),
   (str% "malloc", sysMalloc),
   (str% "free", sysFree),
   (str% "_tcsdup", sysDup C),
   (str% "_tcschr", sysChr),
   (str% "mbstowcs_s", sysWiden L),
   (str% "atexit", sysAtexit L),
   (str% "exit", sysExit),
   (str% "abort", sysAbort),
   (str% "strlen", sysStrlen),
   (str% "strcmp", sysStrcmp),
   (str% "strncmp", sysStrncmp),
   (str% "_tcsstr", sysStrstr),
   (str% "GDO_SNPRINTF", sysSnprintf C),
   (str% "_sntprintf_s", sysSntprintf C),
   (str% "_ftprintf_s", sysFprintf),
   (str% "_fputtc", sysFputc)]

end

/-- The system, for a prefix, a loader and a configuration. -/
def sem (upper lower : Str) (L : Loader) (C : Cfg) : Sem World where
  lit := renamed upper lower
  const := const C
  glued := rtGlued C.toCfg
  ignored w := w = str% "GDO_UNUSED_REF"
  fields _ := []
  data := str% "gdo_hndl"
  isBuf := isBuf
  getBuf := getBuf
  setBuf := setBuf
  get := get
  set := set
  getSym i g := .ofPtr (g.s.ptr i)
  setSym := setSym
  getIn := getIn
  setIn := setIn
  size ty :=
    if ty = [.word (.fixed (str% "wchar_t"))] then some 2
    else if ty = [.word (.fixed (str% "gdo_char_t"))] then some (charSize C)
    else none
  system f := (sysTable L C).lookup f

end Gdo.Cc.W
