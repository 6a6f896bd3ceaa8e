import Verif.Spec.CSem
import Verif.Model.Runtime

/-!
Model of what the generated C code is executed with when it is compiled for dlfcn: the
macros of `src/templates/common.h` and `src/templates/c.h` that are used in the code, the
structure `gdo_hndl` (c.h 40-63), the dynamic loader and the C library.

Simplifications:

* The answers of the loader are those of `Rt.Loader`.
* Comparison functions return 0 or 1; only whether it is 0 matters in the code.
* `memcpy` is used for a whole C string and `atexit` for `gdo_force_free_lib` only; other
  uses are not described and count as undefined.
* `_gdo_fullpath_procmap` (common.c 113-183) is taken as a function of the system here.
-/

namespace Gdo.Cc
open Gdo Tmpl Rt

/-- A pointer that may be null. -/
def V.ofPtr : Option Ptr → V
  | some p => .ptr p
  | none => .null

/-- A C string that may be missing. -/
def V.ofStr : Option Str → V
  | some s => .str s
  | none => .null

/-- The members of `gdo_hndl` that are arrays of characters (c.h 53, 54). -/
def rtBuf (b : Str) : Bool := b = str% "errbuf" || b = str% "libpath"

def rtGetBuf (b : Str) (s : St) : Str := if b = str% "errbuf" then s.errbuf else s.libpath

def rtSetBuf (b : Str) (t : Str) (s : St) : St := if b = str% "errbuf" then { s with errbuf := t } else { s with libpath := t }

/-- The other members of `gdo_hndl` (c.h 42, 46). -/
def rtGet (f : Str) (s : St) : Option V :=
  if f = str% "handle" then some (.ofPtr s.handle)
  else if f = str% "free_lib_reg" then some (.ofBool s.freeLibReg)
  else none

def rtSet (f : Str) (v : V) (s : St) : Option St :=
  if f = str% "handle" then
    match v with
    | .null => some { s with handle := none }
    | .ptr p => some { s with handle := some p }
    | _ => none
  else if f = str% "free_lib_reg" then
    match v with
    | .int 0 => some { s with freeLibReg := false }
    | .int 1 => some { s with freeLibReg := true }
    | _ => none
  else none

/-- The pointers of the symbols (c.h 50-51). -/
def rtSetSym (i : Nat) (v : V) (s : St) : Option St :=
  match v with
  | .null => some (setPtr i none s)
  | .ptr p => some (setPtr i (some p) s)
  | _ => none

/-- Macros (common.h 116, 213, 390-395, c.c 17, c.h 9). -/
def rtConst (C : Cfg) (w : Str) : Option V :=
  if w = str% "NULL" then some .null
  else if w = str% "true" then some (.int 1)
  else if w = str% "false" then some (.int 0)
  else if w = str% "GDO_DEFAULT_LIB" then some (.str C.lib)
  else if w = str% "GDO_DEFAULT_FLAGS" then some (.int C.flags)
  else if w = str% "GDO_COMMON_PREFIX" then some (.str C.pfx)
  else if w = str% "GDO_BUFLEN" then some (.int bufLen)
  else if w = str% "GDO_XHS" then some (.str (str% "%s"))
  else if w = str% "LM_ID_NEWLM" then some (.obj w)
  else if w = str% "RTLD_DI_LINKMAP" then some (.obj w)
  else if w = str% "stderr" then some (.obj w)
  else none

/-- `GDO_RAWPTR_...` (c.h 180-181) and `GDO_LOAD_...` (c.h 31-34). -/
def rtGlued (C : Cfg) (p v : Str) : Option Lv :=
  if v ∈ C.syms then
    if p = str% "GDO_RAWPTR_" then some (.sym (C.syms.idxOf v))
    else if p = str% "GDO_LOAD_" then some (.val (.int (C.syms.idxOf v)))
    else none
  else none

/-- What `printf` writes; only `%s`, `%d`, `%zu` and `%%` are known. -/
def format (text : V → Option Str) : Str → List V → Option Str
  | [], _ => some []
  | '%' :: '%' :: r, as => (format text r as).map ('%' :: ·)
  | '%' :: 's' :: r, a :: as => (text a).bind fun t => (format text r as).map (t ++ ·)
  | '%' :: 'd' :: r, .int n :: as => (format text r as).map (showInt n ++ ·)
  | '%' :: 'z' :: 'u' :: r, .int (.ofNat n) :: as => (format text r as).map (Nat.toDigits 10 n ++ ·)
  | '%' :: _, _ => none
  | c :: r, as => (format text r as).map (c :: ·)

/-- The first place of a string in another one. -/
def search (needle : Str) : Str → Option Str
  | [] => if needle = [] then some [] else none
  | c :: r => if needle.isPrefixOf (c :: r) then some (c :: r) else search needle r

section
variable (L : Loader) (text : St → V → Option Str)

/-- The functions of the dynamic loader. -/
def sysDlerror : List V → M St → R St V
  | [], m => .ok (.ofStr m.g.dlerr) { m with g := { m.g with dlerr := none } }
  | _, _ => .ub

def opened (a : Option Ptr × Option Str) (m : M St) : R St V :=
  .ok (.ofPtr a.1) { m with g := { m.g with
    clock := m.g.clock + 1
    dlerr := a.2
    log := match a.1 with
      | some h => m.g.log ++ [.opened h]
      | none => m.g.log } }

def sysDlopen : List V → M St → R St V
  | [.str name, .int flags], m => opened (L.dlopen m.g.clock name flags false) m
  | _, _ => .ub

def sysDlmopen : List V → M St → R St V
  | [.obj o, .str name, .int flags], m => if o = str% "LM_ID_NEWLM" then opened (L.dlopen m.g.clock name flags true) m else .ub
  | _, _ => .ub

def sysDlsym : List V → M St → R St V
  | [.ptr h, .str name], m =>
    let a := L.dlsym m.g.clock h name
    .ok (.ofPtr a.1) { m with g := { m.g with clock := m.g.clock + 1, dlerr := a.2, log := m.g.log ++ [.sym h name a.1] } }
  | _, _ => .ub

/-- Whether the function two calls above is `gdo_force_free_lib`; this is only noted. -/
def isForced : List Frame → Bool
  | _ :: f :: _ => f.fn = str% "gdo_force_free_lib"
  | _ => false

def sysDlclose : List V → M St → R St V
  | [.ptr h], m =>
    let a := L.dlclose m.g.clock h
    .ok (.int (if a.1 then 0 else -1))
      { m with g := { m.g with clock := m.g.clock + 1, dlerr := a.2, log := m.g.log ++ [.closed h a.1 (isForced m.frames)] } }
  | _, _ => .ub

def sysDlinfo : List V → M St → R St V
  | [.ptr h, .obj o, .loc d x], m =>
    if o = str% "RTLD_DI_LINKMAP" then
      let a := L.dlinfo m.g.clock h
      let m := { m with g := { m.g with clock := m.g.clock + 1, dlerr := a.2, log := m.g.log ++ [.info h] } }
      match a.1 with
      | none => .ok (.int (-1)) m
      | some l => (storeVar d x (.lmap h l) m).bind fun _ m => .ok (.int 0) m
    else .ub
  | _, _ => .ub

def sysDladdr : List V → M St → R St V
  | [.ptr p, .loc d x], m =>
    let a := L.dladdr m.g.clock p
    let m := { m with g := { m.g with clock := m.g.clock + 1 } }
    match a with
    | none => .ok (.int 0) m
    | some f => (storeVar d (fieldOf x (str% "dli_fname")) (.str f) m).bind fun _ m => .ok (.int 1) m
  | _, _ => .ub

def sysProcmap : List V → M St → R St V
  | [.lmap a _, .buf b, .int n], m =>
    if b = str% "libpath" ∧ n = bufLen then
      match L.procmap m.g.clock a with
      | some p => .ok (.int 1) { m with g := { m.g with libpath := fit p, log := m.g.log ++ [.path (fit p)] } }
      | none => .ok (.int 0) m
    else .ub
  | _, _ => .ub

/-- Functions of the C library. -/
def sysAtexit : List V → M St → R St V
  | [.fn f], m =>
    if f = str% "gdo_force_free_lib" then
      let ok := L.atexit m.g.clock
      let g := { m.g with clock := m.g.clock + 1 }
      if ok then .ok (.int 0) { m with g := { g with handlers := g.handlers + 1 } } else .ok (.int 1) { m with g := g }
    else .ub
  | _, _ => .ub

def sysExit : List V → M St → R St V
  | [.int n], m => .exit n m
  | _, _ => .ub

def sysAbort : List V → M St → R St V
  | [], m => .abort m
  | _, _ => .ub

def sysStrlen : List V → M St → R St V
  | [a], m => .of m ((text m.g a).map fun s => .int s.length)
  | _, _ => .ub

def sysStrcmp : List V → M St → R St V
  | [a, b], m => .of m ((text m.g a).bind fun s => (text m.g b).map fun t => .int (if s = t then 0 else 1))
  | _, _ => .ub

def sysStrncmp : List V → M St → R St V
  | [a, b, .int (.ofNat n)], m =>
    .of m ((text m.g a).bind fun s => (text m.g b).map fun t => .int (if s.take n = t.take n then 0 else 1))
  | _, _ => .ub

def sysStrstr : List V → M St → R St V
  | [a, b], m => .of m ((text m.g a).bind fun s => (text m.g b).map fun t => .ofStr (search t s))
  | _, _ => .ub

def sysMemcpy : List V → M St → R St V
  | [.buf b, .str s, .int n], m =>
    if b = str% "libpath" ∧ n = s.length + 1 ∧ n ≤ bufLen then
      .ok (.buf b) { m with g := { m.g with libpath := s, log := m.g.log ++ [.path s] } }
    else .ub
  | _, _ => .ub

/-- `GDO_SNPRINTF` (c.c 77-78); the arguments must not overlap with the destination. -/
def sysSnprintf : List V → M St → R St V
  | .buf b :: .str f :: as, m =>
    if rtBuf b ∧ .buf b ∉ as then
      match format (text m.g) f as with
      | some t => .ok (.int t.length) { m with g := rtSetBuf b (t.take (bufLen - 1)) m.g }
      | none => .ub
    else .ub
  | _, _ => .ub

def sysFprintf : List V → M St → R St V
  | .obj o :: .str f :: as, m =>
    if o = str% "stderr" then
      match format (text m.g) f as with
      | some t => .ok (.int t.length) { m with g := { m.g with stderr := m.g.stderr ++ t } }
      | none => .ub
    else .ub
  | _, _ => .ub

def sysFputc : List V → M St → R St V
  | [.chr c, .obj o], m => if o = str% "stderr" then .ok (.chr c) { m with g := { m.g with stderr := m.g.stderr ++ [c] } } else .ub
  | _, _ => .ub

/-- `_T` (c.h 9). -/
def sysT : List V → M St → R St V
  | [v], m => .ok v m
  | _, _ => .ub

def sysTable : List (Str × (List V → M St → R St V)) :=
  [(str% "_T", sysT),
   (str% "dlerror", sysDlerror),
   (str% "dlopen", sysDlopen L),
   (str% "dlmopen", sysDlmopen L),
   (str% "dlsym", sysDlsym L),
   (str% "dlclose", sysDlclose L),
   (str% "dlinfo", sysDlinfo L),
   (str% "dladdr", sysDladdr L),
   (str% "_gdo_fullpath_procmap", sysProcmap L),
   (str% "atexit", sysAtexit L),
   (str% "exit", sysExit),
   (str% "abort", sysAbort),
   (str% "strlen", sysStrlen text),
   (str% "strcmp", sysStrcmp text),
   (str% "strncmp", sysStrncmp text),
   (str% "strstr", sysStrstr text),
   (str% "memcpy", sysMemcpy),
   (str% "GDO_SNPRINTF", sysSnprintf text),
   (str% "fprintf", sysFprintf text),
   (str% "fputc", sysFputc)]

end

/-- The string that a pointer points to. -/
def rtText (s : St) : V → Option Str
  | .str t => some t
  | .buf b => if rtBuf b then some (rtGetBuf b s) else none
  | _ => none

/-- The system, for a prefix, a loader and a configuration. -/
def rtSem (upper lower : Str) (L : Loader) (C : Cfg) : Sem St where
  lit := renamed upper lower
  const := rtConst C
  glued := rtGlued C
  ignored w := w = str% "GDO_SET_LAST_ERRNO" || w = str% "GDO_UNUSED_REF"
  fields ty := if ty = [.word (.fixed (str% "Dl_info"))] then [str% "dli_fname"] else []
  data := str% "gdo_hndl"
  isBuf := rtBuf
  getBuf := rtGetBuf
  setBuf := rtSetBuf
  get := rtGet
  set := rtSet
  getSym i s := .ofPtr (s.ptr i)
  setSym := rtSetSym
  system f := (sysTable L rtText).lookup f

end Gdo.Cc
