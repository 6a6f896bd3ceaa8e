import Verif.Model.CSystem
import Verif.Model.Plugin

/-!
Model of what the code of `src/templates/plugin.c` is executed with when it is compiled for
dlfcn or Windows: the structures of `src/templates/plugin.h`, the macros of `plugin.c`, the dynamic
loader and the allocator.

Simplifications: as in `Verif/Model/CSystem.lean`; moreover

* memory of `malloc` is used as a `gdo_plugin_t`, memory of `calloc` as an array of
  `gdo_handle_t`, and the sizes asked for must be the sizes of these types; nothing else
  is done in the code;
* a copy of a C string is not written to, so the text is kept with its address; that it is
  not used behind `free` is not checked, only that `free` is called.
-/

namespace Gdo.Cc
open Gdo Tmpl Rt

/-- An object in memory: a `gdo_plugin_t` (plugin.h 40-45), whose members have no value at
    first, or an array of `gdo_handle_t` (plugin.h 23-34). -/
inductive PObj
  | plug (num : Option Int) (list : Option (Option Ptr))
  | entries (l : List Plug.Entry)

/-- The process and its memory. -/
structure PSt where
  st : Plug.St
  heap : Ptr → Option PObj

/-- Memory with something else at an address. -/
def upd (h : Ptr → Option PObj) (p : Ptr) (o : Option PObj) : Ptr → Option PObj := fun q => if q = p then o else h q

/-- A file name. -/
def V.ofCopy : Option (Ptr × Str) → V
  | some (a, s) => .copy a s
  | none => .null

def plugGetIn (p : Nat) (path : List Step) (s : PSt) : Option V :=
  match s.heap p, path with
  | some (.plug n l), [.field f] =>
    if f = str% "num" then n.map .int
    else if f = str% "list" then l.map .ofPtr
    else none
  | some (.entries es), [.index i, .field f] =>
    (es[i]?).bind fun e =>
      if f = str% "filename" then some (.ofCopy e.filename)
      else if f = str% "handle" then some (.ofPtr e.handle)
      else none
  | some (.entries es), [.index i, .field f, .symbol k] => (es[i]?).bind fun e => if f = str% "ptr" then some (.ofPtr (e.ptr k)) else none
  | _, _ => none

/-- A pointer or null. -/
def V.toPtr : V → Option (Option Ptr)
  | .ptr p => some (some p)
  | .null => some none
  | _ => none

def V.toCopy : V → Option (Option (Ptr × Str))
  | .copy a s => some (some (a, s))
  | .null => some none
  | _ => none

def plugSetIn (p : Nat) (path : List Step) (v : V) (s : PSt) : Option PSt :=
  match s.heap p, path with
  | some (.plug n l), [.field f] =>
    if f = str% "num" then
      match v with
      | .int k => some { s with heap := upd s.heap p (some (.plug (some k) l)) }
      | _ => none
    else if f = str% "list" then v.toPtr.map fun q => { s with heap := upd s.heap p (some (.plug n (some q))) }
    else none
  | some (.entries es), [.index i, .field f] =>
    (es[i]?).bind fun e =>
      if f = str% "filename" then v.toCopy.map fun q => { s with heap := upd s.heap p (some (.entries (es.set i { e with filename := q }))) }
      else if f = str% "handle" then v.toPtr.map fun q => { s with heap := upd s.heap p (some (.entries (es.set i { e with handle := q }))) }
      else none
  | some (.entries es), [.index i, .field f, .symbol k] =>
    (es[i]?).bind fun e =>
      if f = str% "ptr" then
        v.toPtr.map fun q => { s with heap := upd s.heap p (some (.entries (es.set i { e with ptr := fun j => if j = k then q else e.ptr j }))) }
      else none
  | _, _ => none

/-- The members for the symbols (plugin.h 30-31). -/
def plugGlued (syms : List Str) (p v : Str) : Option Lv := if v ∈ syms ∧ p = [] then some (.sym (syms.idxOf v)) else none

section
variable (C : Plug.Cfg) (sizePlugin sizeHandle : Nat)

def plugMalloc : List V → M PSt → R PSt V
  | [.int (.ofNat n)], m =>
    if n = sizePlugin then
      match Plug.alloc C m.g.st with
      | (some a, s) => .ok (.ptr a) { m with g := ⟨s, upd m.g.heap a (some (.plug none none))⟩ }
      | (none, s) => .ok .null { m with g := ⟨s, m.g.heap⟩ }
    else .ub
  | _, _ => .ub

def plugCalloc : List V → M PSt → R PSt V
  | [.int (.ofNat k), .int (.ofNat n)], m =>
    if n = sizeHandle then
      match Plug.alloc C m.g.st with
      | (some a, s) => .ok (.ptr a) { m with g := ⟨s, upd m.g.heap a (some (.entries (List.replicate k {})))⟩ }
      | (none, s) => .ok .null { m with g := ⟨s, m.g.heap⟩ }
    else .ub
  | _, _ => .ub

/-- `GDO_STRDUP` (plugin.c 20, 23). -/
def plugStrdup : List V → M PSt → R PSt V
  | [.str n], m => .ok (.ofCopy (Plug.dup C n m.g.st).1) { m with g := ⟨(Plug.dup C n m.g.st).2, m.g.heap⟩ }
  | _, _ => .ub

/-- `free`; an object is gone then. -/
def plugFree : List V → M PSt → R PSt V
  | [.null], m => .ok .void m
  | [.copy a _], m => .ok .void { m with g := ⟨Plug.free (some a) m.g.st, m.g.heap⟩ }
  | [.ptr a], m =>
    match m.g.heap a with
    | some _ => .ok .void { m with g := ⟨Plug.free (some a) m.g.st, upd m.g.heap a none⟩ }
    | none => .ub
  | _, _ => .ub

/-- `GDO_LOAD_LIB` for dlfcn (plugin.c 22). -/
def plugDlopen (L : Loader) : List V → M PSt → R PSt V
  | [.str n], m =>
    let a := (L.dlopen m.g.st.clock n C.flags false).1
    .ok (.ofPtr a) { m with g := ⟨{ m.g.st with
      clock := m.g.st.clock + 1
      log := match a with
        | some h => m.g.st.log ++ [.opened h]
        | none => m.g.st.log }, m.g.heap⟩ }
  | _, _ => .ub

/-- `GDO_LOAD_LIB` for Windows (plugin.c 19). -/
def plugLoadLibrary (W : Win.Loader) : List V → M PSt → R PSt V
  | [.str n], m =>
    let a := (W.load m.g.st.clock n C.flags).1
    .ok (.ofPtr a) { m with g := ⟨{ m.g.st with
      clock := m.g.st.clock + 1
      log := match a with
        | some h => m.g.st.log ++ [.opened h]
        | none => m.g.st.log }, m.g.heap⟩ }
  | _, _ => .ub

/-- `GDO_LOAD_LIB`. -/
def plugLoadLib : Plug.Os → List V → M PSt → R PSt V
  | .dlfcn L => plugDlopen C L
  | .windows W => plugLoadLibrary C W

def plugDlsym (L : Loader) : List V → M PSt → R PSt V
  | [.ptr h, .str name], m =>
    let a := (L.dlsym m.g.st.clock h name).1
    .ok (.ofPtr a) { m with g := ⟨{ m.g.st with clock := m.g.st.clock + 1, log := m.g.st.log ++ [.sym h name a] }, m.g.heap⟩ }
  | _, _ => .ub

/-- `GetProcAddress`. -/
def plugGetProcAddress (W : Win.Loader) : List V → M PSt → R PSt V
  | [.ptr h, .str name], m =>
    let a := (W.sym m.g.st.clock h name).1
    .ok (.ofPtr a) { m with g := ⟨{ m.g.st with clock := m.g.st.clock + 1, log := m.g.st.log ++ [.sym h name a] }, m.g.heap⟩ }
  | _, _ => .ub

def plugDlclose (L : Loader) : List V → M PSt → R PSt V
  | [.ptr h], m =>
    let a := (L.dlclose m.g.st.clock h).1
    .ok (.int (if a then 0 else -1)) { m with g := ⟨{ m.g.st with clock := m.g.st.clock + 1, log := m.g.st.log ++ [.closed h a true] }, m.g.heap⟩ }
  | _, _ => .ub

/-- `FreeLibrary`. -/
def plugFreeLibrary (W : Win.Loader) : List V → M PSt → R PSt V
  | [.ptr h], m =>
    let a := (W.free m.g.st.clock h).1
    .ok (.ofBool a) { m with g := ⟨{ m.g.st with clock := m.g.st.clock + 1, log := m.g.st.log ++ [.closed h a true] }, m.g.heap⟩ }
  | _, _ => .ub

def plugTable (os : Plug.Os) : List (Str × (List V → M PSt → R PSt V)) :=
  (str% "malloc", plugMalloc C sizePlugin) ::
  (str% "calloc", plugCalloc C sizeHandle) ::
  (str% "GDO_STRDUP", plugStrdup C) ::
  (str% "GDO_LOAD_LIB", plugLoadLib C os) ::
  (str% "free", plugFree) ::
    match os with
    | .dlfcn L => [(str% "dlsym", plugDlsym L), (str% "dlclose", plugDlclose L)]
    | .windows W => [(str% "GetProcAddress", plugGetProcAddress W), (str% "FreeLibrary", plugFreeLibrary W)]

end

/-- The sizes of the two structures. -/
def plugSize (sizePlugin sizeHandle : Nat) (ty : List STok) : Option Nat :=
  if ty = [.word (.fixed (str% "gdo_plugin_t"))] then some sizePlugin
  else if ty = [.word (.fixed (str% "gdo_handle_t"))] then some sizeHandle
  else none

/-- The system, for a prefix, a system, settings and sizes. -/
def plugSem (upper lower : Str) (os : Plug.Os) (C : Plug.Cfg) (sizePlugin sizeHandle : Nat) : Sem PSt where
  lit := renamed upper lower
  const w := if w = str% "NULL" then some .null else if w = str% "TRUE" then (if os.isWin then some (.int 1) else none) else none
  glued := plugGlued C.syms
  ignored _ := false
  fields _ := []
  data := []
  isBuf _ := false
  getBuf _ _ := []
  setBuf _ _ s := s
  get _ _ := none
  set _ _ _ := none
  getSym _ _ := .null
  setSym _ _ _ := none
  getIn := plugGetIn
  setIn := plugSetIn
  size := plugSize sizePlugin sizeHandle
  system f := (plugTable C sizePlugin sizeHandle os).lookup f

end Gdo.Cc
