import Verif.Model.CSystem
import Verif.Model.Minimal

/-!
Model of what the code of `src/templates/minimal.h` is executed with when it is compiled
for dlfcn, AIX or Windows: the structure `gdo_hndl` (minimal.h 18-32), the macro `_GDO_LOAD_SYM` and the
dynamic loader.  Simplifications: as in `Verif/Model/CSystem.lean`.
-/

namespace Gdo.Cc
open Gdo Tmpl Rt

/-- The handle in `gdo_hndl` (minimal.h 20-24). -/
def minGet (f : Str) (s : Min.St) : Option V := if f = str% "handle" then some (.ofPtr s.handle) else none

def minSet (f : Str) (v : V) (s : Min.St) : Option Min.St :=
  if f = str% "handle" then
    match v with
    | .null => some { s with handle := none }
    | .ptr p => some { s with handle := some p }
    | _ => none
  else none

/-- The pointers of the symbols (minimal.h 26-28). -/
def minSetSym (i : Nat) (v : V) (s : Min.St) : Option Min.St :=
  match v with
  | .null => some { s with ptr := fun j => if j = i then none else s.ptr j }
  | .ptr p => some { s with ptr := fun j => if j = i then some p else s.ptr j }
  | _ => none

def minConst (os : Min.Os) (w : Str) : Option V :=
  if w = str% "NULL" then some .null
  else match os with
    | .dlfcn _ => if w = str% "RTLD_LAZY" then some (.int Min.rtldLazy) else none
    | .aix _ => if w = str% "RTLD_LAZY" then some (.int 4) else if w = str% "RTLD_MEMBER" then some (.int 0x40000) else none
    | .windows _ => none

/-- `GDO_PTR_...` (minimal.h 27-28). -/
def minGlued (syms : List Str) (p v : Str) : Option Lv :=
  if v ∈ syms ∧ p = str% "GDO_PTR_" then some (.sym (syms.idxOf v)) else none

def minDlopen (L : Loader) : List V → M Min.St → R Min.St V
  | [.str name, .int flags], m =>
    let a := L.dlopen m.g.clock name flags false
    .ok (.ofPtr a.1) { m with g := { m.g with
      clock := m.g.clock + 1
      log := match a.1 with
        | some h => m.g.log ++ [.opened h]
        | none => m.g.log } }
  | _, _ => .ub

/-- `LoadLibraryA`: `LoadLibraryEx` without flags. -/
def minLoadLibrary (W : Win.Loader) : List V → M Min.St → R Min.St V
  | [.str name], m =>
    let a := W.load m.g.clock name 0
    .ok (.ofPtr a.1) { m with g := { m.g with
      clock := m.g.clock + 1
      log := match a.1 with
        | some h => m.g.log ++ [.opened h]
        | none => m.g.log } }
  | _, _ => .ub

/-- The address of a symbol: `dlsym`, `GetProcAddress`. -/
def minAddress : Min.Os → Nat → Ptr → Str → Option Ptr
  | .dlfcn L, t, h, n => (L.dlsym t h n).1
  | .aix L, t, h, n => (L.dlsym t h n).1
  | .windows W, t, h, n => (W.sym t h n).1

/-- `_GDO_LOAD_SYM` (minimal.h 85-89): `dlsym` or `GetProcAddress` with the handle in
    `gdo_hndl`. -/
def minLoadSym (os : Min.Os) : List V → M Min.St → R Min.St V
  | [.str name], m =>
    match m.g.handle with
    | some h =>
      let a := minAddress os m.g.clock h name
      .ok (.ofPtr a) { m with g := { m.g with clock := m.g.clock + 1, log := m.g.log ++ [.sym h name a] } }
    | none => .ub
  | _, _ => .ub

def minDlclose (L : Loader) : List V → M Min.St → R Min.St V
  | [.ptr h], m =>
    let a := L.dlclose m.g.clock h
    .ok (.int (if a.1 then 0 else -1)) { m with g := { m.g with clock := m.g.clock + 1, log := m.g.log ++ [.closed h a.1 true] } }
  | _, _ => .ub

/-- `FreeLibrary`. -/
def minFreeLibrary (W : Win.Loader) : List V → M Min.St → R Min.St V
  | [.ptr h], m =>
    let a := W.free m.g.clock h
    .ok (.ofBool a.1) { m with g := { m.g with clock := m.g.clock + 1, log := m.g.log ++ [.closed h a.1 true] } }
  | _, _ => .ub

def minTable (os : Min.Os) : List (Str × (List V → M Min.St → R Min.St V)) :=
  (str% "_GDO_LOAD_SYM", minLoadSym os) ::
    match os with
    | .dlfcn L => [(str% "dlopen", minDlopen L), (str% "dlclose", minDlclose L)]
    | .aix L => [(str% "dlopen", minDlopen L), (str% "dlclose", minDlclose L)]
    | .windows W => [(str% "LoadLibraryA", minLoadLibrary W), (str% "FreeLibrary", minFreeLibrary W)]

/-- The system, for a prefix, a system and symbols. -/
def minSem (upper lower : Str) (os : Min.Os) (syms : List Str) : Sem Min.St where
  lit := renamed upper lower
  const := minConst os
  glued := minGlued syms
  ignored _ := false
  fields _ := []
  data := str% "gdo_hndl"
  isBuf _ := false
  getBuf _ _ := []
  setBuf _ _ s := s
  get := minGet
  set := minSet
  getSym i s := .ofPtr (s.ptr i)
  setSym := minSetSym
  system f := (minTable os).lookup f

end Gdo.Cc
