import Verif.Model.CSystemMin

/-!
Model of what the code of `src/templates/minimal_cxxeh.hpp` is executed with when it is
compiled for dlfcn, AIX or Windows: the variables of the namespace (minimal_cxxeh.hpp 39-40,
47-49) and the dynamic loader.  Simplifications: as in `Verif/Model/CSystem.lean`.
-/

namespace Gdo.Cc
open Gdo Tmpl Rt

def cxxehConst (os : Min.Os) (w : Str) : Option V := if w = str% "nullptr" then some .null else minConst os w

/-- `dlsym`, `GetProcAddress`. -/
def cxxehSym (os : Min.Os) : List V → M Min.St → R Min.St V
  | [.ptr h, .str name], m =>
    let a := minAddress os m.g.clock h name
    .ok (.ofPtr a) { m with g := { m.g with clock := m.g.clock + 1, log := m.g.log ++ [.sym h name a] } }
  | _, _ => .ub

def cxxehTable (os : Min.Os) : List (Str × (List V → M Min.St → R Min.St V)) :=
  match os with
  | .dlfcn L => [(str% "dlopen", minDlopen L), (str% "dlsym", cxxehSym os), (str% "dlclose", minDlclose L)]
  | .aix L => [(str% "dlopen", minDlopen L), (str% "dlsym", cxxehSym os), (str% "dlclose", minDlclose L)]
  | .windows W => [(str% "LoadLibraryA", minLoadLibrary W), (str% "GetProcAddress", cxxehSym os), (str% "FreeLibrary", minFreeLibrary W)]

/-- The system, for a prefix, a system and symbols. -/
def cxxehSem (upper lower : Str) (os : Min.Os) (syms : List Str) : Sem Min.St where
  lit := renamed upper lower
  const := cxxehConst os
  glued := minGlued syms
  ignored _ := false
  fields _ := []
  data := []
  isBuf _ := false
  getBuf _ _ := []
  setBuf _ _ s := s
  get := minGet
  set := minSet
  getSym i s := .ofPtr (s.ptr i)
  setSym := minSetSym
  global w := w = str% "handle"
  system f := (cxxehTable os).lookup f

end Gdo.Cc
