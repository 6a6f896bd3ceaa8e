import Verif.Model.Win

/-!
Model of the plug-in loader `src/templates/plugin.c` (with `src/templates/plugin.h`),
as compiled for dlfcn; how the code compiled for Windows is obtained from it is said at
`Os`.

Simplifications: as in `Verif/Model/Runtime.lean`.  The allocator is a parameter that
answers by the number of calls made before; it returns an address or NULL.  An access
through NULL has no defined behaviour (`none`).
-/

namespace Gdo.Plug
open Gdo Rt

/-- A call of the allocator. -/
inductive Mem where
  | got (a : Ptr)
  | released (a : Ptr)
  deriving DecidableEq, Repr

/-- The process: number of calls so far, calls of the loader, calls of the allocator. -/
structure St where
  clock : Nat := 0
  log : List Ev := []
  mem : List Mem := []

/-- `gdo_handle_t` (plugin.h 23-34).  A file name is kept with its address. -/
structure Entry where
  filename : Option (Ptr × Str) := none
  handle : Option Ptr := none
  ptr : Nat → Option Ptr := fun _ => none

/-- `gdo_plugin_t` (plugin.h 40-45): the addresses of the structure and of the list,
    and the entries. -/
structure Plugin where
  addr : Ptr
  list : Option Ptr
  entries : List Entry

/-- The settings: names of the symbols, `GDO_DEFAULT_FLAGS`, the allocator. -/
structure Cfg where
  syms : List Str
  flags : Int
  alloc : Nat → Option Ptr

/-- The systems the code can be compiled for (plugin.c 18-24, common.c 5-9, 15-19). -/
inductive Os where
  | dlfcn (L : Loader)
  /-- `GDO_WINAPI` is defined -/
  | windows (W : Win.Loader)

/-- The calls of the functions of Windows, as if they were those of dlfcn: `LoadLibraryEx`,
    `GetProcAddress` and `FreeLibrary` (plugin.c 19, common.c 6, 16). -/
def Os.loader : Os → Loader
  | .dlfcn L => L
  | .windows W => {
      dlopen := fun t n k _ => ((W.load t n k).1, none)
      dlsym := fun t h n => ((W.sym t h n).1, none)
      dlclose := fun t h => ((W.free t h).1, none)
      dlinfo := fun _ _ => (none, none)
      dladdr := fun _ _ => none
      procmap := fun _ _ => none
      atexit := W.atexit }

/-- Whether `GDO_WINAPI` is defined. -/
def Os.isWin : Os → Bool
  | .dlfcn _ => false
  | .windows _ => true

/-- `malloc`, `calloc` and `strdup`. -/
def alloc (C : Cfg) (s : St) : Option Ptr × St :=
  match C.alloc s.clock with
  | some a => (some a, { s with clock := s.clock + 1, mem := s.mem ++ [.got a] })
  | none => (none, { s with clock := s.clock + 1 })

/-- `free`. -/
def free (a : Option Ptr) (s : St) : St :=
  match a with
  | some a => { s with mem := s.mem ++ [.released a] }
  | none => s

/-- `GDO_STRDUP` (plugin.c 46). -/
def dup (C : Cfg) (n : Str) (s : St) : Option (Ptr × Str) × St :=
  let r := alloc C s
  (r.1.map fun a => (a, n), r.2)

/-- `GDO_LOAD_LIB` (plugin.c 22, 49). -/
def openLib (L : Loader) (C : Cfg) (n : Str) (s : St) : Option Ptr × St :=
  let a := (L.dlopen s.clock n C.flags false).1
  (a, { s with
    clock := s.clock + 1
    log := match a with
      | some h => s.log ++ [.opened h]
      | none => s.log })

/-- The repeated lines (plugin.c 53-56), from symbol `i` on. -/
def loadSyms (L : Loader) (h : Ptr) : Nat → List Str → (Nat → Option Ptr) → St → (Nat → Option Ptr) × St
  | _, [], p, s => (p, s)
  | i, name :: r, p, s =>
    let a := (L.dlsym s.clock h name).1
    loadSyms L h (i + 1) r (fun j => if j = i then a else p j) { s with clock := s.clock + 1, log := s.log ++ [.sym h name a] }

/-- The body of the loop with a file name (plugin.c 45-56). -/
def loadEntry (L : Loader) (C : Cfg) (n : Str) (s : St) : Entry × St :=
  let d := dup C n s
  let o := openLib L C n d.2
  match o.1 with
  | none => ({ filename := d.1 }, o.2)
  | some h =>
    let r := loadSyms L h 0 C.syms (fun _ => none) o.2
    ({ filename := d.1, handle := some h, ptr := r.1 }, r.2)

/-- The loop (plugin.c 39-57); `list` is the address of the list. -/
def loadLoop (L : Loader) (C : Cfg) (list : Option Ptr) : List (Option Str) → St → Ub (List Entry × St)
  | [], s => some ([], s)
  | f :: r, s =>
    match f, list with
    | none, _ => (loadLoop L C list r s).map fun x => ({} :: x.1, x.2)
    | some [], _ => (loadLoop L C list r s).map fun x => ({} :: x.1, x.2)
    | some (_ :: _), none => none
    | some (c :: n), some _ =>
      let e := loadEntry L C (c :: n) s
      (loadLoop L C list r e.2).map fun x => (e.1 :: x.1, x.2)

/-- `gdo_load_plugins` (plugin.c 28-60). -/
def load (L : Loader) (C : Cfg) (files : Option (List (Option Str))) (s : St) : Ub (Option Plugin × St) :=
  match files with
  | none => some (none, s)
  | some [] => some (none, s)
  | some fs =>
    let m := alloc C s
    match m.1 with
    | none => none
    | some a =>
      let c := alloc C m.2
      (loadLoop L C c.1 fs c.2).map fun x => (some { addr := a, list := c.1, entries := x.1 }, x.2)

/-- `_gdo_call_dlclose` (plugin.c 73-75, common.c 13-20). -/
def close (L : Loader) (h : Option Ptr) (s : St) : St :=
  match h with
  | some h => { s with clock := s.clock + 1, log := s.log ++ [.closed h (L.dlclose s.clock h).1 true] }
  | none => s

/-- The loop (plugin.c 70-76). -/
def releaseLoop (L : Loader) : List Entry → St → St
  | [], s => s
  | e :: r, s => releaseLoop L r (close L e.handle (free (e.filename.map Prod.fst) s))

/-- `gdo_release_plugins` (plugin.c 64-80). -/
def release (L : Loader) (p : Option Plugin) (s : St) : Ub St :=
  match p with
  | none => some s
  | some p =>
    match p.entries, p.list with
    | _ :: _, none => none
    | es, l => some (free (some p.addr) (free l (releaseLoop L es s)))

end Gdo.Plug
