import Verif.Model.Runtime

/-!
Model of several threads that call wrapper functions of the generated C code with
automatic loading: `_gdo_wrap_check_loaded` (c.c 907-967) and the functions it calls,
one access of `gdo_hndl`, a symbol pointer or the dynamic loader per step.

Simplifications: as in `Verif/Model/Runtime.lean`, except that there are several threads.
The steps of the threads are interleaved in any order and take effect at once
(sequential consistency; the C standard gives such programs no meaning at all).  The
error buffer, the library path and the message shown are left out.  The process ends with
the call of `exit` or `abort`.
-/

namespace Gdo.Thr
open Gdo Rt

/-- What a call of the dynamic loader answered. -/
inductive Ev where
  | opened (r : Option Ptr)
  | sym (h : Option Ptr) (name : Str) (r : Option Ptr)
  | closed (h : Ptr)
  deriving DecidableEq, Repr

/-- A call of a wrapped function: the thread, the number of the symbol, the address. -/
structure Called where
  thread : Nat
  sym : Nat
  addr : Option Ptr
  deriving DecidableEq, Repr

/-- What the threads share. -/
structure Sh where
  handle : Option Ptr := none
  ptr : Nat → Option Ptr := fun _ => none
  freeLibReg : Bool := false
  clock : Nat := 0
  log : List Ev := []
  handlers : Nat := 0
  calls : List Called := []
  /-- the process has ended -/
  ended : Bool := false

/-- Where a thread is in the wrapper function. -/
inductive PC where
  /-- before the pointer is read (c.h 231-232, c.c 912) -/
  | check
  /-- before `free_lib_reg` is read (c.c 390) -/
  | reg
  /-- before `atexit` is called (c.c 391) -/
  | atexit
  /-- before `free_lib_reg` is set (c.c 392) -/
  | regSet
  /-- before the handle is read in `_gdo_wrap_check_loaded` (c.c 921) -/
  | isLoaded
  /-- before the handle is read in `gdo_load_lib_args` (c.c 215) -/
  | isLoadedArgs
  /-- before `dlopen` is called (c.c 267) -/
  | dlopen
  /-- before the handle is set (c.c 267) -/
  | setHandle (r : Option Ptr)
  /-- before pointer `k` is read in `gdo_all_symbols_loaded` (c.c 407-416) -/
  | all (k : Nat)
  /-- before the handle is read in `gdo_load_symbol` or `gdo_load_all_symbols` (c.c 466,
      504) -/
  | isLoadedSym
  /-- before the pointer is read in `gdo_load_symbol` (c.c 513) -/
  | lazyRead
  /-- before `dlsym` is called for symbol `k` (c.c 476, 485, 516) -/
  | dlsym (k : Nat)
  /-- before the pointer of symbol `k` is set (c.c 474, 514) -/
  | setPtr (k : Nat) (r : Option Ptr)
  /-- before the pointer is read again in `gdo_load_symbol` (c.c 518) -/
  | lazyCheck
  /-- before the handle is read and `dlclose` called in `gdo_force_free_lib` (c.c 369-370) -/
  | close
  /-- before the handle is set to NULL in `gdo_force_free_lib` (c.c 376) -/
  | nullHandle
  /-- before pointer `k` is set to NULL in `gdo_force_free_lib` (c.c 377) -/
  | nullPtr (k : Nat)
  /-- before `exit` or `abort` is called (c.c 949, 964) -/
  | die
  /-- before the pointer is read and called (c.h 267) -/
  | call
  deriving DecidableEq, Repr

/-- A thread: the symbols it is going to call, and where it is in the first call. -/
structure Thread where
  todo : List Nat
  pc : PC := .check

/-- The process.  A thread that does not exist has nothing to do. -/
structure Sys where
  sh : Sh := {}
  thr : Nat → Thread

/-- The dynamic loader; `dlsym` may also be called with NULL. -/
structure Loader extends Rt.Loader where
  dlsymNull : Nat → Str → Option Ptr

/-- `dlsym`. -/
def Loader.sym (L : Loader) (t : Nat) (h : Option Ptr) (name : Str) : Option Ptr :=
  match h with
  | some h => (L.dlsym t h name).1
  | none => L.dlsymNull t name

/-- The first step of loading symbols. -/
def loadPC (C : Cfg) : PC := if C.mode = .lazy then .isLoadedSym else .all 0

/-- One step of a thread that is in the wrapper function of symbol `i`, except the call. -/
def step (L : Loader) (C : Cfg) (i : Nat) (s : Sh) : PC → Sh × PC
  | .check => (s, if (s.ptr i).isSome then .call else if C.mode = .wrap then .die else .reg)
  | .reg => (s, if s.freeLibReg then .isLoaded else .atexit)
  | .atexit =>
    if L.atexit s.clock then ({ s with clock := s.clock + 1, handlers := s.handlers + 1 }, .regSet)
    else ({ s with clock := s.clock + 1 }, .isLoaded)
  | .regSet => ({ s with freeLibReg := true }, .isLoaded)
  | .isLoaded => (s, if s.handle.isSome then loadPC C else .isLoadedArgs)
  | .isLoadedArgs => (s, if s.handle.isSome ∨ C.lib = [] then loadPC C else .dlopen)
  | .dlopen =>
    let r := (L.dlopen s.clock C.lib C.flags false).1
    ({ s with clock := s.clock + 1, log := s.log ++ [.opened r] }, .setHandle r)
  | .setHandle r => ({ s with handle := r }, loadPC C)
  | .all k => (s, if k < C.syms.length then (if (s.ptr k).isSome then .all (k + 1) else .isLoadedSym) else .call)
  | .isLoadedSym => (s, if s.handle.isSome then (if C.mode = .lazy then .lazyRead else .dlsym 0) else .close)
  | .lazyRead => (s, if (s.ptr i).isSome then .lazyCheck else .dlsym i)
  | .dlsym k =>
    match C.syms[k]? with
    | some name =>
      let r := L.sym s.clock s.handle name
      ({ s with clock := s.clock + 1, log := s.log ++ [.sym s.handle name r] }, .setPtr k r)
    | none => (s, .call)
  | .setPtr k r =>
    ({ s with ptr := fun j => if j = k then r else s.ptr j },
      if C.mode = .lazy then .lazyCheck else if r.isSome then .dlsym (k + 1) else .close)
  | .lazyCheck => (s, if (s.ptr i).isSome then .call else .close)
  | .close =>
    match s.handle with
    | some h => ({ s with clock := s.clock + 1, log := s.log ++ [.closed h] }, .nullHandle)
    | none => (s, .nullHandle)
  | .nullHandle => ({ s with handle := none }, .nullPtr 0)
  | .nullPtr k =>
    if k < C.syms.length then ({ s with ptr := fun j => if j = k then none else s.ptr j }, .nullPtr (k + 1)) else (s, .die)
  | .die => ({ s with ended := true }, .die)
  | .call => (s, .call)

/-- One step of thread `t`. -/
def Sys.step (L : Loader) (C : Cfg) (t : Nat) (y : Sys) : Sys :=
  if y.sh.ended then y
  else match (y.thr t).todo with
    | [] => y
    | i :: r =>
      if (y.thr t).pc = .call then
        { sh := { y.sh with calls := y.sh.calls ++ [⟨t, i, y.sh.ptr i⟩] }
          thr := fun u => if u = t then { todo := r } else y.thr u }
      else
        let a := Thr.step L C i y.sh (y.thr t).pc
        { sh := a.1, thr := fun u => if u = t then { todo := i :: r, pc := a.2 } else y.thr u }

/-- A schedule: the thread that makes the next step. -/
def run (L : Loader) (C : Cfg) : List Nat → Sys → Sys
  | [], y => y
  | t :: r, y => run L C r (y.step L C t)

/-- The start: the threads have the given calls before them. -/
def start (todo : Nat → List Nat) : Sys := { thr := fun t => { todo := todo t } }

end Gdo.Thr
