import Verif.Model.CSystemWin
import Verif.Lemmas.CCallName
import Verif.Lemmas.CCallWrap

/-!
Lemmas: what the functions of the generated C code do when it is compiled for Windows, one
after the other.  Each of them is executed with the results of the functions it calls.
-/

set_option maxRecDepth 10000

namespace Gdo.Cc.W
open Gdo Tmpl Win Rename
open Gdo.Rt (Ptr Ev)

/-- A result of a function that returns a truth value. -/
def okB (r : Bool × St) (hp : List Block) (fr : List Frame) : R World V := .ok (.ofBool r.1) ⟨⟨r.2, hp⟩, fr⟩

/-- A result of a function that returns nothing. -/
def ok0 (s : St) (hp : List Block) (fr : List Frame) : R World V := .ok .void ⟨⟨s, hp⟩, fr⟩

/-- A result of a function that returns a pointer. -/
def okP (r : Option Ptr × St) (hp : List Block) (fr : List Frame) : R World V := .ok (.ofPtr r.1) ⟨⟨r.2, hp⟩, fr⟩

/-- What a function does, for the arguments it is called with: its name, how many calls
    are made inside of each other, and the result. -/
structure Entry where
  name : Str
  rank : Nat
  run : List V → M World → Option (R World V)

/-- A constant string, or one in memory given by the system. -/
def nameOf (hp : List Block) : V → Option Str
  | .str t => some t
  | .mem p 0 _ => (block p hp).bind (·.text)
  | _ => none

/-- The result of `_gdo_mbstowcs`. -/
def widened (L : Loader) (t : Str) (m : M World) : R World V :=
  match L.widen m.g.s.clock t with
  | some (d :: w) => .ok (.ptr (fresh m.g.heap)) ⟨⟨{ m.g.s with clock := m.g.s.clock + 1 },
      ⟨fresh m.g.heap, some (d :: w), ((d :: w).length + 1) * 2, false⟩ :: m.g.heap⟩, m.frames⟩
  | _ => .ok .null ⟨⟨{ m.g.s with clock := m.g.s.clock + 1 }, m.g.heap⟩, m.frames⟩

/-- The functions; names of libraries are shorter than `B`. -/
def known (L : Loader) (C : Cfg) (B : Nat) : List Entry :=
  [ -- common.c
    ⟨str% "_gdo_call_dlsym", 0, fun as m =>
      match as with
      | [.ptr h, .str n] => some (sysProc L [.ptr h, .str n] m)
      | _ => none⟩,
    ⟨str% "_gdo_call_dlclose", 0, fun as m =>
      match as with
      | [.ptr h] => some (okB (callFree L h (forcedBy m.frames) m.g.s) m.g.heap m.frames)
      | _ => none⟩,
    -- c.c, errors
    ⟨str% "_gdo_tcsstr", 0, fun as m =>
      match as with
      | [.buf b, .str t] => if b = str% "formatted" then some (.ok (.ofStr (search t m.g.s.formatted)) m) else none
      | _ => none⟩,
    ⟨str% "_gdo_save_to_errbuf", 0, fun as m =>
      match as with
      | [.str t] => some (ok0 (saveToErrbuf t m.g.s) m.g.heap m.frames)
      | _ => none⟩,
    ⟨str% "_gdo_clear_error", 0, fun as m =>
      match as with
      | [] => some (ok0 (clearError m.g.s) m.g.heap m.frames)
      | _ => none⟩,
    ⟨str% "_gdo_save_error", 1, fun as m =>
      match as with
      | [.str t] => some (ok0 (saveError t m.g.s) m.g.heap m.frames)
      | _ => none⟩,
    ⟨str% "_gdo_set_error_no_library_loaded", 1, fun as m =>
      match as with
      | [] => some (ok0 (noLibrary m.g.s) m.g.heap m.frames)
      | _ => none⟩,
    ⟨str% "gdo_last_error", 1, fun as m =>
      match as with
      | [] => some (.ok (.buf (str% "formatted")) ⟨⟨(lastError L C m.g.s).2, m.g.heap⟩, m.frames⟩)
      | _ => none⟩,
    ⟨str% "_gdo_print_error", 6, fun as m =>
      match as with
      | [.str f, .str n, v] => if v = .buf (str% "errbuf") then none else (text m.g v).map fun msg =>
        match printError C f n msg m.g.s with
        | some s => ok0 s m.g.heap m.frames
        | none => .ub
      | _ => none⟩,
    -- loading and freeing
    ⟨str% "gdo_lib_is_loaded", 0, fun as m =>
      match as with
      | [] => some (okB (libIsLoaded m.g.s, m.g.s) m.g.heap m.frames)
      | _ => none⟩,
    ⟨str% "_gdo_mbstowcs", 0, fun as m =>
      match as with
      | [v] => if !C.wide && C.convert then (nameOf m.g.heap v).map fun t => widened L t m else none
      | _ => none⟩,
    ⟨str% "_gdo_load_library_ex", 1, fun as m =>
      match as with
      | [v, .int f] => (nameOf m.g.heap v).bind fun t => if t = [] then none else some (okP (loadLibraryEx L C t f m.g.s) m.g.heap m.frames)
      | _ => none⟩,
    ⟨str% "_gdo_load_library", 2, fun as m =>
      match as with
      | [.str (d :: n), .int f, .int _] => if (d :: n).length < B then some (ok0 (loadLibrary L C (d :: n) f m.g.s) m.g.heap m.frames) else none
      | _ => none⟩,
    ⟨str% "gdo_load_lib_args", 3, fun as m =>
      match as with
      | [.null, .int f, .int _] => some (okB (loadLibArgs L C none f m.g.s) m.g.heap m.frames)
      | [.str n, .int f, .int _] => if n.length < B then some (okB (loadLibArgs L C (some n) f m.g.s) m.g.heap m.frames) else none
      | _ => none⟩,
    ⟨str% "gdo_load_lib_name", 4, fun as m =>
      match as with
      | [.null] => some (okB (loadLibName L C none m.g.s) m.g.heap m.frames)
      | [.str n] => if n.length < B then some (okB (loadLibName L C (some n) m.g.s) m.g.heap m.frames) else none
      | _ => none⟩,
    ⟨str% "gdo_load_lib", 5, fun as m =>
      match as with
      | [] => some (okB (loadLib L C m.g.s) m.g.heap m.frames)
      | _ => none⟩,
    ⟨str% "gdo_load_lib_name_and_symbols", 5, fun as m =>
      match as with
      | [.null] => some (okB (andSymbols L C (loadLibName L C none m.g.s)) m.g.heap m.frames)
      | [.str n] => if n.length < B then some (okB (andSymbols L C (loadLibName L C (some n) m.g.s)) m.g.heap m.frames) else none
      | _ => none⟩,
    ⟨str% "gdo_load_lib_and_symbols", 6, fun as m =>
      match as with
      | [] => some (okB (andSymbols L C (loadLib L C m.g.s)) m.g.heap m.frames)
      | _ => none⟩,
    ⟨str% "gdo_free_lib", 2, fun as m =>
      match as with
      | [] => some (okB (freeLib L C m.g.s) m.g.heap m.frames)
      | _ => none⟩,
    ⟨str% "gdo_force_free_lib", 1, fun as m =>
      match as with
      | [] => some (ok0 (forceFreeLib L C m.g.s) m.g.heap m.frames)
      | _ => none⟩,
    ⟨str% "gdo_enable_autorelease", 1, fun as m =>
      match as with
      | [] => some (okB (enableAutorelease L C m.g.s) m.g.heap m.frames)
      | _ => none⟩,
    -- symbols
    ⟨str% "gdo_all_symbols_loaded", 0, fun as m =>
      match as with
      | [] => some (okB (allLoaded C m.g.s, m.g.s) m.g.heap m.frames)
      | _ => none⟩,
    ⟨str% "gdo_no_symbols_loaded", 0, fun as m =>
      match as with
      | [] => some (okB (noneLoaded C m.g.s, m.g.s) m.g.heap m.frames)
      | _ => none⟩,
    ⟨str% "gdo_any_symbol_loaded", 0, fun as m =>
      match as with
      | [] => some (okB (anyLoaded C m.g.s, m.g.s) m.g.heap m.frames)
      | _ => none⟩,
    ⟨str% "_gdo_sym", 2, fun as m =>
      match as, m.g.s.handle with
      | [.str n, .str t], some h => if t = n then some (okP (gdoSym L h n m.g.s) m.g.heap m.frames) else none
      | _, _ => none⟩,
    ⟨str% "gdo_load_all_symbols", 3, fun as m =>
      match as with
      | [] => some (okB (loadAllSymbols L C m.g.s) m.g.heap m.frames)
      | _ => none⟩,
    ⟨str% "gdo_load_symbol", 3, fun as m =>
      match as with
      | [.int n] => some (okB (loadSymbol L C n m.g.s) m.g.heap m.frames)
      | _ => none⟩,
    ⟨str% "gdo_load_symbol_name", 3, fun as m =>
      match as with
      | [v] => (optStr v).map fun n =>
        match loadSymbolName L C n m.g.s with
        | some r => okB r m.g.heap m.frames
        | none => .ub
      | _ => none⟩,
    -- the path of the library
    ⟨str% "_gdo_library_path", 2, fun as m =>
      match as, m.g.s.handle with
      | [], some h => some (okB (queryPath L C h m.g.s) m.g.heap m.frames)
      | _, _ => none⟩,
    ⟨str% "gdo_library_path", 3, fun as m =>
      match as with
      | [] => some (.ok (match (libraryPath L C m.g.s).1 with
          | some _ => .buf (str% "libpath")
          | none => .null) ⟨⟨(libraryPath L C m.g.s).2, m.g.heap⟩, m.frames⟩)
      | _ => none⟩ ]

/-- The result of a function whose rank is less than `r`; for all others, and for other
    arguments, that of `other`. -/
def knownCall (L : Loader) (C : Cfg) (B r : Nat) (other : Str → List V → M World → R World V) (f : Str) (as : List V) (m : M World) : R World V :=
  match (sysTable L C).lookup f with
  | some g => g as m
  | none =>
    match (known L C B).find? fun k => k.name = f && decide (k.rank < r) with
    | some k => (k.run as m).getD (other f as m)
    | none => other f as m

section
variable (u l : Str) (L : Loader) (c : Cfg) (B : Nat) (isFn : Str → Bool) (other : Str → List V → M World → R World V) (lim : Nat) (I : Insts)

/-- What a function is executed with. -/
abbrev kctx (r : Nat) : Ctx World := ⟨sem u l L c, isFn, knownCall L c B r other, lim⟩

/-- A function of the system. -/
theorem call_sys {r : Nat} {f : Str} {g : List V → M World → R World V} (h : (sysTable L c).lookup f = some g) (as : List V) (m : M World) :
    (kctx u l L c B isFn other lim r).call f as m = g as m := by
  show knownCall L c B r other f as m = _
  unfold knownCall
  rw [h]

/-! ### Calls of the loader -/

theorem run_call_dlsym (h : Ptr) (n : Str) (m : M World) :
    ((fnOf (C.fn_gdo_call_dlsym true)).inst I).call (kctx u l L c B isFn other lim 0) [.ptr h, .str n] m = sysProc L [.ptr h, .str n] m := rfl

theorem run_call_dlclose (h : Ptr) (s : St) (hp : List Block) (fr : List Frame) :
    ((fnOf (C.fn_gdo_call_dlclose true)).inst I).call (kctx u l L c B isFn other lim 0) [.ptr h] ⟨⟨s, hp⟩, fr⟩ =
      okB (callFree L h (forcedBy fr) s) hp fr := by
  have e : ((fnOf (C.fn_gdo_call_dlclose true)).inst I).call (kctx u l L c B isFn other lim 0) [.ptr h] ⟨⟨s, hp⟩, fr⟩ =
      .ok (.ofBool (decide ((if (L.free s.clock h).1 then (1 : Int) else 0) = 1))) ⟨⟨(callFree L h (forcedBy fr) s).2, hp⟩, fr⟩ := by
    cases fr <;> rfl
  rw [e]
  unfold okB callFree
  cases (L.free s.clock h).1 <;> rfl

/-! ### Errors -/

theorem run_tcsstr (t : Str) (s : St) (hp : List Block) (fr : List Frame) :
    ((fnOf (C.fn_gdo_tcsstr true)).inst I).call (kctx u l L c B isFn other lim 0) [.buf (str% "formatted"), .str t] ⟨⟨s, hp⟩, fr⟩ =
      .ok (.ofStr (search t s.formatted)) ⟨⟨s, hp⟩, fr⟩ := rfl

theorem run_save_to_errbuf (t : Str) (s : St) (hp : List Block) (fr : List Frame) :
    ((fnOf (C.fn_gdo_save_to_errbuf true)).inst I).call (kctx u l L c B isFn other lim 0) [.str t] ⟨⟨s, hp⟩, fr⟩ = ok0 (saveToErrbuf t s) hp fr := by
  have e : ((fnOf (C.fn_gdo_save_to_errbuf true)).inst I).call (kctx u l L c B isFn other lim 0) [.str t] ⟨⟨s, hp⟩, fr⟩ =
      ok0 { s with errbuf := (t ++ []).take (bufLen - 1), formatted := [] } hp fr := rfl
  rw [e, List.append_nil]
  rfl

theorem run_clear_error (s : St) (hp : List Block) (fr : List Frame) :
    ((fnOf C.fn_gdo_clear_error).inst I).call (kctx u l L c B isFn other lim 0) [] ⟨⟨s, hp⟩, fr⟩ = ok0 (clearError s) hp fr := by
  rfl

theorem run_save_error (t : Str) (s : St) (hp : List Block) (fr : List Frame) :
    ((fnOf C.fn_gdo_save_error).inst I).call (kctx u l L c B isFn other lim 1) [.str t] ⟨⟨s, hp⟩, fr⟩ = ok0 (saveError t s) hp fr := rfl

theorem run_no_library (s : St) (hp : List Block) (fr : List Frame) :
    ((fnOf C.fn_gdo_set_error_no_library_loaded).inst I).call (kctx u l L c B isFn other lim 1) [] ⟨⟨s, hp⟩, fr⟩ = ok0 (noLibrary s) hp fr := rfl

/-! ### Loading and freeing -/

theorem run_lib_is_loaded (s : St) (hp : List Block) (fr : List Frame) :
    ((fnOf C.gdo_lib_is_loaded).inst I).call (kctx u l L c B isFn other lim 0) [] ⟨⟨s, hp⟩, fr⟩ = okB (libIsLoaded s, s) hp fr := by
  obtain ⟨handle, _⟩ := s
  cases handle <;> rfl

end

end Gdo.Cc.W
