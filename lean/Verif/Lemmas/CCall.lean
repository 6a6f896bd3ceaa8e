import Verif.Model.CSystem
import Verif.Model.CProg

/-!
Lemmas: what the functions of the generated C code do, one after the other.  Each of them
is executed with the results of the functions it calls.
-/

set_option maxRecDepth 10000

namespace Gdo.Cc
open Gdo Tmpl Rt

/-- A result of a function that returns a truth value. -/
def okB (r : Bool × St) (fr : List Frame) : R St V := .ok (.ofBool r.1) ⟨r.2, fr⟩

/-- A result of a function that returns nothing. -/
def ok0 (s : St) (fr : List Frame) : R St V := .ok .void ⟨s, fr⟩

/-- A C string that may be missing. -/
def optStr : V → Option (Option Str)
  | .null => some none
  | .str s => some (some s)
  | _ => none

/-- Whether `gdo_force_free_lib` is executed; this is only noted. -/
def forcedBy (fr : List Frame) : Bool :=
  match fr with
  | f :: _ => f.fn = str% "gdo_force_free_lib"
  | [] => false

/-- What a function does, for the arguments it is called with: its name, how many calls
    are made inside of each other, and the result. -/
structure Entry where
  name : Str
  rank : Nat
  run : List V → M St → Option (R St V)

/-- The functions. -/
def known (L : Loader) (C : Cfg) : List Entry :=
  [ -- common.c
    ⟨str% "_gdo_call_dlsym", 0, fun as m =>
      match as with
      | [.ptr h, .str n] => some (sysDlsym L [.ptr h, .str n] m)
      | _ => none⟩,
    ⟨str% "_gdo_call_dlclose", 0, fun as m =>
      match as with
      | [.ptr h] => some (okB (callDlclose L h (forcedBy m.frames) m.g) m.frames)
      | _ => none⟩,
    ⟨str% "_gdo_call_dlopen", 0, fun as m =>
      match as with
      | [.str n, .int f, .int 0] => some (opened (L.dlopen m.g.clock n f false) m)
      | [.str n, .int f, .int 1] => some (opened (L.dlopen m.g.clock n f true) m)
      | _ => none⟩,
    ⟨str% "_gdo_call_dladdr", 0, fun as m =>
      match as, m.frames with
      | [.null, .loc d x], F :: fr =>
        if C.haveDladdr = true ∧ d = fr.length then (setVar (fieldOf x (str% "dli_fname")) .null F.vars).map fun vs => .ok (.int 0) ⟨m.g, { F with vars := vs } :: fr⟩ else none
      | [.ptr p, .loc d x], F :: fr =>
        if C.haveDladdr = true ∧ d = fr.length then
          (setVar (fieldOf x (str% "dli_fname")) (.ofStr (L.dladdr m.g.clock p)) F.vars).map fun vs =>
            .ok (.ofBool (((L.dladdr m.g.clock p).getD []) ≠ [])) ⟨{ m.g with clock := m.g.clock + 1 }, { F with vars := vs } :: fr⟩
        else none
      | _, _ => none⟩,
    -- c.c, errors
    ⟨str% "_gdo_tcsstr", 0, fun as m =>
      match as with
      | [.buf b, .str t] => if b = str% "errbuf" then some (.ok (.ofStr (search t m.g.errbuf)) m) else none
      | _ => none⟩,
    ⟨str% "_gdo_save_to_errbuf", 0, fun as m =>
      match as with
      | [.null] => some (ok0 (saveToErrbuf none m.g) m.frames)
      | [.str t] => some (ok0 (saveToErrbuf (some t) m.g) m.frames)
      | _ => none⟩,
    ⟨str% "_gdo_clear_error", 0, fun as m =>
      match as with
      | [] => some (ok0 (clearError m.g) m.frames)
      | _ => none⟩,
    ⟨str% "_gdo_save_error", 1, fun as m =>
      match as with
      | [_] => some (ok0 (saveError m.g) m.frames)
      | _ => none⟩,
    ⟨str% "_gdo_set_error_no_library_loaded", 1, fun as m =>
      match as with
      | [] => some (ok0 (noLibrary m.g) m.frames)
      | _ => none⟩,
    ⟨str% "gdo_last_error", 1, fun as m =>
      match as with
      | [] => some (.ok (.buf (str% "errbuf")) ⟨(lastError m.g).2, m.frames⟩)
      | _ => none⟩,
    ⟨str% "_gdo_print_error", 5, fun as m =>
      match as with
      | [.str f, .str n, v] => (rtText m.g v).map fun msg =>
        match printError f n msg m.g with
        | some s => ok0 s m.frames
        | none => .ub
      | _ => none⟩,
    -- loading and freeing
    ⟨str% "gdo_lib_is_loaded", 0, fun as m =>
      match as with
      | [] => some (okB (libIsLoaded m.g, m.g) m.frames)
      | _ => none⟩,
    ⟨str% "_gdo_load_library", 1, fun as m =>
      match as with
      | [.str n, .int f, .int 0] => some (ok0 (loadLibrary L n f false m.g) m.frames)
      | [.str n, .int f, .int 1] => some (ok0 (loadLibrary L n f true m.g) m.frames)
      | _ => none⟩,
    ⟨str% "gdo_load_lib_args", 2, fun as m =>
      match as with
      | [.null, .int f, .int 0] => some (okB (loadLibArgs L none f false m.g) m.frames)
      | [.null, .int f, .int 1] => some (okB (loadLibArgs L none f true m.g) m.frames)
      | [.str n, .int f, .int 0] => some (okB (loadLibArgs L (some n) f false m.g) m.frames)
      | [.str n, .int f, .int 1] => some (okB (loadLibArgs L (some n) f true m.g) m.frames)
      | _ => none⟩,
    ⟨str% "gdo_load_lib_name", 3, fun as m =>
      match as with
      | [.null] => some (okB (loadLibName L C none m.g) m.frames)
      | [.str n] => some (okB (loadLibName L C (some n) m.g) m.frames)
      | _ => none⟩,
    ⟨str% "gdo_load_lib", 4, fun as m =>
      match as with
      | [] => some (okB (loadLib L C m.g) m.frames)
      | _ => none⟩,
    ⟨str% "gdo_load_lib_name_and_symbols", 4, fun as m =>
      match as with
      | [.null] => some (okB (andSymbols L C (loadLibName L C none m.g)) m.frames)
      | [.str n] => some (okB (andSymbols L C (loadLibName L C (some n) m.g)) m.frames)
      | _ => none⟩,
    ⟨str% "gdo_load_lib_and_symbols", 5, fun as m =>
      match as with
      | [] => some (okB (andSymbols L C (loadLib L C m.g)) m.frames)
      | _ => none⟩,
    ⟨str% "gdo_free_lib", 2, fun as m =>
      match as with
      | [] => some (okB (freeLib L C m.g) m.frames)
      | _ => none⟩,
    ⟨str% "gdo_force_free_lib", 1, fun as m =>
      match as with
      | [] => some (ok0 (forceFreeLib L C m.g) m.frames)
      | _ => none⟩,
    ⟨str% "gdo_enable_autorelease", 1, fun as m =>
      match as with
      | [] => some (okB (enableAutorelease L C m.g) m.frames)
      | _ => none⟩,
    -- symbols
    ⟨str% "gdo_all_symbols_loaded", 0, fun as m =>
      match as with
      | [] => some (okB (allLoaded C m.g, m.g) m.frames)
      | _ => none⟩,
    ⟨str% "gdo_no_symbols_loaded", 0, fun as m =>
      match as with
      | [] => some (okB (noneLoaded C m.g, m.g) m.frames)
      | _ => none⟩,
    ⟨str% "gdo_any_symbol_loaded", 0, fun as m =>
      match as with
      | [] => some (okB (anyLoaded C m.g, m.g) m.frames)
      | _ => none⟩,
    ⟨str% "_gdo_sym", 2, fun as m =>
      match as, m.g.handle with
      | [.str n, .str _], some h => some (.ok (.ofPtr (gdoSym L h n m.g).1) ⟨(gdoSym L h n m.g).2, m.frames⟩)
      | _, _ => none⟩,
    ⟨str% "gdo_load_all_symbols", 3, fun as m =>
      match as with
      | [] => some (okB (loadAllSymbols L C m.g) m.frames)
      | _ => none⟩,
    ⟨str% "gdo_load_symbol", 3, fun as m =>
      match as with
      | [.int n] => some (okB (loadSymbol L C n m.g) m.frames)
      | _ => none⟩,
    ⟨str% "gdo_load_symbol_name", 3, fun as m =>
      match as with
      | [v] => (optStr v).map fun n =>
        match loadSymbolName L C n m.g with
        | some r => okB r m.frames
        | none => .ub
      | _ => none⟩,
    -- the path of the library
    ⟨str% "_gdo_libpath_dlinfo", 2, fun as m =>
      match as, m.g.handle with
      | [], some h => if C.haveDlinfo then some (okB (libpathDlinfo L C h m.g) m.frames) else none
      | _, _ => none⟩,
    ⟨str% "_gdo_libpath_dladdr", 2, fun as m =>
      match as with
      | [] => if C.haveDladdr then some (okB (libpathDladdr L C m.g) m.frames) else none
      | _ => none⟩,
    ⟨str% "gdo_library_path", 3, fun as m =>
      match as with
      | [] => some (.ok (match (libraryPath L C m.g).1 with
          | some _ => .buf (str% "libpath")
          | none => .null) ⟨(libraryPath L C m.g).2, m.frames⟩)
      | _ => none⟩ ]

/-- The result of a function whose rank is less than `r`; for all others, and for other
    arguments, that of `other`. -/
def knownCall (L : Loader) (C : Cfg) (r : Nat) (other : Str → List V → M St → R St V) (f : Str) (as : List V) (m : M St) : R St V :=
  match (sysTable L rtText).lookup f with
  | some g => g as m
  | none =>
    match (known L C).find? fun k => k.name = f && decide (k.rank < r) with
    | some k => (k.run as m).getD (other f as m)
    | none => other f as m

/-- The function of an entry of `Verif/Model/CProg.lean`. -/
def fnOf : Top → Fn
  | .fn f => f
  | .throwing f => f
  | _ => ⟨[], [], [], []⟩

section
variable (u l : Str) (L : Loader) (c : Cfg) (isFn : Str → Bool) (other : Str → List V → M St → R St V) (lim : Nat) (I : Insts)

/-- What a function is executed with. -/
abbrev kctx (r : Nat) : Ctx St := ⟨rtSem u l L c, isFn, knownCall L c r other, lim⟩

/-! ### Calls of the loader -/

theorem run_call_dlsym (h : Ptr) (n : Str) (m : M St) :
    ((fnOf (C.fn_gdo_call_dlsym false)).inst I).call (kctx u l L c isFn other lim 0) [.ptr h, .str n] m = sysDlsym L [.ptr h, .str n] m := rfl

theorem run_call_dlclose (h : Ptr) (s : St) (fr : List Frame) :
    ((fnOf (C.fn_gdo_call_dlclose false)).inst I).call (kctx u l L c isFn other lim 0) [.ptr h] ⟨s, fr⟩ =
      okB (callDlclose L h (forcedBy fr) s) fr := by
  have e : ((fnOf (C.fn_gdo_call_dlclose false)).inst I).call (kctx u l L c isFn other lim 0) [.ptr h] ⟨s, fr⟩ =
      .ok (.ofBool (decide ((if (L.dlclose s.clock h).1 then (0 : Int) else -1) = 0))) ⟨(callDlclose L h (forcedBy fr) s).2, fr⟩ := by
    cases fr <;> rfl
  rw [e]
  unfold okB callDlclose
  cases (L.dlclose s.clock h).1 <;> rfl

theorem run_call_dlopen (h ns : Bool) (hn : h = true ∨ ns = false ∨ ∀ t n f, L.dlopen t n f true = L.dlopen t n f false) (n : Str) (f : Int) (m : M St) :
    ((fnOf (C.fn_gdo_call_dlopen h)).inst I).call (kctx u l L c isFn other lim 0) [.str n, .int f, .ofBool ns] m =
      opened (L.dlopen m.g.clock n f ns) m := by
  cases h with
  | true => cases ns <;> rfl
  | false =>
    cases ns with
    | false => rfl
    | true =>
      have : L.dlopen m.g.clock n f true = L.dlopen m.g.clock n f false := by
        rcases hn with h | h | h
        · cases h
        · cases h
        · exact h _ _ _
      rw [this]
      rfl

/-! ### Errors -/

theorem run_tcsstr (t : Str) (s : St) (fr : List Frame) :
    ((fnOf (C.fn_gdo_tcsstr false)).inst I).call (kctx u l L c isFn other lim 0) [.buf (str% "errbuf"), .str t] ⟨s, fr⟩ =
      .ok (.ofStr (search t s.errbuf)) ⟨s, fr⟩ := rfl

theorem format_s (text : V → Option Str) (t : Str) (v : V) (h : text v = some t) : format text (str% "%s") [v] = some (t ++ []) := by
  simp [format, h]

theorem run_save_to_errbuf_null (s : St) (fr : List Frame) :
    ((fnOf (C.fn_gdo_save_to_errbuf false)).inst I).call (kctx u l L c isFn other lim 0) [.null] ⟨s, fr⟩ = ok0 (saveToErrbuf none s) fr := rfl

theorem run_save_to_errbuf_str (t : Str) (s : St) (fr : List Frame) :
    ((fnOf (C.fn_gdo_save_to_errbuf false)).inst I).call (kctx u l L c isFn other lim 0) [.str t] ⟨s, fr⟩ = ok0 (saveToErrbuf (some t) s) fr := by
  have e : ((fnOf (C.fn_gdo_save_to_errbuf false)).inst I).call (kctx u l L c isFn other lim 0) [.str t] ⟨s, fr⟩ =
      ok0 { s with errbuf := (t ++ []).take (bufLen - 1) } fr := rfl
  rw [e, List.append_nil]
  rfl

theorem run_clear_error (s : St) (fr : List Frame) :
    ((fnOf C.fn_gdo_clear_error2).inst I).call (kctx u l L c isFn other lim 0) [] ⟨s, fr⟩ = ok0 (clearError s) fr := by
  rfl

theorem run_save_error (v : V) (s : St) (fr : List Frame) :
    ((fnOf C.fn_gdo_save_error2).inst I).call (kctx u l L c isFn other lim 1) [v] ⟨s, fr⟩ = ok0 (saveError s) fr := by
  obtain ⟨_, _, _, _, _, _, dlerr, _⟩ := s
  cases dlerr <;> rfl

theorem run_no_library (s : St) (fr : List Frame) :
    ((fnOf C.fn_gdo_set_error_no_library_loaded2).inst I).call (kctx u l L c isFn other lim 1) [] ⟨s, fr⟩ = ok0 (noLibrary s) fr := rfl

theorem run_last_error (s : St) (fr : List Frame) :
    ((fnOf (C.gdo_last_error false)).inst I).call (kctx u l L c isFn other lim 1) [] ⟨s, fr⟩ =
      .ok (.buf (str% "errbuf")) ⟨(lastError s).2, fr⟩ := by
  obtain ⟨_, _, _, errbuf, _⟩ := s
  cases errbuf <;> rfl

/-! ### Loading and freeing -/

theorem run_lib_is_loaded (s : St) (fr : List Frame) :
    ((fnOf C.gdo_lib_is_loaded).inst I).call (kctx u l L c isFn other lim 0) [] ⟨s, fr⟩ = okB (libIsLoaded s, s) fr := by
  obtain ⟨handle, _⟩ := s
  cases handle <;> rfl

theorem run_load_library (n : Str) (f : Int) (ns : Bool) (s : St) (fr : List Frame) :
    ((fnOf (C.fn_gdo_load_library false)).inst I).call (kctx u l L c isFn other lim 1) [.str n, .int f, .ofBool ns] ⟨s, fr⟩ =
      ok0 (loadLibrary L n f ns s) fr := by
  have key : ∀ a, ((fnOf (C.fn_gdo_load_library false)).inst I).call (kctx u l { L with dlopen := fun _ _ _ _ => a } c isFn other lim 1)
      [.str n, .int f, .ofBool ns] ⟨s, fr⟩ = ok0 (loadLibrary { L with dlopen := fun _ _ _ _ => a } n f ns s) fr := by
    rintro ⟨_ | p, e⟩ <;> cases ns <;> rfl
  cases ns
  · exact key (L.dlopen s.clock n f false)
  · exact key (L.dlopen s.clock n f true)

theorem run_load_lib_args (name : Option Str) (f : Int) (ns : Bool) (s : St) (fr : List Frame) :
    ((fnOf C.gdo_load_lib_args).inst I).call (kctx u l L c isFn other lim 2) [.ofStr name, .int f, .ofBool ns] ⟨s, fr⟩ =
      okB (loadLibArgs L name f ns s) fr := by
  obtain ⟨handle, p, q, eb, reg, clock, de, log, hd, se⟩ := s
  cases handle with
  | some h => cases name <;> cases ns <;> rfl
  | none =>
    cases name with
    | none => cases ns <;> rfl
    | some n =>
      cases n with
      | nil => cases ns <;> rfl
      | cons d r =>
        have key : ∀ a, ((fnOf C.gdo_load_lib_args).inst I).call (kctx u l { L with dlopen := fun _ _ _ _ => a } c isFn other lim 2)
            [.str (d :: r), .int f, .ofBool ns] ⟨⟨none, p, q, eb, reg, clock, de, log, hd, se⟩, fr⟩ =
            okB (loadLibArgs { L with dlopen := fun _ _ _ _ => a } (some (d :: r)) f ns
              ⟨none, p, q, eb, reg, clock, de, log, hd, se⟩) fr := by
          rintro ⟨_ | p, _ | e⟩ <;> cases ns <;> rfl
        cases ns
        · exact key (L.dlopen clock (d :: r) f false)
        · exact key (L.dlopen clock (d :: r) f true)

theorem run_load_lib_name (name : Option Str) (s : St) (fr : List Frame) :
    ((fnOf C.gdo_load_lib_name).inst I).call (kctx u l L c isFn other lim 3) [.ofStr name] ⟨s, fr⟩ = okB (loadLibName L c name s) fr := by
  cases name <;> rfl

theorem run_load_lib (s : St) (fr : List Frame) :
    ((fnOf C.gdo_load_lib).inst I).call (kctx u l L c isFn other lim 4) [] ⟨s, fr⟩ = okB (loadLib L c s) fr := rfl

theorem run_sym (n t : Str) (h : Ptr) (s : St) (hs : s.handle = some h) (fr : List Frame) :
    ((fnOf C.fn_gdo_sym).inst I).call (kctx u l L c isFn other lim 2) [.str n, .str t] ⟨s, fr⟩ =
      .ok (.ofPtr (gdoSym L h n s).1) ⟨(gdoSym L h n s).2, fr⟩ := by
  obtain ⟨handle, p, q, eb, reg, clock, de, log, hd, se⟩ := s
  cases hs
  have key : ∀ a, ((fnOf C.fn_gdo_sym).inst I).call (kctx u l { L with dlsym := fun _ _ _ => a } c isFn other lim 2) [.str n, .str t]
      ⟨⟨some h, p, q, eb, reg, clock, de, log, hd, se⟩, fr⟩ =
      .ok (.ofPtr (gdoSym { L with dlsym := fun _ _ _ => a } h n ⟨some h, p, q, eb, reg, clock, de, log, hd, se⟩).1)
        ⟨(gdoSym { L with dlsym := fun _ _ _ => a } h n ⟨some h, p, q, eb, reg, clock, de, log, hd, se⟩).2, fr⟩ := by
    rintro ⟨_ | p, _ | e⟩ <;> rfl
  exact key (L.dlsym clock h n)

end

end Gdo.Cc
