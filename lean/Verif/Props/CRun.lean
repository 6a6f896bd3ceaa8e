import Verif.Lemmas.CNames
import Verif.Props.Runtime

/-!
Property C97: what the generated C code does.  The code of `Verif/Model/CProg.lean`, which
is the code of the generated text (C96), is executed step by step as described in
`Verif/Spec/CSem.lean`; the results are those of the model of the functions
(`Verif/Model/Runtime.lean`), for which the other properties are proven.
-/

set_option maxRecDepth 10000

namespace Gdo.Cc
open Gdo Tmpl Rt Rename Gen Opt

/-! ### What a program sees that calls the functions -/

/-- A returned value: a truth value, nothing, or the string a pointer points to. -/
def seen (v : V) (s : St) : Option Val :=
  match v with
  | .int 0 => some (.bool false)
  | .int 1 => some (.bool true)
  | .void => some .none
  | .null => some (.text none)
  | v => (rtText s v).map fun t => .text (some t)

/-- The end of the program: the function that was registered is called as often as it was
    registered. -/
def atExit (call : Str → List V → M St → R St V) : Nat → St → Option St
  | 0, s => some s
  | n + 1, s =>
    match call (str% "gdo_force_free_lib") [] ⟨s, []⟩ with
    | .ok _ m => atExit call n m.g
    | _ => none

/-- What becomes of a call; `none` if it was not followed to its end. -/
def outcome (call : Str → List V → M St → R St V) : R St V → Option (Out Val)
  | .ok v m => (seen v m.g).map fun x => .ret x m.g
  | .exit n m => (atExit call m.g.handlers m.g).map fun s => .exit n.toNat s
  | .abort m => some (.abort m.g)
  | .ub => some .ub
  | .thrown _ _ _ => none
  | .fuel => none

/-- The function and the arguments of a call. -/
def callOf : Call → Str × List V
  | .loadLib => (str% "gdo_load_lib", [])
  | .loadLibAndSymbols => (str% "gdo_load_lib_and_symbols", [])
  | .loadLibName n => (str% "gdo_load_lib_name", [.ofStr n])
  | .loadLibNameAndSymbols n => (str% "gdo_load_lib_name_and_symbols", [.ofStr n])
  | .loadLibArgs n f ns => (str% "gdo_load_lib_args", [.ofStr n, .int f, .ofBool ns])
  | .libIsLoaded => (str% "gdo_lib_is_loaded", [])
  | .freeLib => (str% "gdo_free_lib", [])
  | .forceFreeLib => (str% "gdo_force_free_lib", [])
  | .enableAutorelease => (str% "gdo_enable_autorelease", [])
  | .allSymbolsLoaded => (str% "gdo_all_symbols_loaded", [])
  | .noSymbolsLoaded => (str% "gdo_no_symbols_loaded", [])
  | .anySymbolLoaded => (str% "gdo_any_symbol_loaded", [])
  | .loadAllSymbols => (str% "gdo_load_all_symbols", [])
  | .loadSymbol n => (str% "gdo_load_symbol", [.int n])
  | .loadSymbolName n => (str% "gdo_load_symbol_name", [.ofStr n])
  | .lastError => (str% "gdo_last_error", [])
  | .libraryPath => (str% "gdo_library_path", [])
  | .wrapped _ => ([], [])

/-- A call of a function of the code.  A wrapper function is that of c.h 231-269 with the
    default hook: `_gdo_wrap_check_loaded(GDO_RAWPTR_sym, GDO_LOAD_sym, "sym")` is called,
    then the function of the library through the pointer, which must not be null. -/
def codeStep (c : Cfg) (call : Str → List V → M St → R St V) (s : St) : Call → Option (Out Val)
  | .wrapped i =>
    match c.syms[i]? with
    | none => some (.ret .none s)
    | some sym =>
      (outcome call (call (str% "_gdo_wrap_check_loaded") [.ofPtr (s.ptr i), .int i, .str sym] ⟨s, []⟩)).map fun o =>
        match o with
        | .ret x s => if s.ptr i = none then .ub else .ret x s
        | o => o
  | k => outcome call (call (callOf k).1 (callOf k).2 ⟨s, []⟩)

/-- A sequence of calls. -/
def codeRun (c : Cfg) (call : Str → List V → M St → R St V) (s : St) : List Call → Option (Out Unit)
  | [] => some (.ret () s)
  | k :: r =>
    match codeStep c call s k with
    | none => none
    | some (.ret _ s) => codeRun c call s r
    | some (.exit n s) => some (.exit n s)
    | some (.abort s) => some (.abort s)
    | some .ub => some .ub

/-- A program that makes the calls and returns from `main`. -/
def codeFinish (c : Cfg) (call : Str → List V → M St → R St V) (calls : List Call) : Option (Out Unit) :=
  match codeRun c call {} calls with
  | some (.ret _ s) => (atExit call s.handlers s).map (.exit 0)
  | o => o

/-! ### Lemmas -/

section
variable {u l : Str} {names : ParamNames} {D : Str → Bool} {L : Loader} {c : Cfg} {I : Insts} {rows : List (Str × Str)} {n : Nat}

theorem outcome_okB (call : Str → List V → M St → R St V) (r : Bool × St) (fr : List Frame) : outcome call (okB r fr) = some (ofBool r) := by
  obtain ⟨b, s⟩ := r
  cases b <;> rfl

theorem libraryPath_text (s : St) : (libraryPath L c s).1 = none ∨ (libraryPath L c s).1 = some (libraryPath L c s).2.libpath := by
  have hd : ∀ s, (libraryPathDladdr L c s).1 = none ∨ (libraryPathDladdr L c s).1 = some (libraryPathDladdr L c s).2.libpath := by
    intro s
    unfold libraryPathDladdr
    dsimp only
    split
    · split
      · exact .inr rfl
      · exact .inl rfl
    · exact .inl rfl
  unfold libraryPath
  dsimp only
  split
  · exact .inl rfl
  · split
    · exact .inl rfl
    · split
      · exact .inr rfl
      · split
        · split
          · exact .inr rfl
          · exact hd _
        · exact hd _

theorem outcome_path (call : Str → List V → M St → R St V) (s : St) (fr : List Frame) :
    outcome call (.ok (match (libraryPath L c s).1 with
      | some _ => .buf (str% "libpath")
      | none => .null) ⟨(libraryPath L c s).2, fr⟩) = some (.ret (.text (libraryPath L c s).1) (libraryPath L c s).2) := by
  rcases libraryPath_text (L := L) (c := c) s with e | e
  · rw [e]
    rfl
  · rw [e]
    rfl

/-- A function of the table. -/
theorem linked_at (h : Config u l D L c) (hr : Rows I c rows) (h7 : 7 ≤ n) (i : Nat) (k : Entry) (hi : (known L c)[i]? = some k)
    (hn : k.name ≠ str% "_gdo_print_error") (h5 : k.rank ≤ 5) (hs : (sysTable L rtText).lookup k.name = none) {as : List V} {m : M St} {R : R St V}
    (e : k.run as m = some R) : linked u l names D L c I n k.name as m = R :=
  linked_known h hr k (List.mem_of_getElem? hi) hn h5 hs h7 as m R e

theorem linked_force_free (h : Config u l D L c) (hr : Rows I c rows) (h7 : 7 ≤ n) (m : M St) :
    linked u l names D L c I n (str% "gdo_force_free_lib") [] m = ok0 (forceFreeLib L c m.g) m.frames :=
  linked_at h hr h7 19 _ rfl (by dsimp only; decide) (by dsimp only; decide) rfl rfl

theorem atExit_runs (h : Config u l D L c) (hr : Rows I c rows) (h7 : 7 ≤ n) :
    ∀ k s, atExit (linked u l names D L c I n) k s = some (runHandlers L c k s)
  | 0, _ => rfl
  | k + 1, s => by
    unfold atExit
    rw [linked_force_free h hr h7]
    exact atExit_runs h hr h7 k _

/-- What a function that returns nothing returns. -/
def voidOut : Out Unit → Out Val
  | .ret _ s => .ret .none s
  | .exit n s => .exit n s
  | .abort s => .abort s
  | .ub => .ub

theorem outcome_done (h : Config u l D L c) (hr : Rows I c rows) (h7 : 7 ≤ n) (r : R St V) (o : Out Unit) (e : done L c r = some o) :
    outcome (linked u l names D L c I n) r = some (voidOut o) := by
  cases r with
  | ok v m =>
    cases v <;> cases e
    rfl
  | exit k m =>
    cases e
    show (atExit (linked u l names D L c I n) m.g.handlers m.g).map _ = _
    rw [atExit_runs h hr h7]
    rfl
  | abort m => cases e; rfl
  | ub => cases e; rfl
  | thrown => cases e
  | fuel => cases e

end

/-- The symbols, with their types and names. -/
def rowsOf (protos objs : List Proto) : List (Str × Str) :=
  (protos.map fun p => (functionPointer p, p.symbol)) ++ (objs.map fun p => (objectPointer p, p.symbol))

theorem rows_insts {protos objs : List Proto} {c : Cfg} (h : c.syms = (protos ++ objs).map (·.symbol)) (hn : c.syms.Nodup) :
    Rows (insts protos objs) c (rowsOf protos objs) := by
  refine ⟨?_, ?_, hn⟩
  · simp [insts, rowsOf, Function.comp_def]
  · rw [h]
    simp [rowsOf, Function.comp_def]

/-! ### Theorems -/

section
variable (u l : Str) (names : ParamNames) (D : Str → Bool) (L : Loader) (c : Cfg) (protos objs : List Proto)

/-- The generated code with which the library is used: what a call of a function does when
    at most `n` calls are made inside of each other. -/
abbrev generated (n : Nat) : Str → List V → M St → R St V :=
  link (rtSem u l L c) ((program names D).map (Top.inst (insts protos objs))) n

/-- Each function of the interface does what the model says, in every state. -/
theorem C97_step (h : Config u l D L c) (hs : c.syms = (protos ++ objs).map (·.symbol)) (hn : c.syms.Nodup) (n : Nat) (h7 : 7 ≤ n) (s : St) (k : Call)
    (hk : ∀ i, k ≠ .wrapped i) :
    outcome (generated u l names D L c protos objs n) (generated u l names D L c protos objs n (callOf k).1 (callOf k).2 ⟨s, []⟩) = some (Rt.step L c s k) := by
  have hr := rows_insts hs hn
  have key : ∀ {f as} (r : Bool × St), generated u l names D L c protos objs n f as ⟨s, []⟩ = okB r [] →
      outcome (generated u l names D L c protos objs n) (generated u l names D L c protos objs n f as ⟨s, []⟩) = some (ofBool r) := by
    intro f as r e
    rw [e]
    exact outcome_okB _ r []
  cases k with
  | loadLib => exact key _ (linked_at h hr h7 15 _ rfl (by dsimp only; decide) (by dsimp only; decide) rfl rfl)
  | loadLibAndSymbols => exact key _ (linked_at h hr h7 17 _ rfl (by dsimp only; decide) (by dsimp only; decide) rfl rfl)
  | loadLibName x => cases x <;> exact key _ (linked_at h hr h7 14 _ rfl (by dsimp only; decide) (by dsimp only; decide) rfl rfl)
  | loadLibNameAndSymbols x => cases x <;> exact key _ (linked_at h hr h7 16 _ rfl (by dsimp only; decide) (by dsimp only; decide) rfl rfl)
  | loadLibArgs x f ns => cases x <;> cases ns <;> exact key _ (linked_at h hr h7 13 _ rfl (by dsimp only; decide) (by dsimp only; decide) rfl rfl)
  | libIsLoaded => exact key _ (linked_at h hr h7 11 _ rfl (by dsimp only; decide) (by dsimp only; decide) rfl rfl)
  | freeLib => exact key _ (linked_at h hr h7 18 _ rfl (by dsimp only; decide) (by dsimp only; decide) rfl rfl)
  | forceFreeLib =>
    have e : generated u l names D L c protos objs n (str% "gdo_force_free_lib") [] ⟨s, []⟩ = ok0 (forceFreeLib L c s) [] := linked_force_free h hr h7 _
    unfold callOf
    rw [e]
    rfl
  | enableAutorelease => exact key _ (linked_at h hr h7 20 _ rfl (by dsimp only; decide) (by dsimp only; decide) rfl rfl)
  | allSymbolsLoaded => exact key _ (linked_at h hr h7 21 _ rfl (by dsimp only; decide) (by dsimp only; decide) rfl rfl)
  | noSymbolsLoaded => exact key _ (linked_at h hr h7 22 _ rfl (by dsimp only; decide) (by dsimp only; decide) rfl rfl)
  | anySymbolLoaded => exact key _ (linked_at h hr h7 23 _ rfl (by dsimp only; decide) (by dsimp only; decide) rfl rfl)
  | loadAllSymbols => exact key _ (linked_at h hr h7 25 _ rfl (by dsimp only; decide) (by dsimp only; decide) rfl rfl)
  | loadSymbol x => exact key _ (linked_at h hr h7 26 _ rfl (by dsimp only; decide) (by dsimp only; decide) rfl rfl)
  | loadSymbolName x =>
    have e : generated u l names D L c protos objs n (str% "gdo_load_symbol_name") [.ofStr x] ⟨s, []⟩ =
        match loadSymbolName L c x s with
        | some r => okB r []
        | none => .ub := by
      cases x <;> exact linked_at h hr h7 27 _ rfl (by dsimp only; decide) (by dsimp only; decide) rfl rfl
    have em : Rt.step L c s (.loadSymbolName x) = match loadSymbolName L c x s with
      | some r => ofBool r
      | none => .ub := rfl
    unfold callOf
    rw [e, em]
    cases loadSymbolName L c x s with
    | none => rfl
    | some r => exact outcome_okB _ r []
  | lastError =>
    have e : generated u l names D L c protos objs n (str% "gdo_last_error") [] ⟨s, []⟩ = .ok (.buf (str% "errbuf")) ⟨(lastError s).2, []⟩ := linked_at h hr h7 9 _ rfl (by dsimp only; decide) (by dsimp only; decide) rfl rfl
    unfold callOf Rt.step
    rw [e, lastError_text]
    rfl
  | libraryPath =>
    have e : generated u l names D L c protos objs n (str% "gdo_library_path") [] ⟨s, []⟩ = .ok (match (libraryPath L c s).1 with
      | some _ => .buf (str% "libpath")
      | none => .null) ⟨(libraryPath L c s).2, []⟩ := linked_at h hr h7 30 _ rfl (by dsimp only; decide) (by dsimp only; decide) rfl rfl
    unfold callOf Rt.step
    rw [e]
    exact outcome_path _ s []
  | wrapped i => exact absurd rfl (hk i)

/-- The function that is called by each wrapper function: with automatic loading of
    everything or of one symbol, and without. -/
theorem C97_wrap (h : Config u l D L c) (hw : Wraps names D) (hs : c.syms = (protos ++ objs).map (·.symbol)) (hn : c.syms.Nodup) (n : Nat) (h8 : 8 ≤ n) (s : St)
    (i : Nat) (hi : i < c.syms.length) :
    outcome (generated u l names D L c protos objs n)
      (generated u l names D L c protos objs n (str% "_gdo_wrap_check_loaded") [.ofPtr (s.ptr i), .int i, .str c.syms[i]] ⟨s, []⟩) =
      some (match wrapCheckLoaded L c i s with
        | .ret _ s => .ret .none s
        | .exit n s => .exit n s
        | .abort s => .abort s
        | .ub => .ub) := by
  have hr := rows_insts hs hn
  exact outcome_done h hr (by omega) _ _ (linked_wrap h hr hw h8 i hi s [])

/-- A sequence of calls does what the model says. -/
theorem C97_run (h : Config u l D L c) (hw : Wraps names D) (hs : c.syms = (protos ++ objs).map (·.symbol)) (hn : c.syms.Nodup) (n : Nat) (h8 : 8 ≤ n)
    (calls : List Call) (s : St) : codeRun c (generated u l names D L c protos objs n) s calls = some (Rt.run L c s calls) := by
  have one : ∀ s k, codeStep c (generated u l names D L c protos objs n) s k = some (Rt.step L c s k) := by
    intro s k
    by_cases hk : ∃ i, k = .wrapped i
    · obtain ⟨i, rfl⟩ := hk
      unfold codeStep Rt.step
      dsimp only
      by_cases hi : i < c.syms.length
      · rw [if_pos hi, List.getElem?_eq_getElem hi]
        dsimp only
        rw [C97_wrap u l names D L c protos objs h hw hs hn n h8 s i hi]
        unfold wrapper
        cases wrapCheckLoaded L c i s with
        | ret _ s' => cases hp : s'.ptr i <;> simp [hp]
        | exit | abort | ub => rfl
      · rw [if_neg hi, List.getElem?_eq_none (by omega)]
    · have hk' : ∀ i, k ≠ .wrapped i := fun i e => hk ⟨i, e⟩
      have e := C97_step u l names D L c protos objs h hs hn n (by omega) s k hk'
      cases k with
      | wrapped i => exact absurd rfl (hk' i)
      | _ => exact e
  induction calls generalizing s with
  | nil => rfl
  | cons k r ih =>
    unfold codeRun Rt.run
    rw [one]
    cases Rt.step L c s k with
    | ret _ s' => exact ih s'
    | exit | abort | ub => rfl

/-- A whole program. -/
theorem C97_finish (h : Config u l D L c) (hw : Wraps names D) (hs : c.syms = (protos ++ objs).map (·.symbol)) (hn : c.syms.Nodup) (n : Nat) (h8 : 8 ≤ n)
    (calls : List Call) : codeFinish c (generated u l names D L c protos objs n) calls = some (Rt.finish L c calls) := by
  unfold codeFinish Rt.finish
  rw [C97_run u l names D L c protos objs h hw hs hn n h8]
  cases Rt.run L c {} calls with
  | ret _ s =>
    dsimp only
    rw [atExit_runs h (rows_insts hs hn) (by omega)]
    rfl
  | exit | abort | ub => rfl

end

/-- Two names of the code stay different names with every prefix. -/
theorem C97_names (u l : Str) (names : ParamNames) (D : Str → Bool) (ts : List Cc.Item) (h : progToks (program names D) = some ts) (a b : Str)
    (ha : a ∈ wordsOf ts) (hb : b ∈ wordsOf ts) (e : newName u l a = newName u l b) : a = b := by
  have ma := covered_program names D ts h a ha
  have mb := covered_program names D ts h b hb
  have hab := allNames_apart
  rw [List.all_eq_true] at hab
  have hab := hab a ma
  rw [List.all_eq_true] at hab
  have hab := hab b mb
  rw [Bool.or_eq_true] at hab
  rcases hab with hab | hab
  · exact eq_of_beq hab
  · rw [newName_form u l a (fun h => gdo_not_name (h ▸ ma)), newName_form u l b (fun h => gdo_not_name (h ▸ mb))] at e
    exact absurd e (apart_ne hab)

/-! ### Examples -/

/-- The macros of a program that loads symbols when they are used. -/
def demoMacros (w : Str) : Bool :=
  w ∈ [str% "GDO_DEFAULT_LIB", str% "GDO_HAVE_DLINFO", str% "GDO_HAVE_DLADDR", str% "__linux__", str% "GDO_ENABLE_AUTOLOAD", str% "GDO_ENABLE_AUTOLOAD_LAZY",
    str% "__GNUC__"]

def demoCode : Cfg := { demoCfg with freeName := str% "my_force_free_lib" }

theorem demoConfig : Config (str% "MY") (str% "my") demoMacros demoLoader demoCode where
  winapi := by decide
  win32 := by decide
  aix := by decide
  lib := by decide
  dlinfo := by decide
  dladdr := by decide
  linux := by decide
  dlmopen := .inr fun _ _ _ => rfl
  auto := by decide
  lazy := by decide
  free := by decide
  lower := by decide

theorem demoWraps : Wraps .read demoMacros := by
  refine ⟨by decide, .inr (by decide)⟩

/-- `int f(void)` and `void g(void)`. -/
def demoProtos : List Proto :=
  [{ kind := .function, type := str% "int", symbol := str% "f", args := str% "void" }, { kind := .function, type := str% "void", symbol := str% "g", args := str% "void" }]

theorem demoSyms : demoCode.syms = (demoProtos ++ []).map Proto.symbol ∧ demoCode.syms.Nodup := by decide

/-- The generated code for these symbols. -/
def demoRun : Str → List V → M St → R St V :=
  generated (str% "MY") (str% "my") .read demoMacros demoLoader demoCode demoProtos [] 8

/-- The execution of the code, and what the theorems say: `f` is called through its wrapper
    function and found, `gdo_last_error` returns the text of the loader. -/
example : (match codeStep demoCode demoRun {} (.wrapped 0) with
    | some (.ret _ s) => some (s.handle, s.ptr 0, s.ptr 1)
    | _ => none) = some (some 100, some 7, none) := by decide +kernel

example : (match codeRun demoCode demoRun {} [.loadLib, .loadAllSymbols] with
    | some (.ret _ s) => (codeStep demoCode demoRun s .lastError).map fun o =>
      match o with
      | .ret x _ => some x
      | _ => none
    | _ => none) = some (some (.text (some (str% "undefined symbol: g")))) := by decide +kernel

/-- The call of `g`, which is not in the library, ends the program; the library is closed
    at the end. -/
example : (match codeFinish demoCode demoRun [.enableAutorelease, .wrapped 1] with
    | some (.exit n s) => some (n, s.handle, s.handlers)
    | _ => none) = some (1, none, 1) := by decide +kernel

example (calls : List Call) : codeFinish demoCode demoRun calls = some (Rt.finish demoLoader demoCode calls) :=
  C97_finish _ _ _ _ _ _ _ _ demoConfig demoWraps demoSyms.1 demoSyms.2 8 (by decide) calls

example : (progToks (program .read demoMacros)).map (fun ts => (str% "gdo_library_path" ∈ wordsOf ts ∧ str% "_gdo_libpath_dlinfo" ∈ wordsOf ts : Bool)) = some true := by
  decide +kernel

end Gdo.Cc
