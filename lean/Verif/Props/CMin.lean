import Verif.Lemmas.CMin
import Verif.Lemmas.CProgOtherText
import Verif.Props.Minimal
import Verif.Props.CRun

/-!
Property C98: what the generated minimal C header means and does.  The text is the code of
`Verif/Model/CProgOther.lean`; executing it step by step as described in
`Verif/Spec/CSem.lean` gives the results of the model of the functions
(`Verif/Model/Minimal.lean`), for dlfcn, AIX and Windows.
-/

set_option maxRecDepth 10000

namespace Gdo.Cc
open Gdo Tpl Opt Gen Tmpl Sub Rename Builtin CForm Rt

/-! ### The text -/

/-- The tokens that the compiler gets of the text are those of the code, with the names
    of the functions and objects filled in and with the prefix that was asked for. -/
theorem C98_text (u l : Str) (names : ParamNames) (protos objs : List Proto) (D : Str → Bool) (hu : ∀ c ∈ u, isWord c = true)
    (hl : ∀ c ∈ l, isWord c = true) (hln : l ≠ []) (hd : ∀ p ∈ protos ++ objs, Named p) :
    ∃ ts out, progToks ((minimalProg fun w => D (newName u l w)).map (Top.inst (insts protos objs))) = some (ts.map .tok) ∧
      preprocess D (unlines (instantiate u l names protos objs (lines .minCHeader))) = some out ∧ closeAll u l ts = some out := by
  have := (minimalProg_seg names).sound hu hl hln (instsOk hd) D
  simpa [instantiate, Builtin.texts] using this

/-- The part of the header that is written for the format `minimal` is this code. -/
theorem C98_written (env : Env) (s : Settings) (hb : ∀ t, compiledList t = some (env.builtin t)) (hp : PrefixOk s.pfx)
    (ht : s.templatesPath = []) (hline : s.lineDirective = false) (hf : s.format = .minimal)
    (hd : ∀ p ∈ env.symbols.protos ++ env.symbols.objs, PlainData p ∧ Named p)
    (hne : env.symbols.protos ++ env.symbols.objs ≠ []) (D : Str → Bool) :
    ∃ N, ∀ n, N ≤ n → ∃ css k ts out, headerSubst { env with n } s = .ok (css, k) ∧
      progToks ((minimalProg fun w => D (newName (toUpper s.pfx) (toLower s.pfx) w)).map
        (Top.inst (insts env.symbols.protos env.symbols.objs))) = some (ts.map .tok) ∧
      preprocess D (bytes css.flatten.flatten) = some out ∧ closeAll (toUpper s.pfx) (toLower s.pfx) ts = some out := by
  obtain ⟨N, h⟩ := C94_processed env s hb hp ht (fun p hp => (hd p hp).1) hne
  refine ⟨N, fun n hn => ?_⟩
  obtain ⟨css, k, bss, j, e1, _, _, _, e3⟩ := h n hn
  obtain ⟨ts, out, a1, a2, a3⟩ := C98_text (toUpper s.pfx) (toLower s.pfx) s.names env.symbols.protos env.symbols.objs D
    (Pfx.C30_upper _) (Pfx.C30_lower _) (prefix_ne hp) (fun p hp => (hd p hp).2)
  refine ⟨css, k, ts, out, e1, a1, ?_, a3⟩
  rw [(e3 hline).1]
  have : (listNames s).1 = [.minCHeader] := by
    unfold listNames
    rw [hf]
    rfl
  rw [this, ← a2]
  unfold allText
  rw [List.flatMap_cons, List.flatMap_nil, List.append_nil]

/-! ### The execution -/

/-- The macros are those of the system. -/
structure MinConfig (D : Str → Bool) (os : Min.Os) : Prop where
  winapi : D (str% "GDO_WINAPI") = os.isWin
  aix : D (str% "_AIX") = os.isAix

/-- The generated code with which the library is used: what a call of a function does when
    at most `n` calls are made inside of each other. -/
abbrev minimal (u l : Str) (D : Str → Bool) (os : Min.Os) (syms : List Str) (protos objs : List Proto) (n : Nat) : Str → List V → M Min.St → R Min.St V :=
  link (minSem u l os syms) ((minimalProg D).map (Top.inst (insts protos objs))) n

/-- A call of a function of the code. -/
def minStep (call : Str → List V → M Min.St → R Min.St V) (s : Min.St) : Min.Call → R Min.St V
  | .load n => call (str% "gdo_load_library_and_symbols") [.ofStr n] ⟨s, []⟩
  | .free => call (str% "gdo_free_library") [] ⟨s, []⟩

/-- A sequence of calls; `none` if one of them does not return. -/
def minRun (call : Str → List V → M Min.St → R Min.St V) (s : Min.St) : List Min.Call → Option Min.St
  | [] => some s
  | k :: r =>
    match minStep call s k with
    | .ok _ m => minRun call m.g r
    | _ => none

section
variable (u l : Str) (D : Str → Bool) (os : Min.Os) (syms : List Str) (protos objs : List Proto)

theorem minSyms_insts {syms : List Str} {protos objs : List Proto} (h : syms = (protos ++ objs).map (·.symbol)) (hn : syms.Nodup) :
    MinSyms (insts protos objs) syms (rowsOf protos objs) := by
  refine ⟨?_, ?_, hn⟩
  · simp [insts, rowsOf, Function.comp_def]
  · rw [h]
    simp [rowsOf, Function.comp_def]

theorem lookup_minimal {D : Str → Bool} {os : Min.Os} (h : MinConfig D os) :
    lookup (str% "gdo_free_library") (minimalProg D) = some (fnOf (C.gdo_free_library os.isWin)) ∧
    lookup (str% "gdo_load_library_and_symbols") (minimalProg D) = some (fnOf (C.gdo_load_library_and_symbols os.isWin os.isAix)) := by
  unfold minimalProg
  rw [h.winapi, h.aix]
  cases D (str% "GDO_USE_DLOPEN") <;> cases D (str% "_WIN32") <;> cases D (str% "GDO_STATIC") <;> cases os <;> exact ⟨rfl, rfl⟩

/-- `gdo_free_library` does what the model says, in every state, also when it is called by
    another function. -/
theorem C98_free (h : MinConfig D os) (hs : syms = (protos ++ objs).map (·.symbol)) (hn : syms.Nodup) (n : Nat) (h2 : 2 ≤ n) (m : M Min.St) :
    minimal u l D os syms protos objs n (str% "gdo_free_library") [] m = .ok .void ⟨Min.free os.loader syms m.g, m.frames⟩ := by
  obtain ⟨k, rfl⟩ : ∃ k, n = k + 2 := ⟨n - 2, by omega⟩
  show link _ _ (k + 1 + 1) _ _ _ = _
  unfold link
  rw [lookup_inst, (lookup_minimal h).1, show (minSem u l os syms).system (str% "gdo_free_library") = none by cases os <;> rfl]
  exact min_free u l os syms _ _ k (k + 1) (minSyms_insts hs hn) m.g m.frames

/-- `gdo_load_library_and_symbols` does what the model says and returns null or the text
    of the error. -/
theorem C98_load (h : MinConfig D os) (hs : syms = (protos ++ objs).map (·.symbol)) (hn : syms.Nodup) (n : Nat) (h3 : 3 ≤ n) (name : Option Str) (m : M Min.St) :
    minimal u l D os syms protos objs n (str% "gdo_load_library_and_symbols") [.ofStr name] m =
      .ok (match (Min.load os.loader syms name m.g).1 with
        | none => .null
        | some e => .str e.text) ⟨(Min.load os.loader syms name m.g).2, m.frames⟩ := by
  obtain ⟨k, rfl⟩ : ∃ k, n = k + 3 := ⟨n - 3, by omega⟩
  show link _ _ (k + 1 + 1 + 1) _ _ _ = _
  unfold link
  rw [lookup_inst, (lookup_minimal h).2, show (minSem u l os syms).system (str% "gdo_load_library_and_symbols") = none by cases os <;> rfl]
  refine (min_load u l os syms _ _ (k + 1) (k + 2) (insts protos objs) (minSyms_insts hs hn) (fun m => C98_free u l D os syms protos objs h hs hn (k + 2) (by omega) m)
    name m.g m.frames).trans ?_
  cases (Min.load os.loader syms name m.g).1 <;> rfl

/-- A sequence of calls does what the model says. -/
theorem C98_run (h : MinConfig D os) (hs : syms = (protos ++ objs).map (·.symbol)) (hn : syms.Nodup) (n : Nat) (h3 : 3 ≤ n) (calls : List Min.Call) (s : Min.St) :
    minRun (minimal u l D os syms protos objs n) s calls = some (Min.run os.loader syms s calls) := by
  induction calls generalizing s with
  | nil => rfl
  | cons k r ih =>
    unfold minRun
    have e : ∃ v, minStep (minimal u l D os syms protos objs n) s k = .ok v ⟨Min.step os.loader syms s k, []⟩ := by
      cases k with
      | load x => exact ⟨_, C98_load u l D os syms protos objs h hs hn n h3 x ⟨s, []⟩⟩
      | free => exact ⟨_, C98_free u l D os syms protos objs h hs hn n (by omega) ⟨s, []⟩⟩
    obtain ⟨v, e⟩ := e
    rw [e]
    exact ih _

end

/-! ### Examples -/

example : MinConfig (fun w => w = str% "__linux__") (.dlfcn demoLoader) := ⟨by decide, by decide⟩
example : MinConfig (fun w => w = str% "_AIX") (.aix demoLoader) := ⟨by decide, by decide⟩

/-- Windows with a library that has `f` only. -/
def demoWindows : Win.Loader where
  load _ n k := if n = str% "x.dll" ∧ k = 0 then (some 100, 0) else (none, 126)
  sym _ _ n := if n = str% "f" then (some 7, 0) else (none, 127)
  free _ _ := (true, 0)
  fileName _ _ := (none, 6)
  format _ _ := none
  widen _ s := some s
  atexit _ := true

example : MinConfig (fun w => w = str% "_WIN32" ∨ w = str% "GDO_WINAPI") (.windows demoWindows) := ⟨by decide, by decide⟩

/-- The generated code for `f` and `g`; only `f` is in the library. -/
def demoMinimal : Str → List V → M Min.St → R Min.St V :=
  minimal (str% "MY") (str% "my") (fun _ => false) (.dlfcn demoLoader) [str% "f", str% "g"] demoProtos [] 3

/-- `g` is not found: the text says so, the library is closed. -/
example : (match demoMinimal (str% "gdo_load_library_and_symbols") [.str (str% "x")] ⟨{}, []⟩ with
    | .ok v m => some (v, m.g.handle, m.g.ptr 0, m.g.log)
    | _ => none) = some (.str (str% "failed to load symbol: g"), none, none,
      [.opened 100, .sym 100 (str% "f") (some 7), .sym 100 (str% "g") none, .closed 100 true true]) := by decide +kernel

example : (match demoMinimal (str% "gdo_load_library_and_symbols") [.null] ⟨{}, []⟩ with
    | .ok v m => some (v, m.g.log)
    | _ => none) = some (.str (str% "filename is <NULL>"), []) := by decide +kernel

/-- The same on Windows. -/
example : (match minimal (str% "MY") (str% "my") (fun w => w = str% "GDO_WINAPI") (.windows demoWindows) [str% "f", str% "g"] demoProtos [] 3
      (str% "gdo_load_library_and_symbols") [.str (str% "x.dll")] ⟨{}, []⟩ with
    | .ok v m => some (v, m.g.handle, m.g.ptr 0, m.g.log)
    | _ => none) = some (.str (str% "failed to load symbol: g"), none, none,
      [.opened 100, .sym 100 (str% "f") (some 7), .sym 100 (str% "g") none, .closed 100 true true]) := by decide +kernel

example (calls : List Min.Call) : minRun demoMinimal {} calls = some (Min.run demoLoader [str% "f", str% "g"] {} calls) :=
  C98_run _ _ _ (.dlfcn demoLoader) _ _ _ ⟨rfl, rfl⟩ demoSyms.1 demoSyms.2 3 (by decide) calls {}

/-- The code has a structure, a variable and two functions. -/
example : (minimalProg fun _ => false).length = 4 := by decide +kernel

end Gdo.Cc
