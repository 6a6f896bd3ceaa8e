import Verif.Lemmas.CCxxeh
import Verif.Lemmas.CProgCxxText
import Verif.Props.CMin

/-!
Property C103: what the generated minimal C++ header means and does.  The text is the code of
`Verif/Model/CProgCxx.lean`; executing it step by step as described in
`Verif/Spec/CSem.lean` gives the results of the model of the functions
(`Verif/Model/Minimal.lean`), with the errors as exceptions, for dlfcn, AIX and Windows.
-/

set_option maxRecDepth 10000

namespace Gdo.Cc
open Gdo Tpl Opt Gen Tmpl Sub Rename Builtin CForm Rt

/-! ### The text -/

/-- The tokens that the compiler gets of the text are those of the code, with the names
    of the functions and objects filled in and with the prefix that was asked for. -/
theorem C103_text (u l : Str) (names : ParamNames) (protos objs : List Proto) (D : Str → Bool) (hu : ∀ c ∈ u, isWord c = true)
    (hl : ∀ c ∈ l, isWord c = true) (hln : l ≠ []) (hd : ∀ p ∈ protos ++ objs, Named p) :
    ∃ ts out, progToks ((cxxehProg fun w => D (newName u l w)).map (Top.inst (insts protos objs))) = some (ts.map .tok) ∧
      preprocess D (unlines (instantiate u l names protos objs (lines .minCxxHeader))) = some out ∧ closeAll u l ts = some out := by
  have := (cxxehProg_seg names).sound hu hl hln (instsOk hd) D
  simpa [instantiate, Builtin.texts] using this

/-- The part of the header that is written for the format `minimal-c++` is this code. -/
theorem C103_written (env : Env) (s : Settings) (hb : ∀ t, compiledList t = some (env.builtin t)) (hp : PrefixOk s.pfx)
    (ht : s.templatesPath = []) (hline : s.lineDirective = false) (hf : s.format = .minimalCxx)
    (hd : ∀ p ∈ env.symbols.protos ++ env.symbols.objs, PlainData p ∧ Named p)
    (hne : env.symbols.protos ++ env.symbols.objs ≠ []) (D : Str → Bool) :
    ∃ N, ∀ n, N ≤ n → ∃ css k ts out, headerSubst { env with n } s = .ok (css, k) ∧
      progToks ((cxxehProg fun w => D (newName (toUpper s.pfx) (toLower s.pfx) w)).map
        (Top.inst (insts env.symbols.protos env.symbols.objs))) = some (ts.map .tok) ∧
      preprocess D (bytes css.flatten.flatten) = some out ∧ closeAll (toUpper s.pfx) (toLower s.pfx) ts = some out := by
  obtain ⟨N, h⟩ := C94_processed env s hb hp ht (fun p hp => (hd p hp).1) hne
  refine ⟨N, fun n hn => ?_⟩
  obtain ⟨css, k, bss, j, e1, _, _, _, e3⟩ := h n hn
  obtain ⟨ts, out, a1, a2, a3⟩ := C103_text (toUpper s.pfx) (toLower s.pfx) s.names env.symbols.protos env.symbols.objs D
    (Pfx.C30_upper _) (Pfx.C30_lower _) (prefix_ne hp) (fun p hp => (hd p hp).2)
  refine ⟨css, k, ts, out, e1, a1, ?_, a3⟩
  rw [(e3 hline).1]
  have : (listNames s).1 = [.minCxxHeader] := by
    unfold listNames
    rw [hf]
    rfl
  rw [this, ← a2]
  unfold allText
  rw [List.flatMap_cons, List.flatMap_nil, List.append_nil]

/-! ### The execution -/

/-- The generated code with which the library is used: what a call of a function does when
    at most `n` calls are made inside of each other. -/
abbrev minimalCxx (u l : Str) (D : Str → Bool) (os : Min.Os) (syms : List Str) (protos objs : List Proto) (n : Nat) : Str → List V → M Min.St → R Min.St V :=
  link (cxxehSem u l os syms) ((lift (cxxehProg D)).map (Top.inst (insts protos objs))) n

/-- A call of a function of the code: the state afterwards and the exception that left it,
    its class and what it says; `none` if the behaviour is undefined. -/
def cxxehStep (call : Str → List V → M Min.St → R Min.St V) (s : Min.St) (k : Min.Call) : Option (Min.St × Option (Str × Str)) :=
  match (match k with
    | .load n => call (str% "load_library_and_symbols") [.ofStr n] ⟨s, []⟩
    | .free => call (str% "free_library") [] ⟨s, []⟩) with
  | .ok _ m => some (m.g, none)
  | .thrown x t m => some (m.g, some (x, t))
  | _ => none

/-- A sequence of calls, each of which may throw. -/
def cxxehRun (call : Str → List V → M Min.St → R Min.St V) (s : Min.St) : List Min.Call → Option Min.St
  | [] => some s
  | k :: r => (cxxehStep call s k).bind fun x => cxxehRun call x.1 r

section
variable (u l : Str) (D : Str → Bool) (os : Min.Os) (syms : List Str) (protos objs : List Proto)

theorem lift_cxxeh {D : Str → Bool} {os : Min.Os} (h : MinConfig D os) :
    lift (cxxehProg D) = [.space (str% "gdo"), Cxxeh.pointers, Cxxeh.handle os.isWin, Cxxeh.free_library os.isWin, .exception (str% "LibraryError"),
      .exception (str% "SymbolError"), Cxxeh.load_library_and_symbols os.isWin os.isAix] ++
        (lambdas (fnOf (Cxxeh.load_library_and_symbols os.isWin os.isAix)).body ++ [.spaceEnd]) := by
  unfold cxxehProg
  rw [h.winapi, h.aix]
  cases os <;> rfl

theorem cxxeh_isFn {D : Str → Bool} {os : Min.Os} (h : MinConfig D os) (I : Insts) :
    (fun w => (lookup w ((lift (cxxehProg D)).map (Top.inst I))).isSome) = cxxehFns := by
  funext w
  rw [lookup_inst, lift_cxxeh h, Option.isSome_map]
  have : ∀ (a b c : Str), (if a = w then some (fnOf (Cxxeh.free_library os.isWin)) else
      if b = w then some (fnOf (Cxxeh.load_library_and_symbols os.isWin os.isAix)) else
      if c = w then (lookup c (lambdas (fnOf (Cxxeh.load_library_and_symbols os.isWin os.isAix)).body)) else none).isSome =
        (w = a || w = b || (w = c && (lookup c (lambdas (fnOf (Cxxeh.load_library_and_symbols os.isWin os.isAix)).body)).isSome)) := by
    intro a b c
    by_cases ha : a = w
    · simp [ha]
    · have ha' : ¬ w = a := fun e => ha e.symm
      by_cases hb : b = w
      · simp [ha, hb, ha']
      · have hb' : ¬ w = b := fun e => hb e.symm
        by_cases hc : c = w
        · simp [ha, hb, hc, ha', hb']
        · have hc' : ¬ w = c := fun e => hc e.symm
          simp [ha, hb, hc, ha', hb', hc']
  have e := this (str% "free_library") (str% "load_library_and_symbols") (str% "load_symbol")
  unfold cxxehFns
  cases os <;> simpa [lookup, lambdas, Cxxeh.pointers, Cxxeh.handle, Cxxeh.free_library, Cxxeh.load_library_and_symbols, Cxxeh.load_symbol, fnOf,
    Min.Os.isWin, Min.Os.isAix] using e

theorem lookup_minimalCxx {D : Str → Bool} {os : Min.Os} (h : MinConfig D os) :
    lookup (str% "free_library") (lift (cxxehProg D)) = some (fnOf (Cxxeh.free_library os.isWin)) ∧
    lookup (str% "load_library_and_symbols") (lift (cxxehProg D)) = some (fnOf (Cxxeh.load_library_and_symbols os.isWin os.isAix)) ∧
    lookup (str% "load_symbol") (lift (cxxehProg D)) = some ⟨[], str% "load_symbol", [([w! "const", w! "char", p! "*"], str% "symbol")],
      if os.isWin then [.ret (some (.rcast [w! "void", p! "*"] (.global (str% "GetProcAddress") [.id (.fixed (str% "handle")), .id (.fixed (str% "symbol"))])))]
      else [.ret (some (.global (str% "dlsym") [.id (.fixed (str% "handle")), .id (.fixed (str% "symbol"))]))]⟩ := by
  rw [lift_cxxeh h]
  cases os <;> exact ⟨rfl, rfl, rfl⟩

/-- `free_library` does what the model says, in every state, also when it is called by
    another function; it throws nothing. -/
theorem C103_free (h : MinConfig D os) (hs : syms = (protos ++ objs).map (·.symbol)) (hn : syms.Nodup) (n : Nat) (h2 : 2 ≤ n) (m : M Min.St) :
    minimalCxx u l D os syms protos objs n (str% "free_library") [] m = .ok .void ⟨Min.free os.loader syms m.g, m.frames⟩ := by
  obtain ⟨k, rfl⟩ : ∃ k, n = k + 2 := ⟨n - 2, by omega⟩
  show link _ _ (k + 1 + 1) _ _ _ = _
  unfold link
  rw [cxxeh_isFn h, lookup_inst, (lookup_minimalCxx h).1, show (cxxehSem u l os syms).system (str% "free_library") = none by cases os <;> rfl]
  exact cxxeh_free u l os syms _ k (k + 1) (minSyms_insts hs hn) m.g m.frames

theorem cxxehCalls (h : MinConfig D os) (hs : syms = (protos ++ objs).map (·.symbol)) (hn : syms.Nodup) (k : Nat) :
    CxxehCalls u l os syms ((lift (cxxehProg D)).map (Top.inst (insts protos objs))) (k + 1) := by
  refine ⟨fun m => C103_free u l D os syms protos objs h hs hn (k + 2) (by omega) m, fun s x hx name fr => ?_⟩
  show link _ _ (k + 1 + 1) _ _ _ = _
  unfold link
  rw [cxxeh_isFn h, lookup_inst, (lookup_minimalCxx h).2.2, show (cxxehSem u l os syms).system (str% "load_symbol") = none by cases os <;> rfl]
  exact cxxeh_symbol u l os syms ((lift (cxxehProg D)).map (Top.inst (insts protos objs))) k (k + 1) (insts protos objs) s x hx name fr
    [w! "const", w! "char", p! "*"]

/-- `load_library_and_symbols` does what the model says: it returns, or it throws an
    exception of the class and with the message of the error. -/
theorem C103_load (h : MinConfig D os) (hs : syms = (protos ++ objs).map (·.symbol)) (hn : syms.Nodup) (n : Nat) (h3 : 3 ≤ n) (name : Option Str) (m : M Min.St) :
    minimalCxx u l D os syms protos objs n (str% "load_library_and_symbols") [.ofStr name] m =
      match (Min.load os.loader syms name m.g).1 with
      | none => .ok .void ⟨(Min.load os.loader syms name m.g).2, m.frames⟩
      | some e => .thrown (excOf e.exn).1 (excOf e.exn).2 ⟨(Min.load os.loader syms name m.g).2, m.frames⟩ := by
  obtain ⟨k, rfl⟩ : ∃ k, n = k + 3 := ⟨n - 3, by omega⟩
  show link _ _ (k + 1 + 1 + 1) _ _ _ = _
  unfold link
  rw [cxxeh_isFn h, lookup_inst, (lookup_minimalCxx h).2.1, show (cxxehSem u l os syms).system (str% "load_library_and_symbols") = none by cases os <;> rfl]
  exact cxxeh_load u l os syms _ (k + 1) (k + 2) (insts protos objs) (minSyms_insts hs hn) (cxxehCalls u l D os syms protos objs h hs hn k) name m.g m.frames

/-- What a call does, seen from outside. -/
theorem C103_step (h : MinConfig D os) (hs : syms = (protos ++ objs).map (·.symbol)) (hn : syms.Nodup) (n : Nat) (h3 : 3 ≤ n) (k : Min.Call) (s : Min.St) :
    cxxehStep (minimalCxx u l D os syms protos objs n) s k = some (Min.step os.loader syms s k,
      match k with
      | .load name => (Min.load os.loader syms name s).1.map fun e => excOf e.exn
      | .free => none) := by
  unfold cxxehStep
  cases k with
  | load x =>
    have e := C103_load u l D os syms protos objs h hs hn n h3 x ⟨s, []⟩
    dsimp only at e ⊢
    rw [e]
    unfold Min.step
    cases (Min.load os.loader syms x s).1 <;> rfl
  | free =>
    dsimp only
    rw [C103_free u l D os syms protos objs h hs hn n (by omega) ⟨s, []⟩]
    rfl

/-- A sequence of calls does what the model says. -/
theorem C103_run (h : MinConfig D os) (hs : syms = (protos ++ objs).map (·.symbol)) (hn : syms.Nodup) (n : Nat) (h3 : 3 ≤ n) (calls : List Min.Call) (s : Min.St) :
    cxxehRun (minimalCxx u l D os syms protos objs n) s calls = some (Min.run os.loader syms s calls) := by
  induction calls generalizing s with
  | nil => rfl
  | cons k r ih =>
    unfold cxxehRun
    rw [C103_step u l D os syms protos objs h hs hn n h3]
    exact ih _

end

/-! ### Examples -/

/-- The generated code for `f` and `g`; only `f` is in the library. -/
def demoCxxeh : Str → List V → M Min.St → R Min.St V :=
  minimalCxx (str% "MY") (str% "my") (fun _ => false) (.dlfcn demoLoader) [str% "f", str% "g"] demoProtos [] 3

/-- `g` is not found: the exception says so, the library is closed. -/
example : ((cxxehStep demoCxxeh {} (.load (some (str% "x")))).map fun p => (p.2, p.1.handle, p.1.ptr 0, p.1.log)) =
    some (some (str% "SymbolError", str% "g"), none, none,
      [.opened 100, .sym 100 (str% "f") (some 7), .sym 100 (str% "g") none, .closed 100 true true]) := by decide +kernel

example : ((cxxehStep demoCxxeh {} (.load none)).map fun p => (p.2, p.1.log)) = some (some (str% "LibraryError", str% "<NULL>"), []) := by decide +kernel

/-- The same on Windows. -/
example : ((cxxehStep (minimalCxx (str% "MY") (str% "my") (fun w => w = str% "GDO_WINAPI") (.windows demoWindows) [str% "f", str% "g"] demoProtos [] 3) {}
      (.load (some (str% "x.dll")))).map fun p => (p.2, p.1.handle, p.1.ptr 0, p.1.log)) =
    some (some (str% "SymbolError", str% "g"), none, none,
      [.opened 100, .sym 100 (str% "f") (some 7), .sym 100 (str% "g") none, .closed 100 true true]) := by decide +kernel

/-- A library that is not there. -/
example : ((cxxehStep (minimalCxx (str% "MY") (str% "my") (fun w => w = str% "GDO_WINAPI") (.windows demoWindows) [str% "f"] demoProtos.tail [] 3) {}
      (.load (some (str% "y.dll")))).map fun p => (p.2, p.1.log)) = some (some (str% "LibraryError", str% "y.dll"), []) := by decide +kernel

example (calls : List Min.Call) : cxxehRun demoCxxeh {} calls = some (Min.run demoLoader [str% "f", str% "g"] {} calls) :=
  C103_run _ _ _ (.dlfcn demoLoader) _ _ _ ⟨rfl, rfl⟩ demoSyms.1 demoSyms.2 3 (by decide) calls {}

/-- The code: a namespace with the pointers, the handle, two classes and two functions. -/
example : (cxxehProg fun _ => false).length = 8 := by decide +kernel

end Gdo.Cc
