import Verif.Props.CMacroUnit

/-!
C112: the wrapper functions in the generated header: where a preprocessor reaches their
definitions, and what the macros that they are written with stand for there.
-/

set_option maxRecDepth 20000

namespace Gdo.Cpp
open Gdo Rename Tmpl Builtin Gdo.Sub Opt Tpl Gen Pfx Clean

variable {u l : Str} {E E' E1 E2 : Str → Option Macro} {inc : List T → Table} {D : Str → Bool} {protos objs : List Proto}

/-! ### Places in a text -/

/-- Whole lines, and the state of the preprocessor before and behind them. -/
def Runs (inc : List T → Table) (D : Str → Bool) (s : Table × List Cc.Cond) (a : Str) (s' : Table × List Cc.Cond) : Prop :=
  a = [] ∧ s' = s ∨ ∃ x, Whole a x ∧ runLines inc D s (splitLines x) = some s'

/-- In the text there are the lines `code`, where the preprocessor takes them: all
    conditionals around them are true.  `E1`: the macros in front of them. -/
def Reaches (inc : List T → Table) (E : Str → Option Macro) (text code : Str) (E1 : Str → Option Macro) : Prop :=
  ∃ a b t st, text = a ++ (code ++ b) ∧ (∀ rest, run inc (fun x => (E x).isSome) ([], []) (a ++ rest) = run inc (fun x => (E x).isSome) (t, st) rest) ∧
    Cc.active st = true ∧ E1 = known E t

/-- The same with whole lines in front. -/
def Meets (inc : List T → Table) (E : Str → Option Macro) (text code : Str) (E1 : Str → Option Macro) : Prop :=
  ∃ a b t st, text = a ++ (code ++ b) ∧ Runs inc (fun x => (E x).isSome) ([], []) a (t, st) ∧ Cc.active st = true ∧ E1 = known E t

theorem Runs.append {s s1 s2 : Table × List Cc.Cond} {a b : Str} (ha : Runs inc D s a s1) (hb : Runs inc D s1 b s2) : Runs inc D s (a ++ b) s2 := by
  rcases ha with ⟨rfl, rfl⟩ | ⟨x, wx, hx⟩
  · exact hb
  · rcases hb with ⟨rfl, rfl⟩ | ⟨y, wy, hy⟩
    · rw [List.append_nil]
      exact .inr ⟨x, wx, hx⟩
    · refine .inr ⟨_, whole_append wx wy, ?_⟩
      rw [nlT, splitLines_append, runLines_append, hx]
      exact hy

/-- Inside of conditionals that are true. -/
theorem Runs.base {t t' : Table} {st st' base : List Cc.Cond} {a : Str} (h : Runs inc D (t, st) a (t', st')) (hb : Cc.active base = true) :
    Runs inc D (t, st ++ base) a (t', st' ++ base) := by
  rcases h with ⟨rfl, e⟩ | ⟨x, wx, hx⟩
  · cases e
    exact .inl ⟨rfl, rfl⟩
  · exact .inr ⟨x, wx, runLines_base hb hx⟩

/-- Inside of a conditional that is false. -/
theorem Runs.off {t t' : Table} {base : List Cc.Cond} {a : Str} (h : Runs inc D ([], []) a (t', [])) (hb : Cc.active base = false) : Runs inc D (t, base) a (t, base) := by
  rcases h with ⟨rfl, e⟩ | ⟨x, wx, hx⟩
  · exact .inl ⟨rfl, rfl⟩
  · obtain ⟨st2, e1, e2⟩ := runLines_off (inc' := inc) (D' := D) (s := t) hb (st2 := []) hx rfl (by simp)
    rw [List.map_nil, List.map_eq_nil_iff] at e2
    subst e2
    exact .inr ⟨x, wx, e1⟩

/-- Behind other definitions. -/
theorem Runs.start {t t' : Table} {st st' : List Cc.Cond} {a : Str} (h : Runs inc (fun x => (known E t x).isSome) ([], st) a (t', st')) :
    Runs inc (fun x => (E x).isSome) (t, st) a (t' ++ t, st') := by
  rcases h with ⟨rfl, e⟩ | ⟨x, wx, hx⟩
  · cases e
    exact .inl ⟨rfl, rfl⟩
  · refine .inr ⟨x, wx, ?_⟩
    rw [runLines_start, ← isDefined_known, hx]
    rfl

theorem runs_harmless {X : List Str} {a : Str} (h : Harmless inc X a) (D : Str → Bool) : ∃ t, Runs inc D ([], []) a (t, []) ∧ ∀ y ∈ X, t.lookup y = none := by
  rcases h with rfl | ⟨x, wx, hx⟩
  · exact ⟨[], .inl ⟨rfl, rfl⟩, fun _ _ => rfl⟩
  · obtain ⟨t, e1, e2⟩ := hx D
    exact ⟨t, .inr ⟨x, wx, e1⟩, e2⟩

theorem Meets.here (inc : List T → Table) (E : Str → Option Macro) (code b : Str) : Meets inc E (code ++ b) code E :=
  ⟨[], b, [], [], rfl, .inl ⟨rfl, rfl⟩, rfl, rfl⟩

theorem Meets.more {text code : Str} (h : Meets inc E text code E1) (c : Str) : Meets inc E (text ++ c) code E1 := by
  obtain ⟨a, b, t, st, rfl, h⟩ := h
  exact ⟨a, b ++ c, t, st, by simp, h⟩

/-- Behind whole lines with closed conditionals. -/
theorem Meets.front {text code a : Str} {t : Table} (ha : Runs inc (fun x => (E x).isSome) ([], []) a (t, [])) (h : Meets inc (known E t) text code E1) :
    Meets inc E (a ++ text) code E1 := by
  obtain ⟨a', b, t', st, rfl, h1, h2, rfl⟩ := h
  exact ⟨a ++ a', b, t' ++ t, st, by simp, ha.append h1.start, h2, known_append E t' t⟩

/-- Behind text that leaves macros alone. -/
theorem Meets.lead {P : (Str → Option Macro) → Prop} {X : List Str} {text a : Str} {code : (Str → Option Macro) → Str} (ha : Harmless inc X a)
    (h : ∀ E0 : Str → Option Macro, (∀ y ∈ X, E0 y = E y) → ∃ E1 : Str → Option Macro, Meets inc E0 text (code E1) E1 ∧ P E1) : ∃ E1, Meets inc E (a ++ text) (code E1) E1 ∧ P E1 := by
  obtain ⟨t, h1, h2⟩ := runs_harmless ha fun x => (E x).isSome
  obtain ⟨E1, h3, h4⟩ := h (known E t) fun y hy => by unfold known; rw [h2 y hy]
  exact ⟨E1, h3.front h1, h4⟩

/-- Behind the lines that begin a group that is taken. -/
theorem Meets.inside {text code a : Str} {base : List Cc.Cond} (ha : Runs inc (fun x => (E x).isSome) ([], []) a ([], base)) (hb : Cc.active base = true)
    (h : Meets inc E text code E1) : Meets inc E (a ++ text) code E1 := by
  obtain ⟨a', b, t', st, rfl, h1, h2, rfl⟩ := h
  exact ⟨a ++ a', b, t', st ++ base, by simp, ha.append (h1.base hb), by rw [active_base hb]; exact h2, rfl⟩

/-! ### The text of a wrapper -/

/-- The definition of the wrapper of a function, c.h 263-268. -/
def wrapperText (u : Str) (p : Proto) : Str :=
  str% "    " ++ u ++ str% "_WRAP_DECL /* wrapper function */\n    " ++ p.type ++ (if isPointer p.type then [] else str% " ") ++ u ++ str% "_WRAP(" ++ p.symbol ++ str% ") (" ++
    p.args ++ str% ") {\n        _" ++ u ++ str% "_WRAP_CHECK_LOADED( " ++ p.symbol ++ str% " );\n        " ++ u ++ str% "_HOOK_" ++ p.symbol ++ str% "( " ++ p.paramNames ++
    str% " );\n        " ++ (if isVoid p.type then [] else str% "return ") ++ u ++ str% "_RAWPTR_" ++ p.symbol ++ str% "( " ++ p.paramNames ++ str% " );\n    }\n"

/-- The same for a function with variable arguments and a compiler that can pass them on, c.h 248-254. -/
def inlineText (u : Str) (p : Proto) : Str :=
  str% "    /* inline function (always inlined) */\n    extern inline __attribute__ ((__gnu_inline__))\n    " ++ p.type ++ (if isPointer p.type then [] else str% " ") ++ u ++ str% "_WRAP(" ++
    p.symbol ++ str% ") (" ++ p.args ++ str% ") {\n        _" ++ u ++ str% "_WRAP_CHECK_LOADED( " ++ p.symbol ++ str% " );\n        " ++ u ++ str% "_HOOK_" ++ p.symbol ++ str% "( " ++
    p.paramNames ++ str% ", __builtin_va_arg_pack() );\n        " ++ (if isVoid p.type then [] else str% "return ") ++ u ++ str% "_RAWPTR_" ++ p.symbol ++ str% "( " ++ p.paramNames ++
    str% ", __builtin_va_arg_pack() );\n    }\n"

/-- The macro that takes its place for other compilers, c.h 256-259. -/
def macroText (u : Str) (p : Proto) : Str :=
  str% "#  define " ++ u ++ str% "_WRAP_" ++ p.symbol ++ str% "(...) \\\n    (_" ++ u ++ str% "_WRAP_CHECK_LOADED( " ++ p.symbol ++ str% " ),\\\n     (" ++ u ++ str% "_HOOK_" ++ p.symbol ++
    str% "( __VA_ARGS__ )),\\\n      " ++ u ++ str% "_RAWPTR_" ++ p.symbol ++ str% "( __VA_ARGS__ ))\n"

/-- The name of the macro that says that a function has variable arguments. -/
def vaName (u s : Str) : Str := u ++ (str% "_" ++ (str% "HAS_VA_ARGS_" ++ s))

/-- The name of the macro that says that the compiler can pass on variable arguments. -/
def packName (u : Str) : Str := u ++ (str% "_" ++ str% "BUILTIN_VA_ARG_PACK")

/-- The wrapper of a function, where the macros `E` are defined. -/
def wrapCode (E : Str → Option Macro) (u : Str) (p : Proto) : Str :=
  if (E (vaName u p.symbol)).isSome then (if (E (packName u)).isSome then inlineText u p else macroText u p) else wrapperText u p

/-- The lines for each function. -/
def wrapBlock : Str := (midEntries .create).getD 54 []

def blockLines : List (List Part) := splitNl (parts wrapBlock)

theorem block_split : blockLines = blockLines.take 2 ++ (blockLines.drop 2).take 1 ++ (blockLines.drop 3).take 14 ++ (blockLines.drop 17).take 1 ++ (blockLines.drop 18).take 6 ++ blockLines.drop 24 := by
  decide +kernel

theorem block_code : (blockLines.drop 18).take 6 =
    [[.other ' ', .other ' ', .other ' ', .other ' ', .word (str% "GDO_WRAP_DECL"), .other ' ', .other '/', .other '*', .other ' ', .word (str% "wrapper"), .other ' ', .word (str% "function"),
      .other ' ', .other '*', .other '/'],
     [.other ' ', .other ' ', .other ' ', .other ' ', .kw (str% "type"), .other ' ', .word (str% "GDO_WRAP"), .other '(', .kw (str% "func_symbol"), .other ')', .other ' ', .other '(',
      .kw (str% "args"), .other ')', .other ' ', .other '{'],
     [.other ' ', .other ' ', .other ' ', .other ' ', .other ' ', .other ' ', .other ' ', .other ' ', .word (str% "_GDO_WRAP_CHECK_LOADED"), .other '(', .other ' ', .kw (str% "func_symbol"),
      .other ' ', .other ')', .other ';'],
     [.other ' ', .other ' ', .other ' ', .other ' ', .other ' ', .other ' ', .other ' ', .other ' ', .word (str% "GDO_HOOK_"), .kw (str% "func_symbol"), .other '(', .other ' ',
      .kw (str% "param_names"), .other ' ', .other ')', .other ';'],
     [.other ' ', .other ' ', .other ' ', .other ' ', .other ' ', .other ' ', .other ' ', .other ' ', .kw (str% "return"), .other ' ', .word (str% "GDO_RAWPTR_"), .kw (str% "func_symbol"),
      .other '(', .other ' ', .kw (str% "param_names"), .other ' ', .other ')', .other ';'],
     [.other ' ', .other ' ', .other ' ', .other ' ', .other '}']] := by
  decide +kernel

theorem block_if : (blockLines.drop 2).take 1 = [[.other '#', .word (str% "ifdef"), .other ' ', .word (str% "GDO_HAS_VA_ARGS_"), .kw (str% "func_symbol")]] := by decide +kernel

theorem block_else : (blockLines.drop 17).take 1 =
    [[.other '#', .word (str% "else"), .other ' ', .other '/', .other '/', .other '!', .word (str% "GDO_HAS_VA_ARGS_"), .kw (str% "func_symbol")]] := by decide +kernel

theorem code_text (u l : Str) (w : Nat) (p : Proto) : ((blockLines.drop 18).take 6).flatMap (physText u l (functionValues w p)) = wrapperText u p := by
  rw [block_code]
  have e1 : newName u l (str% "GDO_WRAP_DECL") = u ++ str% "_WRAP_DECL" := newName_upper u l (str% "WRAP_DECL")
  have e2 : newName u l (str% "GDO_WRAP") = u ++ str% "_WRAP" := newName_upper u l (str% "WRAP")
  have e3 : newName u l (str% "GDO_HOOK_") = u ++ str% "_HOOK_" := newName_upper u l (str% "HOOK_")
  have e4 : newName u l (str% "GDO_RAWPTR_") = u ++ str% "_RAWPTR_" := newName_upper u l (str% "RAWPTR_")
  have e5 : newName u l (str% "_GDO_WRAP_CHECK_LOADED") = str% "_" ++ (u ++ str% "_WRAP_CHECK_LOADED") := newName_under u l (str% "WRAP_CHECK_LOADED")
  have e6 : newName u l (str% "wrapper") = str% "wrapper" := newName_fixed (by decide)
  have e7 : newName u l (str% "function") = str% "function" := newName_fixed (by decide)
  unfold wrapperText physText
  cases h1 : isPointer p.type <;> cases h2 : isVoid p.type <;>
    simp [fillIn, functionValues, e1, e2, e3, e4, e5, e6, e7, h1, h2]

theorem skip_split : (blockLines.drop 3).take 14 = (blockLines.drop 3).take 1 ++ (blockLines.drop 4).take 7 ++ (blockLines.drop 11).take 1 ++ (blockLines.drop 12).take 4 ++ (blockLines.drop 16).take 1 := by
  decide +kernel

theorem inline_lines : (blockLines.drop 4).take 7 =
    [[.other ' ', .other ' ', .other ' ', .other ' ', .other '/', .other '*', .other ' ', .word (str% "inline"), .other ' ', .word (str% "function"), .other ' ', .other '(',
      .word (str% "always"), .other ' ', .word (str% "inlined"), .other ')', .other ' ', .other '*', .other '/'],
     [.other ' ', .other ' ', .other ' ', .other ' ', .word (str% "extern"), .other ' ', .word (str% "inline"), .other ' ', .word (str% "__attribute__"), .other ' ', .other '(', .other '(',
      .word (str% "__gnu_inline__"), .other ')', .other ')'],
     [.other ' ', .other ' ', .other ' ', .other ' ', .kw (str% "type"), .other ' ', .word (str% "GDO_WRAP"), .other '(', .kw (str% "func_symbol"), .other ')', .other ' ', .other '(',
      .kw (str% "args"), .other ')', .other ' ', .other '{'],
     [.other ' ', .other ' ', .other ' ', .other ' ', .other ' ', .other ' ', .other ' ', .other ' ', .word (str% "_GDO_WRAP_CHECK_LOADED"), .other '(', .other ' ', .kw (str% "func_symbol"),
      .other ' ', .other ')', .other ';'],
     [.other ' ', .other ' ', .other ' ', .other ' ', .other ' ', .other ' ', .other ' ', .other ' ', .word (str% "GDO_HOOK_"), .kw (str% "func_symbol"), .other '(', .other ' ',
      .kw (str% "param_names"), .other ',', .other ' ', .word (str% "__builtin_va_arg_pack"), .other '(', .other ')', .other ' ', .other ')', .other ';'],
     [.other ' ', .other ' ', .other ' ', .other ' ', .other ' ', .other ' ', .other ' ', .other ' ', .kw (str% "return"), .other ' ', .word (str% "GDO_RAWPTR_"), .kw (str% "func_symbol"),
      .other '(', .other ' ', .kw (str% "param_names"), .other ',', .other ' ', .word (str% "__builtin_va_arg_pack"), .other '(', .other ')', .other ' ', .other ')', .other ';'],
     [.other ' ', .other ' ', .other ' ', .other ' ', .other '}']] := by
  decide +kernel

theorem macro_lines : (blockLines.drop 12).take 4 =
    [[.other '#', .other ' ', .other ' ', .word (str% "define"), .other ' ', .word (str% "GDO_WRAP_"), .kw (str% "func_symbol"), .other '(', .other '.', .other '.', .other '.', .other ')',
      .other ' ', .other '\\'],
     [.other ' ', .other ' ', .other ' ', .other ' ', .other '(', .word (str% "_GDO_WRAP_CHECK_LOADED"), .other '(', .other ' ', .kw (str% "func_symbol"), .other ' ', .other ')', .other ',',
      .other '\\'],
     [.other ' ', .other ' ', .other ' ', .other ' ', .other ' ', .other '(', .word (str% "GDO_HOOK_"), .kw (str% "func_symbol"), .other '(', .other ' ', .word (str% "__VA_ARGS__"),
      .other ' ', .other ')', .other ')', .other ',', .other '\\'],
     [.other ' ', .other ' ', .other ' ', .other ' ', .other ' ', .other ' ', .word (str% "GDO_RAWPTR_"), .kw (str% "func_symbol"), .other '(', .other ' ', .word (str% "__VA_ARGS__"),
      .other ' ', .other ')', .other ')']] := by
  decide +kernel

theorem inline_text (u l : Str) (w : Nat) (p : Proto) : ((blockLines.drop 4).take 7).flatMap (physText u l (functionValues w p)) = inlineText u p := by
  rw [inline_lines]
  have e2 : newName u l (str% "GDO_WRAP") = u ++ str% "_WRAP" := newName_upper u l (str% "WRAP")
  have e3 : newName u l (str% "GDO_HOOK_") = u ++ str% "_HOOK_" := newName_upper u l (str% "HOOK_")
  have e4 : newName u l (str% "GDO_RAWPTR_") = u ++ str% "_RAWPTR_" := newName_upper u l (str% "RAWPTR_")
  have e5 : newName u l (str% "_GDO_WRAP_CHECK_LOADED") = str% "_" ++ (u ++ str% "_WRAP_CHECK_LOADED") := newName_under u l (str% "WRAP_CHECK_LOADED")
  have f1 : newName u l (str% "inline") = str% "inline" := newName_fixed (by decide)
  have f2 : newName u l (str% "function") = str% "function" := newName_fixed (by decide)
  have f3 : newName u l (str% "always") = str% "always" := newName_fixed (by decide)
  have f4 : newName u l (str% "inlined") = str% "inlined" := newName_fixed (by decide)
  have f5 : newName u l (str% "extern") = str% "extern" := newName_fixed (by decide)
  have f6 : newName u l (str% "__attribute__") = str% "__attribute__" := newName_fixed (by decide)
  have f7 : newName u l (str% "__gnu_inline__") = str% "__gnu_inline__" := newName_fixed (by decide)
  have f8 : newName u l (str% "__builtin_va_arg_pack") = str% "__builtin_va_arg_pack" := newName_fixed (by decide)
  unfold inlineText physText
  cases h1 : isPointer p.type <;> cases h2 : isVoid p.type <;>
    simp [fillIn, functionValues, e2, e3, e4, e5, f1, f2, f3, f4, f5, f6, f7, f8, h1, h2]

theorem macro_text (u l : Str) (w : Nat) (p : Proto) : ((blockLines.drop 12).take 4).flatMap (physText u l (functionValues w p)) = macroText u p := by
  rw [macro_lines]
  have e2 : newName u l (str% "GDO_WRAP_") = u ++ str% "_WRAP_" := newName_upper u l (str% "WRAP_")
  have e3 : newName u l (str% "GDO_HOOK_") = u ++ str% "_HOOK_" := newName_upper u l (str% "HOOK_")
  have e4 : newName u l (str% "GDO_RAWPTR_") = u ++ str% "_RAWPTR_" := newName_upper u l (str% "RAWPTR_")
  have e5 : newName u l (str% "_GDO_WRAP_CHECK_LOADED") = str% "_" ++ (u ++ str% "_WRAP_CHECK_LOADED") := newName_under u l (str% "WRAP_CHECK_LOADED")
  have f1 : newName u l (str% "define") = str% "define" := newName_fixed (by decide)
  have f2 : newName u l (str% "__VA_ARGS__") = str% "__VA_ARGS__" := newName_fixed (by decide)
  unfold macroText physText
  simp [fillIn, functionValues, e2, e3, e4, e5, f1, f2]

theorem pack_whole : wholeLines [str% "# ifdef GDO_BUILTIN_VA_ARG_PACK"] = some [[⟨true, .punct (str% "#")⟩, ⟨true, .ident (str% "ifdef")⟩, ⟨true, .ident (str% "GDO_BUILTIN_VA_ARG_PACK")⟩]] := by
  decide +kernel

theorem other_whole : wholeLines [str% "# else /* fall back to using a macro */"] = some [[⟨true, .punct (str% "#")⟩, ⟨true, .ident (str% "else")⟩]] := by decide +kernel

theorem fillIn_words (u l : Str) (v v' : Values) : ∀ (b : Bool) (g : List Part), g.all (fun q => match q with | .kw _ => false | _ => true) = true → fillIn u l v b g = fillIn u l v' b g
  | _, [], _ => rfl
  | _, .word _ :: r, h => by simp only [fillIn]; rw [fillIn_words u l v v' false r h]
  | b, .other _ :: r, h => by simp only [fillIn]; rw [fillIn_words u l v v' false r h]
  | _, .kw _ :: _, h => by simp at h

theorem plain_text (hp : Prefixes u l) {d : Str} (h : (parts d).all (fun q => match q with | .kw _ => false | _ => true) = true) (h1 : firstKind (parts d) = none) (v : Values) :
    [parts d].flatMap (physText u l v) = unlines ([d].map (renamedLine u l)) := by
  have e := written_plain hp [] [] h1
  unfold written at e
  dsimp only at e
  rw [h1] at e
  simp only [List.cons.injEq, and_true] at e
  rw [List.flatMap_cons, List.flatMap_nil, List.append_nil, physText, fillIn_words u l v _ false _ h, e]
  simp [unlines]

theorem if_text (u l : Str) (w : Nat) (p : Proto) : ((blockLines.drop 2).take 1).flatMap (physText u l (functionValues w p)) =
    '#' :: (str% "ifdef" ++ ' ' :: ((u ++ str% "_HAS_VA_ARGS_" ++ p.symbol) ++ ['\n'])) := by
  rw [block_if]
  have e1 : newName u l (str% "GDO_HAS_VA_ARGS_") = u ++ str% "_HAS_VA_ARGS_" := newName_upper u l (str% "HAS_VA_ARGS_")
  have e2 : newName u l (str% "ifdef") = str% "ifdef" := newName_fixed (by decide)
  simp [physText, fillIn, functionValues, e1, e2]

theorem else_text (u l : Str) (w : Nat) (p : Proto) : ((blockLines.drop 17).take 1).flatMap (physText u l (functionValues w p)) =
    str% "#else //" ++ '!' :: ((u ++ str% "_HAS_VA_ARGS_" ++ p.symbol) ++ '\n' :: []) := by
  rw [block_else]
  have e1 : newName u l (str% "GDO_HAS_VA_ARGS_") = u ++ str% "_HAS_VA_ARGS_" := newName_upper u l (str% "HAS_VA_ARGS_")
  have e2 : newName u l (str% "else") = str% "else" := newName_fixed (by decide)
  simp [physText, fillIn, functionValues, e1, e2]

theorem whole_else {g : Str} (h : ∀ c ∈ g, isWord c = true) : Whole (str% "#else //" ++ '!' :: (g ++ '\n' :: [])) [⟨true, .punct (str% "#")⟩, ⟨false, .ident (str% "else")⟩] := by
  refine ⟨?_, str% "#else //!" ++ g, by simp⟩
  rw [pieces_sep _ (by decide), lex_append]
  show (some _).bind _ = _
  rw [Option.bind_some]
  show ((lex .line (.other '!' :: pieces (g ++ '\n' :: []))).map _) = _
  rw [show lex .line (.other '!' :: pieces (g ++ '\n' :: [])) = lex .line (pieces (g ++ '\n' :: [])) from ?_, lex_line h]
  · rfl
  · rw [lex]
    show (lex .line _).map (fun b => (b.1, [] ++ b.2)) = _
    simp


/-! ### Lines in front -/

theorem Meets.reaches {text code : Str} (h : Meets inc E text code E1) : Reaches inc E text code E1 := by
  obtain ⟨a, b, t, st, e, h1, h2, h3⟩ := h
  refine ⟨a, b, t, st, e, fun rest => ?_, h2, h3⟩
  rcases h1 with ⟨rfl, e'⟩ | ⟨x, wx, hx⟩
  · cases e'
    rfl
  · rw [run_whole wx, hx]
    rfl

theorem Reaches.more {text code : Str} (h : Reaches inc E text code E1) (c : Str) : Reaches inc E (text ++ c) code E1 := by
  obtain ⟨a, b, t, st, rfl, h⟩ := h
  exact ⟨a, b ++ c, t, st, by simp, h⟩

theorem run_from (inc : List T → Table) (E : Str → Option Macro) (t t' : Table) (st : List Cc.Cond) (b : Str) :
    run inc (fun x => (E x).isSome) (t' ++ t, st) b = (run inc (fun x => (known E t x).isSome) (t', st) b).map fun s => (s.1 ++ t, s.2) := by
  unfold run
  generalize tokens b = y
  cases y with
  | none => rfl
  | some ts =>
    simp only [Option.bind_some]
    rw [isDefined_known]
    exact runLines_from inc _ t (splitLines ts) t' st

/-- Behind text whose definitions are known. -/
theorem Reaches.front {text code a : Str} {t : Table} (ha : ∀ rest, run inc (fun x => (E x).isSome) ([], []) (a ++ rest) = run inc (fun x => (E x).isSome) (t, []) rest)
    (h : Reaches inc (known E t) text code E1) : Reaches inc E (a ++ text) code E1 := by
  obtain ⟨a', b, t', st, rfl, h1, h2, rfl⟩ := h
  refine ⟨a ++ a', b, t' ++ t, st, by simp, fun rest => ?_, h2, known_append E t' t⟩
  rw [List.append_assoc, ha, run_from inc E t t', ← h1 rest]
  exact run_from inc E t [] [] _

theorem lines_harmless {X : List Str} {okA okB : Str → Bool} (hE : Env inc X u l okA okB) {val : Values} (hv : CalmValues val) (hS : ∃ s, Symbol X u l okB val s) {gs : List (List Part)}
    (hg : ∀ g ∈ gs, LineOk g) (h : walkLines okA okB true ⟨.code, [], []⟩ gs = some ⟨.code, [], []⟩) : Harmless inc X (gs.flatMap (physText u l val)) := by
  obtain ⟨a, c, e, r, k⟩ := walkLines_spec hE hv (fun _ => hS) hg h (c := []) ⟨rfl, .inl rfl⟩
  have k' : CalmText .code .code c := k
  rw [List.nil_append] at e
  rw [e]
  exact (r.append (acts_calm k' [])).harmless

/-- The other names that the wrappers are written with. -/
def wrapNamesOf (u s : Str) : List Str :=
  [u ++ (str% "_" ++ str% "WRAP"), u ++ (str% "_" ++ str% "WRAP_DECL"), u ++ (str% "_" ++ (str% "HAS_VA_ARGS_" ++ s)), u ++ (str% "_" ++ (str% "WRAP_" ++ s))]

theorem plain_extra (hN : AllNames u l protos objs) (s : Str) {n : Str} (h : okPlain n = true) : newName u l n ∉ wrapNamesOf u s := by
  unfold okPlain at h
  simp only [Bool.or_eq_true, beq_iff_eq] at h
  have done : ∀ y ∈ [str% "_T", str% "_countof"], newName u l y ∉ wrapNamesOf u s := by
    intro y hy
    have e1 : newName u l y = y := newName_fixed (by revert y; decide)
    have e2 : '_' ∉ y.tail := by clear e1; revert y; decide
    rw [e1]
    intro hm
    simp only [wrapNamesOf, List.mem_cons, List.not_mem_nil, or_false] at hm
    rcases hm with e | e | e | e <;> exact e2 (line_in e hN.prefixes.upper_ne)
  rcases h with ((h | rfl) | rfl) | rfl
  · obtain ⟨x, hx, rfl⟩ : ∃ x ∈ [str% "DECL", str% "OBJ_DECL", str% "BUILTIN_VA_ARG_PACK", str% "XHS", str% "LINKAGE", str% "OBJ_LINKAGE", str% "UNUSED_REF", str% "SNPRINTF",
        str% "SET_LAST_ERRNO"], n = str% "GDO_" ++ x := by
      have h' : n ∈ ownNames := by simpa using h
      refine ⟨n.drop 4, ?_, ?_⟩ <;> clear h <;> revert n <;> decide
    rw [newName_upper]
    intro hm
    simp only [wrapNamesOf, List.mem_cons, List.not_mem_nil, or_false] at hm
    have hx2 : x.take 2 ≠ str% "WR" ∧ x.take 2 ≠ str% "HA" := by
      clear hm h
      revert x
      decide
    rcases hm with e | e | e | e <;> have e := congrArg (List.take 2) (prefixed_inj e)
    · exact hx2.1 e
    · exact hx2.1 e
    · exact hx2.2 e
    · exact hx2.1 e
  · exact done _ (by simp)
  · exact done _ (by simp)
  · have e1 : newName u l (str% "_GDO_WRAP_CHECK_LOADED") = str% "_" ++ (u ++ (str% "_" ++ str% "WRAP_CHECK_LOADED")) := by
      rw [show str% "_GDO_WRAP_CHECK_LOADED" = str% "_GDO_" ++ str% "WRAP_CHECK_LOADED" from rfl, newName_under, List.append_assoc]
    rw [e1]
    have other : ∀ {y : Str}, (y.head? ≠ some '_') → str% "_" ++ (u ++ (str% "_" ++ str% "WRAP_CHECK_LOADED")) ≠ u ++ (str% "_" ++ y) := by
      intro y hy e
      have := under_rotate (u := u) (a := str% "_WRAP_CHECK_LOADED") (b := y) e
      rw [(List.cons.inj this).2.symm] at hy
      exact hy rfl
    intro hm
    simp only [wrapNamesOf, List.mem_cons, List.not_mem_nil, or_false] at hm
    rcases hm with e | e | e | e
    · exact other (by simp) e
    · exact other (by simp) e
    · exact other (by simp) e
    · exact other (by simp) e

/-- Hooks only. -/
def okHook (n : Str) : Bool := n == str% "GDO_HOOK_" ++ symbolWord

theorem okHook_named {n : Str} (h : okHook n = true) : okNamed n = true := by
  unfold okNamed
  unfold okHook at h
  rw [h]
  rfl

theorem hook_extra (u l s q : Str) {n : Str} (h : okHook n = true) : ren u l q n ∉ wrapNamesOf u s := by
  have : n = str% "GDO_HOOK_" ++ symbolWord := by simpa [okHook] using h
  subst this
  rw [ren_word _ (by decide), show str% "GDO_HOOK_" = str% "GDO_" ++ str% "HOOK_" from rfl, newName_upper]
  intro hm
  simp only [wrapNamesOf, List.mem_cons, List.not_mem_nil, or_false, List.append_assoc] at hm
  rcases hm with e | e | e | e <;> have e := congrArg (List.take 2) (prefixed_inj e) <;> simp at e

theorem named_extra (u l : Str) {s q : Str} (h1 : q ≠ s) (h2 : q ≠ str% "DECL") {n : Str} (h : okNamed n = true) : ren u l q n ∉ wrapNamesOf u s := by
  unfold okNamed at h
  rw [Bool.or_eq_true] at h
  rcases h with h | h
  · exact hook_extra u l s q h
  · have : n = str% "GDO_WRAP_" ++ symbolWord := by simpa using h
    subst this
    rw [ren_word _ (by decide), show str% "GDO_WRAP_" = str% "GDO_" ++ str% "WRAP_" from rfl, newName_upper]
    intro hm
    simp only [wrapNamesOf, List.mem_cons, List.not_mem_nil, or_false, List.append_assoc] at hm
    rcases hm with e | e | e | e <;> have e := prefixed_inj e
    · simp at e
    · exact h2 (List.append_cancel_left (as := str% "WRAP_") e)
    · have e := congrArg (List.take 2) e
      simp at e
    · exact h1 (List.append_cancel_left e)

/-! ### The lines for one function -/

theorem block_ok : ∀ g ∈ blockLines, LineOk g := entry_lines wrapBlock

theorem block_lead : walkLines (fun _ => false) (fun _ => false) true ⟨.code, [], []⟩ (blockLines.take 2) = some ⟨.code, [], []⟩ := by decide +kernel

theorem block_skip : walkLines okPlain okNamed true ⟨.code, [], []⟩ ((blockLines.drop 3).take 14) = some ⟨.code, [], []⟩ := by decide +kernel

theorem symbol_values (X : List Str) (okB : Str → Bool) (w : Nat) {p : Proto} (hn : Named p.symbol) (ho : ∀ n, okB n = true → ren u l p.symbol n ∉ X) :
    ∃ s, Symbol X u l okB (functionValues w p) s := ⟨p.symbol, rfl, hn, ho⟩

/-- The definition of the wrapper among the lines for the function. -/
theorem block_inline : walkLines okPlain okNamed true ⟨.code, [], []⟩ ((blockLines.drop 4).take 7) = some ⟨.code, [], []⟩ := by decide +kernel

theorem runs_pack (hp : Prefixes u l) (v : Values) (D : Str → Bool) :
    Runs inc D ([], [⟨true, true, false⟩]) (((blockLines.drop 3).take 1).flatMap (physText u l v)) ([], ⟨D (packName u), D (packName u), false⟩ :: [⟨true, true, false⟩]) := by
  rw [show (blockLines.drop 3).take 1 = [parts (str% "# ifdef GDO_BUILTIN_VA_ARG_PACK")] from by decide +kernel, plain_text hp (by decide +kernel) (by decide +kernel)]
  obtain ⟨x, wx, ex⟩ := whole_template hp pack_whole
  refine .inr ⟨x, wx, ?_⟩
  have n1 : newName u l (str% "ifdef") = str% "ifdef" := newName_fixed (by decide)
  have n2 : newName u l (str% "GDO_BUILTIN_VA_ARG_PACK") = packName u := newName_upper u l (str% "BUILTIN_VA_ARG_PACK")
  rw [ex]
  simp only [List.map_cons, List.map_nil, renT, renTok, n1, n2]
  generalize packName u = g
  rfl

theorem runs_other (hp : Prefixes u l) (v : Values) (D : Str → Bool) :
    Runs inc D ([], [⟨false, false, false⟩, ⟨true, true, false⟩]) (((blockLines.drop 11).take 1).flatMap (physText u l v)) ([], [⟨true, true, true⟩, ⟨true, true, false⟩]) := by
  rw [show (blockLines.drop 11).take 1 = [parts (str% "# else /* fall back to using a macro */")] from by decide +kernel, plain_text hp (by decide +kernel) (by decide +kernel)]
  obtain ⟨x, wx, ex⟩ := whole_template hp other_whole
  refine .inr ⟨x, wx, ?_⟩
  have n1 : newName u l (str% "else") = str% "else" := newName_fixed (by decide)
  rw [ex]
  simp only [List.map_cons, List.map_nil, renT, renTok, n1]
  rfl

theorem meets_block (hN : AllNames u l protos objs) {p : Proto} (hp : p ∈ protos) (hc : CalmProto p) {X : List Str} (hinc : ∀ r, ∀ y ∈ X, (inc r).lookup y = none) (w : Nat) :
    ∃ E1, Meets inc E (blockLines.flatMap (physText u l (functionValues w p))) (wrapCode E1 u p) E1 ∧ ∀ y ∈ X, E1 y = E y := by
  have hn : Named p.symbol := ⟨hN.functions p hp, hN.plain p hp⟩
  have hv := calm_function w hc
  rw [block_split]
  simp only [List.flatMap_append, List.append_assoc]
  rw [code_text]
  refine Meets.lead (X := X) (P := fun E1 => ∀ y ∈ X, E1 y = E y) (code := fun E1 => wrapCode E1 u p) (lines_harmless (okA := fun _ => false) (okB := fun _ => false) ⟨hN.prefixes, hinc, nofun⟩ hv
    (symbol_values X _ w hn nofun) (fun g hg => block_ok g (List.mem_of_mem_take hg)) block_lead) fun E0 hE0 => ⟨E0, ?_, hE0⟩
  have hw : WordText (u ++ str% "_HAS_VA_ARGS_" ++ p.symbol) := by
    rw [List.append_assoc]
    refine prefix_word hN.prefixes fun c hc => ?_
    rcases List.mem_append.mp hc with hc' | hc'
    · clear hc
      revert c
      decide
    · exact (hN.functions p hp).2.1 c hc'
  have ev : vaName u p.symbol = u ++ str% "_HAS_VA_ARGS_" ++ p.symbol := by simp [vaName]
  have r1 : Runs inc (fun x => (E0 x).isSome) ([], []) (((blockLines.drop 2).take 1).flatMap (physText u l (functionValues w p)))
      ([], [⟨(E0 (vaName u p.symbol)).isSome, (E0 (vaName u p.symbol)).isSome, false⟩]) := by
    rw [if_text, ev]
    refine .inr ⟨_, whole_hash ⟨by decide, by decide, by decide⟩ hw, ?_⟩
    generalize u ++ str% "_HAS_VA_ARGS_" ++ p.symbol = g
    rfl
  have skip : ∀ {gs : List (List Part)}, (∀ g ∈ gs, g ∈ blockLines) → walkLines okPlain okNamed true ⟨.code, [], []⟩ gs = some ⟨.code, [], []⟩ → ∀ st : List Cc.Cond, Cc.active st = false →
      Runs inc (fun x => (E0 x).isSome) ([], st) (gs.flatMap (physText u l (functionValues w p))) ([], st) := by
    intro gs hg hwalk st hst
    obtain ⟨t, h1, -⟩ := runs_harmless (lines_harmless (inc := inc) (X := []) (okA := okPlain) (okB := okNamed) ⟨hN.prefixes, (fun _ _ h => nomatch h), (fun _ _ h => nomatch h)⟩ hv
      (symbol_values [] _ w hn fun _ _ h => nomatch h) (fun g h => block_ok g (hg g h)) hwalk) fun x => (E0 x).isSome
    exact h1.off hst
  unfold wrapCode
  cases h0 : (E0 (vaName u p.symbol)).isSome with
  | false =>
    rw [h0] at r1
    have r2 := skip (gs := (blockLines.drop 3).take 14) (fun g hg => List.mem_of_mem_drop (List.mem_of_mem_take hg)) block_skip [⟨false, false, false⟩] rfl
    have r3 : Runs inc (fun x => (E0 x).isSome) ([], [⟨false, false, false⟩]) (((blockLines.drop 17).take 1).flatMap (physText u l (functionValues w p))) ([], [⟨true, true, true⟩]) := by
      rw [else_text]
      refine .inr ⟨_, whole_else hw.word, ?_⟩
      rfl
    have := Meets.inside (r1.append (r2.append r3)) rfl (Meets.here inc E0 (wrapperText u p) ((blockLines.drop 24).flatMap (physText u l (functionValues w p))))
    simpa only [List.append_assoc, Bool.false_eq_true, if_false] using this
  | true =>
    rw [h0] at r1
    have r2 := runs_pack (inc := inc) hN.prefixes (functionValues w p) (fun x => (E0 x).isSome)
    rw [skip_split]
    simp only [List.flatMap_append, List.append_assoc, if_true]
    rw [inline_text, macro_text]
    cases h2 : (E0 (packName u)).isSome with
    | true =>
      rw [h2] at r2
      have := Meets.inside (r1.append r2) rfl (Meets.here inc E0 (inlineText u p) (((blockLines.drop 11).take 1).flatMap (physText u l (functionValues w p)) ++ (macroText u p ++
        (((blockLines.drop 16).take 1).flatMap (physText u l (functionValues w p)) ++ (((blockLines.drop 17).take 1).flatMap (physText u l (functionValues w p)) ++
          (wrapperText u p ++ (blockLines.drop 24).flatMap (physText u l (functionValues w p))))))))
      simpa only [List.append_assoc, if_true] using this
    | false =>
      rw [h2] at r2
      have r3 := skip (gs := (blockLines.drop 4).take 7) (fun g hg => List.mem_of_mem_drop (List.mem_of_mem_take hg)) block_inline [⟨false, false, false⟩, ⟨true, true, false⟩] rfl
      have r4 := runs_other (inc := inc) hN.prefixes (functionValues w p) (fun x => (E0 x).isSome)
      rw [inline_text] at r3
      have := Meets.inside (r1.append (r2.append (r3.append r4))) rfl (Meets.here inc E0 (macroText u p)
        (((blockLines.drop 16).take 1).flatMap (physText u l (functionValues w p)) ++ (((blockLines.drop 17).take 1).flatMap (physText u l (functionValues w p)) ++
          (wrapperText u p ++ (blockLines.drop 24).flatMap (physText u l (functionValues w p))))))
      simpa only [List.append_assoc, Bool.false_eq_true, if_false] using this

/-! ### The hooks -/

/-- The lines for the hook of each function, c.h 201-203. -/
def hookBlock : Str := (midEntries .create).getD 18 []

def hookLines : List (List Part) := splitNl (parts hookBlock)
/-- The hook that the template defines if there is none: a call of a function without effect. -/
def noHook (l : Str) : Macro := ⟨some [], true, [⟨true, .ident (str% "_" ++ (l ++ str% "_noop"))⟩, ⟨false, .punct (str% "(")⟩, ⟨false, .punct (str% ")")⟩]⟩

def hookName (u s : Str) : Str := u ++ (str% "_" ++ (str% "HOOK_" ++ s))

theorem hook_lines : (gather namedLine hookLines).bind chunkLines = some
    [[⟨true, .punct (str% "#")⟩, ⟨false, .ident (str% "ifndef")⟩, ⟨true, .ident (str% "GDO_HOOK_GDO_SYMBOL")⟩],
     [⟨true, .punct (str% "#")⟩, ⟨false, .ident (str% "define")⟩, ⟨true, .ident (str% "GDO_HOOK_GDO_SYMBOL")⟩, ⟨false, .punct (str% "(")⟩, ⟨false, .punct (str% "...")⟩, ⟨false, .punct (str% ")")⟩,
      ⟨true, .ident (str% "_gdo_noop")⟩, ⟨false, .punct (str% "(")⟩, ⟨false, .punct (str% ")")⟩],
     [⟨true, .punct (str% "#")⟩, ⟨false, .ident (str% "endif")⟩]] := by decide +kernel

theorem runs_hook (hp : Prefixes u l) {p : Proto} (hn : Named p.symbol) (w : Nat) (D : Str → Bool) :
    Runs inc D ([], []) (hookLines.flatMap (physText u l (functionValues w p))) (if D (hookName u p.symbol) then [] else [(hookName u p.symbol, some (noHook l))], []) := by
  cases hq : gather namedLine hookLines with
  | none => exact absurd hook_lines (by rw [hq]; simp)
  | some q =>
    have hl := hook_lines
    rw [hq, Option.bind_some] at hl
    rw [gather_text (f := ren u l p.symbol) (fun g q => fillIn_named (by rfl)) hq]
    obtain ⟨x, wx, ex⟩ := chunk_whole (f := ren u l p.symbol) (fun w => ren_fixed) (ren_ok hp hn) (fun w => ren_isWord hp hn) hl
    refine .inr ⟨x, wx, ?_⟩
    have n1 : ren u l p.symbol (str% "ifndef") = str% "ifndef" := ren_fixed (by decide)
    have n2 : ren u l p.symbol (str% "define") = str% "define" := ren_fixed (by decide)
    have n3 : ren u l p.symbol (str% "endif") = str% "endif" := ren_fixed (by decide)
    have n4 : ren u l p.symbol (str% "GDO_HOOK_GDO_SYMBOL") = hookName u p.symbol := by
      rw [show str% "GDO_HOOK_GDO_SYMBOL" = str% "GDO_HOOK_" ++ symbolWord from rfl, ren_word _ (by decide), show str% "GDO_HOOK_" = str% "GDO_" ++ str% "HOOK_" from rfl, newName_upper]
      simp [hookName]
    have n5 : ren u l p.symbol (str% "_gdo_noop") = str% "_" ++ (l ++ str% "_noop") := by
      rw [ren_none _ (by decide)]
      simp [newName, List.isPrefixOf]
    rw [ex]
    simp only [List.map_cons, List.map_nil, renT, renTok, n1, n2, n3, n4, n5]
    unfold noHook
    generalize hookName u p.symbol = g
    generalize str% "_" ++ (l ++ str% "_noop") = f
    cases hD : D g with
    | true =>
      rw [runLines, show runLine inc D ([], []) [⟨true, .punct (str% "#")⟩, ⟨false, .ident (str% "ifndef")⟩, ⟨true, .ident g⟩] = some ([], [⟨!D g, !D g, false⟩]) from rfl, hD]
      rfl
    | false =>
      rw [runLines, show runLine inc D ([], []) [⟨true, .punct (str% "#")⟩, ⟨false, .ident (str% "ifndef")⟩, ⟨true, .ident g⟩] = some ([], [⟨!D g, !D g, false⟩]) from rfl, hD]
      rfl

theorem plain_hook (hN : AllNames u l protos objs) (s : Str) {n : Str} (h : okPlain n = true) : newName u l n ≠ hookName u s := by
  unfold okPlain at h
  simp only [Bool.or_eq_true, beq_iff_eq] at h
  have done : ∀ y ∈ [str% "_T", str% "_countof"], newName u l y ≠ hookName u s := by
    intro y hy
    have e1 : newName u l y = y := newName_fixed (by revert y; decide)
    have e2 : '_' ∉ y.tail := by clear e1; revert y; decide
    rw [e1]
    intro e
    exact e2 (line_in e hN.prefixes.upper_ne)
  rcases h with ((h | rfl) | rfl) | rfl
  · obtain ⟨x, hx, rfl⟩ : ∃ x ∈ [str% "DECL", str% "OBJ_DECL", str% "BUILTIN_VA_ARG_PACK", str% "XHS", str% "LINKAGE", str% "OBJ_LINKAGE", str% "UNUSED_REF", str% "SNPRINTF",
        str% "SET_LAST_ERRNO"], n = str% "GDO_" ++ x := by
      have h' : n ∈ ownNames := by simpa using h
      refine ⟨n.drop 4, ?_, ?_⟩ <;> clear h <;> revert n <;> decide
    rw [newName_upper]
    intro e
    have hx2 : x.take 2 ≠ str% "HO" := by
      clear e h
      revert x
      decide
    simp only [hookName, List.append_assoc] at e
    exact hx2 (congrArg (List.take 2) (prefixed_inj e))
  · exact done _ (by simp)
  · exact done _ (by simp)
  · have e1 : newName u l (str% "_GDO_WRAP_CHECK_LOADED") = str% "_" ++ (u ++ (str% "_" ++ str% "WRAP_CHECK_LOADED")) := by
      rw [show str% "_GDO_WRAP_CHECK_LOADED" = str% "_GDO_" ++ str% "WRAP_CHECK_LOADED" from rfl, newName_under, List.append_assoc]
    rw [e1]
    intro e
    have := under_rotate (u := u) (a := str% "_WRAP_CHECK_LOADED") (b := str% "HOOK_" ++ s) e
    cases this

theorem named_hook (u l : Str) {s q : Str} (h1 : q ≠ s) {n : Str} (h : okNamed n = true) : ren u l q n ≠ hookName u s := by
  unfold okNamed at h
  simp only [Bool.or_eq_true, beq_iff_eq] at h
  rcases h with rfl | rfl
  · rw [ren_word _ (by decide), show str% "GDO_HOOK_" = str% "GDO_" ++ str% "HOOK_" from rfl, newName_upper]
    intro e
    simp only [hookName, List.append_assoc] at e
    exact h1 (List.append_cancel_left (as := str% "HOOK_") (prefixed_inj e))
  · rw [ren_word _ (by decide), show str% "GDO_WRAP_" = str% "GDO_" ++ str% "WRAP_" from rfl, newName_upper]
    intro e
    simp only [hookName, List.append_assoc] at e
    have := congrArg (List.take 2) (prefixed_inj e)
    simp at this

/-! ### The part with the wrappers -/

theorem mid_create {names : ParamNames} (h : names ≠ .skip) : midEntries names = midEntries .create := by
  cases names
  · decide +kernel
  · rfl
  · exact absurd rfl h

def ifLine : Str := str% "#if defined(GDO_WRAP_FUNCTIONS) || defined(GDO_ENABLE_AUTOLOAD)"

/-- The definition of the check, c.h 231-232. -/
def checkLine : Str := str% "_GDO_WRAP_CHECK_LOADED(SYMBOL) _gdo_wrap_check_loaded( (void *)GDO_RAWPTR_##SYMBOL, GDO_LOAD_##SYMBOL, _T( #SYMBOL ) )"

theorem mid_split : midEntries .create = (midEntries .create).take 5 ++ ([ifLine] ++ (((midEntries .create).drop 6).take 12 ++ ([hookBlock] ++ (((midEntries .create).drop 19).take 21 ++
    (((midEntries .create).drop 40).take 2 ++ (((midEntries .create).drop 42).take 12 ++ ([wrapBlock] ++ (midEntries .create).drop 55))))))) := by
  have : decide (midEntries .create = (midEntries .create).take 5 ++ ([ifLine] ++ (((midEntries .create).drop 6).take 12 ++ ([hookBlock] ++ (((midEntries .create).drop 19).take 21 ++
    (((midEntries .create).drop 40).take 2 ++ (((midEntries .create).drop 42).take 12 ++ ([wrapBlock] ++ (midEntries .create).drop 55)))))))) = true := by decide +kernel
  exact of_decide_eq_true this

theorem mid_walk1 : walkEntries okPlain (fun _ => false) ⟨.code, [], []⟩ ((midEntries .create).take 5) = some ⟨.code, [], []⟩ := by decide +kernel

theorem mid_walk2 : walkEntries okPlain (fun _ => false) ⟨.code, [], []⟩ (((midEntries .create).drop 6).take 12) = some ⟨.code, [], []⟩ := by decide +kernel

theorem mid_walk4 : walkEntries okPlain (fun _ => false) ⟨.code, [], []⟩ (((midEntries .create).drop 19).take 21) = some ⟨.code, [], []⟩ := by decide +kernel

theorem hook_walk : walkLines (fun _ => false) okNamed true ⟨.code, [], []⟩ (splitNl (parts hookBlock)) = some ⟨.code, [], []⟩ := by decide +kernel

theorem hook_kind : firstKind (parts hookBlock) = some .function := by decide +kernel

theorem mid_walk3 : walkEntries (fun _ => false) (fun _ => false) ⟨.code, [], []⟩ (((midEntries .create).drop 42).take 12) = some ⟨.code, [], []⟩ := by decide +kernel

theorem block_walk : walkLines (fun _ => false) okNamed true ⟨.code, [], []⟩ (splitNl (parts wrapBlock)) = some ⟨.code, [], []⟩ := by decide +kernel

theorem block_kind : firstKind (parts wrapBlock) = some .function := by decide +kernel

theorem check_ok : segOk (((midEntries .create).drop 40).take 2) [] [str% "_GDO_WRAP_CHECK_LOADED"] (fun _ => [checkLine]) = true := by decide +kernel

theorem if_whole : wholeLines [ifLine] = some [⟨true, .punct (str% "#")⟩ :: ⟨false, .ident (str% "if")⟩ ::
    [⟨true, .ident (str% "defined")⟩, ⟨false, .punct (str% "(")⟩, ⟨false, .ident (str% "GDO_WRAP_FUNCTIONS")⟩, ⟨false, .punct (str% ")")⟩, ⟨true, .punct (str% "||")⟩,
     ⟨true, .ident (str% "defined")⟩, ⟨false, .punct (str% "(")⟩, ⟨false, .ident (str% "GDO_ENABLE_AUTOLOAD")⟩, ⟨false, .punct (str% ")")⟩]] := by decide +kernel

theorem runs_if (hp : Prefixes u l) (protos objs : List Proto) (h : (Has E u (str% "WRAP_FUNCTIONS") || Has E u (str% "ENABLE_AUTOLOAD")) = true) :
    Runs inc (fun x => (E x).isSome) ([], []) (entriesText u l protos objs [ifLine]) ([], [⟨true, true, false⟩]) := by
  obtain ⟨x, wx, ex⟩ := whole_template hp if_whole
  unfold entriesText
  rw [written_lines hp protos objs (by decide +kernel)]
  refine .inr ⟨x, wx, ?_⟩
  rw [ex, List.map_cons, List.map_nil, runLines, runLine_if (by decide +kernel) (by decide +kernel) rfl]
  have e1 : newName u l (str% "GDO_WRAP_FUNCTIONS") = u ++ (str% "_" ++ str% "WRAP_FUNCTIONS") := newName_upper u l (str% "WRAP_FUNCTIONS")
  have e2 : newName u l (str% "GDO_ENABLE_AUTOLOAD") = u ++ (str% "_" ++ str% "ENABLE_AUTOLOAD") := newName_upper u l (str% "ENABLE_AUTOLOAD")
  have e3 : ∀ F : Str → Bool, Cc.condition F ((asked [⟨true, .ident (str% "defined")⟩, ⟨false, .punct (str% "(")⟩, ⟨false, .ident (str% "GDO_WRAP_FUNCTIONS")⟩, ⟨false, .punct (str% ")")⟩,
      ⟨true, .punct (str% "||")⟩, ⟨true, .ident (str% "defined")⟩, ⟨false, .punct (str% "(")⟩, ⟨false, .ident (str% "GDO_ENABLE_AUTOLOAD")⟩, ⟨false, .punct (str% ")")⟩]).map
        fun t => toTok t.tok) = some (F (str% "GDO_WRAP_FUNCTIONS") || F (str% "GDO_ENABLE_AUTOLOAD")) := fun F => rfl
  rw [e3]
  simp only [e1, e2]
  unfold Has at h
  show (some (([] : Table), [(⟨((E _).isSome || (E _).isSome), ((E _).isSome || (E _).isSome), false⟩ : Cc.Cond)])).bind _ = _
  rw [h]
  rfl

theorem runs_seg (hp : Prefixes u l) {ls V W : List Str} {f : (Str → Bool) → List Str} (h : segOk ls V W f = true) (hf : DependsOn V f) (protos objs : List Proto) :
    Runs inc D ([], []) (entriesText u l protos objs ls) (renTable (newName u l) (tableOf (f fun w => D (newName u l w))), []) := by
  have h0 := h
  unfold segOk at h
  simp only [Bool.and_eq_true] at h
  obtain ⟨⟨⟨h1, h2⟩, -⟩, -⟩ := h
  obtain ⟨x, wx, ex⟩ := whole_template hp (wl_whole h1)
  have e := (run_seg hp h0 hf protos objs inc D []).1
  unfold entriesText
  rw [written_lines hp protos objs h2] at e ⊢
  refine .inr ⟨x, wx, ?_⟩
  rw [run_whole wx] at e
  cases h3 : runLines inc D ([], []) (splitLines x) with
  | none => rw [h3] at e; cases e
  | some s => rw [h3] at e; exact e

def checkName (u : Str) : Str := str% "_" ++ (u ++ (str% "_" ++ str% "WRAP_CHECK_LOADED"))

/-- What is kept in front of the wrappers. -/
def keptNames (u l : Str) (protos objs : List Proto) (s : Str) : List Str := symbolNames u l protos objs ++ wrapNamesOf u s

theorem check_other {y : Str} (hy : y.head? ≠ some '_') : checkName u ≠ u ++ (str% "_" ++ y) := by
  intro e
  have := under_rotate (u := u) (a := str% "_WRAP_CHECK_LOADED") (b := y) e
  rw [(List.cons.inj this).2.symm] at hy
  exact hy rfl

theorem check_not_kept (hN : AllNames u l protos objs) (s : Str) : checkName u ∉ keptNames u l protos objs s := by
  have e1 : newName u l (str% "_GDO_WRAP_CHECK_LOADED") = checkName u := by
    rw [show str% "_GDO_WRAP_CHECK_LOADED" = str% "_GDO_" ++ str% "WRAP_CHECK_LOADED" from rfl, newName_under, List.append_assoc]
    rfl
  rw [← e1]
  intro h
  rcases List.mem_append.mp h with h | h
  · exact plain_free hN (n := str% "_GDO_WRAP_CHECK_LOADED") (by decide) h
  · exact plain_extra hN s (n := str% "_GDO_WRAP_CHECK_LOADED") (by decide) h

/-- The names that the text up to the wrapper of the function `s` leaves alone, with its hook. -/
def heldNames (u l : Str) (protos objs : List Proto) (s : Str) : List Str := hookName u s :: keptNames u l protos objs s

theorem hook_not_kept (hN : AllNames u l protos objs) {p : Proto} (hp : p ∈ protos) : hookName u p.symbol ∉ keptNames u l protos objs p.symbol := by
  have e : ren u l p.symbol (str% "GDO_HOOK_" ++ symbolWord) = hookName u p.symbol := by
    rw [ren_word _ (by decide), show str% "GDO_HOOK_" = str% "GDO_" ++ str% "HOOK_" from rfl, newName_upper]
    simp [hookName]
  rw [← e]
  intro h
  rcases List.mem_append.mp h with h | h
  · exact named_free hN hp (by decide) h
  · exact hook_extra u l _ _ (by decide) h

/-- The lines for other functions. -/
theorem others_harmless (hN : AllNames u l protos objs) (hc : ∀ p ∈ protos ++ objs, CalmProto p) (hD : ∀ p ∈ protos, p.symbol ≠ str% "DECL") {s : Str}
    (hinc : ∀ r, ∀ y ∈ checkName u :: heldNames u l protos objs s, (inc r).lookup y = none) {blk : Str}
    (hb : walkLines (fun _ => false) okNamed true ⟨.code, [], []⟩ (splitNl (parts blk)) = some ⟨.code, [], []⟩) {a : List Proto} (ha : ∀ q ∈ a, q ∈ protos) (hne : ∀ q ∈ a, q.symbol ≠ s) :
    Harmless inc (checkName u :: heldNames u l protos objs s) (unlines (a.map fun q => fillIn u l (functionValues (width protos) q) false (parts blk))) := by
  obtain ⟨a1, c, e1, r, k⟩ := repeat_spec (X := checkName u :: heldNames u l protos objs s) (okA := fun _ => false) (okB := okNamed) ⟨hN.prefixes, hinc, nofun⟩ (kw := true)
    (fun q => functionValues (width protos) q) (xs := a) (fun q hq => calm_function _ (hc q (List.mem_append_left _ (ha q hq))))
    (fun _ q hq => symbol_values _ _ _ ⟨hN.functions q (ha q hq), hN.plain q (ha q hq)⟩ fun n hn => by
      intro hm
      rcases List.mem_cons.mp hm with hm | hm
      · unfold okNamed at hn
        simp only [Bool.or_eq_true, beq_iff_eq] at hn
        rcases hn with rfl | rfl
        · rw [ren_word _ (by decide), show str% "GDO_HOOK_" = str% "GDO_" ++ str% "HOOK_" from rfl, newName_upper, List.append_assoc, List.append_assoc] at hm
          exact check_other (by simp) hm.symm
        · rw [ren_word _ (by decide), show str% "GDO_WRAP_" = str% "GDO_" ++ str% "WRAP_" from rfl, newName_upper, List.append_assoc, List.append_assoc] at hm
          exact check_other (by simp) hm.symm
      · rcases List.mem_cons.mp hm with hm | hm
        · exact named_hook u l (hne q hq) hn hm
        · rcases List.mem_append.mp hm with hm | hm
          · exact named_free hN (ha q hq) hn hm
          · exact named_extra u l (hne q hq) (hD q (ha q hq)) hn hm) ⟨rfl, rfl⟩ hb (c := []) ⟨rfl, .inl rfl⟩
  rw [List.nil_append] at e1
  rw [e1]
  exact (r.append (acts_calm k [])).harmless

theorem block_text (u l : Str) (protos objs : List Proto) {blk : Str} (hk : firstKind (parts blk) = some .function) {a b : List Proto} {p : Proto} (e : protos = a ++ p :: b) :
    entriesText u l protos objs [blk] = unlines (a.map fun q => fillIn u l (functionValues (width protos) q) false (parts blk)) ++
      ((splitNl (parts blk)).flatMap (physText u l (functionValues (width protos) p)) ++ unlines (b.map fun q => fillIn u l (functionValues (width protos) q) false (parts blk))) := by
  unfold entriesText
  rw [List.flatMap_cons, List.flatMap_nil, List.append_nil, written_function u l protos objs rfl hk]
  generalize width protos = w
  rw [e, List.map_append, List.map_cons, unlines_app, unlines_cons', splitNl_flat]

theorem split_others (hd : (protos.map (·.symbol)).Nodup) {a b : List Proto} {p : Proto} (e : protos = a ++ p :: b) :
    (∀ q ∈ a, q ∈ protos) ∧ (∀ q ∈ b, q ∈ protos) ∧ (∀ q ∈ a, q.symbol ≠ p.symbol) ∧ ∀ q ∈ b, q.symbol ≠ p.symbol := by
  rw [e, List.map_append, List.map_cons] at hd
  have h := List.nodup_append.mp hd
  refine ⟨fun q hq => ?_, fun q hq => ?_, fun q hq => ?_, fun q hq he => ?_⟩
  · rw [e]; exact List.mem_append_left _ hq
  · rw [e]; exact List.mem_append_right _ (List.mem_cons_of_mem _ hq)
  · exact h.2.2 _ (List.mem_map.mpr ⟨q, hq, rfl⟩) _ (List.mem_cons_self ..)
  · exact (List.nodup_cons.mp h.2.1).1 (List.mem_map.mpr ⟨q, hq, he⟩)

/-- The definition of the wrapper among the lines for all functions. -/
theorem meets_blocks (hN : AllNames u l protos objs) (hc : ∀ p ∈ protos ++ objs, CalmProto p) (hd : (protos.map (·.symbol)).Nodup) (hD : ∀ p ∈ protos, p.symbol ≠ str% "DECL")
    {p : Proto} (hp : p ∈ protos) (hinc : ∀ r, ∀ y ∈ checkName u :: heldNames u l protos objs p.symbol, (inc r).lookup y = none) :
    ∃ E1, Meets inc E (entriesText u l protos objs [wrapBlock]) (wrapCode E1 u p) E1 ∧ ∀ y ∈ checkName u :: heldNames u l protos objs p.symbol, E1 y = E y := by
  obtain ⟨a, b, e⟩ := List.append_of_mem hp
  obtain ⟨ha, -, hne, -⟩ := split_others hd e
  rw [block_text u l protos objs block_kind e]
  refine Meets.lead (code := fun E1 => wrapCode E1 u p) (P := fun E1 => ∀ y ∈ checkName u :: heldNames u l protos objs p.symbol, E1 y = E y) (others_harmless hN hc hD hinc block_walk ha hne) fun E0 hE0 => ?_
  obtain ⟨E1, h1, h2⟩ := meets_block (E := E0) hN hp (hc p (List.mem_append_left _ hp)) hinc (width protos)
  exact ⟨E1, h1.more _, fun y hy => (h2 y hy).trans (hE0 y hy)⟩

/-- The lines for the hooks: a hook of the user stays, otherwise there is one without effect. -/
theorem hooks_state (hN : AllNames u l protos objs) (hc : ∀ p ∈ protos ++ objs, CalmProto p) (hd : (protos.map (·.symbol)).Nodup) (hD : ∀ p ∈ protos, p.symbol ≠ str% "DECL")
    {p : Proto} (hp : p ∈ protos) (hinc : ∀ r, ∀ y ∈ checkName u :: heldNames u l protos objs p.symbol, (inc r).lookup y = none) :
    ∃ t, Runs inc (fun x => (E x).isSome) ([], []) (entriesText u l protos objs [hookBlock]) (t, []) ∧ (∀ y ∈ keptNames u l protos objs p.symbol, known E t y = E y) ∧
      known E t (hookName u p.symbol) = some ((E (hookName u p.symbol)).getD (noHook l)) := by
  obtain ⟨a, b, e⟩ := List.append_of_mem hp
  obtain ⟨ha, hb, hna, hnb⟩ := split_others hd e
  rw [block_text u l protos objs hook_kind e]
  obtain ⟨t1, r1, k1⟩ := runs_harmless (others_harmless hN hc hD hinc hook_walk ha hna) fun x => (E x).isSome
  have r2 := (runs_hook (inc := inc) hN.prefixes (p := p) ⟨hN.functions p hp, hN.plain p hp⟩ (width protos) fun x => (known E t1 x).isSome).start
  generalize ht2 : (if (known E t1 (hookName u p.symbol)).isSome then [] else [(hookName u p.symbol, some (noHook l))] : Table) = t2 at r2
  obtain ⟨t3, r3, k3⟩ := runs_harmless (others_harmless hN hc hD hinc hook_walk hb hnb) fun x => (known E (t2 ++ t1) x).isSome
  have kh : hookName u p.symbol ∈ checkName u :: heldNames u l protos objs p.symbol := List.mem_cons_of_mem _ (List.mem_cons_self ..)
  have hk1 : known E t1 (hookName u p.symbol) = E (hookName u p.symbol) := by unfold known; rw [k1 _ kh]
  have h3 : ∀ y ∈ checkName u :: heldNames u l protos objs p.symbol, known E (t3 ++ (t2 ++ t1)) y = known E (t2 ++ t1) y := fun y hy => by
    rw [← known_append]
    unfold known
    rw [k3 y hy]
  rw [hk1] at ht2
  refine ⟨t3 ++ (t2 ++ t1), r1.append (r2.append r3.start), fun y hy => ?_, ?_⟩
  · have hm : y ∈ checkName u :: heldNames u l protos objs p.symbol := List.mem_cons_of_mem _ (List.mem_cons_of_mem _ hy)
    rw [h3 y hm, ← known_append]
    have : known E t1 y = E y := by unfold known; rw [k1 y hm]
    rw [← this, ← ht2]
    split
    · rfl
    · exact known_cons_ne fun he => hook_not_kept hN hp (he ▸ hy)
  · rw [h3 _ kh, ← known_append, ← ht2]
    cases hE : E (hookName u p.symbol) with
    | some m =>
      show known E t1 _ = _
      rw [hk1, hE]
      rfl
    | none =>
      show known _ [(_, _)] _ = _
      rw [known_cons_eq]
      rfl

theorem kept_harmless (hN : AllNames u l protos objs) (hc : ∀ p ∈ protos ++ objs, CalmProto p) {s : Str} (hinc : ∀ r, ∀ y ∈ heldNames u l protos objs s, (inc r).lookup y = none)
    {ds : List Str} (h : walkEntries okPlain (fun _ => false) ⟨.code, [], []⟩ ds = some ⟨.code, [], []⟩) : Harmless inc (heldNames u l protos objs s) (entriesText u l protos objs ds) := by
  refine walk_harmless (okA := okPlain) (okB := fun _ => false) ⟨hN.prefixes, hinc, fun n hn hm => ?_⟩ hc (fun p hp => ⟨hN.functions p hp, hN.plain p hp⟩) (fun _ _ _ h => by cases h) h
  rcases List.mem_cons.mp hm with hm | hm
  · exact plain_hook hN s hn hm
  · rcases List.mem_append.mp hm with hm | hm
    · exact plain_free hN hn hm
    · exact plain_extra hN s hn hm

theorem meets_mid (hN : AllNames u l protos objs) (hc : ∀ p ∈ protos ++ objs, CalmProto p) (hd : (protos.map (·.symbol)).Nodup) (hD : ∀ p ∈ protos, p.symbol ≠ str% "DECL")
    {names : ParamNames} (hs : names ≠ .skip) {p : Proto} (hp : p ∈ protos) (hinc : ∀ r, ∀ y ∈ checkName u :: heldNames u l protos objs p.symbol, (inc r).lookup y = none)
    (hw : (Has E u (str% "WRAP_FUNCTIONS") || Has E u (str% "ENABLE_AUTOLOAD")) = true) :
    ∃ E1, Meets inc E (entriesText u l protos objs (midEntries names)) (wrapCode E1 u p) E1 ∧ (∀ y ∈ keptNames u l protos objs p.symbol, E1 y = E y) ∧ Gives E1 u l checkLine ∧ E1 (hookName u p.symbol) = some ((E (hookName u p.symbol)).getD (noHook l)) := by
  rw [mid_create hs, mid_split]
  simp only [entries_append]
  have hinc' : ∀ r, ∀ y ∈ heldNames u l protos objs p.symbol, (inc r).lookup y = none := fun r y hy => hinc r y (List.mem_cons_of_mem _ hy)
  have m1 : ∀ x ∈ [str% "WRAP_FUNCTIONS", str% "ENABLE_AUTOLOAD"], u ++ (str% "_" ++ x) ∈ keptNames u l protos objs p.symbol := by
    intro x hx
    refine List.mem_append_left _ (List.mem_cons_of_mem _ (List.mem_append_left _ (List.mem_map.mpr ⟨x, ?_, rfl⟩)))
    revert x
    decide
  refine Meets.lead (code := fun E1 => wrapCode E1 u p) (P := fun E1 => (∀ y ∈ keptNames u l protos objs p.symbol, E1 y = E y) ∧ Gives E1 u l checkLine ∧ E1 (hookName u p.symbol) = some ((E (hookName u p.symbol)).getD (noHook l))) (kept_harmless hN hc hinc' mid_walk1) fun E2 hF2 => ?_
  have hE2 : ∀ y ∈ keptNames u l protos objs p.symbol, E2 y = E y := fun y hy => hF2 y (List.mem_cons_of_mem _ hy)
  have hw2 : (Has E2 u (str% "WRAP_FUNCTIONS") || Has E2 u (str% "ENABLE_AUTOLOAD")) = true := by
    unfold Has at hw ⊢
    rw [hE2 _ (m1 _ (by simp)), hE2 _ (m1 _ (by simp)), hw]
  suffices hx : ∃ E1, Meets inc E2 _ (wrapCode E1 u p) E1 ∧ (∀ y ∈ keptNames u l protos objs p.symbol, E1 y = E y) ∧ Gives E1 u l checkLine ∧ E1 (hookName u p.symbol) = some ((E (hookName u p.symbol)).getD (noHook l)) by
    obtain ⟨E1, h1, h2⟩ := hx
    exact ⟨E1, Meets.inside (runs_if hN.prefixes protos objs hw2) rfl h1, h2⟩
  refine Meets.lead (code := fun E1 => wrapCode E1 u p) (P := fun E1 => (∀ y ∈ keptNames u l protos objs p.symbol, E1 y = E y) ∧ Gives E1 u l checkLine ∧ E1 (hookName u p.symbol) = some ((E (hookName u p.symbol)).getD (noHook l))) (kept_harmless hN hc hinc' mid_walk2) fun E6 hF6 => ?_
  obtain ⟨t6, r6, k6, g6⟩ := hooks_state (E := E6) hN hc hd hD hp hinc
  suffices hx : ∃ E1, Meets inc (known E6 t6) _ (wrapCode E1 u p) E1 ∧ (∀ y ∈ keptNames u l protos objs p.symbol, E1 y = E y) ∧ Gives E1 u l checkLine ∧ E1 (hookName u p.symbol) = some ((E (hookName u p.symbol)).getD (noHook l)) by
    obtain ⟨E1, h1, h2⟩ := hx
    exact ⟨E1, Meets.front r6 h1, h2⟩
  refine Meets.lead (code := fun E1 => wrapCode E1 u p) (P := fun E1 => (∀ y ∈ keptNames u l protos objs p.symbol, E1 y = E y) ∧ Gives E1 u l checkLine ∧ E1 (hookName u p.symbol) = some ((E (hookName u p.symbol)).getD (noHook l))) (kept_harmless hN hc hinc' mid_walk4) fun E3 hF3 => ?_
  have hE3 : ∀ y ∈ keptNames u l protos objs p.symbol, E3 y = E2 y := fun y hy => by
    rw [hF3 y (List.mem_cons_of_mem _ hy), k6 y hy, hF6 y (List.mem_cons_of_mem _ hy)]
  have hH3 : E3 (hookName u p.symbol) = some ((E (hookName u p.symbol)).getD (noHook l)) := by
    rw [hF3 _ (List.mem_cons_self ..), g6, hF6 _ (List.mem_cons_self ..), hF2 _ (List.mem_cons_self ..)]
  have r := runs_seg (inc := inc) (D := fun x => (E3 x).isSome) hN.prefixes check_ok (fun _ _ _ => rfl) protos objs
  have e1 : newName u l (str% "_GDO_WRAP_CHECK_LOADED") = checkName u := by
    rw [show str% "_GDO_WRAP_CHECK_LOADED" = str% "_GDO_" ++ str% "WRAP_CHECK_LOADED" from rfl, newName_under, List.append_assoc]
    rfl
  obtain ⟨m, em, et⟩ : ∃ m, macroOf checkLine = some (str% "_GDO_WRAP_CHECK_LOADED", m) ∧ renTable (newName u l) (tableOf [checkLine]) = [(checkName u, some (renMacro (newName u l) m))] := by
    have h1 : (macroOf checkLine).map (·.1) = some (str% "_GDO_WRAP_CHECK_LOADED") := by decide +kernel
    cases h2 : macroOf checkLine with
    | none => rw [h2] at h1; cases h1
    | some q =>
      obtain ⟨n, m⟩ := q
      rw [h2] at h1
      cases h1
      refine ⟨m, rfl, ?_⟩
      simp [tableOf, renTable, h2, e1]
  simp only [et] at r
  suffices hx : ∃ E1, Meets inc (known E3 [(checkName u, some (renMacro (newName u l) m))]) _ (wrapCode E1 u p) E1 ∧ (∀ y ∈ keptNames u l protos objs p.symbol, E1 y = E y) ∧ Gives E1 u l checkLine ∧ E1 (hookName u p.symbol) = some ((E (hookName u p.symbol)).getD (noHook l)) by
    obtain ⟨E1, h1, h2⟩ := hx
    exact ⟨E1, Meets.front r h1, h2⟩
  have hk : ∀ y ∈ keptNames u l protos objs p.symbol, known E3 [(checkName u, some (renMacro (newName u l) m))] y = E y := by
    intro y hy
    have hne : y ≠ checkName u := fun e => check_not_kept hN p.symbol (e ▸ hy)
    rw [← hE2 y hy, ← hE3 y hy]
    unfold known
    rw [List.lookup_cons, beq_false_of_ne hne]
    rfl
  have hg : known E3 [(checkName u, some (renMacro (newName u l) m))] (checkName u) = some (renMacro (newName u l) m) := by
    unfold known
    rw [List.lookup_cons]
    simp
  have hh : known E3 [(checkName u, some (renMacro (newName u l) m))] (hookName u p.symbol) = some ((E (hookName u p.symbol)).getD (noHook l)) := by
    rw [known_cons_ne fun e => check_other (u := u) (y := str% "HOOK_" ++ p.symbol) (by simp) (e.symm.trans (by simp [hookName])), ← hH3]
    rfl
  generalize known E3 [(checkName u, some (renMacro (newName u l) m))] = E4 at hk hg hh
  refine Meets.lead (code := fun E1 => wrapCode E1 u p) (P := fun E1 => (∀ y ∈ keptNames u l protos objs p.symbol, E1 y = E y) ∧ Gives E1 u l checkLine ∧ E1 (hookName u p.symbol) = some ((E (hookName u p.symbol)).getD (noHook l)))
    (walk_harmless (X := checkName u :: heldNames u l protos objs p.symbol) (okA := fun _ => false) (okB := fun _ => false) ⟨hN.prefixes, hinc, nofun⟩ hc (fun p hp => ⟨hN.functions p hp, hN.plain p hp⟩) (fun _ _ _ h => nomatch h)
      mid_walk3) fun E5 hE5 => ?_
  obtain ⟨E1, h1, h2⟩ := meets_blocks (E := E5) hN hc hd hD hp hinc
  refine ⟨E1, h1.more _, fun y hy => ?_, ⟨_, m, em, ?_⟩, ?_⟩
  · rw [h2 y (List.mem_cons_of_mem _ (List.mem_cons_of_mem _ hy)), hE5 y (List.mem_cons_of_mem _ (List.mem_cons_of_mem _ hy)), hk y hy]
  · rw [e1, h2 _ (List.mem_cons_self ..), hE5 _ (List.mem_cons_self ..), hg]
  · rw [h2 _ (List.mem_cons_of_mem _ (List.mem_cons_self ..)), hE5 _ (List.mem_cons_of_mem _ (List.mem_cons_self ..)), hh]

/-! ### The template c.h -/

theorem lead_walk' (on : Bool) : walkEntries okPlain (fun _ => false) ⟨.code, [], []⟩ (leadEntries on) = some ⟨.code, [], []⟩ := by cases on <;> decide +kernel

/-- What the text for a wrapper is written with. -/
structure Ready (E E1 : Str → Option Macro) (u l : Str) (p : Proto) : Prop where
  raw : Becomes E1 (u ++ (str% "_" ++ (str% "RAWPTR_" ++ p.symbol))) (pointer u l p)
  check : Gives E1 u l checkLine
  same : ∀ y ∈ p.symbol :: wrapNamesOf u p.symbol, E1 y = E y
  hook : E1 (hookName u p.symbol) = some ((E (hookName u p.symbol)).getD (noHook l))

theorem runs_of_run {a : Str} {x : List T} {t : Table} (hw : Whole a x) (h : run inc D ([], []) (a ++ []) = run inc D (t, []) []) : Runs inc D ([], []) a (t, []) := by
  refine .inr ⟨x, hw, ?_⟩
  rw [run_whole hw] at h
  cases h3 : runLines inc D ([], []) (splitLines x) with
  | none => rw [h3] at h; cases h
  | some s => rw [h3] at h; exact h

theorem defs_whole {α : Type} {text name : α → Str} {body : α → List T} {as : List α} (h : ∀ a ∈ as, DefLine (text a) (name a) (body a)) :
    unlines (as.map text) = [] ∨ ∃ x, Whole (unlines (as.map text)) x := by
  induction as with
  | nil => exact .inl rfl
  | cons a r ih =>
    have e : unlines ((a :: r).map text) = (text a ++ ['\n']) ++ unlines (r.map text) := by simp [unlines]
    obtain ⟨⟨s1, s2, h1⟩, -⟩ := h a (List.mem_cons_self ..)
    rw [e]
    rcases ih fun x hx => h x (List.mem_cons_of_mem _ hx) with e | ⟨x, hw⟩
    · rw [e, List.append_nil]
      exact .inr ⟨_, h1, _, rfl⟩
    · exact .inr ⟨_, whole_append ⟨h1, _, rfl⟩ hw⟩

theorem runs_raw (hN : Names u l protos objs) : Runs inc D ([], []) (pointerPart u l protos objs) (defs (rawName u) (rawBody u l) (protos ++ objs), []) := by
  have h := run_raw hN.prefixes hN.functions hN.objects inc D [] []
  rw [List.append_nil (defs _ _ _)] at h
  have hw : pointerPart u l protos objs = [] ∨ ∃ x, Whole (pointerPart u l protos objs) x := by
    unfold pointerPart
    rw [raw_lines, written_raw, unlines_append]
    have w1 := defs_whole (text := rawText (width protos) u l) (name := rawName u) (body := rawBody u l) (as := protos) fun p hp' => defLine_raw hN.prefixes (hN.functions p hp') _
    have w2 := defs_whole (text := rawText (width objs) u l) (name := rawName u) (body := rawBody u l) (as := objs) fun p hp' => defLine_raw hN.prefixes (hN.objects p hp') _
    rcases w1 with e | ⟨x, w1⟩
    · rw [e]
      exact w2
    · rcases w2 with e | ⟨y, w2⟩
      · rw [e, List.append_nil]
        exact .inr ⟨x, w1⟩
      · exact .inr ⟨_, whole_append w1 w2⟩
  rcases hw with e | ⟨x, hw⟩
  · have h' : run inc D ([], []) (pointerPart u l protos objs ++ []) = _ := h
    rw [e] at h' ⊢
    generalize defs (rawName u) (rawBody u l) (protos ++ objs) = t at h'
    cases h'
    exact .inl ⟨rfl, rfl⟩
  · exact runs_of_run hw h

theorem meets_c (s : Settings) (h0 : Placed s inc E protos objs) (hd : (protos.map (·.symbol)).Nodup) (hD : ∀ p ∈ protos, p.symbol ≠ str% "DECL")
    (hs : s.names ≠ .skip) {p : Proto} (hp : p ∈ protos)
    (hinc : ∀ r, ∀ y ∈ checkName (toUpper s.pfx) :: heldNames (toUpper s.pfx) (toLower s.pfx) protos objs p.symbol, (inc r).lookup y = none)
    (hw : (Has E (toUpper s.pfx) (str% "WRAP_FUNCTIONS") || Has E (toUpper s.pfx) (str% "ENABLE_AUTOLOAD")) = true) :
    ∃ E1, Meets inc E (templateText s protos objs .cHeader) (wrapCode E1 (toUpper s.pfx) p) E1 ∧ Ready E E1 (toUpper s.pfx) (toLower s.pfx) p := by
  obtain ⟨hN, hc, -, h1, h2⟩ := h0
  rw [header_text]
  generalize toUpper s.pfx = u at *
  generalize toLower s.pfx = l at *
  have hinc' : ∀ r, ∀ y ∈ heldNames u l protos objs p.symbol, (inc r).lookup y = none := fun r y hy => hinc r y (List.mem_cons_of_mem _ hy)
  have hp' := List.mem_append_left objs hp
  have ms : ∀ {q : Proto}, q ∈ protos ++ objs → ∀ y ∈ [q.symbol, u ++ (str% "_" ++ (str% "RAWPTR_" ++ q.symbol)), u ++ (str% "_" ++ (str% "PTR_" ++ q.symbol))],
      y ∈ keptNames u l protos objs p.symbol := fun hq y hy => List.mem_append_left _ (mem_symbol hq y hy)
  have mh : l ++ str% "_hndl" ∈ keptNames u l protos objs p.symbol := List.mem_append_left _ (List.mem_cons_self ..)
  have mw : ∀ y ∈ wrapNamesOf u p.symbol, y ∈ keptNames u l protos objs p.symbol := fun y hy => List.mem_append_right _ hy
  have mc : ∀ x ∈ configNames, u ++ (str% "_" ++ x) ∈ keptNames u l protos objs p.symbol := fun x hx => List.mem_append_left _ (mem_config hx)
  refine Meets.lead (code := fun E1 => wrapCode E1 u p) (P := fun E1 => Ready E E1 u l p) (kept_harmless hN hc hinc' (lead_walk' s.lineDirective)) fun E0 hF0 => ?_
  have hE0 : ∀ y ∈ keptNames u l protos objs p.symbol, E0 y = E y := fun y hy => hF0 y (List.mem_cons_of_mem _ hy)
  have hb := raw_based (E := E0) hN.toNames (by rw [hE0 _ mh, h1]) (fun q hq => by rw [hE0 _ (ms hq _ (by simp)), h2 q hq])
  have hx : ∀ y ∈ wrapNamesOf u p.symbol, known E0 (defs (rawName u) (rawBody u l) (protos ++ objs)) y = E y := by
    intro y hy
    rw [← hE0 y (mw y hy)]
    unfold known
    rw [lookup_defs]
    intro q _ e
    rw [rawName_eq] at e
    subst e
    simp only [wrapNamesOf, List.mem_cons, List.not_mem_nil, or_false] at hy
    rcases hy with e | e | e | e <;> have e := congrArg (List.take 2) (prefixed_inj e) <;> simp at e
  have hh : known E0 (defs (rawName u) (rawBody u l) (protos ++ objs)) (hookName u p.symbol) = E (hookName u p.symbol) := by
    rw [← hF0 _ (List.mem_cons_self ..)]
    unfold known
    rw [lookup_defs]
    intro q _ e
    rw [rawName_eq, hookName] at e
    have e := congrArg (List.take 2) (prefixed_inj e)
    simp at e
  have hc0 : ∀ x ∈ configNames, known E0 (defs (rawName u) (rawBody u l) (protos ++ objs)) (u ++ (str% "_" ++ x)) = E (u ++ (str% "_" ++ x)) := fun x hx => by
    rw [hb.config x hx, hE0 _ (mc x hx)]
  obtain ⟨E1, r1, r2, r3, r4⟩ := meets_mid (E := known E0 (defs (rawName u) (rawBody u l) (protos ++ objs))) hN hc hd hD hs hp hinc
    (by
      unfold Has at hw ⊢
      rw [hc0 _ (by decide), hc0 _ (by decide), hw])
  refine ⟨E1, Meets.front (runs_raw hN.toNames) (r1.more _), ?_, r3, fun y hy => ?_, by rw [r4, hh]⟩
  · have hptr : u ++ str% "_PTR_" ++ p.symbol = u ++ (str% "_" ++ (str% "PTR_" ++ p.symbol)) := by simp
    have := turns_raw (E := E1) (u := u) (l := l) (hs := []) (p := p) (by rw [rawName_eq, r2 _ (ms hp' _ (by simp)), ← rawName_eq, hb.raw p hp']) (by rw [r2 _ mh, hb.handle])
      (by rw [hptr, r2 _ (ms hp' _ (by simp)), hb.member p hp']) (by simp)
    rw [hptr, rawName_eq] at this
    exact this.becomes
  · rcases List.mem_cons.mp hy with rfl | hy
    · rw [r2 _ (ms hp' _ (by simp)), hb.symbol p hp', hE0 _ (ms hp' _ (by simp))]
    · rw [r2 _ (mw y hy), hx y hy]

theorem common_walk' (on : Bool) : walkEntries okPlain (fun _ => false) ⟨.code, [], []⟩ (lineEntry on .commonBody ++ texts .commonBody) = some ⟨.code, [], []⟩ := by cases on <;> decide +kernel

/-- What stands between `common.h` and `c.h`: nothing, or `common.c` in a single file. -/
def Between (s : Settings) (protos objs : List Proto) (b : Str) : Prop := b = [] ∨ b = templateText s protos objs .commonBody

theorem meets_between (s : Settings) (h0 : Placed s inc E protos objs) (hd : (protos.map (·.symbol)).Nodup) (hD : ∀ p ∈ protos, p.symbol ≠ str% "DECL")
    (hs : s.names ≠ .skip) {p : Proto} (hp : p ∈ protos)
    (hinc : ∀ r, ∀ y ∈ checkName (toUpper s.pfx) :: heldNames (toUpper s.pfx) (toLower s.pfx) protos objs p.symbol, (inc r).lookup y = none)
    (hw : (Has E (toUpper s.pfx) (str% "WRAP_FUNCTIONS") || Has E (toUpper s.pfx) (str% "ENABLE_AUTOLOAD")) = true) {b : Str} (hb : Between s protos objs b) :
    ∃ E1, Meets inc E (b ++ templateText s protos objs .cHeader) (wrapCode E1 (toUpper s.pfx) p) E1 ∧ Ready E E1 (toUpper s.pfx) (toLower s.pfx) p := by
  rcases hb with rfl | rfl
  · exact meets_c s h0 hd hD hs hp hinc hw
  · have hinc' : ∀ r, ∀ y ∈ heldNames (toUpper s.pfx) (toLower s.pfx) protos objs p.symbol, (inc r).lookup y = none := fun r y hy => hinc r y (List.mem_cons_of_mem _ hy)
    rw [shared_text]
    refine Meets.lead (code := fun E1 => wrapCode E1 (toUpper s.pfx) p) (P := fun E1 => Ready E E1 (toUpper s.pfx) (toLower s.pfx) p) (kept_harmless h0.names h0.calm hinc' (common_walk' s.lineDirective)) fun E0 hF0 => ?_
    have hE0 : ∀ y ∈ keptNames (toUpper s.pfx) (toLower s.pfx) protos objs p.symbol, E0 y = E y := fun y hy => hF0 y (List.mem_cons_of_mem _ hy)
    have hE : ∀ y ∈ symbolNames (toUpper s.pfx) (toLower s.pfx) protos objs, E0 y = E y := fun y hy => hE0 y (List.mem_append_left _ hy)
    obtain ⟨E1, r1, r2⟩ := meets_c s (h0.front hE) hd hD hs hp hinc
      (by rw [has_front hE (by decide), has_front hE (by decide), hw])
    refine ⟨E1, r1, r2.raw, r2.check, fun y hy => (r2.same y hy).trans ?_, by rw [r2.hook, hF0 _ (List.mem_cons_self ..)]⟩
    rcases List.mem_cons.mp hy with rfl | hy
    · exact hE _ (mem_symbol (List.mem_append_left _ hp) _ (by simp))
    · exact hE0 _ (List.mem_append_right _ hy)

/-! ### The template common.h -/

def okCommon (n : Str) : Bool := commonDefined.contains n && n != str% "GDO_WRAP" && n != str% "GDO_WRAP_DECL"

theorem common_apart : apartNames (str% "GDO_WRAP_VISIBILITY" :: commonDefined) = true := by decide +kernel

theorem okCommon_free {n : Str} (h : okCommon n = true) : newName u l n ∉ [newName u l (str% "GDO_WRAP"), newName u l (str% "GDO_WRAP_DECL"), newName u l (str% "GDO_WRAP_VISIBILITY")] := by
  unfold okCommon at h
  simp only [Bool.and_eq_true, bne_iff_ne, ne_eq, List.contains_iff_mem] at h
  obtain ⟨⟨h1, h2⟩, h3⟩ := h
  have inj := apart_inj (u := u) (l := l) common_apart n (List.mem_cons_of_mem _ h1)
  intro hm
  simp only [List.mem_cons, List.not_mem_nil, or_false] at hm
  rcases hm with e | e | e
  · exact h2 (inj _ (by decide) e)
  · exact h3 (inj _ (by decide) e)
  · have := inj _ (by decide) e
    subst this
    revert h1
    decide

theorem common_walk1 (on : Bool) : walkEntries okCommon (fun _ => false) ⟨.code, [], []⟩ (lineEntry on .commonHeader ++ commonLines.take 226) = some ⟨.code, [], []⟩ := by
  cases on <;> decide +kernel

theorem common_walk2 : walkEntries okCommon (fun _ => false) ⟨.code, [], []⟩ (commonLines.drop 236) = some ⟨.code, [], []⟩ := by decide +kernel

theorem common_cut : commonLines = commonLines.take 226 ++ (((texts .commonHeader).drop 226).take 10 ++ commonLines.drop 236) := by
  have : decide (commonLines = commonLines.take 226 ++ (((texts .commonHeader).drop 226).take 10 ++ commonLines.drop 236)) = true := by decide +kernel
  exact of_decide_eq_true this

theorem common_plainText : plainText commonLines = true := by decide +kernel

theorem commonPart_entries (s : Settings) (hp : PrefixOk s.pfx) : commonPart s = entriesText (toUpper s.pfx) (toLower s.pfx) [] [] (lineEntry s.lineDirective .commonHeader ++ commonLines.take 226) ++
    (wrapperPart (toUpper s.pfx) (toLower s.pfx) [] [] ++ entriesText (toUpper s.pfx) (toLower s.pfx) [] [] (commonLines.drop 236)) := by
  have e1 : wrapperPart (toUpper s.pfx) (toLower s.pfx) [] [] = entriesText (toUpper s.pfx) (toLower s.pfx) [] [] (((texts .commonHeader).drop 226).take 10) := rfl
  rw [e1, entries_append, List.append_assoc, ← entries_append, ← entries_append, ← common_cut]
  unfold commonPart entriesText
  rw [lineEntry_written, written_lines (prefixes_of hp) [] [] common_plainText, unlines_app]
  rfl

/-- What behind common.h the names of wrappers stand for. -/
theorem common_wrap (s : Settings) (hp : PrefixOk s.pfx)
    (hinc : ∀ r, ∀ y ∈ [str% "WRAP", str% "WRAP_DECL", str% "WRAP_VISIBILITY"], (inc r).lookup (toUpper s.pfx ++ (str% "_" ++ y)) = none) (E : Str → Option Macro) :
    ∃ t, Runs inc (fun x => (E x).isSome) ([], []) (commonPart s) (t, []) ∧
      ∀ y ∈ [str% "GDO_WRAP", str% "GDO_WRAP_DECL"], known E t (newName (toUpper s.pfx) (toLower s.pfx) y) =
        known E (renTable (newName (toUpper s.pfx) (toLower s.pfx)) (wrapTable (Has E (toUpper s.pfx) (str% "WRAP_VISIBILITY")))) (newName (toUpper s.pfx) (toLower s.pfx) y) := by
  rw [commonPart_entries s hp]
  have hq := prefixes_of hp
  generalize toUpper s.pfx = u at *
  generalize toLower s.pfx = l at *
  have n1 : newName u l (str% "GDO_WRAP") = u ++ (str% "_" ++ str% "WRAP") := newName_upper u l (str% "WRAP")
  have n2 : newName u l (str% "GDO_WRAP_DECL") = u ++ (str% "_" ++ str% "WRAP_DECL") := newName_upper u l (str% "WRAP_DECL")
  have n3 : newName u l (str% "GDO_WRAP_VISIBILITY") = u ++ (str% "_" ++ str% "WRAP_VISIBILITY") := newName_upper u l (str% "WRAP_VISIBILITY")
  have hE : Env inc [newName u l (str% "GDO_WRAP"), newName u l (str% "GDO_WRAP_DECL"), newName u l (str% "GDO_WRAP_VISIBILITY")] u l okCommon (fun _ => false) := by
    refine ⟨hq, fun r y hy => ?_, fun n hn => okCommon_free hn⟩
    simp only [List.mem_cons, List.not_mem_nil, or_false] at hy
    rcases hy with rfl | rfl | rfl
    · rw [n1]; exact hinc r _ (by simp)
    · rw [n2]; exact hinc r _ (by simp)
    · rw [n3]; exact hinc r _ (by simp)
  have w1 := walk_harmless hE (protos := []) (objs := []) (by simp) (by simp) (by simp) (common_walk1 s.lineDirective)
  have w2 := walk_harmless hE (protos := []) (objs := []) (by simp) (by simp) (by simp) common_walk2
  obtain ⟨t1, r1, k1⟩ := runs_harmless w1 fun x => (E x).isSome
  obtain ⟨x, wx, -⟩ := whole_template hq wrapLines_whole
  have ew : wrapperPart u l [] [] = unlines (wrapLines.map (renamedLine u l)) := by
    rw [← written_lines hq [] [] (by decide +kernel)]
    rfl
  have r2 := runs_of_run (inc := inc) (D := fun x => (known E t1 x).isSome) (by rw [← ew] at wx; exact wx) (run_wrap hq [] [] inc (fun x => (known E t1 x).isSome) [])
  have ev : (known E t1 (newName u l (str% "GDO_WRAP_VISIBILITY"))).isSome = Has E u (str% "WRAP_VISIBILITY") := by
    unfold known Has
    rw [k1 _ (by simp), n3]
  rw [ev] at r2
  generalize hT : renTable (newName u l) (wrapTable (Has E u (str% "WRAP_VISIBILITY"))) = T2 at r2
  obtain ⟨t3, r3, k3⟩ := runs_harmless w2 fun x => (known E (T2 ++ t1) x).isSome
  refine ⟨t3 ++ (T2 ++ t1), r1.append (r2.start.append r3.start), fun y hy => ?_⟩
  have hy' : newName u l y ∈ [newName u l (str% "GDO_WRAP"), newName u l (str% "GDO_WRAP_DECL"), newName u l (str% "GDO_WRAP_VISIBILITY")] := by
    simp only [List.mem_cons, List.not_mem_nil, or_false] at hy ⊢
    rcases hy with rfl | rfl <;> simp
  unfold known
  rw [List.lookup_append, k3 _ hy', List.lookup_append, k1 _ hy']
  cases T2.lookup (newName u l y) <;> rfl

/-! ### C112 -/

theorem named_common (u l : Str) {w s : Str} (hw : w ∈ [str% "WRAP_", str% "HAS_VA_ARGS_", str% "HOOK_"]) (hs : s ≠ str% "DECL") : u ++ (str% "_" ++ (w ++ s)) ∉ commonDefined.map (newName u l) := by
  intro h
  obtain ⟨n, hn, e⟩ := List.mem_map.mp h
  by_cases hu : str% "GDO_" <+: n
  · have upper : ∀ n ∈ commonDefined, ∀ w ∈ [str% "WRAP_", str% "HAS_VA_ARGS_", str% "HOOK_"], str% "GDO_" <+: n → w <+: n.drop 4 → w = str% "WRAP_" ∧ n = str% "GDO_WRAP_DECL" := by decide +kernel
    have h1 := upper n hn w hw hu
    obtain ⟨x, rfl⟩ := hu
    rw [newName_upper] at e
    have h2 : x = w ++ s := prefixed_inj (u := u) e
    subst h2
    obtain ⟨rfl, h3⟩ := h1 ⟨s, rfl⟩
    exact hs (List.append_cancel_left (as := str% "GDO_WRAP_") h3)
  · by_cases hv : str% "_GDO_" <+: n
    · obtain ⟨x, rfl⟩ := hv
      rw [newName_under] at e
      have h1 := under_word (a := x) (b := w ++ s) (by simpa using e)
      simp only [List.mem_cons, List.not_mem_nil, or_false] at hw
      rcases hw with rfl | rfl | rfl <;> cases h1
    · have fix : ∀ n ∈ commonDefined, ¬ str% "GDO_" <+: n → ¬ str% "_GDO_" <+: n → fixedWord n = true ∧ ∀ w ∈ [str% "WRAP_", str% "HAS_VA_ARGS_", str% "HOOK_"], ¬ (str% "_" ++ w) <:+: n := by decide +kernel
      obtain ⟨f1, f2⟩ := fix n hn hu hv
      rw [newName_fixed f1] at e
      exact f2 w hw ⟨u, s, by rw [e]; simp⟩

theorem becomes_two {x a b : Str} (h : E x = some ⟨none, false, [⟨true, .ident a⟩, ⟨true, .ident b⟩]⟩) (ha : E a = none) (hb : E b = none) : Becomes E x [.ident a, .ident b] := by
  refine ⟨3, fun sp r n => ⟨withSpace sp (painted [x] [⟨[], true, .ident a⟩, ⟨[], true, .ident b⟩]), rfl, ?_⟩⟩
  rw [show n + 3 = (n + 2) + 1 from rfl, expand_object (by simp) h (by simp)]
  show expand E (n + 1 + 1) (⟨[x], sp, .ident a⟩ :: ⟨[x], true, .ident b⟩ :: r) = _
  rw [expand_cons (fun v hv => by cases hv; exact .inr ha), expand_cons (fun v hv => by cases hv; exact .inr hb), Option.map_map]
  rfl

theorem tail_whole (hp : Prefixes u l) (names : ParamNames) (protos objs : List Proto) : ∃ x, Whole (unlines (instantiate u l names protos objs commonTail)) x := by
  obtain ⟨h1, -⟩ := tail_block names
  obtain ⟨e, h5, -⟩ := message_whole hp names
  have h7 : (wholeLines [str% "#endif", str% ""]).isSome = true := by decide +kernel
  rw [tail_text hp, tail_split]
  simp only [List.map_append, unlines_append]
  obtain ⟨x, wx, -⟩ := whole_template hp (wl_whole h1)
  obtain ⟨y, wy, -⟩ := whole_template hp (wl_whole h7)
  exact ⟨_, whole_append wx (whole_append h5 wy)⟩

/-- Behind `common.h`. -/
theorem common_state (s : Settings) (hp : PrefixOk s.pfx) (hinc : ∀ r, ∀ x ∈ checkedNames (toUpper s.pfx), (inc r).lookup x = none)
    (hw : ∀ r, ∀ y ∈ [str% "WRAP", str% "WRAP_DECL", str% "WRAP_VISIBILITY"], (inc r).lookup (toUpper s.pfx ++ (str% "_" ++ y)) = none) (protos objs : List Proto)
    (h : refused s.names (fun x => (E x).isSome) (toUpper s.pfx) = false) :
    ∃ t, Runs inc (fun x => (E x).isSome) ([], []) (templateText s protos objs .commonHeader) (t, []) ∧
      (known E t (toUpper s.pfx ++ str% "_ENABLE_AUTOLOAD")).isSome = autoload (fun x => (E x).isSome) (toUpper s.pfx) ∧
      (∀ y, y ∉ commonDefined.map (newName (toUpper s.pfx) (toLower s.pfx)) → (∀ r, (inc r).lookup y = none) → known E t y = E y) ∧
      ∀ y ∈ [str% "GDO_WRAP", str% "GDO_WRAP_DECL"], known E t (newName (toUpper s.pfx) (toLower s.pfx) y) =
        known E (renTable (newName (toUpper s.pfx) (toLower s.pfx)) (wrapTable (Has E (toUpper s.pfx) (str% "WRAP_VISIBILITY")))) (newName (toUpper s.pfx) (toLower s.pfx) y) := by
  obtain ⟨x, t, h1, h2, h3, h4, h5⟩ := common_behind s hp hinc E
  obtain ⟨t', r, k⟩ := common_wrap s hp hw E
  have e : t' = t := by
    have r1 := run_whole h1 inc (fun x => (E x).isSome) ([], []) []
    rw [h2] at r1
    rcases r with ⟨e, -⟩ | ⟨x', w', r⟩
    · obtain ⟨-, a', e'⟩ := h1
      rw [e] at e'
      cases a' <;> cases e'
    · have r2 := run_whole w' inc (fun x => (E x).isSome) ([], []) []
      rw [r, r1] at r2
      have r3 : (some (t, ([] : List Cc.Cond))) = some (t', []) := r2
      cases r3
      rfl
  subst e
  have hw := h5 _ (wrap_free _ _) fun r => hinc r _ (List.mem_append_right _ (by simp))
  obtain ⟨y, wy⟩ := tail_whole (prefixes_of hp) s.names protos objs
  have whole : Whole (templateText s protos objs .commonHeader) (x ++ nlT :: y) := by
    unfold templateText
    rw [C100_part s hp]
    exact whole_append h1 wy
  refine ⟨t', runs_of_run whole ?_, h3, h5, k⟩
  unfold templateText
  rw [C100_part s hp, List.append_assoc, run_whole h1, h2, Option.bind_some, run_tail (prefixes_of hp) s.names protos objs rfl]
  simp only [isDefined_isSome]
  rw [hw, h3, h4, ← refused_eq s.names (fun x => (E x).isSome), h]
  rfl

/-- What the compiler reads for the wrapper of a function, from its text and the macros `E1` in
    front of it; `E`: the macros of the user. -/
structure Wraps (E E1 : Str → Option Macro) (u l : Str) (p : Proto) : Prop where
  /-- it is an inline function of the file -/
  inner : Has E u (str% "WRAP_VISIBILITY") = false → E1 (str% "static") = none → E1 (str% "inline") = none →
    Becomes E1 (u ++ (str% "_" ++ str% "WRAP_DECL")) [.ident (str% "static"), .ident (str% "inline")]
  /-- or what the user wants -/
  outer : Has E u (str% "WRAP_VISIBILITY") = true → E1 (u ++ (str% "_" ++ str% "WRAP_DECL")) = some ⟨none, false, [⟨true, .ident (u ++ (str% "_" ++ str% "WRAP_VISIBILITY"))⟩]⟩
  /-- its name -/
  named : ∀ w, w = (if Has E u (str% "WRAP_VISIBILITY") then p.symbol else u ++ (str% "_" ++ (str% "WRAP_" ++ p.symbol))) → E w = none → ∀ sp s1 s2 s3 r n, ∃ hs,
    expand E1 (n + 3) (⟨[], sp, .ident (u ++ (str% "_" ++ str% "WRAP"))⟩ :: ⟨[], s1, .punct (str% "(")⟩ :: ⟨[], s2, .ident p.symbol⟩ :: ⟨[], s3, .punct (str% ")")⟩ :: r) =
      (expand E1 (n + 1) r).map (⟨hs, sp, .ident w⟩ :: ·)
  /-- the function that it calls -/
  raw : Becomes E1 (u ++ (str% "_" ++ (str% "RAWPTR_" ++ p.symbol))) (pointer u l p)
  /-- the check in front of the call -/
  check : Gives E1 u l checkLine
  /-- the hook between the two: the one of the user, otherwise one that calls a function without effect -/
  hook : E1 (u ++ str% "_HOOK_" ++ p.symbol) = some ((E (u ++ str% "_HOOK_" ++ p.symbol)).getD ⟨some [], true, [⟨true, .ident (str% "_" ++ l ++ str% "_noop")⟩, ⟨false, .punct (str% "(")⟩, ⟨false, .punct (str% ")")⟩]⟩)

theorem hookName_eq (u s : Str) : hookName u s = u ++ str% "_HOOK_" ++ s := by simp [hookName]

theorem wraps_of {E2 : Str → Option Macro} (hp : Prefixes u l) {p : Proto} (hi : Identifier p.symbol) (hr : Ready E2 E1 u l p)
    (hk : ∀ y ∈ [str% "GDO_WRAP", str% "GDO_WRAP_DECL"], E2 (newName u l y) = known E (renTable (newName u l) (wrapTable (Has E u (str% "WRAP_VISIBILITY")))) (newName u l y))
    (hs : E2 p.symbol = E p.symbol) (hn : E2 (u ++ (str% "_" ++ (str% "WRAP_" ++ p.symbol))) = E (u ++ (str% "_" ++ (str% "WRAP_" ++ p.symbol))))
    (hk' : E2 (hookName u p.symbol) = E (hookName u p.symbol)) : Wraps E E1 u l p := by
  have n1 : newName u l (str% "GDO_WRAP") = u ++ (str% "_" ++ str% "WRAP") := newName_upper u l (str% "WRAP")
  have n2 : newName u l (str% "GDO_WRAP_DECL") = u ++ (str% "_" ++ str% "WRAP_DECL") := newName_upper u l (str% "WRAP_DECL")
  have n3 : newName u l (str% "GDO_WRAP_") = u ++ str% "_WRAP_" := newName_upper u l (str% "WRAP_")
  have n4 : newName u l (str% "x") = str% "x" := by simp [newName, List.isPrefixOf]
  have n5 : newName u l (str% "GDO_WRAP_VISIBILITY") = u ++ (str% "_" ++ str% "WRAP_VISIBILITY") := newName_upper u l (str% "WRAP_VISIBILITY")
  have n6 : newName u l (str% "static") = str% "static" := newName_fixed (by decide)
  have n7 : newName u l (str% "inline") = str% "inline" := newName_fixed (by decide)
  have k1 := hk (str% "GDO_WRAP") (by simp)
  have k2 := hk (str% "GDO_WRAP_DECL") (by simp)
  have e1 : E1 (u ++ (str% "_" ++ str% "WRAP")) = some (renMacro (newName u l) (wrapMacro (Has E u (str% "WRAP_VISIBILITY")))) := by
    rw [hr.same _ (by simp [wrapNamesOf]), ← n1, k1]
    show known E ((newName u l (str% "GDO_WRAP"), _) :: _) _ = _
    rw [known_cons_eq]
    rfl
  have e2 : E1 (u ++ (str% "_" ++ str% "WRAP_DECL")) = some ⟨none, false, (if Has E u (str% "WRAP_VISIBILITY") then [⟨true, .ident (str% "GDO_WRAP_VISIBILITY")⟩]
      else [⟨true, .ident (str% "static")⟩, ⟨true, .ident (str% "inline")⟩]).map (renT (newName u l))⟩ := by
    rw [hr.same _ (by simp [wrapNamesOf]), ← n2, k2]
    show known E ((newName u l (str% "GDO_WRAP"), _) :: (newName u l (str% "GDO_WRAP_DECL"), _) :: []) _ = _
    rw [known_cons_ne (by rw [n1, n2]; intro e; have := prefixed_inj e; cases this), known_cons_eq]
    rfl
  have e3 := hr.same p.symbol (List.mem_cons_self ..)
  have e4 := hr.same (u ++ (str% "_" ++ (str% "WRAP_" ++ p.symbol))) (by simp [wrapNamesOf])
  rw [hs] at e3
  rw [hn] at e4
  refine ⟨fun hv h1 h2 => ?_, fun hv => ?_, fun w hw hE sp s1 s2 s3 r n => ?_, hr.raw, hr.check, by rw [← hookName_eq, hr.hook, hk']; simp [noHook]⟩
  · rw [hv] at e2
    simp only [Bool.false_eq_true, if_false, List.map_cons, List.map_nil, renT, renTok, n6, n7] at e2
    exact becomes_two e2 h1 h2
  · rw [hv] at e2
    simp only [if_true, List.map_cons, List.map_nil, renT, renTok, n5] at e2
    exact e2
  · have hw0 : E1 w = none := by
      rw [← hE, hw]
      split
      · exact e3
      · exact e4
    generalize hv : Has E u (str% "WRAP_VISIBILITY") = v at *
    cases v with
    | true =>
      rw [if_pos rfl] at hw
      subst hw
      refine wrap_call e1 (by simp [renMacro, wrapMacro, n4]) rfl (b := ⟨[], true, .ident p.symbol⟩) (fun n s2 => ?_) rfl hw0 sp s1 s2 s3 r n
      rw [expand_cons (fun v hv => by cases hv; exact .inr hw0)]
      simp [renMacro, wrapMacro, renT, renTok, n4, fill, expand, withSpace, List.lookup]
    | false =>
      rw [if_neg (by simp)] at hw
      refine wrap_call e1 (by simp [renMacro, wrapMacro, n4]) rfl (b := ⟨[], true, .ident w⟩) (fun n s2 => ?_) rfl hw0 sp s1 s2 s3 r n
      have ew : w = (u ++ str% "_WRAP_") ++ p.symbol := by rw [hw]; simp
      have := fill_paste' (x := u ++ str% "_WRAP_") (u_ne_x hp _) (s := p.symbol) (symbol_word hp (by decide) hi) [] s2 [(str% "x", expand E1 (n + 2) [⟨[], s2, .ident p.symbol⟩])]
      rw [ew, ← this]
      simp [renMacro, wrapMacro, renT, renTok, n3, n4]

theorem meets_header (s : Settings) (hp : PrefixOk s.pfx) (hc : ∀ r, ∀ x ∈ checkedNames (toUpper s.pfx), (inc r).lookup x = none) (h : Placed s inc E protos objs)
    (hs : ∀ p ∈ protos ++ objs, p.symbol ∉ commonDefined.map (newName (toUpper s.pfx) (toLower s.pfx))) (hd : (protos.map (·.symbol)).Nodup)
    (hD : ∀ p ∈ protos, p.symbol ≠ str% "DECL") (hr : refused s.names (fun x => (E x).isSome) (toUpper s.pfx) = false) (hn : s.names ≠ .skip)
    (hw : (Has E (toUpper s.pfx) (str% "WRAP_FUNCTIONS") || autoload (fun x => (E x).isSome) (toUpper s.pfx)) = true) {p : Proto} (hpp : p ∈ protos)
    (hinc : ∀ r, ∀ y ∈ checkName (toUpper s.pfx) :: hookName (toUpper s.pfx) p.symbol :: wrapNamesOf (toUpper s.pfx) p.symbol, (inc r).lookup y = none) {b : Str} (hb : Between s protos objs b) :
    ∃ E1, Meets inc E (templateText s protos objs .commonHeader ++ (b ++ templateText s protos objs .cHeader)) (wrapCode E1 (toUpper s.pfx) p) E1 ∧
      Wraps E E1 (toUpper s.pfx) (toLower s.pfx) p ∧ E1 (vaName (toUpper s.pfx) p.symbol) = E (vaName (toUpper s.pfx) p.symbol) := by
  have hN := h.names
  have hpo := List.mem_append_left objs hpp
  obtain ⟨t, a1, a2, a3, a4⟩ := common_state (E := E) s hp hc (fun r y hy => by
    simp only [List.mem_cons, List.not_mem_nil, or_false] at hy
    rcases hy with rfl | rfl | rfl
    · exact hinc r _ (by simp [wrapNamesOf])
    · exact hinc r _ (by simp [wrapNamesOf])
    · exact h.headers r _ (mem_config (by decide))) protos objs hr
  have same : ∀ y ∈ symbolNames (toUpper s.pfx) (toLower s.pfx) protos objs, y ≠ toUpper s.pfx ++ str% "_ENABLE_AUTOLOAD" → known E t y = E y := fun y hy hn =>
    a3 y (common_names hN.toNames hs y hy hn) fun r => h.headers r y hy
  have extra : ∀ w ∈ [str% "WRAP_", str% "HAS_VA_ARGS_", str% "HOOK_"], known E t (toUpper s.pfx ++ (str% "_" ++ (w ++ p.symbol))) = E (toUpper s.pfx ++ (str% "_" ++ (w ++ p.symbol))) := fun w hw =>
    a3 _ (named_common _ _ hw (hD p hpp)) fun r => hinc r _ (by
      simp only [List.mem_cons, List.not_mem_nil, or_false] at hw
      rcases hw with rfl | rfl | rfl <;> simp [wrapNamesOf, hookName])
  have hP : Placed s inc (known E t) protos objs := by
    refine ⟨h.names, h.calm, h.headers, ?_, fun q hq => ?_⟩
    · rw [same _ (List.mem_cons_self ..) (h.names.handle' (str% "ENABLE_AUTOLOAD")), h.handle]
    · rw [same _ (mem_symbol hq _ (by simp)) (fun e => by
        have := prefixed_inj (u := toUpper s.pfx) (y := str% "ENABLE_AUTOLOAD") e
        cases this), h.members q hq]
  obtain ⟨E1, r1, r2⟩ := meets_between (E := known E t) s hP hd hD hn hpp (fun r y hy => by
      rcases List.mem_cons.mp hy with rfl | hy
      · exact hinc r _ (List.mem_cons_self ..)
      · rcases List.mem_cons.mp hy with rfl | hy
        · exact hinc r _ (List.mem_cons_of_mem _ (List.mem_cons_self ..))
        · rcases List.mem_append.mp hy with hy | hy
          · exact h.headers r y hy
          · exact hinc r y (List.mem_cons_of_mem _ (List.mem_cons_of_mem _ hy)))
    (by
      have e1 : Has (known E t) (toUpper s.pfx) (str% "WRAP_FUNCTIONS") = Has E (toUpper s.pfx) (str% "WRAP_FUNCTIONS") := by
        unfold Has
        rw [same _ (mem_config (by decide)) (fun e => by
          have := prefixed_inj (u := toUpper s.pfx) (y := str% "ENABLE_AUTOLOAD") e
          cases this)]
      have e2 : Has (known E t) (toUpper s.pfx) (str% "ENABLE_AUTOLOAD") = autoload (fun x => (E x).isSome) (toUpper s.pfx) := a2
      rw [e1, e2, hw]) hb
  exact ⟨E1, r1.front a1, wraps_of hN.prefixes (hN.functions p hpp) r2 a4 (same _ (mem_symbol hpo _ (by simp)) (hN.own p hpo (str% "ENABLE_AUTOLOAD"))) (extra _ (by simp))
      (extra (str% "HOOK_") (by simp)),
    (r2.same _ (by simp [wrapNamesOf, vaName])).trans (extra _ (by simp))⟩


/-- The header of the C format with wrappers: the definition of the wrapper of every function
    is reached, and it is a function, or a macro, that checks the pointer and calls the symbol. -/
theorem C112_header (s : Settings) (hp : PrefixOk s.pfx) (hc : ∀ r, ∀ x ∈ checkedNames (toUpper s.pfx), (inc r).lookup x = none) (h : Placed s inc E protos objs)
    (hs : ∀ p ∈ protos ++ objs, p.symbol ∉ commonDefined.map (newName (toUpper s.pfx) (toLower s.pfx))) (hd : (protos.map (·.symbol)).Nodup)
    (hD : ∀ p ∈ protos, p.symbol ≠ str% "DECL") (hr : refused s.names (fun x => (E x).isSome) (toUpper s.pfx) = false) (hn : s.names ≠ .skip)
    (hw : (Has E (toUpper s.pfx) (str% "WRAP_FUNCTIONS") || autoload (fun x => (E x).isSome) (toUpper s.pfx)) = true) {p : Proto} (hpp : p ∈ protos)
    (hinc : ∀ r, ∀ y ∈ checkName (toUpper s.pfx) :: hookName (toUpper s.pfx) p.symbol :: wrapNamesOf (toUpper s.pfx) p.symbol, (inc r).lookup y = none) :
    ∃ E1, Reaches inc E (templateText s protos objs .commonHeader ++ templateText s protos objs .cHeader) (wrapCode E1 (toUpper s.pfx) p) E1 ∧
      Wraps E E1 (toUpper s.pfx) (toLower s.pfx) p ∧ E1 (vaName (toUpper s.pfx) p.symbol) = E (vaName (toUpper s.pfx) p.symbol) := by
  obtain ⟨E1, h1, h2⟩ := meets_header s hp hc h hs hd hD hr hn hw hpp hinc (.inl rfl)
  exact ⟨E1, h1.reaches, h2⟩

/-- A function `DECL` is left out: with variable arguments and without `__builtin_va_arg_pack`, the
    macro for its wrapper has the name of the macro `GDO_WRAP_DECL` that the others begin with. -/
theorem C112_decl_violated : (after (fun _ => []) (fun x => if x = str% "GDO_HAS_VA_ARGS_DECL" then some emptyMacro else none)
    (blockLines.flatMap (physText (str% "GDO") (str% "gdo") (functionValues 2 { aFunction with symbol := str% "DECL", args := str% "int a, ..." })))).map
      (fun E' => (E' (str% "GDO_WRAP_DECL")).map fun m => (m.params, m.va)) = some (some (some [], true)) := by
  decide +kernel

/-- functions are wrapped -/
example : ∃ E1, Reaches (fun _ => []) wrapping (templateText {} [aFunction] [anObject] .commonHeader ++ templateText {} [aFunction] [anObject] .cHeader)
      (str% "    GDO_WRAP_DECL /* wrapper function */\n    void GDO_WRAP(foo) (int a) {\n        _GDO_WRAP_CHECK_LOADED( foo );\n        GDO_HOOK_foo( a );\n        GDO_RAWPTR_foo( a );\n    }\n") E1 ∧
    Becomes E1 (str% "GDO_RAWPTR_foo") [.ident (str% "gdo_hndl"), .punct (str% "."), .ident (str% "GDO_PTR_foo")] ∧
    (E1 (str% "static") = none → E1 (str% "inline") = none → Becomes E1 (str% "GDO_WRAP_DECL") [.ident (str% "static"), .ident (str% "inline")]) ∧
    ∀ sp s1 s2 s3 r n, ∃ hs, expand E1 (n + 3) (⟨[], sp, .ident (str% "GDO_WRAP")⟩ :: ⟨[], s1, .punct (str% "(")⟩ :: ⟨[], s2, .ident (str% "foo")⟩ :: ⟨[], s3, .punct (str% ")")⟩ :: r) =
      (expand E1 (n + 1) r).map (⟨hs, sp, .ident (str% "GDO_WRAP_foo")⟩ :: ·) := by
  obtain ⟨E1, h1, h2, h3⟩ := C112_header (E := wrapping) (inc := fun _ => []) (protos := [aFunction]) (objs := [anObject]) {} prefix_example (fun _ _ _ => rfl)
    (placed (by decide) (by decide)) (by decide +kernel) (by simp) (by decide) (by decide +kernel) (by decide) (by decide) (p := aFunction) (by simp) (fun _ _ _ => rfl)
  have hv : E1 (vaName (toUpper ({} : Settings).pfx) aFunction.symbol) = none := h3.trans (by decide)
  unfold wrapCode at h1
  rw [hv] at h1
  exact ⟨E1, h1, h2.raw, h2.inner (by decide), h2.named _ (by decide) (by decide)⟩

def aVariadic : Proto := { aFunction with args := str% "int a, ..." }

theorem names_va : Names (str% "GDO") (str% "gdo") [aVariadic] [anObject] := by
  refine ⟨⟨by decide, by decide, by decide, by decide, by decide, by decide⟩, ?_, ?_, ?_, ?_, fun x => by simp, ?_⟩
  all_goals
    intro p hp
    simp only [List.cons_append, List.nil_append, List.mem_cons, List.not_mem_nil, or_false] at hp
  · subst hp
    exact ⟨by decide, by decide, by decide⟩
  · subst hp
    exact ⟨by decide, by decide, by decide⟩
  · rcases hp with rfl | rfl <;> simp [aVariadic, aFunction, anObject]
  · rcases hp with rfl | rfl <;> decide
  · subst hp
    intro o ho
    simp only [List.mem_singleton] at ho
    subst ho
    decide

theorem named_va : AllNames (str% "GDO") (str% "gdo") [aVariadic] [anObject] := by
  refine ⟨names_va, ?_, ?_, ?_⟩ <;> decide

theorem calm_va : ∀ p ∈ [aVariadic] ++ [anObject], CalmProto p := by
  have : ∀ p ∈ [aVariadic] ++ [anObject], (∀ c ∈ p.type, c ≠ '"' ∧ c ≠ '\'' ∧ c ≠ '\\' ∧ c ≠ '/' ∧ c ≠ '#' ∧ c ≠ '\n') ∧
      (∀ c ∈ p.args, c ≠ '"' ∧ c ≠ '\'' ∧ c ≠ '\\' ∧ c ≠ '/' ∧ c ≠ '#' ∧ c ≠ '\n') ∧
      (∀ c ∈ p.paramNames, c ≠ '"' ∧ c ≠ '\'' ∧ c ≠ '\\' ∧ c ≠ '/' ∧ c ≠ '#' ∧ c ≠ '\n') ∧ ∀ c ∈ p.symbol, isWord c = true := by decide
  intro p hp
  obtain ⟨h1, h2, h3, h4⟩ := this p hp
  exact ⟨h1, h2, h3, h4⟩

/-- a function with variable arguments, with a compiler that cannot pass them on: a macro -/
example : ∃ E1, Reaches (fun _ => []) (fun x => if x = str% "GDO_HAS_VA_ARGS_foo" then some emptyMacro else wrapping x)
      (templateText {} [aVariadic] [anObject] .commonHeader ++ templateText {} [aVariadic] [anObject] .cHeader)
      (if (E1 (str% "GDO_BUILTIN_VA_ARG_PACK")).isSome then inlineText (str% "GDO") aVariadic else
        str% "#  define GDO_WRAP_foo(...) \\\n    (_GDO_WRAP_CHECK_LOADED( foo ),\\\n     (GDO_HOOK_foo( __VA_ARGS__ )),\\\n      GDO_RAWPTR_foo( __VA_ARGS__ ))\n") E1 := by
  obtain ⟨E1, h1, h2, h3⟩ := C112_header (E := fun x => if x = str% "GDO_HAS_VA_ARGS_foo" then some emptyMacro else wrapping x) (inc := fun _ => [])
    (protos := [aVariadic]) (objs := [anObject]) {} prefix_example (fun _ _ _ => rfl)
    ⟨named_va, calm_va, fun _ _ _ => rfl, by decide, by decide⟩ (by decide +kernel) (by simp) (by decide) (by decide +kernel) (by decide) (by decide) (p := aVariadic) (by simp) (fun _ _ _ => rfl)
  have hv : E1 (vaName (toUpper ({} : Settings).pfx) aVariadic.symbol) = some emptyMacro := h3.trans (by decide)
  unfold wrapCode at h1
  rw [hv] at h1
  exact ⟨E1, h1⟩

end Gdo.Cpp
