import Verif.Props.CMacroHeader

/-!
C107: the text that the tool writes in front of the templates, and with it the whole header.
-/

set_option maxRecDepth 20000

namespace Gdo.Cpp
open Gdo Rename Tmpl Builtin Gdo.Sub Opt Tpl Gen Pfx

variable {u l : Str} {E E' E1 E2 : Str → Option Macro} {inc : List T → Table} {D : Str → Bool} {protos objs : List Proto}

/-! ### Texts one after the other -/

/-- Behind the text `a` the macros are `E1`; apart from what headers define, only the names
`X` are changed. -/
def Moves (inc : List T → Table) (X : List Str) (E : Str → Option Macro) (a : Str) (E1 : Str → Option Macro) : Prop :=
  (∀ y, y ∉ X → (∀ r, (inc r).lookup y = none) → E1 y = E y) ∧ ∀ b, after inc E (a ++ b) = after inc E1 b

theorem Moves.trans {X Y : List Str} {a c : Str} (h1 : Moves inc X E a E1) (h2 : Moves inc Y E1 c E2) : Moves inc (X ++ Y) E (a ++ c) E2 :=
  ⟨fun y hy hi => (h2.1 y (fun h => hy (List.mem_append_right _ h)) hi).trans (h1.1 y (fun h => hy (List.mem_append_left _ h)) hi),
   fun b => by rw [List.append_assoc, h1.2, h2.2]⟩

theorem moves_quiet {a : Str} (h : Quiet a) (E : Str → Option Macro) : Moves inc [] E a E := ⟨fun _ _ _ => rfl, fun b => h inc E b⟩

theorem moves_nil (E : Str → Option Macro) : Moves inc [] E [] E := moves_quiet quiet_nil E

theorem moves_blank (E : Str → Option Macro) : Moves inc [] E ['\n'] E :=
  moves_quiet (quiet_whole whole_blank fun _ _ => rfl) E

theorem moves_define {w : Str} (h : WordText w) {x : Str} {ts : List T} (hx : LineOf x ts) (ho : BodyOk ts) (E : Str → Option Macro) :
    Moves inc [w] E (str% "#define " ++ w ++ ' ' :: (x ++ ['\n'])) (known E [(w, some ⟨none, false, ts⟩)]) := by
  refine ⟨fun y hy _ => ?_, fun b => after_table ?_⟩
  · exact known_cons_ne (by simpa using hy)
  · have e : str% "#define " ++ w ++ ' ' :: (x ++ ['\n']) ++ b = str% "#define " ++ w ++ ' ' :: (x ++ '\n' :: b) := by simp
    rw [e, run_define h hx ho.nl ho.first]

theorem moves_flag {w : Str} (h : WordText w) (E : Str → Option Macro) : Moves inc [w] E (str% "#define " ++ w ++ ['\n']) (withEmpty E w) := by
  refine ⟨fun y hy _ => ?_, fun b => ?_⟩
  · rw [← known_single]
    exact known_cons_ne (by simpa using hy)
  · rw [← known_single]
    refine after_table ?_
    have hd : WordText (str% "define") := ⟨by decide, by decide, by decide⟩
    have e : str% "#define " ++ w ++ ['\n'] ++ b = ('#' :: (str% "define" ++ ' ' :: (w ++ ['\n']))) ++ b := by simp
    rw [e, run_whole (whole_hash hd h), splitLines_one (by simp)]
    rfl

/-- An `#include` line. -/
def IncludeLine (e : Str) : Prop :=
  ∃ r, Whole (str% "#include " ++ e ++ str% "\n") (⟨true, .punct (str% "#")⟩ :: ⟨false, .ident (str% "include")⟩ :: r) ∧ ∀ t ∈ r, t.tok ≠ .nl

theorem lookup_none_append {t t' : Table} {y : Str} (h1 : t.lookup y = none) (h2 : t'.lookup y = none) : (t ++ t').lookup y = none := by
  rw [List.lookup_append, h1, h2]
  rfl

theorem moves_include {e : Str} (h : IncludeLine e) (E : Str → Option Macro) : ∃ E1, Moves inc [] E (str% "#include " ++ e ++ str% "\n") E1 := by
  obtain ⟨r, hw, hn⟩ := h
  refine ⟨known E (inc r), fun y _ hi => ?_, fun b => after_table ?_⟩
  · unfold known
    rw [hi r]
  · rw [run_whole hw, splitLines_one fun t ht => ?_]
    · show ((some (inc r ++ [], ([] : List Cc.Cond))).bind fun s' => runLines inc (fun x => (E x).isSome) s' []).bind _ = _
      rw [List.append_nil]
      rfl
    · rcases List.mem_cons.mp ht with rfl | ht
      · simp
      · rcases List.mem_cons.mp ht with rfl | ht
        · simp
        · exact hn t ht

theorem moves_includes {es : List Str} (h : ∀ e ∈ es, IncludeLine e) (E : Str → Option Macro) :
    ∃ E1, Moves inc [] E (es.flatMap fun e => str% "#include " ++ e ++ str% "\n") E1 := by
  induction es generalizing E with
  | nil => exact ⟨E, moves_nil E⟩
  | cons e es ih =>
    obtain ⟨E1, h1⟩ := moves_include (inc := inc) (h e (by simp)) E
    obtain ⟨E2, h2⟩ := ih (fun x hx => h x (by simp [hx])) E1
    exact ⟨E2, h1.trans h2⟩

/-! ### The parts in front of the templates -/

theorem moves_file (s : Settings) (hp : PrefixOk s.pfx) {L : List Entry} (hL : compiledList .filenameMacros = some L) (E : Str → Option Macro) :
    Moves inc (fileNames.map (newName (toUpper s.pfx) (toLower s.pfx))) E (savedText s L)
      (known E (renTable (newName (toUpper s.pfx) (toLower s.pfx)) (fileTable (systemIn E) (wideNames E)))) := by
  have hpp := prefixes_of hp
  refine ⟨fun y hy _ => ?_, fun b => after_table ?_⟩
  · unfold known
    rw [file_other _ _ hy]
  · rw [C94_saved s hp .skip [] [] .filenameMacros (.inr rfl) L hL, file_text hpp, run_fileMacros hpp]
    rfl

/-- The names that the tool defines. -/
def toolNames (s : Settings) (protos : List Proto) : List Str :=
  (if isSeparate s then [toUpper s.pfx ++ str% "_SEPARATE"] else []) ++ (if s.defaultLib.isEmpty then [] else hardNames (toUpper s.pfx)) ++
    [toUpper s.pfx ++ str% "_COMMON_PREFIX"] ++ protos.map fun p => toUpper s.pfx ++ str% "_HAS_VA_ARGS_" ++ p.symbol

theorem body_one : BodyOk [⟨true, .num (str% "1")⟩] := ⟨by simp, by simp, fun t h => by cases h; rfl⟩

theorem line_one : LineOf (str% "1") [⟨true, .num (str% "1")⟩] := ⟨_, [], [⟨true, .num (str% "1")⟩], rfl, rfl, rfl⟩

theorem moves_va (hp : Prefixes u l) {ps : List Proto} (hs : ∀ p ∈ ps, ∀ c ∈ p.symbol, isWord c = true) (E : Str → Option Macro) :
    ∃ E1, Moves inc (ps.map fun p => u ++ str% "_HAS_VA_ARGS_" ++ p.symbol) E (ps.flatMap fun p => str% "#define " ++ u ++ str% "_HAS_VA_ARGS_" ++ p.symbol ++ str% " 1\n") E1 ∧
      ∀ p ∈ ps, (∀ r, (inc r).lookup (u ++ str% "_HAS_VA_ARGS_" ++ p.symbol) = none) → (E1 (u ++ str% "_HAS_VA_ARGS_" ++ p.symbol)).isSome = true := by
  induction ps generalizing E with
  | nil => exact ⟨E, moves_nil E, nofun⟩
  | cons p ps ih =>
    have hw : WordText (u ++ str% "_HAS_VA_ARGS_" ++ p.symbol) := by
      rw [List.append_assoc]
      refine prefix_word hp fun c hc => ?_
      rcases List.mem_append.mp hc with h | h
      · exact (by decide : ∀ c ∈ str% "_HAS_VA_ARGS_", isWord c = true) c h
      · exact hs p (by simp) c h
    have h1 := moves_define (inc := inc) hw line_one body_one E
    obtain ⟨E2, h2, h3⟩ := ih (fun q hq => hs q (by simp [hq])) (known E [(u ++ str% "_HAS_VA_ARGS_" ++ p.symbol, some ⟨none, false, [⟨true, .num (str% "1")⟩]⟩)])
    refine ⟨E2, ?_, fun q hq hi => ?_⟩
    rotate_left
    · rcases List.mem_cons.mp hq with rfl | hq
      · by_cases hm : u ++ str% "_HAS_VA_ARGS_" ++ q.symbol ∈ ps.map fun p => u ++ str% "_HAS_VA_ARGS_" ++ p.symbol
        · obtain ⟨q', hq', e⟩ := List.mem_map.mp hm
          rw [← e] at hi ⊢
          exact h3 q' hq' hi
        · rw [h2.1 _ hm hi, known_cons_eq]
          rfl
      · exact h3 q hq hi
    have := h1.trans h2
    have e : str% "#define " ++ (u ++ str% "_HAS_VA_ARGS_" ++ p.symbol) ++ ' ' :: (str% "1" ++ ['\n']) = str% "#define " ++ u ++ str% "_HAS_VA_ARGS_" ++ p.symbol ++ str% " 1\n" := by simp
    rw [e] at this
    exact this

/-- What is asked of the settings and the symbols for the text in front of the templates. -/
structure FrontGiven (env : Gen.Env) (s : Settings) : Prop where
  pfx : PrefixOk s.pfx
  file : compiledList .filenameMacros = some (env.builtin .filenameMacros)
  symbols : ∀ p ∈ env.symbols.protos ++ env.symbols.objs, ∀ c ∈ p.symbol, isWord c = true
  includes : ∀ e ∈ s.includes, IncludeLine e
  typedefs : ∀ t ∈ env.symbols.typedefs, Calm t
  library : s.defaultLib = [] ∨ ∃ sys f t, Opens sys s.defaultLib f t
  defines : s.defines = [] ∨ ∃ x, Whole s.defines x

theorem quiet_comment {c : Str} (h : CalmText .code .code c) : Quiet c := quiet_calm h

theorem word_literal {s : Str} (h : ∀ c ∈ s, isWord c = true) : LiteralText s := by
  intro c hc
  refine ⟨?_, ?_, ?_, ?_⟩ <;> rintro rfl <;> exact absurd (h _ hc) (by decide)

theorem common_word (env : Gen.Env) (h : ∀ p ∈ env.symbols.protos ++ env.symbols.objs, ∀ c ∈ p.symbol, isWord c = true) :
    LiteralText ((Common.getCommonPrefix (env.symbols.protos.map (·.symbol)) (env.symbols.objs.map (·.symbol))).getD []) := by
  cases hr : Common.getCommonPrefix (env.symbols.protos.map (·.symbol)) (env.symbols.objs.map (·.symbol)) with
  | none => exact absurd hr (Common.C31_safe _ _)
  | some r =>
    rw [Option.getD_some]
    cases hl : env.symbols.protos ++ env.symbols.objs with
    | nil =>
      obtain ⟨e1, e2⟩ := List.append_eq_nil_iff.mp hl
      rw [e1, e2] at hr
      cases hr
      intro c hc
      cases hc
    | cons p ps =>
      refine word_literal fun c hc => ?_
      have hm : p ∈ env.symbols.protos ++ env.symbols.objs := by simp [hl]
      have := Common.C31_prefix _ _ r hr p.symbol (by rw [← List.map_append]; exact List.mem_map.mpr ⟨p, hm, rfl⟩)
      exact h p hm c (this.subset hc)

theorem moves_library (hp : Prefixes u l) (s : Settings) (h : s.defaultLib = [] ∨ ∃ sys f t, Opens sys s.defaultLib f t) (E : Str → Option Macro) :
    ∃ E1, Moves inc (if s.defaultLib.isEmpty then [] else hardNames u) E (if s.defaultLib.isEmpty then [] else formatLibname s.defaultLib u) E1 ∧
      (s.defaultLib ≠ [] → (E1 (u ++ str% "_HARDCODED_DEFAULT_LIBA")).isSome = true ∧ (E1 (u ++ str% "_HARDCODED_DEFAULT_LIBW")).isSome = true) := by
  cases hd : s.defaultLib with
  | nil => exact ⟨E, moves_nil E, fun h => absurd rfl h⟩
  | cons c cs =>
    rcases h with h | ⟨sys, f, t, h⟩
    · rw [hd] at h
      cases h
    · rw [hd] at h
      obtain ⟨a, w, tsA, tsW, e1, e2, e3, e4, e5, _⟩ := opens_bodies hp h
      refine ⟨known E [(u ++ str% "_HARDCODED_DEFAULT_LIBW", some ⟨none, false, tsW⟩), (u ++ str% "_HARDCODED_DEFAULT_LIBA", some ⟨none, false, tsA⟩)],
        ⟨fun y hy _ => ?_, fun b => ?_⟩, fun _ => ⟨?_, ?_⟩⟩
      · have : y ≠ u ++ str% "_HARDCODED_DEFAULT_LIBA" ∧ y ≠ u ++ str% "_HARDCODED_DEFAULT_LIBW" := by simpa [hardNames] using hy
        rw [known_cons_ne this.2, known_cons_ne this.1]
        rfl
      · show after inc E (formatLibname (c :: cs) u ++ b) = _
        rw [e1]
        exact after_table (run_library hp e2 e3 e4 e5 _ _ _ _)
      · rw [known_cons_ne (suffix_ne (by decide)), known_cons_eq]
        rfl
      · rw [known_cons_eq]
        rfl

theorem typedefs_calm {ts : List Str} (h : ∀ t ∈ ts, Calm t) : CalmText .code .code (ts.flatMap fun e => str% "typedef " ++ e ++ str% ";\n") := by
  induction ts with
  | nil => exact ⟨rfl, .inl rfl⟩
  | cons t ts ih =>
    have ht : CalmText .code .code (str% "typedef " ++ t ++ str% ";\n") := by
      refine ⟨?_, .inr ⟨str% "typedef " ++ t ++ str% ";", by simp⟩⟩
      rw [absRun_append, absRun_append, show absRun .code (str% "typedef ") = some .code from by decide, Option.bind_some, absRun_stay fun c hc => ?_]
      · rfl
      · have := h t (by simp) c hc
        unfold absChar
        split
        · rfl
        · unfold absOther codeStep
          simp [this]
    exact ht.append (ih fun x hx => h x (by simp [hx]))

theorem moves_typedefs {ts : List Str} (h : ∀ t ∈ ts, Calm t) (E : Str → Option Macro) : Moves inc [] E (typedefsText ts) E := by
  unfold typedefsText
  split
  · exact moves_nil E
  · refine moves_quiet (quiet_calm ?_) E
    have h1 : CalmText .code .code (str% "/* typedefs */\n") := ⟨by decide, .inr ⟨str% "/* typedefs */", rfl⟩⟩
    exact (h1.append (typedefs_calm h)).append ⟨by decide, .inr ⟨[], rfl⟩⟩

/-- The headers that are always included. -/
def ownHeaders (s : Settings) : List Str := if Format.isCxx s.format then [str% "<cstddef>", str% "<cstring>"] else [str% "<stddef.h>", str% "<string.h>"]

theorem ownHeaders_line (s : Settings) : ∀ e ∈ ownHeaders s, IncludeLine e := by
  intro e he
  unfold ownHeaders at he
  split at he <;> simp only [List.mem_cons, List.not_mem_nil, or_false] at he <;> rcases he with rfl | rfl
  · exact ⟨_, whole_of_tokens (a := str% "#include <cstddef>") rfl, by decide⟩
  · exact ⟨_, whole_of_tokens (a := str% "#include <cstring>") rfl, by decide⟩
  · exact ⟨_, whole_of_tokens (a := str% "#include <stddef.h>") rfl, by decide⟩
  · exact ⟨_, whole_of_tokens (a := str% "#include <string.h>") rfl, by decide⟩

/-- `C107_front`, and the names of the functions with variable arguments. -/
theorem front_all {env : Gen.Env} {s : Settings} (h : FrontGiven env s) {EU : Str → Option Macro}
    (hU : after inc E (savedText s (env.builtin .filenameMacros) ++ s.defines) = some EU)
    (hi : ∀ r, ∀ x ∈ toolNames s [], (inc r).lookup x = none) :
    ∃ E1, after inc E (frontText env s (allDefines env s)) = some E1 ∧
      (∀ y, y ∉ toolNames s (env.symbols.protos.filter fun p => (str% "...").isSuffixOf p.args) → (∀ r, (inc r).lookup y = none) → E1 y = EU y) ∧
      (isSeparate s = true → (E1 (toUpper s.pfx ++ str% "_SEPARATE")).isSome = true) ∧
      (s.defaultLib ≠ [] → (E1 (toUpper s.pfx ++ str% "_HARDCODED_DEFAULT_LIBA")).isSome = true ∧ (E1 (toUpper s.pfx ++ str% "_HARDCODED_DEFAULT_LIBW")).isSome = true) ∧
      ∀ p ∈ env.symbols.protos.filter fun p => (str% "...").isSuffixOf p.args, (∀ r, (inc r).lookup (toUpper s.pfx ++ str% "_HAS_VA_ARGS_" ++ p.symbol) = none) →
        (E1 (toUpper s.pfx ++ str% "_HAS_VA_ARGS_" ++ p.symbol)).isSome = true := by
  have hpp := prefixes_of h.pfx
  have m1 := moves_file (inc := inc) s h.pfx h.file E
  rw [m1.2] at hU
  generalize known E (renTable (newName (toUpper s.pfx) (toLower s.pfx)) (fileTable (systemIn E) (wideNames E))) = EF at m1 hU
  have m2 : Moves inc [] EF (str% "/* extra defines */\n") EF := moves_quiet (quiet_calm ⟨by decide, .inr ⟨str% "/* extra defines */", rfl⟩⟩) EF
  have m3 : ∀ b, after inc EF (s.defines ++ b) = after inc EU b := by
    intro b
    rcases h.defines with hd | ⟨x, hd⟩
    · rw [hd, after_nil] at hU
      cases hU
      rw [hd]
      rfl
    · exact after_more hd hU
  obtain ⟨EC, m4, k4⟩ : ∃ EC, Moves inc (if isSeparate s then [toUpper s.pfx ++ str% "_SEPARATE"] else []) EU (if isSeparate s then str% "#define " ++ toUpper s.pfx ++ str% "_SEPARATE\n" else []) EC ∧
      (isSeparate s = true → (EC (toUpper s.pfx ++ str% "_SEPARATE")).isSome = true) := by
    cases isSeparate s with
    | false => exact ⟨EU, moves_nil EU, fun h => by cases h⟩
    | true =>
      have := moves_flag (inc := inc) (prefix_word hpp (s := str% "_SEPARATE") (by decide)) EU
      have e : str% "#define " ++ (toUpper s.pfx ++ str% "_SEPARATE") ++ ['\n'] = str% "#define " ++ toUpper s.pfx ++ str% "_SEPARATE\n" := by simp
      rw [e] at this
      exact ⟨_, this, fun _ => by rw [← known_single, known_cons_eq]; rfl⟩
  obtain ⟨EL, m5, k5⟩ := moves_library (inc := inc) hpp s h.library EC
  have m6 := moves_define (inc := inc) (prefix_word hpp (s := str% "_COMMON_PREFIX") (by decide)) (line_literal (common_word env h.symbols)) ⟨by simp, by simp, fun t h => by cases h; rfl⟩ EL
  obtain ⟨EV, m7, v7⟩ := moves_va (inc := inc) hpp (ps := env.symbols.protos.filter fun p => (str% "...").isSuffixOf p.args)
    (fun p hp => h.symbols p (List.mem_append_left _ (List.mem_filter.mp hp).1))
    (known EL [(toUpper s.pfx ++ str% "_COMMON_PREFIX", some ⟨none, false, [⟨true, .str [] ((Common.getCommonPrefix (env.symbols.protos.map (·.symbol)) (env.symbols.objs.map (·.symbol))).getD [])⟩]⟩)])
  obtain ⟨E3, m8⟩ := moves_includes (inc := inc) (es := ownHeaders s) (ownHeaders_line s) EV
  obtain ⟨E4, m9⟩ := moves_includes (inc := inc) h.includes E3
  have m10 := moves_typedefs (inc := inc) h.typedefs E4
  have mh : Moves inc [] EV (str% "/* extra headers */\n") EV := moves_quiet (quiet_calm ⟨by decide, .inr ⟨str% "/* extra headers */", rfl⟩⟩) EV
  have tail := ((m6.trans m7).trans (moves_blank EV)).trans ((((mh.trans m8).trans m9).trans (moves_blank E4)).trans m10)
  have rest := m5.trans tail
  have names : ∀ (ps : List Proto) (w : Str), w ≠ str% "_COMMON_PREFIX" → (∀ q, w ≠ str% "_HAS_VA_ARGS_" ++ q) →
      toUpper s.pfx ++ w ∉ [toUpper s.pfx ++ str% "_COMMON_PREFIX"] ++ ps.map fun p => toUpper s.pfx ++ str% "_HAS_VA_ARGS_" ++ p.symbol := by
    intro ps w h1 h2 hm
    rcases List.mem_append.mp hm with hm | hm
    · rw [List.mem_singleton] at hm
      exact suffix_ne h1 hm
    · obtain ⟨p, _, e⟩ := List.mem_map.mp hm
      rw [List.append_assoc] at e
      exact h2 _ (List.append_cancel_left e).symm
  have late := ((((mh.trans m8).trans m9).trans (moves_blank E4)).trans m10)
  refine ⟨E4, ?_, fun y hy hn => ?_, fun hs => ?_, fun hl => ?_, fun p hp hi => by rw [late.1 _ (by simp) hi]; exact v7 p hp hi⟩
  · have e : frontText env s (allDefines env s) = savedText s (env.builtin .filenameMacros) ++ (str% "/* extra defines */\n" ++ (s.defines ++
        ((if isSeparate s then str% "#define " ++ toUpper s.pfx ++ str% "_SEPARATE\n" else []) ++ (((if s.defaultLib.isEmpty then [] else formatLibname s.defaultLib (toUpper s.pfx)) ++
          (((str% "#define " ++ (toUpper s.pfx ++ str% "_COMMON_PREFIX") ++ ' ' :: ((str% "\"" ++ (Common.getCommonPrefix (env.symbols.protos.map (·.symbol))
            (env.symbols.objs.map (·.symbol))).getD [] ++ str% "\"") ++ ['\n'])) ++
            ((env.symbols.protos.filter fun p => (str% "...").isSuffixOf p.args).flatMap fun p => str% "#define " ++ toUpper s.pfx ++ str% "_HAS_VA_ARGS_" ++ p.symbol ++ str% " 1\n") ++ ['\n']) ++
          (str% "/* extra headers */\n" ++ ((ownHeaders s).flatMap fun e => str% "#include " ++ e ++ str% "\n") ++
            (s.includes.flatMap fun e => str% "#include " ++ e ++ str% "\n") ++ ['\n'] ++ typedefsText env.symbols.typedefs))) ++ [])))) := by
      unfold frontText allDefines addedDefines extraDefines includesText ownHeaders
      cases Format.isCxx s.format <;> simp
    rw [e, m1.2, m2.2, m3, m4.2, rest.2, after_nil]
  · have hy' : y ∉ (if isSeparate s then [toUpper s.pfx ++ str% "_SEPARATE"] else []) ∧ y ∉ (if s.defaultLib.isEmpty then [] else hardNames (toUpper s.pfx)) ∧
        y ≠ toUpper s.pfx ++ str% "_COMMON_PREFIX" ∧ y ∉ (env.symbols.protos.filter fun p => (str% "...").isSuffixOf p.args).map fun p => toUpper s.pfx ++ str% "_HAS_VA_ARGS_" ++ p.symbol := by
      unfold toolNames at hy
      rw [List.mem_append, List.mem_append, List.mem_append, List.mem_singleton, not_or, not_or, not_or] at hy
      exact ⟨hy.1.1.1, hy.1.1.2, hy.1.2, hy.2⟩
    rw [rest.1 y ?_ hn, m4.1 y hy'.1 hn]
    simp only [List.mem_append, List.mem_singleton, List.not_mem_nil, or_false, not_or]
    exact ⟨hy'.2.1, hy'.2.2.1, hy'.2.2.2⟩
  · rw [rest.1 _ ?_ fun r => hi r _ (by unfold toolNames; rw [hs]; simp), k4 hs]
    have n1 := names (env.symbols.protos.filter fun p => (str% "...").isSuffixOf p.args) (str% "_SEPARATE") (by decide) (fun q e => by cases e)
    have n2 : toUpper s.pfx ++ str% "_SEPARATE" ∉ (if s.defaultLib.isEmpty then [] else hardNames (toUpper s.pfx)) := by
      split
      · simp
      · simp [hardNames]
    simp only [List.mem_append, List.not_mem_nil, or_false, not_or] at n1 ⊢
    exact ⟨n2, n1⟩
  · have hne : s.defaultLib.isEmpty = false := by simpa using hl
    have key : ∀ w ∈ [str% "_HARDCODED_DEFAULT_LIBA", str% "_HARDCODED_DEFAULT_LIBW"], E4 (toUpper s.pfx ++ w) = EL (toUpper s.pfx ++ w) := by
      intro w hw
      have hw' : w ≠ str% "_COMMON_PREFIX" ∧ ∀ q, w ≠ str% "_HAS_VA_ARGS_" ++ q := by
        simp only [List.mem_cons, List.not_mem_nil, or_false] at hw
        rcases hw with rfl | rfl
        · exact ⟨by decide, fun q e => by cases e⟩
        · exact ⟨by decide, fun q e => by cases e⟩
      rw [tail.1 _ ?_ fun r => hi r _ ?_]
      · have n1 := names (env.symbols.protos.filter fun p => (str% "...").isSuffixOf p.args) w hw'.1 hw'.2
        simp only [List.mem_append, List.not_mem_nil, or_false, not_or] at n1 ⊢
        exact n1
      · unfold toolNames hardNames
        rw [hne]
        simp only [List.mem_cons, List.not_mem_nil, or_false] at hw
        rcases hw with rfl | rfl <;> simp
    rw [key _ (by simp), key _ (by simp)]
    exact k5 hl

/-- The text in front of the templates is accepted.  `EU`: what is defined behind the
definitions given with `-D`. -/
theorem C107_front {env : Gen.Env} {s : Settings} (h : FrontGiven env s) {EU : Str → Option Macro}
    (hU : after inc E (savedText s (env.builtin .filenameMacros) ++ s.defines) = some EU)
    (hi : ∀ r, ∀ x ∈ toolNames s [], (inc r).lookup x = none) :
    ∃ E1, after inc E (frontText env s (allDefines env s)) = some E1 ∧
      (∀ y, y ∉ toolNames s (env.symbols.protos.filter fun p => (str% "...").isSuffixOf p.args) → (∀ r, (inc r).lookup y = none) → E1 y = EU y) ∧
      (isSeparate s = true → (E1 (toUpper s.pfx ++ str% "_SEPARATE")).isSome = true) ∧
      (s.defaultLib ≠ [] → (E1 (toUpper s.pfx ++ str% "_HARDCODED_DEFAULT_LIBA")).isSome = true ∧ (E1 (toUpper s.pfx ++ str% "_HARDCODED_DEFAULT_LIBW")).isSome = true) := by
  obtain ⟨E1, h1, h2, h3, h4, -⟩ := front_all h hU hi
  exact ⟨E1, h1, h2, h3, h4⟩

/-! ### The names that the tool defines -/

def toolWords : List Str := [str% "SEPARATE", str% "HARDCODED_DEFAULT_LIBA", str% "HARDCODED_DEFAULT_LIBW", str% "COMMON_PREFIX"]

theorem tool_mem {s : Settings} {ps : List Proto} {y : Str} (h : y ∈ toolNames s ps) :
    ∃ w, y = toUpper s.pfx ++ (str% "_" ++ w) ∧ (w ∈ toolWords ∧ (w = str% "SEPARATE" → isSeparate s = true) ∧ (w ∈ toolWords.tail → w ≠ str% "COMMON_PREFIX" → s.defaultLib ≠ []) ∨
      ∃ q, w = str% "HAS_VA_ARGS_" ++ q) := by
  unfold toolNames at h
  rw [List.mem_append, List.mem_append, List.mem_append, List.mem_singleton] at h
  rcases h with ((h | h) | h) | h
  · split at h
    · rename_i hs
      rw [List.mem_singleton] at h
      exact ⟨str% "SEPARATE", h, .inl ⟨by decide, fun _ => hs, fun h => absurd h (by decide)⟩⟩
    · cases h
  · split at h
    · cases h
    · rename_i hd
      have hd : s.defaultLib ≠ [] := fun e => hd (by rw [e]; rfl)
      simp only [hardNames, List.mem_cons, List.not_mem_nil, or_false] at h
      rcases h with h | h
      · exact ⟨str% "HARDCODED_DEFAULT_LIBA", h, .inl ⟨by decide, fun h => absurd h (by decide), fun _ _ => hd⟩⟩
      · exact ⟨str% "HARDCODED_DEFAULT_LIBW", h, .inl ⟨by decide, fun h => absurd h (by decide), fun _ _ => hd⟩⟩
  · exact ⟨str% "COMMON_PREFIX", h, .inl ⟨by decide, fun h => absurd h (by decide), fun _ h => absurd rfl h⟩⟩
  · obtain ⟨p, _, e⟩ := List.mem_map.mp h
    exact ⟨str% "HAS_VA_ARGS_" ++ p.symbol, by rw [← e]; simp, .inr ⟨p.symbol, rfl⟩⟩

/-- A word behind the prefix that the tool does not define. -/
theorem tool_word {s : Settings} {ps : List Proto} {w : Str} (h1 : w ∉ toolWords) (h2 : ∀ q, w ≠ str% "HAS_VA_ARGS_" ++ q) : toUpper s.pfx ++ (str% "_" ++ w) ∉ toolNames s ps := by
  intro h
  obtain ⟨w', e, h⟩ := tool_mem h
  have := prefixed_inj e
  subst this
  rcases h with h | ⟨q, h⟩
  · exact h1 h.1
  · exact h2 q h

theorem no_va {w : Str} (h : w.head? ≠ some 'H') : ∀ q, w ≠ str% "HAS_VA_ARGS_" ++ q := by
  rintro q rfl
  exact h rfl

/-- The names of symbols and of the configuration, apart from the one for separate files. -/
theorem tool_names {s : Settings} (hN : Names (toUpper s.pfx) (toLower s.pfx) protos objs) (ps : List Proto) :
    ∀ y ∈ symbolNames (toUpper s.pfx) (toLower s.pfx) protos objs, y ≠ toUpper s.pfx ++ str% "_SEPARATE" → y ∉ toolNames s ps := by
  intro y hy hne hm
  refine not_symbolName (y := y) ?_ ?_ ?_ ?_ hy
  · rintro rfl
    obtain ⟨w, e, _⟩ := tool_mem hm
    exact hN.handle' w e
  · rintro x hx rfl
    have hx' : ∀ x ∈ configWords, x ≠ str% "SEPARATE" → x ∉ toolWords ∧ x.head? ≠ some 'H' := by decide
    obtain ⟨h1, h2⟩ := hx' x hx fun e => hne (by rw [e]; rfl)
    exact tool_word h1 (no_va h2) hm
  · rintro p hp rfl
    obtain ⟨w, e, _⟩ := tool_mem hm
    exact hN.own p hp w e
  · intro q
    constructor <;> rintro rfl
    · refine tool_word (fun h => ?_) (no_va (by simp)) hm
      have : ∀ w ∈ toolWords, w.head? ≠ some 'R' := by decide
      exact this _ h rfl
    · refine tool_word (fun h => ?_) (no_va (by simp)) hm
      have : ∀ w ∈ toolWords, w.head? ≠ some 'P' := by decide
      exact this _ h rfl

/-- What is defined in front of the templates, as far as it matters for the configuration. -/
def configured (s : Settings) (EU : Str → Option Macro) : Str → Bool := fun x => (EU x).isSome || (!s.defaultLib.isEmpty && (hardNames (toUpper s.pfx)).contains x)

theorem refused_congr {names : ParamNames} {D D' : Str → Bool}
    (h : ∀ x ∈ [u ++ str% "_WRAP_FUNCTIONS", u ++ str% "_ENABLE_AUTOLOAD", u ++ str% "_ENABLE_AUTOLOAD_LAZY", u ++ str% "_DEFAULT_LIB", str% "_" ++ u ++ str% "_TARGET_WIDECHAR", str% "_UNICODE",
      u ++ str% "_WINAPI", str% "_WIN32", u ++ str% "_USE_DLOPEN", u ++ str% "_DEFAULT_LIBW", u ++ str% "_HARDCODED_DEFAULT_LIBW", u ++ str% "_DEFAULT_LIBA",
      u ++ str% "_HARDCODED_DEFAULT_LIBA"], D x = D' x) : refused names D u = refused names D' u ∧ autoload D u = autoload D' u := by
  simp only [List.forall_mem_cons, List.not_mem_nil, false_implies, implies_true, and_true] at h
  obtain ⟨h1, h2, h3, h4, h5, h6, h7, h8, h9, h10, h11, h12, h13⟩ := h
  have ha : autoload D u = autoload D' u := by
    unfold autoload
    rw [h2, h3]
  have hl : library D u = library D' u := by
    unfold library wideNamed
    rw [h4, h5, h6, h7, h8, h9, h10, h11, h12, h13]
  refine ⟨?_, ha⟩
  cases names <;> simp only [refused, ha, hl, h1]

theorem configured_front {s : Settings} (hp : PrefixOk s.pfx) (hinc : ∀ r, ∀ x ∈ checkedNames (toUpper s.pfx), (inc r).lookup x = none) {EU : Str → Option Macro} {ps : List Proto}
    (h1 : ∀ y, y ∉ toolNames s ps → (∀ r, (inc r).lookup y = none) → E1 y = EU y)
    (h2 : s.defaultLib ≠ [] → (E1 (toUpper s.pfx ++ str% "_HARDCODED_DEFAULT_LIBA")).isSome = true ∧ (E1 (toUpper s.pfx ++ str% "_HARDCODED_DEFAULT_LIBW")).isSome = true) :
    ∀ x ∈ [toUpper s.pfx ++ str% "_WRAP_FUNCTIONS", toUpper s.pfx ++ str% "_ENABLE_AUTOLOAD", toUpper s.pfx ++ str% "_ENABLE_AUTOLOAD_LAZY", toUpper s.pfx ++ str% "_DEFAULT_LIB",
      str% "_" ++ toUpper s.pfx ++ str% "_TARGET_WIDECHAR", str% "_UNICODE", toUpper s.pfx ++ str% "_WINAPI", str% "_WIN32", toUpper s.pfx ++ str% "_USE_DLOPEN",
      toUpper s.pfx ++ str% "_DEFAULT_LIBW", toUpper s.pfx ++ str% "_HARDCODED_DEFAULT_LIBW", toUpper s.pfx ++ str% "_DEFAULT_LIBA", toUpper s.pfx ++ str% "_HARDCODED_DEFAULT_LIBA"],
      (E1 x).isSome = configured s EU x := by
  have out : ∀ x ∈ checkedNames (toUpper s.pfx), x ∉ toolNames s ps → x ∉ hardNames (toUpper s.pfx) → (E1 x).isSome = configured s EU x := by
    intro x hx hn hh
    rw [h1 x hn fun r => hinc r x hx]
    unfold configured
    have : (hardNames (toUpper s.pfx)).contains x = false := by simpa using hh
    rw [this]
    simp
  have hard : ∀ x ∈ hardNames (toUpper s.pfx), (E1 x).isSome = configured s EU x := by
    intro x hx
    unfold configured
    rw [List.contains_iff_mem.mpr hx]
    cases hd : s.defaultLib with
    | nil =>
      have hn : x ∉ toolNames s ps := by
        intro hm
        obtain ⟨w, e, h⟩ := tool_mem hm
        simp only [hardNames, List.mem_cons, List.not_mem_nil, or_false] at hx
        rcases hx with rfl | rfl
        · have : w = str% "HARDCODED_DEFAULT_LIBA" := (prefixed_inj (u := toUpper s.pfx) e).symm
          subst this
          rcases h with ⟨_, _, h⟩ | ⟨q, h⟩
          · exact h (by decide) (by decide) hd
          · cases h
        · have : w = str% "HARDCODED_DEFAULT_LIBW" := (prefixed_inj (u := toUpper s.pfx) e).symm
          subst this
          rcases h with ⟨_, _, h⟩ | ⟨q, h⟩
          · exact h (by decide) (by decide) hd
          · cases h
      rw [h1 x hn fun r => hinc r x ?_]
      · simp
      · simp only [hardNames, List.mem_cons, List.not_mem_nil, or_false] at hx
        rcases hx with rfl | rfl <;> simp [checkedNames, watched]
    | cons c cs =>
      obtain ⟨a, b⟩ := h2 (by rw [hd]; simp)
      simp only [hardNames, List.mem_cons, List.not_mem_nil, or_false] at hx
      rcases hx with rfl | rfl
      · rw [a]; simp
      · rw [b]; simp
  have word : ∀ w ∈ [str% "WRAP_FUNCTIONS", str% "ENABLE_AUTOLOAD", str% "ENABLE_AUTOLOAD_LAZY", str% "DEFAULT_LIB", str% "WINAPI", str% "USE_DLOPEN", str% "DEFAULT_LIBW", str% "DEFAULT_LIBA"],
      (E1 (toUpper s.pfx ++ (str% "_" ++ w))).isSome = configured s EU (toUpper s.pfx ++ (str% "_" ++ w)) := by
    intro w hw
    have hw' : ∀ w ∈ [str% "WRAP_FUNCTIONS", str% "ENABLE_AUTOLOAD", str% "ENABLE_AUTOLOAD_LAZY", str% "DEFAULT_LIB", str% "WINAPI", str% "USE_DLOPEN", str% "DEFAULT_LIBW", str% "DEFAULT_LIBA"],
      w ∉ toolWords ∧ w.head? ≠ some 'H' := by decide
    obtain ⟨a, b⟩ := hw' w hw
    refine out _ ?_ (tool_word a (no_va b)) ?_
    · simp only [List.mem_cons, List.not_mem_nil, or_false] at hw
      rcases hw with rfl | rfl | rfl | rfl | rfl | rfl | rfl | rfl <;> simp [checkedNames, watched]
    · intro hm
      simp only [hardNames, List.mem_cons, List.not_mem_nil, or_false] at hm
      rcases hm with hm | hm
      · have e : w = str% "HARDCODED_DEFAULT_LIBA" := prefixed_inj (u := toUpper s.pfx) hm
        rw [e] at b
        exact b rfl
      · have e : w = str% "HARDCODED_DEFAULT_LIBW" := prefixed_inj (u := toUpper s.pfx) hm
        rw [e] at b
        exact b rfl
  have other : ∀ x, x ∈ checkedNames (toUpper s.pfx) → (∀ w, x = toUpper s.pfx ++ (str% "_" ++ w) → w ∉ toolWords ∧ w.head? ≠ some 'H') → (E1 x).isSome = configured s EU x := by
    intro x hx hw
    refine out x hx (fun hm => ?_) (fun hm => ?_)
    · obtain ⟨w, e, h⟩ := tool_mem hm
      obtain ⟨a, b⟩ := hw w e
      rcases h with h | ⟨q, rfl⟩
      · exact a h.1
      · exact b rfl
    · simp only [hardNames, List.mem_cons, List.not_mem_nil, or_false] at hm
      rcases hm with rfl | rfl
      · exact (hw (str% "HARDCODED_DEFAULT_LIBA") rfl).2 rfl
      · exact (hw (str% "HARDCODED_DEFAULT_LIBW") rfl).2 rfl
  have und : ∀ w, str% "_" ++ toUpper s.pfx ++ str% "_TARGET_WIDECHAR" = toUpper s.pfx ++ (str% "_" ++ w) → w ∉ toolWords ∧ w.head? ≠ some 'H' := by
    intro w e
    have := under_word (a := str% "TARGET_WIDECHAR") (b := w) (by simpa using e)
    subst this
    exact ⟨by decide, by decide⟩
  have fixed : ∀ x ∈ [str% "_UNICODE", str% "_WIN32"], ∀ w, x = toUpper s.pfx ++ (str% "_" ++ w) → w ∉ toolWords ∧ w.head? ≠ some 'H' := by
    intro x hx w e
    exfalso
    have hl := line_in e (prefixes_of hp).upper_ne
    exact (by decide : ∀ x ∈ [str% "_UNICODE", str% "_WIN32"], '_' ∉ x.tail) x hx hl
  intro x hx
  simp only [List.mem_cons, List.not_mem_nil, or_false] at hx
  rcases hx with rfl | rfl | rfl | rfl | rfl | rfl | rfl | rfl | rfl | rfl | rfl | rfl | rfl
  · exact word (str% "WRAP_FUNCTIONS") (by simp)
  · exact word (str% "ENABLE_AUTOLOAD") (by simp)
  · exact word (str% "ENABLE_AUTOLOAD_LAZY") (by simp)
  · exact word (str% "DEFAULT_LIB") (by simp)
  · exact other _ (by simp [checkedNames, watched]) und
  · exact other _ (by simp [checkedNames, watched]) (fixed _ (by simp))
  · exact word (str% "WINAPI") (by simp)
  · exact other _ (by simp [checkedNames, watched]) (fixed _ (by simp))
  · exact word (str% "USE_DLOPEN") (by simp)
  · exact word (str% "DEFAULT_LIBW") (by simp)
  · exact hard _ (by simp [hardNames])
  · exact word (str% "DEFAULT_LIBA") (by simp)
  · exact hard _ (by simp [hardNames])

/-! ### C107 -/

/-- What is asked of the headers that are included: they define none of the names of the
configuration and of the symbols. -/
def Aside (s : Settings) (inc : List T → Table) : Prop := ∀ r, ∀ x ∈ checkedNames (toUpper s.pfx) ++ toolNames s [], (inc r).lookup x = none

/-- The configuration is refused: reading the header ends with an error. -/
theorem C107_refused {env : Gen.Env} {s : Settings} (h : Leads env s) (hF : FrontGiven env s) (hinc : Aside s inc)
    (hg : E (guardName (headerName s) (toUpper s.pfx)) = none) {EU : Str → Option Macro}
    (hU : after inc (opened s E) (savedText s (env.builtin .filenameMacros) ++ s.defines) = some EU)
    (hr : refused s.names (configured s EU) (toUpper s.pfx) = true) (rest : Str) (k : Nat) :
    after inc E (headerText env s (allDefines env s) (templateText s env.symbols.protos env.symbols.objs .commonHeader ++ rest) k) = none := by
  have hc : ∀ r, ∀ x ∈ checkedNames (toUpper s.pfx), (inc r).lookup x = none := fun r x hx => hinc r x (List.mem_append_left _ hx)
  obtain ⟨E1, f1, f2, _, f4⟩ := C107_front hF hU fun r x hx => hinc r x (List.mem_append_right _ hx)
  have hcong := refused_congr (names := s.names) (configured_front h.pfx hc f2 f4)
  exact C106_header_refused h _ hc hg f1 _ _ (hcong.1.trans hr) rest k

/-- Any other configuration: the header of separate output is accepted, and the names of the
symbols stand for what the configuration asks for. -/
theorem C107_separate {env : Gen.Env} {s : Settings} (h : Leads env s) (hF : FrontGiven env s) (hsep : isSeparate s = true) (hinc : Aside s inc)
    (hg : E (guardName (headerName s) (toUpper s.pfx)) = none) {EU : Str → Option Macro}
    (hU : after inc (opened s E) (savedText s (env.builtin .filenameMacros) ++ s.defines) = some EU)
    (hP : Placed s inc EU env.symbols.protos env.symbols.objs)
    (hs : ∀ p ∈ env.symbols.protos ++ env.symbols.objs, p.symbol ∉ commonDefined.map (newName (toUpper s.pfx) (toLower s.pfx)))
    (hr : refused s.names (configured s EU) (toUpper s.pfx) = false) (k : Nat) :
    ∃ E', after inc E (headerText env s (allDefines env s) (templateText s env.symbols.protos env.symbols.objs .commonHeader ++
        templateText s env.symbols.protos env.symbols.objs .cHeader) k) = some E' ∧
      Stands EU E' (toUpper s.pfx) (toLower s.pfx) env.symbols.protos env.symbols.objs
        (!Has EU (toUpper s.pfx) (str% "INCLUDED_IN_BODY") && !Has EU (toUpper s.pfx) (str% "DISABLE_ALIASING") && !Has EU (toUpper s.pfx) (str% "WRAP_VISIBILITY"))
        (!Has EU (toUpper s.pfx) (str% "INCLUDED_IN_BODY") && !Has EU (toUpper s.pfx) (str% "DISABLE_ALIASING"))
        (Has EU (toUpper s.pfx) (str% "WRAP_FUNCTIONS") || autoload (fun x => (EU x).isSome) (toUpper s.pfx)) := by
  have hc : ∀ r, ∀ x ∈ checkedNames (toUpper s.pfx), (inc r).lookup x = none := fun r x hx => hinc r x (List.mem_append_left _ hx)
  obtain ⟨E1, f1, f2, f3, f4⟩ := C107_front hF hU fun r x hx => hinc r x (List.mem_append_right _ hx)
  have hcong := refused_congr (names := s.names) (configured_front h.pfx hc f2 f4)
  have same : ∀ y ∈ symbolNames (toUpper s.pfx) (toLower s.pfx) env.symbols.protos env.symbols.objs, y ≠ toUpper s.pfx ++ str% "_SEPARATE" → E1 y = EU y := fun y hy hn =>
    f2 y (tool_names hP.names.toNames _ y hy hn) fun r => hP.headers r y hy
  have sym : ∀ p ∈ env.symbols.protos ++ env.symbols.objs, E1 p.symbol = EU p.symbol := fun p hp =>
    same _ (List.mem_cons_of_mem _ (List.mem_append_right _ (List.mem_flatMap.mpr ⟨p, hp, by simp⟩))) (hP.names.own p hp (str% "SEPARATE"))
  have conf : ∀ x ∈ configNames, x ≠ str% "SEPARATE" → Has E1 (toUpper s.pfx) x = Has EU (toUpper s.pfx) x := by
    intro x hx hn
    unfold Has
    rw [same _ (List.mem_cons_of_mem _ (List.mem_append_left _ (List.mem_map.mpr ⟨x, by
      unfold configNames at hx
      simp only [List.mem_cons, List.not_mem_nil, or_false] at hx ⊢
      rcases hx with h | h | h | h | h | h | h <;> simp [h], rfl⟩))) fun e => hn (prefixed_inj (u := toUpper s.pfx) e)]
  have hP1 : Placed s inc E1 env.symbols.protos env.symbols.objs := by
    refine ⟨hP.names, hP.calm, hP.headers, ?_, fun p hp => ?_⟩
    · rw [same _ (List.mem_cons_self ..) (hP.names.handle' (str% "SEPARATE")), hP.handle]
    · rw [same _ (List.mem_cons_of_mem _ (List.mem_append_right _ (List.mem_flatMap.mpr ⟨p, hp, by simp⟩))) (fun e => by
        have := prefixed_inj (u := toUpper s.pfx) (y := str% "SEPARATE") e
        cases this), hP.members p hp]
  obtain ⟨E', r1, r2⟩ := C106_header h _ hc hg f1 hP1 hs (hcong.1.trans hr) k
  refine ⟨E', r1, ?_⟩
  have hsp : Has E1 (toUpper s.pfx) (str% "SEPARATE") = true := f3 hsep
  have hauto : autoload (fun x => (E1 x).isSome) (toUpper s.pfx) = autoload (fun x => (EU x).isSome) (toUpper s.pfx) := by
    refine hcong.2.trans ?_
    unfold autoload configured hardNames
    simp
  rw [hsp, conf _ (by decide) (by decide), conf _ (by decide) (by decide), conf _ (by decide) (by decide), conf _ (by decide) (by decide), hauto, Bool.true_and] at r2
  refine ⟨r2.raw, r2.wrapper, r2.function, r2.renamed, fun ha p hp => ?_, r2.object, fun hb p hp => ?_⟩
  · rw [r2.noFunction ha p hp, sym p (List.mem_append_left _ hp)]
  · rw [r2.noObject hb p hp, sym p (List.mem_append_right _ hp)]

/-- A successful run with separate output in C, for symbols from a text file: what the
header that was written means.  No text of a template appears in this statement. -/
theorem C107_program (w : Program.World) (win : Bool) (argv : List Str) (node : Nat → Option Node) (s : Settings) (ws : List Str)
    (hparse : parseCmdline win argv = some (some (.settings s ws))) (hb : ∀ t, compiledList t = some (w.env.builtin t))
    (s' : Settings) (sy : Symbols) (htok : Program.tokenize w s = some (.ok (s', sy))) (hft : Props.FromText sy)
    (hne : sy.protos ++ sy.objs ≠ []) (hps : s.printSymbols = false) (hct : s.customTemplate = []) (htp : s.templatesPath = [])
    (hp : PrefixOk s'.pfx) (hl : s'.lineDirective = false) (hfmt : s'.format = .c) (hsep : isSeparate s' = true)
    (hdate : ∀ c ∈ w.env.date, c ≠ '\\' ∧ c ≠ '\n') (hname : LiteralText (headerName s')) (hinc : ∀ e ∈ s'.includes, IncludeLine e)
    (hlib : s'.defaultLib = [] ∨ ∃ sys f t, Opens sys s'.defaultLib f t) (hdef : s'.defines = [] ∨ ∃ x, Whole s'.defines x)
    (hN : AllNames (toUpper s'.pfx) (toLower s'.pfx) sy.protos sy.objs)
    (hcom : ∀ p ∈ sy.protos ++ sy.objs, p.symbol ∉ commonDefined.map (newName (toUpper s'.pfx) (toLower s'.pfx))) :
    ∃ N, ∀ n, N ≤ n → ∀ m st', Program.main { w with env := { w.env with n } } win argv node = .exit 0 m st' →
      ∃ text st1, Written w.env (outputPaths s').1 (Program.start node) text st1 ∧
        ∀ inc E EU, Aside s' inc → E (guardName (headerName s') (toUpper s'.pfx)) = none →
          after inc (opened s' E) (savedText s' (w.env.builtin .filenameMacros) ++ s'.defines) = some EU →
          if refused s'.names (configured s' EU) (toUpper s'.pfx) then after inc E text = none
          else (∀ r, ∀ y ∈ symbolNames (toUpper s'.pfx) (toLower s'.pfx) sy.protos sy.objs, (inc r).lookup y = none) →
            EU (toLower s'.pfx ++ str% "_hndl") = none → (∀ p ∈ sy.protos ++ sy.objs, EU (toUpper s'.pfx ++ (str% "_" ++ (str% "PTR_" ++ p.symbol))) = none) →
            ∃ E', after inc E text = some E' ∧ Stands EU E' (toUpper s'.pfx) (toLower s'.pfx) sy.protos sy.objs
              (!Has EU (toUpper s'.pfx) (str% "INCLUDED_IN_BODY") && !Has EU (toUpper s'.pfx) (str% "DISABLE_ALIASING") && !Has EU (toUpper s'.pfx) (str% "WRAP_VISIBILITY"))
              (!Has EU (toUpper s'.pfx) (str% "INCLUDED_IN_BODY") && !Has EU (toUpper s'.pfx) (str% "DISABLE_ALIASING"))
              (Has EU (toUpper s'.pfx) (str% "WRAP_FUNCTIONS") || autoload (fun x => (EU x).isSome) (toUpper s'.pfx)) := by
  obtain ⟨N, h⟩ := C94_program w win argv node s ws hparse hb s' sy htok hft hne hps hct htp hp hl
  refine ⟨N, fun n hn m st' hm => ?_⟩
  have h := h n hn m st' hm
  dsimp only at h
  rw [if_pos hsep] at h
  obtain ⟨st1, hw, _⟩ := h
  refine ⟨_, st1, hw, fun inc E EU hA hg hU => ?_⟩
  have hL : Leads { w.env with symbols := sy } s' := ⟨hp, hb .license, hdate, hname⟩
  have hF : FrontGiven { w.env with symbols := sy } s' := by
    refine ⟨hp, hb .filenameMacros, CForm.text_word hft, hinc, fun t ht c hc => ?_, hlib, hdef⟩
    have hs := (Props.C84_characters_partial sy hft).2 t ht
    refine ⟨?_, ?_, ?_, ?_, ?_, ?_⟩ <;> rintro rfl <;> exact Props.harmless_not hs (by decide) (by decide) hc
  have htext : allText s' sy (listNames s').1 = templateText s' sy.protos sy.objs .commonHeader ++ templateText s' sy.protos sy.objs .cHeader := by
    have hn : (listNames s').1 = [.commonHeader, .cHeader] := by
      unfold listNames
      simp only [hsep, hfmt]
      rfl
    rw [hn]
    simp [allText, templateText, hl, unlines_append]
  rw [htext]
  split
  next hr => exact C107_refused hL hF hA hg hU hr _ 0
  next hr => exact fun hi hh hm => C107_separate hL hF hsep hA hg hU ⟨hN, C102_text sy hft, hi, hh, hm⟩ hcom (by simpa using hr) 0

/-! ### Examples -/

/-- Separate output with an extra header, a library and automatic loading. -/
def separated : Settings :=
  { pragmaOnce := false, separate := true, output := str% "out.c", defaultLib := str% "libz.so", includes := [str% "<sys/types.h>"], defines := str% "#define GDO_ENABLE_AUTOLOAD\n" }

def fullEnv : Gen.Env := { demoEnv with builtin := Builtin.list, symbols := { protos := [aFunction], objs := [anObject], typedefs := [str% "int gdo_tab__t[4]"] } }

example : isSeparate separated = true := by decide

theorem prefix_example : PrefixOk (str% "gdo") := ⟨by decide, by rintro ⟨c, r, h, hd⟩; cases h; revert hd; decide⟩

theorem leads_separated : Leads fullEnv separated :=
  ⟨prefix_example, compiledList_eq .license (ok_all .license), by decide, by unfold LiteralText; decide⟩

theorem front_separated : FrontGiven fullEnv separated := by
  refine ⟨prefix_example, compiledList_eq .filenameMacros (ok_all .filenameMacros), by decide, ?_, by unfold Calm; decide, ?_, ?_⟩
  · intro e he
    simp only [separated, List.mem_singleton] at he
    subst he
    exact ⟨_, whole_of_tokens (a := str% "#include <sys/types.h>") rfl, by decide⟩
  · exact .inr ⟨.elf, _, _, .plain (by unfold LiteralText; decide) (by intro c r h; cases h; decide) (by decide)⟩
  · exact .inr ⟨_, whole_of_tokens (a := str% "#define GDO_ENABLE_AUTOLOAD") rfl⟩

/-- The names of the functions stand for wrappers, since the library is known. -/
example : ∃ E', after (fun _ => []) (fun _ => none) (headerText fullEnv separated (allDefines fullEnv separated) (templateText separated [aFunction] [anObject] .commonHeader ++
      templateText separated [aFunction] [anObject] .cHeader) 1) = some E' ∧ (E' aFunction.symbol).isSome = true ∧
      Becomes E' (str% "bar") [.punct (str% "*"), .ident (str% "gdo_hndl"), .punct (str% "."), .ident (str% "GDO_PTR_bar")] := by
  have m := moves_file (inc := fun _ => []) separated prefix_example (compiledList_eq .filenameMacros (ok_all .filenameMacros)) (opened separated fun _ => none)
  obtain ⟨E', h1, h2⟩ := C107_separate (E := fun _ => none) (inc := fun _ => []) leads_separated front_separated (by decide) (fun _ _ _ => rfl) rfl
    ((m.2 _).trans (after_run (t := [(str% "GDO_ENABLE_AUTOLOAD", some emptyMacro)]) (by decide +kernel)))
    ⟨named_all, calm_all, fun _ _ _ => rfl, by decide +kernel, by decide +kernel⟩ (by decide +kernel) (by decide +kernel) 1
  exact ⟨E', h1, h2.renamed (by decide +kernel) aFunction (by simp [fullEnv]), h2.object (by decide +kernel) anObject (by simp [fullEnv])⟩

/-- Without the library the same configuration is refused. -/
def lacking : Settings := { separated with defaultLib := [] }

theorem leads_lacking : Leads fullEnv lacking :=
  ⟨prefix_example, compiledList_eq .license (ok_all .license), by decide, by unfold LiteralText; decide⟩

theorem front_lacking : FrontGiven fullEnv lacking :=
  ⟨prefix_example, compiledList_eq .filenameMacros (ok_all .filenameMacros), by decide, front_separated.includes, front_separated.typedefs, .inl rfl, front_separated.defines⟩

example (b : Str) : after (fun _ => []) (fun _ => none) (headerText fullEnv lacking (allDefines fullEnv lacking)
    (templateText lacking fullEnv.symbols.protos fullEnv.symbols.objs .commonHeader ++ b) 1) = none := by
  have m := moves_file (inc := fun _ => []) lacking prefix_example front_lacking.file (opened lacking fun _ => none)
  have hU := (m.2 lacking.defines).trans (after_run (t := [(str% "GDO_ENABLE_AUTOLOAD", some emptyMacro)]) (by decide +kernel))
  exact C107_refused (inc := fun _ => []) leads_lacking front_lacking (fun _ _ _ => rfl) rfl hU (by decide +kernel) b 1

end Gdo.Cpp
