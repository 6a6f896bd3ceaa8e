import Verif.Lemmas.OptionsEffect

/-! C37-C40, C60: command line options and `%option` lines. -/

namespace Gdo.Opt
open Gdo Cmd

/-- All arguments are C strings. -/
def CStrs (args : List Str) : Prop := ∀ w ∈ args, CStr w

/-! ### C38 -/

/-- Parsing ends, without reading beyond `argv` or beyond the end of an argument. -/
theorem C38_safe (win : Bool) (argv : List Str) (h : CStrs argv) : ∃ o, parseCmdline win argv = some (some o) := by
  cases argv with
  | nil => exact ⟨.stop (.error .inputRequired), by cases win <;> rfl⟩
  | cons prog args => exact ⟨_, parseCmdline_eq win prog args fun w hw => h w (List.mem_cons_of_mem _ hw)⟩

/-- Arguments with a meaning have the effect of this meaning. -/
theorem C38_effect (win : Bool) (prog : Str) {args : List Str} {es : List Event} (hc : CStrs args) (h : Reads win args es) :
    parseCmdline win (prog :: args) = some (some (outcome (eventsEffect {} es))) := by
  rw [parseCmdline_eq win prog args hc]
  have := loopS_reads h [] {}
  rw [List.append_nil, thenLoop_nil] at this
  exact congrArg (fun o => some (some o)) this

/-- If parsing succeeds then all arguments have a meaning, each being used once. -/
theorem C38_complete (win : Bool) (prog : Str) {args : List Str} (hc : CStrs args) {s : Settings} {ws : List Str}
    (h : parseCmdline win (prog :: args) = some (some (.settings s ws))) :
    ∃ es, Reads win args es ∧ outcome (eventsEffect {} es) = .settings s ws := by
  have h' := h
  rw [parseCmdline_eq win prog args hc, Option.some.injEq, Option.some.injEq] at h'
  obtain ⟨es, hr⟩ := loopL_complete args h'
  rw [C38_effect win prog hc hr, Option.some.injEq, Option.some.injEq] at h
  exact ⟨es, hr, h⟩

/-- An unknown option is an error. -/
theorem C38_unknown (win : Bool) (prog : Str) {pre post : List Str} {es : List Event} {st : State} {w n : Str} {l : Bool}
    (hc : CStrs (pre ++ w :: post)) (hp : Reads win pre es) (hst : eventsEffect {} es = .ok st)
    (hn : nameOf win w = some (n, l)) (h1 : n ∉ flagNames) (h2 : ∀ o ∈ argNames, ¬ o <+: n) :
    parseCmdline win (prog :: (pre ++ w :: post)) = some (some (.stop (.error (.unknown w)))) := by
  rw [parseCmdline_eq win prog _ hc]
  have := loopS_reads hp (w :: post) {}
  rw [hst] at this
  refine congrArg (fun o => some (some o)) (this.trans ?_)
  exact loopL_error hn (dispatch_unknown handlers handlers_known h1 h2) _ _

/-- An option without its argument is an error. -/
theorem C38_missing (win : Bool) (prog : Str) {pre : List Str} {es : List Event} {st : State} {w n : Str} {l : Bool}
    (hc : CStrs (pre ++ [w])) (hp : Reads win pre es) (hst : eventsEffect {} es = .ok st)
    (hn : nameOf win w = some (n, l)) (ho : n ∈ argNames) :
    ∃ e, parseCmdline win (prog :: (pre ++ [w])) = some (some (.stop (.error e))) := by
  obtain ⟨o, h⟩ : ∃ o, parseCmdline win (prog :: (pre ++ [w])) = some (some o) :=
    ⟨_, parseCmdline_eq win prog _ hc⟩
  rw [parseCmdline_eq win prog _ hc]
  have := loopS_reads hp [w] {}
  rw [hst] at this
  rw [show loopL win (pre ++ [w]) {} none [] = loopL win [w] st.settings st.input st.warnings from this]
  have hd : ∃ e, dispatchL win w n l ([] : List Str).head? st.settings handlers = .error (.error e) := by
    simp only [argNames, List.mem_cons, List.not_mem_nil, or_false] at ho
    rcases ho with rfl|rfl|rfl|rfl|rfl|rfl|rfl|rfl|rfl|rfl|rfl|rfl <;> cases l <;>
      simp [handlers, dispatchL, argL, List.isPrefixOf]
  obtain ⟨e, hd⟩ := hd
  exact ⟨e, by rw [loopL_error hn hd]⟩

/-- A second input file is not an error: it is ignored with a warning. -/
theorem C38_violated_second (win : Bool) (prog a b : Str) (ha : a ≠ []) (hc : CStrs [a, b])
    (h1 : nameOf win a = none) (h2 : nameOf win b = none) :
    parseCmdline win [prog, a, b] = some (some (.settings { input := a } [b])) := by
  rw [C38_effect win prog hc (.input h1 (.input h2 .nil))]
  cases a with
  | nil => exact absurd rfl ha
  | cons c r => rfl

/-- The example for the theorems above: a command line with all kinds of arguments. -/
def exArgs : List Str :=
  [str% "-Dfoo=1", str% "--format=c++", str% "-out", str% "x.h", str% "in.txt", str% "--separate", str% "-S", str% "f"]

def exEvents : List Event :=
  [.value (str% "D") (str% "foo=1"), .value (str% "format") (str% "c++"), .value (str% "out") (str% "x.h"),
   .input (str% "in.txt"), .flag (str% "separate"), .value (str% "S") (str% "f")]

theorem exReads : Reads false exArgs exEvents :=
  .joined (by decide) (by decide) (by decide) <|
  .separated (n := str% "format") (l := true) (sep := '=') (by decide) (by decide) (by decide) (by decide) (by decide) <|
  .next (l := false) (by decide) (by decide) (by decide) (by decide) <|
  .input (by decide) <|
  .flag (l := true) (by decide) (by decide) <|
  .next (l := false) (by decide) (by decide) (by decide) (by decide) .nil

theorem exCStrs : CStrs exArgs := by unfold CStrs CStr exArgs; decide

example : CStrs (str% "gendlopen" :: exArgs) := by unfold CStrs CStr exArgs; decide

example : parseCmdline false (str% "gendlopen" :: exArgs) =
    some (some (.settings { input := str% "in.txt", output := str% "x.h", format := .cxx, separate := true,
                            symbolList := [str% "f"], defines := str% "#ifndef foo\n# define foo 1\n#endif\n" } [])) := by
  rw [C38_effect false _ exCStrs exReads]; decide

example : nameOf false (str% "--formatx") = some (str% "formatx", true) := by decide
example : nameOf false (str% "--verbose") = some (str% "verbose", true) ∧ str% "verbose" ∉ flagNames ∧
    ∀ o ∈ argNames, ¬ o <+: str% "verbose" := by decide
example : nameOf true (str% "/format") = some (str% "format", false) ∧ str% "format" ∈ argNames := by decide
example : nameOf false (str% "a.h") = none ∧ nameOf false (str% "-") = none := by decide

/-! ### C37 -/

/-- The prefixes that an option can have. -/
def Pfx (win : Bool) (opt p : Str) : Prop := p = str% "-" ∨ (p = str% "--" ∧ 1 < opt.length) ∨ (p = str% "/" ∧ win = true)

/-- The spellings of an option with an argument. -/
inductive Spelling (win : Bool) (opt v : Str) : List Str → Prop
  /-- `-opt value`, `--opt value`, `-X value` -/
  | next {p} : Pfx win opt p → Spelling win opt v [p ++ opt, v]
  /-- `-Xvalue` -/
  | joined {p} : Pfx win opt p → opt.length = 1 → Spelling win opt v [p ++ opt ++ v]
  /-- `-opt=value`, `--opt=value` -/
  | separated {p sep} : Pfx win opt p → 1 < opt.length → (sep = '=' ∨ win = true ∧ sep = ':') →
      Spelling win opt v [p ++ opt ++ sep :: v]

theorem nameOf_pfx {win : Bool} {opt p : Str} (t : Str) (ho : opt ∈ argNames) (hp : Pfx win opt p) :
    ∃ l, nameOf win (p ++ opt ++ t) = some (opt ++ t, l) ∧ (opt.length = 1 → l = false) := by
  obtain ⟨c, r, rfl, hc⟩ : ∃ c r, opt = c :: r ∧ c ≠ '-' := by
    simp only [argNames, List.mem_cons, List.not_mem_nil, or_false] at ho
    rcases ho with rfl|rfl|rfl|rfl|rfl|rfl|rfl|rfl|rfl|rfl|rfl|rfl <;> exact ⟨_, _, rfl, by decide⟩
  rcases hp with rfl | ⟨rfl, hl⟩ | ⟨rfl, rfl⟩
  · exact ⟨false, by simp [nameOf, hc], fun _ => rfl⟩
  · exact ⟨true, by simp [nameOf], fun h => by omega⟩
  · exact ⟨false, by simp [nameOf], fun _ => rfl⟩

theorem spelling_reads {win : Bool} {opt v : Str} {args : List Str} (h : Spelling win opt v args) (ho : opt ∈ argNames)
    (hv : v ≠ []) : Reads win args [.value opt v] := by
  cases h with
  | next hp =>
    obtain ⟨l, hn, hl⟩ := nameOf_pfx [] ho hp
    rw [List.append_nil, List.append_nil] at hn
    exact .next hn ho hl hv .nil
  | joined hp h1 =>
    obtain ⟨l, hn, hl⟩ := nameOf_pfx v ho hp
    obtain ⟨c, rfl⟩ := List.length_eq_one_iff.mp h1
    rw [hl rfl] at hn
    exact .joined hn ho hv .nil
  | @separated p sep hp h1 hs =>
    obtain ⟨l, hn, hl⟩ := nameOf_pfx (sep :: v) ho hp
    exact .separated hn ho h1 hs hv .nil

theorem loopS_congr {win : Bool} {A B : List Str} {es : List Event} (hA : Reads win A es) (hB : Reads win B es)
    (post : List Str) (st : State) : loopS win (A ++ post) st = loopS win (B ++ post) st := by
  rw [loopS_reads hA, loopS_reads hB]

/-- All spellings of an option have the same effect, wherever they are. -/
theorem C37_spellings (win : Bool) (prog : Str) {pre A B : List Str} (post : List Str) {es : List Event} {opt v : Str}
    (hp : Reads win pre es) (ho : opt ∈ argNames) (hv : v ≠ []) (hA : Spelling win opt v A) (hB : Spelling win opt v B)
    (hcA : CStrs (pre ++ (A ++ post))) (hcB : CStrs (pre ++ (B ++ post))) :
    parseCmdline win (prog :: (pre ++ (A ++ post))) = parseCmdline win (prog :: (pre ++ (B ++ post))) := by
  rw [parseCmdline_eq win prog _ hcA, parseCmdline_eq win prog _ hcB]
  refine congrArg (fun o => some (some o)) ?_
  have h1 := loopS_reads hp (A ++ post) {}
  have h2 := loopS_reads hp (B ++ post) {}
  refine h1.trans (Eq.trans ?_ h2.symm)
  cases eventsEffect {} es with
  | error e => rfl
  | ok st => exact loopS_congr (spelling_reads hA ho hv) (spelling_reads hB ho hv) post st

/-- This effect is the one of the specification. -/
theorem C37_effect (win : Bool) (prog : Str) {pre A post : List Str} {es es' : List Event} {opt v : Str}
    (hp : Reads win pre es) (ho : opt ∈ argNames) (hv : v ≠ []) (hA : Spelling win opt v A) (hq : Reads win post es')
    (hc : CStrs (pre ++ (A ++ post))) :
    parseCmdline win (prog :: (pre ++ (A ++ post))) =
      some (some (outcome (eventsEffect {} (es ++ .value opt v :: es')))) := by
  rw [parseCmdline_eq win prog _ hc]
  refine congrArg (fun o => some (some o)) ?_
  refine (loopS_reads hp (A ++ post) {}).trans ?_
  rw [eventsEffect_append]
  cases eventsEffect {} es with
  | error e => rfl
  | ok st =>
    simp only [thenLoop]
    rw [loopS_reads (spelling_reads hA ho hv) post st, eventsEffect_cons]
    simp only [eventsEffect, List.foldlM]
    cases eventEffect st (.value opt v) with
    | error e => rfl
    | ok st =>
      have := loopS_reads hq [] st
      rw [List.append_nil, thenLoop_nil] at this
      exact this

/-- The spellings of one option. -/
example : Spelling false (str% "out") (str% "x.h") [str% "-out", str% "x.h"] ∧
    Spelling false (str% "out") (str% "x.h") [str% "--out", str% "x.h"] ∧
    Spelling false (str% "out") (str% "x.h") [str% "-out=x.h"] ∧
    Spelling false (str% "out") (str% "x.h") [str% "--out=x.h"] ∧
    Spelling true (str% "out") (str% "x.h") [str% "/out:x.h"] ∧
    Spelling false (str% "D") (str% "x=1") [str% "-Dx=1"] ∧
    Spelling false (str% "D") (str% "x=1") [str% "-D", str% "x=1"] :=
  ⟨.next (p := str% "-") (.inl rfl), .next (p := str% "--") (.inr (.inl ⟨rfl, by decide⟩)),
   .separated (p := str% "-") (sep := '=') (.inl rfl) (by decide) (.inl rfl),
   .separated (p := str% "--") (sep := '=') (.inr (.inl ⟨rfl, by decide⟩)) (by decide) (.inl rfl),
   .separated (p := str% "/") (sep := ':') (.inr (.inr ⟨rfl, rfl⟩)) (by decide) (.inr ⟨rfl, rfl⟩),
   .joined (p := str% "-") (.inl rfl) rfl, .next (p := str% "-") (.inl rfl)⟩

/-! ### C39 -/

/-- The entries of an option line with their meaning. -/
inductive Entries : List Str → List Event → Prop
  | nil : Entries [] []
  | cons {tok toks e es} : optionEvent tok e → Entries toks es → Entries (tok :: toks) (e :: es)

/-- The effect of an entry on the settings. -/
def settingsEffect (s : Settings) : Event → Except Stop Settings
  | .input _ => .ok s
  | .flag n => flagEffect n s
  | .value n v => valueEffect n v s

theorem parseOption_eq {tok : Str} {e : Event} (h : optionEvent tok e) (s : Settings) :
    parseOption s tok = settingsEffect s e := by
  rcases h with ⟨rfl, hm⟩ | ⟨n, v, rfl, rfl, hv, hm⟩
  · simp only [List.mem_cons, List.not_mem_nil, or_false] at hm
    rcases hm with rfl|rfl|rfl <;> simp [parseOption, settingsEffect, flagEffect]
  · simp only [List.mem_cons, List.not_mem_nil, or_false] at hm
    have hl : 0 < v.length := List.length_pos_iff.mpr hv
    rcases hm with rfl|rfl|rfl|rfl|rfl|rfl <;>
      simp [parseOption, optionDispatch, optionHandlers, getOption, List.isPrefixOf, bind, Except.bind, settingsEffect,
        setFormat_eq, setNames_eq, hl]
    all_goals simp [valueEffect]

theorem optionEvent_effect {tok : Str} {e : Event} (h : optionEvent tok e) (st : State) :
    eventEffect st e = (settingsEffect st.settings e).map fun s => { st with settings := s } := by
  rcases h with ⟨rfl, _⟩ | ⟨n, v, rfl, _, _, _⟩ <;> rfl

theorem parseOptions_cons (s : Settings) (t : Str) (ts : List Str) :
    parseOptions s (t :: ts) = (match parseOption s t with | .error x => .error x | .ok s => parseOptions s ts) := by
  simp only [parseOptions, List.foldlM]
  cases parseOption s t <;> rfl

/-- The entries have the effect of the command line options of the same name. -/
theorem C39_entries {toks : List Str} {es : List Event} (h : Entries toks es) (st : State) :
    parseOptions st.settings toks = (eventsEffect st es).map (·.settings) := by
  induction h generalizing st with
  | nil => rfl
  | @cons tok toks e es he _ ih =>
    rw [parseOptions_cons, parseOption_eq he, eventsEffect_cons, optionEvent_effect he]
    cases settingsEffect st.settings e with
    | error x => rfl
    | ok s => exact ih { st with settings := s }

/-- The argument that an entry corresponds to: the one-letter option has no `=`. -/
def asArgument : Str → Str
  | 'D' :: '=' :: v => '-' :: 'D' :: v
  | tok => '-' :: '-' :: tok

theorem entries_reads (win : Bool) {toks : List Str} {es : List Event} (h : Entries toks es) :
    Reads win (toks.map asArgument) es := by
  induction h with
  | nil => exact .nil
  | @cons tok toks e es he _ ih =>
    rcases he with ⟨rfl, hm⟩ | ⟨n, v, rfl, rfl, hv, hm⟩
    · simp only [List.mem_cons, List.not_mem_nil, or_false] at hm
      rcases hm with rfl|rfl|rfl <;> exact .flag (l := true) rfl (by decide) ih
    · simp only [List.mem_cons, List.not_mem_nil, or_false] at hm
      rcases hm with rfl|rfl|rfl|rfl|rfl|rfl
      · exact .joined rfl (by decide) hv ih
      all_goals exact .separated (l := true) (sep := '=') rfl (by decide) (by decide) (.inl rfl) hv ih

theorem settingsEffect_input (s : Settings) (i : Str) (e : Event) :
    settingsEffect { s with input := i } e = (settingsEffect s e).map fun s => { s with input := i } := by
  cases e with
  | input w => rfl
  | flag n =>
    simp only [settingsEffect, flagEffect]
    repeat' split
    all_goals rfl
  | value n v =>
    simp only [settingsEffect, valueEffect, addDef]
    split
    · rfl
    split
    · split <;> rfl
    split
    · split <;> rfl
    split
    · simp only [Except.map]
      split <;> split <;> rfl
    split <;> rfl

theorem parseOptions_input (toks : List Str) {es : List Event} (h : Entries toks es) (s : Settings) (i : Str) :
    parseOptions { s with input := i } toks = (parseOptions s toks).map fun s => { s with input := i } := by
  induction h generalizing s with
  | nil => rfl
  | @cons tok toks e es he _ ih =>
    rw [parseOptions_cons, parseOptions_cons, parseOption_eq he, parseOption_eq he, settingsEffect_input]
    cases settingsEffect s e with
    | error x => rfl
    | ok s => exact ih s

theorem eventsEffect_entries {toks : List Str} {es : List Event} (h : Entries toks es) (st : State) :
    eventsEffect st es = (parseOptions st.settings toks).map fun s => { st with settings := s } := by
  induction h generalizing st with
  | nil => rfl
  | @cons tok toks e es he _ ih =>
    rw [parseOptions_cons, parseOption_eq he, eventsEffect_cons, optionEvent_effect he]
    cases settingsEffect st.settings e with
    | error x => rfl
    | ok s => exact ih { st with settings := s }

/-- Reading the options after the command line is the same as appending them to it. -/
theorem C39_as_arguments (win : Bool) (prog : Str) {args : List Str} {s : Settings} {ws : List Str} {toks : List Str}
    {es : List Event} (hc : CStrs (args ++ toks.map asArgument)) (h : Entries toks es)
    (hs : parseCmdline win (prog :: args) = some (some (.settings s ws))) :
    parseCmdline win (prog :: (args ++ toks.map asArgument)) =
      some (some (match parseOptions s toks with | .ok s' => .settings s' ws | .error e => .stop e)) := by
  have hca : CStrs args := fun w hw => hc w (List.mem_append_left _ hw)
  obtain ⟨es0, hr, ho⟩ := C38_complete win prog hca hs
  rw [parseCmdline_eq win prog _ hc]
  refine congrArg (fun o => some (some o)) ?_
  refine (loopS_reads hr (toks.map asArgument) {}).trans ?_
  cases h0 : eventsEffect {} es0 with
  | error e => rw [h0] at ho; cases ho
  | ok st =>
    rw [h0] at ho
    simp only [thenLoop]
    have := loopS_reads (entries_reads win h) [] st
    rw [List.append_nil, thenLoop_nil] at this
    rw [this, eventsEffect_entries h]
    simp only [outcome] at ho
    split at ho
    · rename_i c r hi
      simp only [Outcome.settings.injEq] at ho
      obtain ⟨rfl, rfl⟩ := ho
      rw [parseOptions_input toks h st.settings (c :: r)]
      cases parseOptions st.settings toks with
      | error e => rfl
      | ok s' => simp [Except.map, outcome, hi]
    · cases ho

theorem getOption_none {tok opt : Str} (h : ¬ opt <+: tok) : getOption tok opt = .ok none := by
  have : opt.isPrefixOf tok = false := by
    rw [Bool.eq_false_iff]
    exact fun hp => h (List.isPrefixOf_iff_prefix.mp hp)
  simp [getOption, this]

theorem parseOption_unknown (s : Settings) {tok : Str} (h : ∀ e, ¬ optionEvent tok e) :
    ∃ e, parseOption s tok = .error (.error e) := by
  have hf : ∀ n ∈ [str% "line", str% "no-date", str% "no-pragma-once"], tok ≠ n := by
    rintro n hn rfl
    exact h _ (.inl ⟨rfl, hn⟩)
  have hv : ∀ n ∈ [str% "D", str% "format", str% "include", str% "library", str% "param", str% "prefix"],
      ∀ v, tok = n ++ '=' :: v → v = [] := by
    intro n hn v e
    by_cases hv : v = []
    · exact hv
    · exact absurd (.inr ⟨n, v, rfl, e, hv, hn⟩) (h _)
  have hg : ∀ n ∈ [str% "D", str% "format", str% "include", str% "library", str% "param", str% "prefix"],
      getOption tok (n ++ str% "=") = .ok none ∨ getOption tok (n ++ str% "=") = .error (.error (.optionArgument tok)) := by
    intro n hn
    by_cases hp : (n ++ str% "=") <+: tok
    · obtain ⟨v, hv'⟩ := hp
      have e : tok = n ++ '=' :: v := by simp [← hv']
      have := hv n hn v e
      subst this
      right
      have : (n ++ str% "=").isPrefixOf tok = true := List.isPrefixOf_iff_prefix.mpr ⟨[], hv'⟩
      have hl : ¬ tok.length > (n ++ str% "=").length := by rw [e]; simp
      simp only [getOption, this, if_true, hl, if_false]
    · exact .inl (getOption_none hp)
  simp only [List.mem_cons, List.not_mem_nil, or_false, forall_eq_or_imp, forall_eq] at hf hg
  obtain ⟨f1, f2, f3⟩ := hf
  obtain ⟨g1, g2, g3, g4, g5, g6⟩ := hg
  simp only [parseOption, f1, f2, f3, if_false, optionHandlers, optionDispatch]
  simp only [List.cons_append, List.nil_append] at g1 g2 g3 g4 g5 g6
  rcases g1 with g1 | g1
  · rcases g2 with g2 | g2
    · rcases g3 with g3 | g3
      · rcases g4 with g4 | g4
        · rcases g5 with g5 | g5
          · rcases g6 with g6 | g6 <;> simp [g1, g2, g3, g4, g5, g6, bind, Except.bind]
          · simp [g1, g2, g3, g4, g5, bind, Except.bind]
        · simp [g1, g2, g3, g4, bind, Except.bind]
      · simp [g1, g2, g3, bind, Except.bind]
    · simp [g1, g2, bind, Except.bind]
  · simp [g1, bind, Except.bind]

/-- Any other entry is an error. -/
theorem C39_unknown {pre : List Str} {es : List Event} (post : List Str) {tok : Str} {s s' : Settings} (hp : Entries pre es)
    (hs : parseOptions s pre = .ok s') (h : ∀ e, ¬ optionEvent tok e) :
    ∃ e, parseOptions s (pre ++ tok :: post) = .error (.error e) := by
  obtain ⟨e, he⟩ := parseOption_unknown s' h
  refine ⟨e, ?_⟩
  have : parseOptions s (pre ++ tok :: post) =
      (match parseOptions s pre with | .error x => .error x | .ok s => parseOptions s (tok :: post)) := by
    simp only [parseOptions, List.foldlM_append]
    cases List.foldlM parseOption s pre <;> rfl
  rw [this, hs]
  simp only
  rw [parseOptions_cons, he]

/-- Options override what was set before. -/
theorem C39_override (s : Settings) (v : Str) (hv : v ≠ []) :
    (∀ f, parseOptions { s with format := f } [str% "format=" ++ v] = parseOptions s [str% "format=" ++ v]) ∧
    (∀ m, parseOptions { s with names := m } [str% "param=" ++ v] = parseOptions s [str% "param=" ++ v]) ∧
    parseOptions s [str% "library=" ++ v] = .ok { s with defaultLib := v } ∧
    parseOptions s [str% "prefix=" ++ v] = .ok { s with pfx := v } := by
  have ent : ∀ n ∈ [str% "D", str% "format", str% "include", str% "library", str% "param", str% "prefix"],
      ∀ s, parseOptions s [n ++ '=' :: v] = valueEffect n v s := by
    intro n hn s
    rw [parseOptions_cons, parseOption_eq (.inr ⟨n, v, rfl, rfl, hv, hn⟩)]
    simp only [settingsEffect]
    cases valueEffect n v s <;> rfl
  refine ⟨fun f => ?_, fun m => ?_, ?_, ?_⟩
  · refine (ent (str% "format") (by decide) _).trans (Eq.trans ?_ (ent (str% "format") (by decide) s).symm)
    simp only [valueEffect]
    cases formatNames.lookup (lower v) <;> rfl
  · refine (ent (str% "param") (by decide) _).trans (Eq.trans ?_ (ent (str% "param") (by decide) s).symm)
    simp only [valueEffect]
    cases modeNames.lookup (lower v) <;> rfl
  · refine (ent (str% "library") (by decide) _).trans ?_
    simp [valueEffect]
  · refine (ent (str% "prefix") (by decide) _).trans ?_
    simp [valueEffect]

/-- An option line with its meaning. -/
theorem exEntries : Entries [str% "format=cxx", str% "line", str% "D=x=1"]
    [.value (str% "format") (str% "cxx"), .flag (str% "line"), .value (str% "D") (str% "x=1")] :=
  .cons (.inr ⟨str% "format", str% "cxx", rfl, rfl, by decide, by decide⟩) <|
  .cons (.inl ⟨rfl, by decide⟩) <|
  .cons (.inr ⟨str% "D", str% "x=1", rfl, rfl, by decide, by decide⟩) .nil

example : parseOptions {} [str% "format=cxx", str% "line", str% "D=x=1"] =
    .ok { format := .cxx, lineDirective := true, defines := str% "#ifndef x\n# define x 1\n#endif\n" } := by
  have := C39_entries exEntries {}
  rw [this]; decide

example : CStrs (exArgs ++ [str% "format=cxx", str% "line", str% "D=x=1"].map asArgument) := by
  unfold CStrs CStr exArgs; decide

/-- An entry that is an option of the command line only. -/
example : ∀ e, ¬ optionEvent (str% "separate") e := by
  rintro e (⟨rfl, h⟩ | ⟨n, v, rfl, h, hv, hn⟩)
  · revert h; decide
  · have : '=' ∈ str% "separate" := by rw [h]; simp
    revert this; decide

/-! ### C60 -/

/-- With one dash an error message names the option as it was typed. -/
theorem C60_partial (win : Bool) (prog : Str) {opt : Str} (hc : CStr opt) (ho : opt ∈ argNames) :
    parseCmdline win [prog, '-' :: opt] =
      some (some (.stop (.error (.handle (str% "option '-" ++ opt ++ str% "' requires an argument"))))) := by
  rw [parseCmdline_eq win prog _ (by
    intro w hw
    simp only [List.mem_singleton] at hw
    subst hw
    intro h
    simp only [List.mem_cons] at h
    rcases h with h | h
    · revert h; decide
    · exact hc h)]
  simp only [argNames, List.mem_cons, List.not_mem_nil, or_false] at ho
  rcases ho with rfl|rfl|rfl|rfl|rfl|rfl|rfl|rfl|rfl|rfl|rfl|rfl <;> cases win <;> decide

/-- With two dashes the message shows the first letter of the option in place of the
    second dash. -/
theorem C60_violated (win : Bool) (prog : Str) {opt : Str} (hc : CStr opt) (ho : opt ∈ argNames) (hl : 1 < opt.length) :
    parseCmdline win [prog, '-' :: '-' :: opt] =
      some (some (.stop (.error (.handle (str% "option '-" ++ opt.take 1 ++ opt ++ str% "' requires an argument"))))) := by
  rw [parseCmdline_eq win prog _ (by
    intro w hw
    simp only [List.mem_singleton] at hw
    subst hw
    intro h
    simp only [List.mem_cons] at h
    rcases h with h | h | h
    · revert h; decide
    · revert h; decide
    · exact hc h)]
  simp only [argNames, List.mem_cons, List.not_mem_nil, or_false] at ho
  rcases ho with rfl|rfl|rfl|rfl|rfl|rfl|rfl|rfl|rfl|rfl|rfl|rfl <;>
    first
    | (exact absurd hl (by decide))
    | (cases win <;> decide)

example : CStr (str% "format") ∧ str% "format" ∈ argNames := ⟨by unfold CStr; decide, by decide⟩

end Gdo.Opt
