import Verif.Props.CMacroClean

/-!
C111: the body file of separate output together with the header that it includes, as the
compiler reads them.
-/

set_option maxRecDepth 20000

namespace Gdo.Cpp
open Gdo Rename Tmpl Builtin Gdo.Sub Opt Tpl Gen Pfx Clean

variable {u l : Str} {E E' E1 E2 : Str → Option Macro} {inc : List T → Table} {D : Str → Bool} {protos objs : List Proto}

/-- The line that includes a file. -/
def includeLine (name : Str) : Str := str% "#include \"" ++ name ++ str% "\"\n"

/-- The text that the compiler reads: the file `text`, in which the line that includes the
file `name` is replaced with the content of that file. -/
def Pasted (name content text unit : Str) : Prop :=
  ∃ a b, text = (a ++ ['\n']) ++ includeLine name ++ b ∧ unit = (a ++ ['\n']) ++ content ++ b

/-- What comes before that line in the body file. -/
def beforeText (env : Gen.Env) (s : Settings) : Str :=
  noteText s.printDate env.date ++ savedText s (env.builtin .license) ++ (str% "\n#define " ++ toUpper s.pfx ++ str% "_INCLUDED_IN_BODY\n")

theorem body_split (env : Gen.Env) (s : Settings) (body : Str) :
    bodyText env s body = beforeText env s ++ includeLine (headerName s) ++ (['\n'] ++ body) := by
  unfold bodyText beforeText includeHeader includeLine
  simp

theorem pasted_body (env : Gen.Env) (s : Settings) (header body : Str) :
    Pasted (headerName s) header (bodyText env s body) (beforeText env s ++ header ++ (['\n'] ++ body)) := by
  refine ⟨noteText s.printDate env.date ++ savedText s (env.builtin .license) ++ (str% "\n#define " ++ toUpper s.pfx ++ str% "_INCLUDED_IN_BODY"), ['\n'] ++ body, ?_, ?_⟩
  · rw [body_split]
    simp [beforeText]
  · simp [beforeText]

/-- The mark that tells the header where it is included. -/
def marked (s : Settings) (E : Str → Option Macro) : Str → Option Macro := withEmpty E (toUpper s.pfx ++ str% "_INCLUDED_IN_BODY")

theorem after_before {env : Gen.Env} {s : Settings} (h : Leads env s) (b : Str) : after inc E (beforeText env s ++ b) = after inc (marked s E) b := by
  have e : beforeText env s ++ b = (noteText s.printDate env.date ++ savedText s (env.builtin .license)) ++ (['\n'] ++
      ((str% "#define " ++ (toUpper s.pfx ++ str% "_INCLUDED_IN_BODY") ++ ['\n']) ++ b)) := by
    simp [beforeText]
  rw [e, quiet_calm ((note_calm _ h.date).append (license_calm s h.pfx h.license)), (moves_blank E).2,
    (moves_flag (prefix_word (prefixes_of h.pfx) (s := str% "_INCLUDED_IN_BODY") (by decide)) E).2]
  rfl

/-- The guard is not the mark. -/
theorem guard_mark (header u : Str) : guardName header u ≠ u ++ str% "_INCLUDED_IN_BODY" := by
  intro e
  have := congrArg List.getLast? e
  rw [guardName, List.getLast?_append, List.getLast?_append] at this
  simp at this

/-- The header ends with the end of a line. -/
theorem file_end (env : Gen.Env) (s : Settings) {body : Str} (hb : ∃ a, body = (a ++ ['\n']) ++ ['\n']) (defines : Str) (k : Nat) :
    ∃ a, headerText env s defines body k = a ++ ['\n'] ∧ ∀ r, a ≠ r ++ ['\\'] := by
  cases hpo : s.pragmaOnce with
  | false =>
    rw [header_guarded env s defines body k hpo]
    refine ⟨headText env s ++ (lineDirectiveText (headLines env s) s.lineDirective (headerName s)).1 ++ (str% "\n#ifndef " ++ guardName (headerName s) (toUpper s.pfx) ++
      str% "\n#define " ++ guardName (headerName s) (toUpper s.pfx) ++ str% "\n\n" ++ insideText env s defines body k ++ (str% "\n#endif //" ++ guardName (headerName s) (toUpper s.pfx))),
      by simp [guardedText], fun r e => ?_⟩
    have := congrArg List.getLast? e
    rw [guardName] at this
    simp only [List.getLast?_append] at this
    simp at this
  | true =>
    have e : ∃ a, headerText env s defines body k = a ++ (body ++ ((lineDirectiveText (headLines env s + (lineDirectiveText (headLines env s) s.lineDirective (headerName s)).2 +
        midLines env s defines + k) s.lineDirective (headerName s)).1 ++ closingOf s)) := by
      unfold headerText guardEnd closingOf closing
      rw [hpo]
      exact ⟨headText env s ++ ((lineDirectiveText (headLines env s) s.lineDirective (headerName s)).1 ++ midText env s defines), by simp⟩
    obtain ⟨a, ea⟩ := e
    rw [ea]
    obtain ⟨b, rfl⟩ := hb
    unfold closingOf
    split
    · unfold lineDirectiveText
      split
      · refine ⟨a ++ ((b ++ ['\n']) ++ ['\n'] ++ (str% "#line " ++ Nat.toDigits 10 (headLines env s + (lineDirectiveText (headLines env s) s.lineDirective (headerName s)).2 +
          midLines env s defines + k + 2) ++ str% " \"" ++ headerName s ++ ['"'])), by simp [lineDirectiveText, *], fun r e => ?_⟩
        have := congrArg List.getLast? e
        simp only [List.getLast?_append] at this
        simp at this
      · refine ⟨a ++ (b ++ ['\n']), by simp, fun r e => ?_⟩
        have := congrArg List.getLast? e
        simp only [List.getLast?_append] at this
        simp at this
    · refine ⟨a ++ ((b ++ ['\n']) ++ ['\n'] ++ ((lineDirectiveText (headLines env s + (lineDirectiveText (headLines env s) s.lineDirective (headerName s)).2 +
        midLines env s defines + k) s.lineDirective (headerName s)).1 ++ str% "#ifdef __cplusplus\n} /* extern \"C\" */\n#endif")), by simp [closing], fun r e => ?_⟩
      have := congrArg List.getLast? e
      simp only [List.getLast?_append] at this
      simp at this

/-- The templates of the header and of the body: what is defined between them, and behind
them. -/
theorem C111_templates (s : Settings) (hp : PrefixOk s.pfx) (hinc : ∀ r, ∀ x ∈ checkedNames (toUpper s.pfx), (inc r).lookup x = none) (h : Placed s inc E protos objs)
    (hs : ∀ p ∈ protos ++ objs, p.symbol ∉ commonDefined.map (newName (toUpper s.pfx) (toLower s.pfx)))
    (hr : refused s.names (fun x => (E x).isSome) (toUpper s.pfx) = false) (h3 : Has E (toUpper s.pfx) (str% "SEPARATE") = true)
    (h4 : Has E (toUpper s.pfx) (str% "INCLUDED_IN_BODY") = true) :
    ∃ E2 E', (∀ b, after inc E (templateText s protos objs .commonHeader ++ templateText s protos objs .cHeader ++ b) = after inc E2 b) ∧
      after inc E2 (templateText s protos objs .commonBody ++ templateText s protos objs .cBody) = some E' ∧
      Stands E E' (toUpper s.pfx) (toLower s.pfx) protos objs false false
        (Has E (toUpper s.pfx) (str% "WRAP_FUNCTIONS") || autoload (fun x => (E x).isSome) (toUpper s.pfx)) := by
  obtain ⟨E2, a1, a2, _, a4⟩ := C106_accepted s hp hinc protos objs hr
  have same : ∀ y ∈ symbolNames (toUpper s.pfx) (toLower s.pfx) protos objs, y ≠ toUpper s.pfx ++ str% "_ENABLE_AUTOLOAD" → E2 y = E y := fun y hy hn =>
    a4 y (common_names h.names.toNames hs y hy hn) fun r => h.headers r y hy
  have conf : ∀ x ∈ configNames, x ≠ str% "ENABLE_AUTOLOAD" → Has E2 (toUpper s.pfx) x = Has E (toUpper s.pfx) x := by
    intro x hx hn
    unfold Has
    rw [same _ (List.mem_cons_of_mem _ (List.mem_append_left _ (List.mem_map.mpr ⟨x, by
      unfold configNames at hx
      simp only [List.mem_cons, List.not_mem_nil, or_false] at hx ⊢
      rcases hx with h | h | h | h | h | h | h <;> simp [h], rfl⟩))) fun e => hn (prefixed_inj (u := toUpper s.pfx) e)]
  have sym : ∀ p ∈ protos ++ objs, E2 p.symbol = E p.symbol := fun p hp =>
    same _ (List.mem_cons_of_mem _ (List.mem_append_right _ (List.mem_flatMap.mpr ⟨p, hp, by simp⟩))) (h.names.own p hp (str% "ENABLE_AUTOLOAD"))
  have h2 : Placed s inc E2 protos objs := by
    refine ⟨h.names, h.calm, h.headers, ?_, fun p hp => ?_⟩
    · rw [same _ (List.mem_cons_self ..) (h.names.handle' (str% "ENABLE_AUTOLOAD")), h.handle]
    · rw [same _ (List.mem_cons_of_mem _ (List.mem_append_right _ (List.mem_flatMap.mpr ⟨p, hp, by simp⟩))) (fun e => by
        have := prefixed_inj (u := toUpper s.pfx) (y := str% "ENABLE_AUTOLOAD") e
        cases this), h.members p hp]
  obtain ⟨EH, r1, _⟩ := C102_header_file s h2
  obtain ⟨a, ea⟩ := cHeader_end s (prefixes_of hp) protos objs
  obtain ⟨x, hw⟩ := whole_after (a := a ++ ['\n']) (ea ▸ r1) fun r e => by
    have := congrArg List.getLast? e
    simp at this
  rw [← ea] at hw
  obtain ⟨E', b1, b2⟩ := C102_body_file s h2 (by rw [conf _ (by decide) (by decide), h3]) (by rw [conf _ (by decide) (by decide), h4])
  refine ⟨EH, E', fun b => ?_, ?_, ?_⟩
  · rw [List.append_assoc, a1, after_more hw r1]
  · rw [← b1, List.append_assoc, after_more hw r1]
  · have hauto : Has E2 (toUpper s.pfx) (str% "ENABLE_AUTOLOAD") = autoload (fun x => (E x).isSome) (toUpper s.pfx) := a2
    rw [conf _ (by decide) (by decide), hauto] at b2
    refine ⟨b2.raw, b2.wrapper, b2.function, b2.renamed, fun ha p hp => ?_, b2.object, fun hb p hp => ?_⟩
    · rw [b2.noFunction ha p hp, sym p (List.mem_append_left _ hp)]
    · rw [b2.noObject hb p hp, sym p (List.mem_append_right _ hp)]

/-- The body file with its header: it is accepted, and behind it none of the names of the symbols
is a macro (unless the user made it one), while the names of the pointers stand for the
pointers. -/
theorem C111_unit {env : Gen.Env} {s : Settings} (h : Leads env s) (hF : FrontGiven env s) (hsep : isSeparate s = true) (hinc : Aside s inc)
    (hg : E (guardName (headerName s) (toUpper s.pfx)) = none) {EU : Str → Option Macro}
    (hU : after inc (opened s (marked s E)) (savedText s (env.builtin .filenameMacros) ++ s.defines) = some EU)
    (hB : Has EU (toUpper s.pfx) (str% "INCLUDED_IN_BODY") = true)
    (hP : Placed s inc EU env.symbols.protos env.symbols.objs)
    (hs : ∀ p ∈ env.symbols.protos ++ env.symbols.objs, p.symbol ∉ commonDefined.map (newName (toUpper s.pfx) (toLower s.pfx)))
    (hr : refused s.names (configured s EU) (toUpper s.pfx) = false) (k : Nat) :
    ∃ E', after inc E (beforeText env s ++ headerText env s (allDefines env s) (templateText s env.symbols.protos env.symbols.objs .commonHeader ++
        templateText s env.symbols.protos env.symbols.objs .cHeader) k ++ (['\n'] ++ (templateText s env.symbols.protos env.symbols.objs .commonBody ++
          templateText s env.symbols.protos env.symbols.objs .cBody))) = some E' ∧
      Stands EU E' (toUpper s.pfx) (toLower s.pfx) env.symbols.protos env.symbols.objs false false
        (Has EU (toUpper s.pfx) (str% "WRAP_FUNCTIONS") || autoload (fun x => (EU x).isSome) (toUpper s.pfx)) := by
  have hc : ∀ r, ∀ x ∈ checkedNames (toUpper s.pfx), (inc r).lookup x = none := fun r x hx => hinc r x (List.mem_append_left _ hx)
  obtain ⟨E1, f1, f2, f3, f4⟩ := C107_front hF hU fun r x hx => hinc r x (List.mem_append_right _ hx)
  have hcong := refused_congr (names := s.names) (configured_front h.pfx hc f2 f4)
  have same : ∀ y ∈ symbolNames (toUpper s.pfx) (toLower s.pfx) env.symbols.protos env.symbols.objs, y ≠ toUpper s.pfx ++ str% "_SEPARATE" → E1 y = EU y := fun y hy hn =>
    f2 y (tool_names hP.names.toNames _ y hy hn) fun r => hP.headers r y hy
  have sym : ∀ p ∈ env.symbols.protos ++ env.symbols.objs, E1 p.symbol = EU p.symbol := fun p hp =>
    same _ (List.mem_cons_of_mem _ (List.mem_append_right _ (List.mem_flatMap.mpr ⟨p, hp, by simp⟩))) (hP.names.own p hp (str% "SEPARATE"))
  have conf : ∀ x ∈ configNames, x ≠ str% "SEPARATE" → Has E1 (toUpper s.pfx) x = Has EU (toUpper s.pfx) x := by
    intro x hx hn
    unfold Has
    rw [same _ (List.mem_cons_of_mem _ (List.mem_append_left _ (List.mem_map.mpr ⟨x, by
      unfold configNames at hx
      simp only [List.mem_cons, List.not_mem_nil, or_false] at hx ⊢
      rcases hx with h | h | h | h | h | h | h <;> simp [h], rfl⟩))) fun e => hn (prefixed_inj (u := toUpper s.pfx) e)]
  have hP1 : Placed s inc E1 env.symbols.protos env.symbols.objs := by
    refine ⟨hP.names, hP.calm, hP.headers, ?_, fun p hp => ?_⟩
    · rw [same _ (List.mem_cons_self ..) (hP.names.handle' (str% "SEPARATE")), hP.handle]
    · rw [same _ (List.mem_cons_of_mem _ (List.mem_append_right _ (List.mem_flatMap.mpr ⟨p, hp, by simp⟩))) (fun e => by
        have := prefixed_inj (u := toUpper s.pfx) (y := str% "SEPARATE") e
        cases this), hP.members p hp]
  obtain ⟨E2, E', r1, r2, r3⟩ := C111_templates s h.pfx hc hP1 hs (hcong.1.trans hr) (f3 hsep) (by rw [conf _ (by decide) (by decide), hB])
  have hg' : marked s E (guardName (headerName s) (toUpper s.pfx)) = none := by
    unfold marked withEmpty
    rw [if_neg (guard_mark _ _), hg]
  have whole := header_around (k := k) h hg' f1 r1
  have he : ∃ a, templateText s env.symbols.protos env.symbols.objs .commonHeader ++ templateText s env.symbols.protos env.symbols.objs .cHeader = (a ++ ['\n']) ++ ['\n'] := by
    obtain ⟨a, ea⟩ := cHeader_end s (prefixes_of h.pfx) env.symbols.protos env.symbols.objs
    exact ⟨templateText s env.symbols.protos env.symbols.objs .commonHeader ++ a, by rw [ea]; simp⟩
  obtain ⟨a, ea, ha⟩ := file_end env s he (allDefines env s) k
  obtain ⟨x, hw⟩ := whole_after (ea ▸ whole) ha
  rw [← ea] at hw
  refine ⟨E', ?_, ?_⟩
  · rw [List.append_assoc, after_before h, after_more hw whole, (moves_blank E2).2, r2]
  · have hauto : autoload (fun x => (E1 x).isSome) (toUpper s.pfx) = autoload (fun x => (EU x).isSome) (toUpper s.pfx) := by
      refine hcong.2.trans ?_
      unfold autoload configured hardNames
      simp
    rw [conf _ (by decide) (by decide), hauto] at r3
    refine ⟨r3.raw, r3.wrapper, r3.function, r3.renamed, fun ha p hp => ?_, r3.object, fun hb p hp => ?_⟩
    · rw [r3.noFunction ha p hp, sym p (List.mem_append_left _ hp)]
    · rw [r3.noObject hb p hp, sym p (List.mem_append_right _ hp)]

/-- A successful run with separate output in C, for symbols from a text file: what the compiler
reads for the body file, with the header that was written in place of the line that includes
it.  A configuration that is refused is refused in that header. -/
theorem C111_program (w : Program.World) (win : Bool) (argv : List Str) (node : Nat → Option Node) (s : Settings) (ws : List Str)
    (hparse : parseCmdline win argv = some (some (.settings s ws))) (hb : ∀ t, compiledList t = some (w.env.builtin t))
    (s' : Settings) (sy : Symbols) (htok : Program.tokenize w s = some (.ok (s', sy))) (hft : Props.FromText sy)
    (hne : sy.protos ++ sy.objs ≠ []) (hps : s.printSymbols = false) (hct : s.customTemplate = []) (htp : s.templatesPath = [])
    (hp : PrefixOk s'.pfx) (hl : s'.lineDirective = false) (hfmt : s'.format = .c) (hsep : isSeparate s' = true)
    (hdate : ∀ c ∈ w.env.date, c ≠ '\\' ∧ c ≠ '\n') (hname : LiteralText (headerName s')) (hinc : ∀ e ∈ s'.includes, IncludeLine e)
    (hlib : s'.defaultLib = [] ∨ ∃ sys f t, Opens sys s'.defaultLib f t) (hdef : s'.defines = [] ∨ ∃ x, Whole s'.defines x)
    (hN : AllNames (toUpper s'.pfx) (toLower s'.pfx) sy.protos sy.objs)
    (hcom : ∀ p ∈ sy.protos ++ sy.objs, p.symbol ∉ commonDefined.map (newName (toUpper s'.pfx) (toLower s'.pfx))) :
    ∃ N, ∀ n, N ≤ n → ∀ m st', Program.main { w with env := { w.env with n } } win argv node = .exit 0 m st' →
      ∃ header body unit st1, Written w.env (outputPaths s').1 (Program.start node) header st1 ∧ Written w.env (outputPaths s').2 st1 body st' ∧
        Pasted (filename (outputPaths s').1) header body unit ∧
        ∀ inc E EU, Aside s' inc → E (guardName (headerName s') (toUpper s'.pfx)) = none →
          after inc (opened s' (marked s' E)) (savedText s' (w.env.builtin .filenameMacros) ++ s'.defines) = some EU →
          if refused s'.names (configured s' EU) (toUpper s'.pfx) then after inc (marked s' E) header = none
          else (∀ r, ∀ y ∈ symbolNames (toUpper s'.pfx) (toLower s'.pfx) sy.protos sy.objs, (inc r).lookup y = none) →
            EU (toLower s'.pfx ++ str% "_hndl") = none → (∀ p ∈ sy.protos ++ sy.objs, EU (toUpper s'.pfx ++ (str% "_" ++ (str% "PTR_" ++ p.symbol))) = none) →
            Has EU (toUpper s'.pfx) (str% "INCLUDED_IN_BODY") = true →
            ∃ E', after inc E unit = some E' ∧ Stands EU E' (toUpper s'.pfx) (toLower s'.pfx) sy.protos sy.objs false false
              (Has EU (toUpper s'.pfx) (str% "WRAP_FUNCTIONS") || autoload (fun x => (EU x).isSome) (toUpper s'.pfx)) := by
  obtain ⟨N, h⟩ := C94_program w win argv node s ws hparse hb s' sy htok hft hne hps hct htp hp hl
  refine ⟨N, fun n hn m st' hm => ?_⟩
  have h := h n hn m st' hm
  dsimp only at h
  rw [if_pos hsep] at h
  obtain ⟨st1, hw1, hw2⟩ := h
  have hhn : headerName s' = filename (outputPaths s').1 := by
    unfold isSeparate at hsep
    simp only [Bool.and_eq_true, decide_eq_true_eq] at hsep
    unfold headerName
    rw [if_neg hsep.1.2]
  refine ⟨_, _, _, st1, hw1, hw2, hhn ▸ pasted_body _ s' _ _, fun inc E EU hA hg hU => ?_⟩
  have hL : Leads { w.env with symbols := sy } s' := ⟨hp, hb .license, hdate, hname⟩
  have hF : FrontGiven { w.env with symbols := sy } s' := by
    refine ⟨hp, hb .filenameMacros, CForm.text_word hft, hinc, fun t ht c hc => ?_, hlib, hdef⟩
    have hs := (Props.C84_characters_partial sy hft).2 t ht
    refine ⟨?_, ?_, ?_, ?_, ?_, ?_⟩ <;> rintro rfl <;> exact Props.harmless_not hs (by decide) (by decide) hc
  have hn : listNames s' = ([.commonHeader, .cHeader], [.commonBody, .cBody]) := by
    unfold listNames
    simp only [hsep, hfmt]
    rfl
  have htext : allText s' sy (listNames s').1 = templateText s' sy.protos sy.objs .commonHeader ++ templateText s' sy.protos sy.objs .cHeader := by
    rw [hn]
    simp [allText, templateText, hl, unlines_append]
  have htext' : allText s' sy (listNames s').2 = templateText s' sy.protos sy.objs .commonBody ++ templateText s' sy.protos sy.objs .cBody := by
    rw [hn]
    simp [allText, templateText, hl, unlines_append]
  rw [htext, htext']
  have hg' : marked s' E (guardName (headerName s') (toUpper s'.pfx)) = none := by
    unfold marked withEmpty
    rw [if_neg (guard_mark _ _), hg]
  split
  next hr => exact C107_refused hL hF hA hg' hU hr _ 0
  next hr => exact fun hi hh hm hB => C111_unit hL hF hsep hA hg hU hB ⟨hN, C102_text sy hft, hi, hh, hm⟩ hcom (by simpa using hr) 0

/-! ### Examples -/

/-- Separate output with automatic loading: in the body file the name of the function is not a
macro, and the name of its pointer is. -/
example : ∃ E', after (fun _ => []) (fun _ => none) (beforeText fullEnv separated ++ headerText fullEnv separated (allDefines fullEnv separated)
      (templateText separated [aFunction] [anObject] .commonHeader ++ templateText separated [aFunction] [anObject] .cHeader) 1 ++
      (['\n'] ++ (templateText separated [aFunction] [anObject] .commonBody ++ templateText separated [aFunction] [anObject] .cBody))) = some E' ∧
      E' aFunction.symbol = none ∧ E' anObject.symbol = none ∧
      Becomes E' (str% "GDO_RAWPTR_bar") [.ident (str% "gdo_hndl"), .punct (str% "."), .ident (str% "GDO_PTR_bar")] := by
  have m := moves_file (inc := fun _ => []) separated prefix_example (compiledList_eq .filenameMacros (ok_all .filenameMacros)) (opened separated (marked separated fun _ => none))
  obtain ⟨E', h1, h2⟩ := C111_unit (E := fun _ => none) (inc := fun _ => []) leads_separated front_separated (by decide) (fun _ _ _ => rfl) rfl
    ((m.2 _).trans (after_run (t := [(str% "GDO_ENABLE_AUTOLOAD", some emptyMacro)]) (by decide +kernel))) (by decide +kernel)
    ⟨named_all, calm_all, fun _ _ _ => rfl, by decide +kernel, by decide +kernel⟩ (by decide +kernel) (by decide +kernel) 1
  refine ⟨E', h1, (h2.noFunction rfl aFunction (by simp [fullEnv])).trans ?_, (h2.noObject rfl anObject (by simp [fullEnv])).trans ?_, h2.raw anObject (by simp [fullEnv])⟩
  · decide +kernel
  · decide +kernel

end Gdo.Cpp

/-! ### The same in C++ -/

namespace Gdo.Cpp.Cxx
open Gdo Rename Tmpl Builtin Gdo.Sub Opt Tpl Gen Pfx Clean Gdo.Cpp

variable {u l : Str} {E E' E1 E2 : Str → Option Macro} {inc : List T → Table} {D : Str → Bool} {protos objs : List Proto}

/-- The templates of the header and of the body: what is defined between them, and behind
them. -/
theorem C111_cxx_templates (s : Settings) (hp : PrefixOk s.pfx) (hinc : ∀ r, ∀ x ∈ checkedNames (toUpper s.pfx), (inc r).lookup x = none) (h : Placed s inc E protos objs)
    (hs : ∀ p ∈ protos ++ objs, p.symbol ∉ commonDefined.map (newName (toUpper s.pfx) (toLower s.pfx)))
    (hr : refused s.names (fun x => (E x).isSome) (toUpper s.pfx) = false) (h3 : Has E (toUpper s.pfx) (str% "SEPARATE") = true)
    (h4 : Has E (toUpper s.pfx) (str% "INCLUDED_IN_BODY") = true) :
    ∃ E2 E', (∀ b, after inc E (templateText s protos objs .commonHeader ++ templateText s protos objs .cxxHeader ++ b) = after inc E2 b) ∧
      after inc E2 (templateText s protos objs .commonBody ++ templateText s protos objs .cxxBody) = some E' ∧
      Stands E E' (toUpper s.pfx) (toLower s.pfx) protos objs false false
        (Has E (toUpper s.pfx) (str% "WRAP_FUNCTIONS") || autoload (fun x => (E x).isSome) (toUpper s.pfx)) := by
  obtain ⟨E2, a1, a2, _, a4⟩ := C106_accepted s hp hinc protos objs hr
  have same : ∀ y ∈ symbolNames (toUpper s.pfx) (toLower s.pfx) protos objs, y ≠ toUpper s.pfx ++ str% "_ENABLE_AUTOLOAD" → E2 y = E y := fun y hy hn =>
    a4 y (common_names h.names.toNames hs (space_free s) y hy hn) fun r => h.headers r y hy
  have conf : ∀ x ∈ configNames, x ≠ str% "ENABLE_AUTOLOAD" → Has E2 (toUpper s.pfx) x = Has E (toUpper s.pfx) x := by
    intro x hx hn
    unfold Has
    rw [same _ (List.mem_cons_of_mem _ (List.mem_append_left _ (List.mem_map.mpr ⟨x, by
      unfold configNames at hx
      simp only [List.mem_cons, List.not_mem_nil, or_false] at hx ⊢
      rcases hx with h | h | h | h | h | h | h <;> simp [h], rfl⟩))) fun e => hn (prefixed_inj (u := toUpper s.pfx) e)]
  have sym : ∀ p ∈ protos ++ objs, E2 p.symbol = E p.symbol := fun p hp =>
    same _ (List.mem_cons_of_mem _ (List.mem_append_right _ (List.mem_flatMap.mpr ⟨p, hp, by simp⟩))) (h.names.own p hp (str% "ENABLE_AUTOLOAD"))
  have h2 : Placed s inc E2 protos objs := by
    refine ⟨h.names, h.calm, h.headers, ?_, fun p hp => ?_⟩
    · rw [same _ (List.mem_cons_self ..) (h.names.space' (str% "ENABLE_AUTOLOAD")), h.space]
    · rw [same _ (List.mem_cons_of_mem _ (List.mem_append_right _ (List.mem_flatMap.mpr ⟨p, hp, by simp⟩))) (fun e => by
        have := prefixed_inj (u := toUpper s.pfx) (y := str% "ENABLE_AUTOLOAD") e
        cases this), h.members p hp]
  obtain ⟨EH, r1, _⟩ := C108_header_file s h2
  obtain ⟨a, ea⟩ := header_end s (prefixes_of hp) protos objs
  obtain ⟨x, hw⟩ := whole_after (a := a ++ ['\n']) (ea ▸ r1) fun r e => by
    have := congrArg List.getLast? e
    simp at this
  rw [← ea] at hw
  obtain ⟨E', b1, b2⟩ := C108_body_file s h2 (by rw [conf _ (by decide) (by decide), h3]) (by rw [conf _ (by decide) (by decide), h4])
  refine ⟨EH, E', fun b => ?_, ?_, ?_⟩
  · rw [List.append_assoc, a1, after_more hw r1]
  · rw [← b1, List.append_assoc, after_more hw r1]
  · have hauto : Has E2 (toUpper s.pfx) (str% "ENABLE_AUTOLOAD") = autoload (fun x => (E x).isSome) (toUpper s.pfx) := a2
    rw [conf _ (by decide) (by decide), hauto] at b2
    refine ⟨b2.raw, b2.wrapper, b2.function, b2.renamed, fun ha p hp => ?_, b2.object, fun hb p hp => ?_⟩
    · rw [b2.noFunction ha p hp, sym p (List.mem_append_left _ hp)]
    · rw [b2.noObject hb p hp, sym p (List.mem_append_right _ hp)]

/-- The body file with its header: it is accepted, and behind it none of the names of the symbols
is a macro (unless the user made it one), while the names of the pointers stand for the
pointers. -/
theorem C111_cxx_unit {env : Gen.Env} {s : Settings} (h : Leads env s) (hF : FrontGiven env s) (hsep : isSeparate s = true) (hinc : Aside s inc)
    (hg : E (guardName (headerName s) (toUpper s.pfx)) = none) {EU : Str → Option Macro}
    (hU : after inc (opened s (marked s E)) (savedText s (env.builtin .filenameMacros) ++ s.defines) = some EU)
    (hB : Has EU (toUpper s.pfx) (str% "INCLUDED_IN_BODY") = true)
    (hP : Placed s inc EU env.symbols.protos env.symbols.objs)
    (hs : ∀ p ∈ env.symbols.protos ++ env.symbols.objs, p.symbol ∉ commonDefined.map (newName (toUpper s.pfx) (toLower s.pfx)))
    (hr : refused s.names (configured s EU) (toUpper s.pfx) = false) (k : Nat) :
    ∃ E', after inc E (beforeText env s ++ headerText env s (allDefines env s) (templateText s env.symbols.protos env.symbols.objs .commonHeader ++
        templateText s env.symbols.protos env.symbols.objs .cxxHeader) k ++ (['\n'] ++ (templateText s env.symbols.protos env.symbols.objs .commonBody ++
          templateText s env.symbols.protos env.symbols.objs .cxxBody))) = some E' ∧
      Stands EU E' (toUpper s.pfx) (toLower s.pfx) env.symbols.protos env.symbols.objs false false
        (Has EU (toUpper s.pfx) (str% "WRAP_FUNCTIONS") || autoload (fun x => (EU x).isSome) (toUpper s.pfx)) := by
  have hc : ∀ r, ∀ x ∈ checkedNames (toUpper s.pfx), (inc r).lookup x = none := fun r x hx => hinc r x (List.mem_append_left _ hx)
  obtain ⟨E1, f1, f2, f3, f4⟩ := C107_front hF hU fun r x hx => hinc r x (List.mem_append_right _ hx)
  have hcong := refused_congr (names := s.names) (configured_front h.pfx hc f2 f4)
  have same : ∀ y ∈ symbolNames (toUpper s.pfx) (toLower s.pfx) env.symbols.protos env.symbols.objs, y ≠ toUpper s.pfx ++ str% "_SEPARATE" → E1 y = EU y := fun y hy hn =>
    f2 y (tool_names hP.names.toNames _ y hy hn) fun r => hP.headers r y hy
  have sym : ∀ p ∈ env.symbols.protos ++ env.symbols.objs, E1 p.symbol = EU p.symbol := fun p hp =>
    same _ (List.mem_cons_of_mem _ (List.mem_append_right _ (List.mem_flatMap.mpr ⟨p, hp, by simp⟩))) (hP.names.own p hp (str% "SEPARATE"))
  have conf : ∀ x ∈ configNames, x ≠ str% "SEPARATE" → Has E1 (toUpper s.pfx) x = Has EU (toUpper s.pfx) x := by
    intro x hx hn
    unfold Has
    rw [same _ (List.mem_cons_of_mem _ (List.mem_append_left _ (List.mem_map.mpr ⟨x, by
      unfold configNames at hx
      simp only [List.mem_cons, List.not_mem_nil, or_false] at hx ⊢
      rcases hx with h | h | h | h | h | h | h <;> simp [h], rfl⟩))) fun e => hn (prefixed_inj (u := toUpper s.pfx) e)]
  have hP1 : Placed s inc E1 env.symbols.protos env.symbols.objs := by
    refine ⟨hP.names, hP.calm, hP.headers, ?_, fun p hp => ?_⟩
    · rw [same _ (List.mem_cons_self ..) (hP.names.space' (str% "SEPARATE")), hP.space]
    · rw [same _ (List.mem_cons_of_mem _ (List.mem_append_right _ (List.mem_flatMap.mpr ⟨p, hp, by simp⟩))) (fun e => by
        have := prefixed_inj (u := toUpper s.pfx) (y := str% "SEPARATE") e
        cases this), hP.members p hp]
  obtain ⟨E2, E', r1, r2, r3⟩ := C111_cxx_templates s h.pfx hc hP1 hs (hcong.1.trans hr) (f3 hsep) (by rw [conf _ (by decide) (by decide), hB])
  have hg' : marked s E (guardName (headerName s) (toUpper s.pfx)) = none := by
    unfold marked withEmpty
    rw [if_neg (guard_mark _ _), hg]
  have whole := header_around (k := k) h hg' f1 r1
  have he : ∃ a, templateText s env.symbols.protos env.symbols.objs .commonHeader ++ templateText s env.symbols.protos env.symbols.objs .cxxHeader = (a ++ ['\n']) ++ ['\n'] := by
    obtain ⟨a, ea⟩ := header_end s (prefixes_of h.pfx) env.symbols.protos env.symbols.objs
    exact ⟨templateText s env.symbols.protos env.symbols.objs .commonHeader ++ a, by rw [ea]; simp⟩
  obtain ⟨a, ea, ha⟩ := file_end env s he (allDefines env s) k
  obtain ⟨x, hw⟩ := whole_after (ea ▸ whole) ha
  rw [← ea] at hw
  refine ⟨E', ?_, ?_⟩
  · rw [List.append_assoc, after_before h, after_more hw whole, (moves_blank E2).2, r2]
  · have hauto : autoload (fun x => (E1 x).isSome) (toUpper s.pfx) = autoload (fun x => (EU x).isSome) (toUpper s.pfx) := by
      refine hcong.2.trans ?_
      unfold autoload configured hardNames
      simp
    rw [conf _ (by decide) (by decide), hauto] at r3
    refine ⟨r3.raw, r3.wrapper, r3.function, r3.renamed, fun ha p hp => ?_, r3.object, fun hb p hp => ?_⟩
    · rw [r3.noFunction ha p hp, sym p (List.mem_append_left _ hp)]
    · rw [r3.noObject hb p hp, sym p (List.mem_append_right _ hp)]

/-- A successful run with separate output in C++, for symbols from a text file: what the compiler
reads for the body file, with the header that was written in place of the line that includes
it.  A configuration that is refused is refused in that header. -/
theorem C111_cxx_program (w : Program.World) (win : Bool) (argv : List Str) (node : Nat → Option Node) (s : Settings) (ws : List Str)
    (hparse : parseCmdline win argv = some (some (.settings s ws))) (hb : ∀ t, compiledList t = some (w.env.builtin t))
    (s' : Settings) (sy : Symbols) (htok : Program.tokenize w s = some (.ok (s', sy))) (hft : Props.FromText sy)
    (hne : sy.protos ++ sy.objs ≠ []) (hps : s.printSymbols = false) (hct : s.customTemplate = []) (htp : s.templatesPath = [])
    (hp : PrefixOk s'.pfx) (hl : s'.lineDirective = false) (hfmt : s'.format = .cxx) (hsep : isSeparate s' = true)
    (hdate : ∀ c ∈ w.env.date, c ≠ '\\' ∧ c ≠ '\n') (hname : LiteralText (headerName s')) (hinc : ∀ e ∈ s'.includes, IncludeLine e)
    (hlib : s'.defaultLib = [] ∨ ∃ sys f t, Opens sys s'.defaultLib f t) (hdef : s'.defines = [] ∨ ∃ x, Whole s'.defines x)
    (hN : AllNames (toUpper s'.pfx) (toLower s'.pfx) sy.protos sy.objs)
    (hcom : ∀ p ∈ sy.protos ++ sy.objs, p.symbol ∉ commonDefined.map (newName (toUpper s'.pfx) (toLower s'.pfx))) :
    ∃ N, ∀ n, N ≤ n → ∀ m st', Program.main { w with env := { w.env with n } } win argv node = .exit 0 m st' →
      ∃ header body unit st1, Written w.env (outputPaths s').1 (Program.start node) header st1 ∧ Written w.env (outputPaths s').2 st1 body st' ∧
        Pasted (filename (outputPaths s').1) header body unit ∧
        ∀ inc E EU, Aside s' inc → E (guardName (headerName s') (toUpper s'.pfx)) = none →
          after inc (opened s' (marked s' E)) (savedText s' (w.env.builtin .filenameMacros) ++ s'.defines) = some EU →
          if refused s'.names (configured s' EU) (toUpper s'.pfx) then after inc (marked s' E) header = none
          else (∀ r, ∀ y ∈ symbolNames (toUpper s'.pfx) (toLower s'.pfx) sy.protos sy.objs, (inc r).lookup y = none) →
            EU (toLower s'.pfx) = none → (∀ p ∈ sy.protos ++ sy.objs, EU (toUpper s'.pfx ++ (str% "_" ++ (str% "PTR_" ++ p.symbol))) = none) →
            Has EU (toUpper s'.pfx) (str% "INCLUDED_IN_BODY") = true →
            ∃ E', after inc E unit = some E' ∧ Stands EU E' (toUpper s'.pfx) (toLower s'.pfx) sy.protos sy.objs false false
              (Has EU (toUpper s'.pfx) (str% "WRAP_FUNCTIONS") || autoload (fun x => (EU x).isSome) (toUpper s'.pfx)) := by
  obtain ⟨N, h⟩ := C94_program w win argv node s ws hparse hb s' sy htok hft hne hps hct htp hp hl
  refine ⟨N, fun n hn m st' hm => ?_⟩
  have h := h n hn m st' hm
  dsimp only at h
  rw [if_pos hsep] at h
  obtain ⟨st1, hw1, hw2⟩ := h
  have hhn : headerName s' = filename (outputPaths s').1 := by
    unfold isSeparate at hsep
    simp only [Bool.and_eq_true, decide_eq_true_eq] at hsep
    unfold headerName
    rw [if_neg hsep.1.2]
  refine ⟨_, _, _, st1, hw1, hw2, hhn ▸ pasted_body _ s' _ _, fun inc E EU hA hg hU => ?_⟩
  have hL : Leads { w.env with symbols := sy } s' := ⟨hp, hb .license, hdate, hname⟩
  have hF : FrontGiven { w.env with symbols := sy } s' := by
    refine ⟨hp, hb .filenameMacros, CForm.text_word hft, hinc, fun t ht c hc => ?_, hlib, hdef⟩
    have hs := (Props.C84_characters_partial sy hft).2 t ht
    refine ⟨?_, ?_, ?_, ?_, ?_, ?_⟩ <;> rintro rfl <;> exact Props.harmless_not hs (by decide) (by decide) hc
  have hn : listNames s' = ([.commonHeader, .cxxHeader], [.commonBody, .cxxBody]) := by
    unfold listNames
    simp only [hsep, hfmt]
    rfl
  have htext : allText s' sy (listNames s').1 = templateText s' sy.protos sy.objs .commonHeader ++ templateText s' sy.protos sy.objs .cxxHeader := by
    rw [hn]
    simp [allText, templateText, hl, unlines_append]
  have htext' : allText s' sy (listNames s').2 = templateText s' sy.protos sy.objs .commonBody ++ templateText s' sy.protos sy.objs .cxxBody := by
    rw [hn]
    simp [allText, templateText, hl, unlines_append]
  rw [htext, htext']
  have hg' : marked s' E (guardName (headerName s') (toUpper s'.pfx)) = none := by
    unfold marked withEmpty
    rw [if_neg (guard_mark _ _), hg]
  split
  next hr => exact C107_refused hL hF hA hg' hU hr _ 0
  next hr => exact fun hi hh hm hB => C111_cxx_unit hL hF hsep hA hg hU hB ⟨hN, C102_text sy hft, hi, hh, hm⟩ hcom (by simpa using hr) 0

example : ∃ E', after (fun _ => []) (fun _ => none) (beforeText fullEnv separatedCxx ++ headerText fullEnv separatedCxx (allDefines fullEnv separatedCxx)
      (templateText separatedCxx [aFunction] [anObject] .commonHeader ++ templateText separatedCxx [aFunction] [anObject] .cxxHeader) 1 ++
      (['\n'] ++ (templateText separatedCxx [aFunction] [anObject] .commonBody ++ templateText separatedCxx [aFunction] [anObject] .cxxBody))) = some E' ∧
      E' aFunction.symbol = none ∧ E' anObject.symbol = none := by
  have m := moves_file (inc := fun _ => []) separatedCxx prefix_example front_separatedCxx.file (opened separatedCxx (marked separatedCxx fun _ => none))
  obtain ⟨E', h1, h2⟩ := C111_cxx_unit (E := fun _ => none) (inc := fun _ => []) leads_separatedCxx front_separatedCxx (by decide) (fun _ _ _ => rfl) rfl
    ((m.2 _).trans (after_run (t := [(str% "GDO_ENABLE_AUTOLOAD", some emptyMacro)]) (by decide +kernel))) (by decide +kernel)
    ⟨named_all, calm_all, fun _ _ _ => rfl, by decide +kernel, by decide +kernel⟩ (by decide +kernel) (by decide +kernel) 1
  refine ⟨E', h1, (h2.noFunction rfl aFunction (by simp [fullEnv])).trans ?_, (h2.noObject rfl anObject (by simp [fullEnv])).trans ?_⟩
  · decide +kernel
  · decide +kernel

end Gdo.Cpp.Cxx
