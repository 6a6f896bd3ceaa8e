import Verif.Props.CMacroFront

/-!
C107 for output in a single file: `common.h`, `common.c`, `c.h` and `c.c` behind the text of
the tool.
-/

set_option maxRecDepth 20000

namespace Gdo.Cpp
open Gdo Rename Tmpl Builtin Gdo.Sub Opt Tpl Gen Pfx

variable {u l : Str} {E E' E1 E2 : Str → Option Macro} {inc : List T → Table} {D : Str → Bool} {protos objs : List Proto}

/-- The end of `c.c`. -/
theorem cBody_end (s : Settings) (hp : Prefixes (toUpper s.pfx) (toLower s.pfx)) (protos objs : List Proto) : ∃ a, templateText s protos objs .cBody = (a ++ ['\n']) ++ ['\n'] := by
  rw [own_text]
  have e : (texts .cBody).drop 947 = ((texts .cBody).drop 947).dropLast.dropLast ++ [str% "#undef GDO_SNPRINTF", str% ""] := by decide +kernel
  unfold bodyPart
  rw [e, List.flatMap_append, List.flatMap_cons, List.flatMap_cons, written_plain hp protos objs (d := str% "#undef GDO_SNPRINTF") (by decide +kernel),
    show written (toUpper s.pfx) (toLower s.pfx) protos objs (str% "") = [[]] from by rfl, unlines_append]
  refine ⟨entriesText (toUpper s.pfx) (toLower s.pfx) protos objs (lineEntry s.lineDirective .cBody ++ shown s.names none ((texts .cBody).take 947)) ++
    (unlines ((((texts .cBody).drop 947).dropLast.dropLast).flatMap (written (toUpper s.pfx) (toLower s.pfx) protos objs)) ++
      renamedLine (toUpper s.pfx) (toLower s.pfx) (str% "#undef GDO_SNPRINTF")), ?_⟩
  simp [unlines]

/-- The templates of a single file, in the order in which they are written. -/
def singleText (s : Settings) (protos objs : List Proto) : Str :=
  templateText s protos objs .commonHeader ++ (templateText s protos objs .commonBody ++ templateText s protos objs .cHeader ++ templateText s protos objs .cBody)

/-- What is defined behind the templates of a single file, in every case. -/
theorem C107_templates_exact (s : Settings) (hp : PrefixOk s.pfx) (hinc : ∀ r, ∀ x ∈ checkedNames (toUpper s.pfx), (inc r).lookup x = none) (h : Placed s inc E protos objs)
    (hs : ∀ p ∈ protos ++ objs, p.symbol ∉ commonDefined.map (newName (toUpper s.pfx) (toLower s.pfx)))
    (hr : refused s.names (fun x => (E x).isSome) (toUpper s.pfx) = false) (h3 : Has E (toUpper s.pfx) (str% "SEPARATE") = false) :
    ∃ E', (∀ b, after inc E (singleText s protos objs ++ b) = after inc E' b) ∧
      Stands E E' (toUpper s.pfx) (toLower s.pfx) protos objs
        (!Has E (toUpper s.pfx) (str% "DISABLE_ALIASING") && !Has E (toUpper s.pfx) (str% "WRAP_IS_VISIBLE")) (!Has E (toUpper s.pfx) (str% "DISABLE_ALIASING"))
        (Has E (toUpper s.pfx) (str% "WRAP_FUNCTIONS") || autoload (fun x => (E x).isSome) (toUpper s.pfx)) := by
  obtain ⟨E2, a1, a2, _, a4⟩ := C106_accepted s hp hinc protos objs hr
  have same : ∀ y ∈ symbolNames (toUpper s.pfx) (toLower s.pfx) protos objs, y ≠ toUpper s.pfx ++ str% "_ENABLE_AUTOLOAD" → E2 y = E y := fun y hy hn =>
    a4 y (common_names h.names.toNames hs y hy hn) fun r => h.headers r y hy
  have conf : ∀ x ∈ configNames, x ≠ str% "ENABLE_AUTOLOAD" → Has E2 (toUpper s.pfx) x = Has E (toUpper s.pfx) x := by
    intro x hx hn
    unfold Has
    rw [same _ (List.mem_cons_of_mem _ (List.mem_append_left _ (List.mem_map.mpr ⟨x, by
      unfold configNames at hx
      simp only [List.mem_cons, List.not_mem_nil, or_false] at hx ⊢
      rcases hx with h | h | h | h | h | h | h <;> simp [h], rfl⟩))) fun e => hn (prefixed_inj (u := toUpper s.pfx) e)]
  have sym : ∀ p ∈ protos ++ objs, E2 p.symbol = E p.symbol := fun p hp =>
    same _ (List.mem_cons_of_mem _ (List.mem_append_right _ (List.mem_flatMap.mpr ⟨p, hp, by simp⟩))) (h.names.own p hp (str% "ENABLE_AUTOLOAD"))
  have h2 : Placed s inc E2 protos objs := by
    refine ⟨h.names, h.calm, h.headers, ?_, fun p hp => ?_⟩
    · rw [same _ (List.mem_cons_self ..) (h.names.handle' (str% "ENABLE_AUTOLOAD")), h.handle]
    · rw [same _ (List.mem_cons_of_mem _ (List.mem_append_right _ (List.mem_flatMap.mpr ⟨p, hp, by simp⟩))) (fun e => by
        have := prefixed_inj (u := toUpper s.pfx) (y := str% "ENABLE_AUTOLOAD") e
        cases this), h.members p hp]
  obtain ⟨E', r1, r2⟩ := C102_single_file_exact s h2 (by rw [conf _ (by decide) (by decide), h3])
  obtain ⟨a, ea⟩ := cBody_end s (prefixes_of hp) protos objs
  have ea : templateText s protos objs .commonBody ++ templateText s protos objs .cHeader ++ templateText s protos objs .cBody =
      (templateText s protos objs .commonBody ++ templateText s protos objs .cHeader ++ a ++ ['\n']) ++ ['\n'] := by
    rw [ea]
    simp
  obtain ⟨x, hw⟩ := whole_after (a := templateText s protos objs .commonBody ++ templateText s protos objs .cHeader ++ a ++ ['\n']) (ea ▸ r1) fun r e => by
    have := congrArg List.getLast? e
    simp at this
  rw [← ea] at hw
  refine ⟨E', fun b => ?_, ?_⟩
  · unfold singleText
    rw [List.append_assoc, a1, after_more hw r1]
  · have hauto : Has E2 (toUpper s.pfx) (str% "ENABLE_AUTOLOAD") = autoload (fun x => (E x).isSome) (toUpper s.pfx) := a2
    rw [conf _ (by decide) (by decide), conf _ (by decide) (by decide), conf _ (by decide) (by decide), hauto] at r2
    refine ⟨r2.raw, r2.wrapper, r2.function, r2.renamed, fun ha p hp => ?_, r2.object, fun hb p hp => ?_⟩
    · rw [r2.noFunction ha p hp, sym p (List.mem_append_left _ hp)]
    · rw [r2.noObject hb p hp, sym p (List.mem_append_right _ hp)]

/-- What is defined behind the templates of a single file.  Missing: the case that
`WRAP_VISIBILITY` is defined and `WRAP_IS_VISIBLE` is not. -/
theorem C107_templates_partial (s : Settings) (hp : PrefixOk s.pfx) (hinc : ∀ r, ∀ x ∈ checkedNames (toUpper s.pfx), (inc r).lookup x = none) (h : Placed s inc E protos objs)
    (hs : ∀ p ∈ protos ++ objs, p.symbol ∉ commonDefined.map (newName (toUpper s.pfx) (toLower s.pfx)))
    (hr : refused s.names (fun x => (E x).isSome) (toUpper s.pfx) = false) (h3 : Has E (toUpper s.pfx) (str% "SEPARATE") = false)
    (h4 : Has E (toUpper s.pfx) (str% "WRAP_IS_VISIBLE") = Has E (toUpper s.pfx) (str% "WRAP_VISIBILITY")) :
    ∃ E', (∀ b, after inc E (singleText s protos objs ++ b) = after inc E' b) ∧
      Stands E E' (toUpper s.pfx) (toLower s.pfx) protos objs
        (!Has E (toUpper s.pfx) (str% "DISABLE_ALIASING") && !Has E (toUpper s.pfx) (str% "WRAP_VISIBILITY")) (!Has E (toUpper s.pfx) (str% "DISABLE_ALIASING"))
        (Has E (toUpper s.pfx) (str% "WRAP_FUNCTIONS") || autoload (fun x => (E x).isSome) (toUpper s.pfx)) := by
  rw [← h4]
  exact C107_templates_exact s hp hinc h hs hr h3

/-- The whole single file in C, in every case: the functions are renamed unless `WRAP_IS_VISIBLE` is
defined. -/
theorem C107_single_exact {env : Gen.Env} {s : Settings} (h : Leads env s) (hF : FrontGiven env s) (hsep : isSeparate s = false) (hinc : Aside s inc)
    (hg : E (guardName (headerName s) (toUpper s.pfx)) = none) {EU : Str → Option Macro}
    (hU : after inc (opened s E) (savedText s (env.builtin .filenameMacros) ++ s.defines) = some EU)
    (hP : Placed s inc EU env.symbols.protos env.symbols.objs)
    (hs : ∀ p ∈ env.symbols.protos ++ env.symbols.objs, p.symbol ∉ commonDefined.map (newName (toUpper s.pfx) (toLower s.pfx)))
    (h3 : Has EU (toUpper s.pfx) (str% "SEPARATE") = false)
    (hr : refused s.names (configured s EU) (toUpper s.pfx) = false) (k : Nat) :
    ∃ E', after inc E (headerText env s (allDefines env s) (singleText s env.symbols.protos env.symbols.objs) k) = some E' ∧
      Stands EU E' (toUpper s.pfx) (toLower s.pfx) env.symbols.protos env.symbols.objs
        (!Has EU (toUpper s.pfx) (str% "DISABLE_ALIASING") && !Has EU (toUpper s.pfx) (str% "WRAP_IS_VISIBLE"))
        (!Has EU (toUpper s.pfx) (str% "DISABLE_ALIASING"))
        (Has EU (toUpper s.pfx) (str% "WRAP_FUNCTIONS") || autoload (fun x => (EU x).isSome) (toUpper s.pfx)) := by
  have hc : ∀ r, ∀ x ∈ checkedNames (toUpper s.pfx), (inc r).lookup x = none := fun r x hx => hinc r x (List.mem_append_left _ hx)
  obtain ⟨E1, f1, f2, _, f4⟩ := C107_front hF hU fun r x hx => hinc r x (List.mem_append_right _ hx)
  have hcong := refused_congr (names := s.names) (configured_front h.pfx hc f2 f4)
  have sepOk : toUpper s.pfx ++ str% "_SEPARATE" ∉ toolNames s (env.symbols.protos.filter fun p => (str% "...").isSuffixOf p.args) := by
    unfold toolNames
    rw [hsep]
    simp only [Bool.false_eq_true, reduceIte, List.nil_append, List.mem_append, List.mem_singleton, List.mem_map, not_or, not_exists, not_and]
    refine ⟨⟨?_, fun e => ?_⟩, fun p _ e => ?_⟩
    · split
      · simp
      · unfold hardNames
        simp
    · have := List.append_cancel_left e
      exact absurd this (by decide)
    · rw [List.append_assoc] at e
      have := List.append_cancel_left e
      cases this
  have same : ∀ y ∈ symbolNames (toUpper s.pfx) (toLower s.pfx) env.symbols.protos env.symbols.objs, E1 y = EU y := fun y hy => by
    by_cases hn : y = toUpper s.pfx ++ str% "_SEPARATE"
    · exact f2 y (hn ▸ sepOk) fun r => hP.headers r y hy
    · exact f2 y (tool_names hP.names.toNames _ y hy hn) fun r => hP.headers r y hy
  have hP1 := hP.front same
  have conf := fun {x : Str} (hx : x ∈ configNames) => has_front (u := toUpper s.pfx) same hx
  obtain ⟨E', r1, r2⟩ := C107_templates_exact s h.pfx hc hP1 hs (hcong.1.trans hr) (by rw [conf (by decide), h3])
  obtain ⟨xf, wf⟩ := front_more f1
  refine ⟨E', ?_, ?_⟩
  · have inside : after inc (opened s E) (insideText env s (allDefines env s) (singleText s env.symbols.protos env.symbols.objs) k) = some E' := by
      rw [inside_text, quiet_openingOf, after_more wf f1, r1, quiet_line _ _ h.name, ← List.append_nil (closingOf s), quiet_closingOf, after_nil]
    unfold opened at inside
    cases hpo : s.pragmaOnce with
    | true =>
      rw [if_pos hpo] at inside
      rw [C105_pragma hpo h.pfx h.license h.date h.name, inside]
    | false =>
      rw [if_neg (by simp [hpo])] at inside
      exact C105_header_first ⟨hpo, h.pfx, h.license, h.date, h.name⟩ _ _ k hg inside
  · have hauto : autoload (fun x => (E1 x).isSome) (toUpper s.pfx) = autoload (fun x => (EU x).isSome) (toUpper s.pfx) := by
      refine hcong.2.trans ?_
      unfold autoload configured hardNames
      simp
    have r3 := r2.front same
    rw [conf (by decide), conf (by decide), conf (by decide), hauto] at r3
    exact r3

/-- The whole single file: it is accepted, and the names of the symbols stand for what the
user's definitions ask for.  Missing: the case that `WRAP_VISIBILITY` is defined and
`WRAP_IS_VISIBLE` is not. -/
theorem C107_single_partial {env : Gen.Env} {s : Settings} (h : Leads env s) (hF : FrontGiven env s) (hsep : isSeparate s = false) (hinc : Aside s inc)
    (hg : E (guardName (headerName s) (toUpper s.pfx)) = none) {EU : Str → Option Macro}
    (hU : after inc (opened s E) (savedText s (env.builtin .filenameMacros) ++ s.defines) = some EU)
    (hP : Placed s inc EU env.symbols.protos env.symbols.objs)
    (hs : ∀ p ∈ env.symbols.protos ++ env.symbols.objs, p.symbol ∉ commonDefined.map (newName (toUpper s.pfx) (toLower s.pfx)))
    (h3 : Has EU (toUpper s.pfx) (str% "SEPARATE") = false)
    (h4 : Has EU (toUpper s.pfx) (str% "WRAP_IS_VISIBLE") = Has EU (toUpper s.pfx) (str% "WRAP_VISIBILITY"))
    (hr : refused s.names (configured s EU) (toUpper s.pfx) = false) (k : Nat) :
    ∃ E', after inc E (headerText env s (allDefines env s) (singleText s env.symbols.protos env.symbols.objs) k) = some E' ∧
      Stands EU E' (toUpper s.pfx) (toLower s.pfx) env.symbols.protos env.symbols.objs
        (!Has EU (toUpper s.pfx) (str% "DISABLE_ALIASING") && !Has EU (toUpper s.pfx) (str% "WRAP_VISIBILITY"))
        (!Has EU (toUpper s.pfx) (str% "DISABLE_ALIASING"))
        (Has EU (toUpper s.pfx) (str% "WRAP_FUNCTIONS") || autoload (fun x => (EU x).isSome) (toUpper s.pfx)) := by
  rw [← h4]
  exact C107_single_exact h hF hsep hinc hg hU hP hs h3 hr k

/-- A successful run with output in a single file (or to the standard output) in C, for symbols
from a text file, in every case. -/
theorem C107_program_single_exact (w : Program.World) (win : Bool) (argv : List Str) (node : Nat → Option Node) (s : Settings) (ws : List Str)
    (hparse : parseCmdline win argv = some (some (.settings s ws))) (hb : ∀ t, compiledList t = some (w.env.builtin t))
    (s' : Settings) (sy : Symbols) (htok : Program.tokenize w s = some (.ok (s', sy))) (hft : Props.FromText sy)
    (hne : sy.protos ++ sy.objs ≠ []) (hps : s.printSymbols = false) (hct : s.customTemplate = []) (htp : s.templatesPath = [])
    (hp : PrefixOk s'.pfx) (hl : s'.lineDirective = false) (hfmt : s'.format = .c) (hsep : isSeparate s' = false)
    (hdate : ∀ c ∈ w.env.date, c ≠ '\\' ∧ c ≠ '\n') (hname : LiteralText (headerName s')) (hinc : ∀ e ∈ s'.includes, IncludeLine e)
    (hlib : s'.defaultLib = [] ∨ ∃ sys f t, Opens sys s'.defaultLib f t) (hdef : s'.defines = [] ∨ ∃ x, Whole s'.defines x)
    (hN : AllNames (toUpper s'.pfx) (toLower s'.pfx) sy.protos sy.objs)
    (hcom : ∀ p ∈ sy.protos ++ sy.objs, p.symbol ∉ commonDefined.map (newName (toUpper s'.pfx) (toLower s'.pfx))) :
    ∃ N, ∀ n, N ≤ n → ∀ m st', Program.main { w with env := { w.env with n } } win argv node = .exit 0 m st' →
      ∃ text, Written w.env (outputPaths s').1 (Program.start node) text st' ∧
        ∀ inc E EU, Aside s' inc → E (guardName (headerName s') (toUpper s'.pfx)) = none →
          after inc (opened s' E) (savedText s' (w.env.builtin .filenameMacros) ++ s'.defines) = some EU →
          if refused s'.names (configured s' EU) (toUpper s'.pfx) then after inc E text = none
          else (∀ r, ∀ y ∈ symbolNames (toUpper s'.pfx) (toLower s'.pfx) sy.protos sy.objs, (inc r).lookup y = none) →
            EU (toLower s'.pfx ++ str% "_hndl") = none → (∀ p ∈ sy.protos ++ sy.objs, EU (toUpper s'.pfx ++ (str% "_" ++ (str% "PTR_" ++ p.symbol))) = none) →
            Has EU (toUpper s'.pfx) (str% "SEPARATE") = false →
            ∃ E', after inc E text = some E' ∧ Stands EU E' (toUpper s'.pfx) (toLower s'.pfx) sy.protos sy.objs
              (!Has EU (toUpper s'.pfx) (str% "DISABLE_ALIASING") && !Has EU (toUpper s'.pfx) (str% "WRAP_IS_VISIBLE"))
              (!Has EU (toUpper s'.pfx) (str% "DISABLE_ALIASING"))
              (Has EU (toUpper s'.pfx) (str% "WRAP_FUNCTIONS") || autoload (fun x => (EU x).isSome) (toUpper s'.pfx)) := by
  obtain ⟨N, h⟩ := C94_program w win argv node s ws hparse hb s' sy htok hft hne hps hct htp hp hl
  refine ⟨N, fun n hn m st' hm => ?_⟩
  have h := h n hn m st' hm
  dsimp only at h
  rw [if_neg (by simp [hsep])] at h
  refine ⟨_, h, fun inc E EU hA hg hU => ?_⟩
  have hL : Leads { w.env with symbols := sy } s' := ⟨hp, hb .license, hdate, hname⟩
  have hF : FrontGiven { w.env with symbols := sy } s' := by
    refine ⟨hp, hb .filenameMacros, CForm.text_word hft, hinc, fun t ht c hc => ?_, hlib, hdef⟩
    have hs := (Props.C84_characters_partial sy hft).2 t ht
    refine ⟨?_, ?_, ?_, ?_, ?_, ?_⟩ <;> rintro rfl <;> exact Props.harmless_not hs (by decide) (by decide) hc
  have htext : allText s' sy (listNames s').1 = singleText s' sy.protos sy.objs := by
    have hn : (listNames s').1 = [.commonHeader, .commonBody, .cHeader, .cBody] := by
      unfold listNames
      simp only [hsep, hfmt]
      rfl
    rw [hn]
    simp [allText, singleText, templateText, hl, unlines_append]
  rw [htext]
  split
  next hr => exact C107_refused hL hF hA hg hU hr _ 0
  next hr => exact fun hi hh hm h3 => C107_single_exact hL hF hsep hA hg hU ⟨hN, C102_text sy hft, hi, hh, hm⟩ hcom h3 (by simpa using hr) 0

/-- A successful run with output in a single file (or to the standard output) in C, for symbols
from a text file.  Missing: as in `C107_single_partial`. -/
theorem C107_program_single_partial (w : Program.World) (win : Bool) (argv : List Str) (node : Nat → Option Node) (s : Settings) (ws : List Str)
    (hparse : parseCmdline win argv = some (some (.settings s ws))) (hb : ∀ t, compiledList t = some (w.env.builtin t))
    (s' : Settings) (sy : Symbols) (htok : Program.tokenize w s = some (.ok (s', sy))) (hft : Props.FromText sy)
    (hne : sy.protos ++ sy.objs ≠ []) (hps : s.printSymbols = false) (hct : s.customTemplate = []) (htp : s.templatesPath = [])
    (hp : PrefixOk s'.pfx) (hl : s'.lineDirective = false) (hfmt : s'.format = .c) (hsep : isSeparate s' = false)
    (hdate : ∀ c ∈ w.env.date, c ≠ '\\' ∧ c ≠ '\n') (hname : LiteralText (headerName s')) (hinc : ∀ e ∈ s'.includes, IncludeLine e)
    (hlib : s'.defaultLib = [] ∨ ∃ sys f t, Opens sys s'.defaultLib f t) (hdef : s'.defines = [] ∨ ∃ x, Whole s'.defines x)
    (hN : AllNames (toUpper s'.pfx) (toLower s'.pfx) sy.protos sy.objs)
    (hcom : ∀ p ∈ sy.protos ++ sy.objs, p.symbol ∉ commonDefined.map (newName (toUpper s'.pfx) (toLower s'.pfx))) :
    ∃ N, ∀ n, N ≤ n → ∀ m st', Program.main { w with env := { w.env with n } } win argv node = .exit 0 m st' →
      ∃ text, Written w.env (outputPaths s').1 (Program.start node) text st' ∧
        ∀ inc E EU, Aside s' inc → E (guardName (headerName s') (toUpper s'.pfx)) = none →
          after inc (opened s' E) (savedText s' (w.env.builtin .filenameMacros) ++ s'.defines) = some EU →
          if refused s'.names (configured s' EU) (toUpper s'.pfx) then after inc E text = none
          else (∀ r, ∀ y ∈ symbolNames (toUpper s'.pfx) (toLower s'.pfx) sy.protos sy.objs, (inc r).lookup y = none) →
            EU (toLower s'.pfx ++ str% "_hndl") = none → (∀ p ∈ sy.protos ++ sy.objs, EU (toUpper s'.pfx ++ (str% "_" ++ (str% "PTR_" ++ p.symbol))) = none) →
            Has EU (toUpper s'.pfx) (str% "SEPARATE") = false → Has EU (toUpper s'.pfx) (str% "WRAP_IS_VISIBLE") = Has EU (toUpper s'.pfx) (str% "WRAP_VISIBILITY") →
            ∃ E', after inc E text = some E' ∧ Stands EU E' (toUpper s'.pfx) (toLower s'.pfx) sy.protos sy.objs
              (!Has EU (toUpper s'.pfx) (str% "DISABLE_ALIASING") && !Has EU (toUpper s'.pfx) (str% "WRAP_VISIBILITY"))
              (!Has EU (toUpper s'.pfx) (str% "DISABLE_ALIASING"))
              (Has EU (toUpper s'.pfx) (str% "WRAP_FUNCTIONS") || autoload (fun x => (EU x).isSome) (toUpper s'.pfx)) := by
  obtain ⟨N, h⟩ := C107_program_single_exact w win argv node s ws hparse hb s' sy htok hft hne hps hct htp hp hl hfmt hsep hdate hname hinc hlib hdef hN hcom
  refine ⟨N, fun n hn m st' hm => ?_⟩
  obtain ⟨text, h1, h2⟩ := h n hn m st' hm
  refine ⟨text, h1, fun inc E EU a b c => ?_⟩
  have h3 := h2 inc E EU a b c
  split
  next hr => rwa [if_pos hr] at h3
  next hr =>
    rw [if_neg hr] at h3
    intro a1 a2 a3 a4 a5
    rw [← a5]
    exact h3 a1 a2 a3 a4

/-- In a single C file the wrappers cannot be made visible under the names of the functions: with
`WRAP_VISIBILITY` defined these names are macros all the same (c.c 978). -/
theorem C107_visible_violated {env : Gen.Env} {s : Settings} (h : Leads env s) (hF : FrontGiven env s) (hsep : isSeparate s = false) (hinc : Aside s inc)
    (hg : E (guardName (headerName s) (toUpper s.pfx)) = none) {EU : Str → Option Macro}
    (hU : after inc (opened s E) (savedText s (env.builtin .filenameMacros) ++ s.defines) = some EU)
    (hP : Placed s inc EU env.symbols.protos env.symbols.objs)
    (hs : ∀ p ∈ env.symbols.protos ++ env.symbols.objs, p.symbol ∉ commonDefined.map (newName (toUpper s.pfx) (toLower s.pfx)))
    (h3 : Has EU (toUpper s.pfx) (str% "SEPARATE") = false) (h4 : Has EU (toUpper s.pfx) (str% "WRAP_IS_VISIBLE") = false)
    (h5 : Has EU (toUpper s.pfx) (str% "DISABLE_ALIASING") = false) (hr : refused s.names (configured s EU) (toUpper s.pfx) = false) (k : Nat) :
    ∃ E', after inc E (headerText env s (allDefines env s) (singleText s env.symbols.protos env.symbols.objs) k) = some E' ∧
      ∀ p ∈ env.symbols.protos, (E' p.symbol).isSome = true := by
  obtain ⟨E', r1, r2⟩ := C107_single_exact h hF hsep hinc hg hU hP hs h3 hr k
  exact ⟨E', r1, r2.renamed (by rw [h4, h5]; rfl)⟩

/-! ### Examples -/

/-- A single file with a library, without wrappers. -/
def lone : Settings := { pragmaOnce := false, defaultLib := str% "libz.so", includes := [str% "<sys/types.h>"] }

theorem leads_lone : Leads fullEnv lone :=
  ⟨prefix_example, compiledList_eq .license (ok_all .license), by decide, by unfold LiteralText; decide⟩

theorem front_lone : FrontGiven fullEnv lone :=
  ⟨prefix_example, compiledList_eq .filenameMacros (ok_all .filenameMacros), by decide, front_separated.includes, front_separated.typedefs, front_separated.library, .inl rfl⟩

example : ∃ E', after (fun _ => []) (fun _ => none) (headerText fullEnv lone (allDefines fullEnv lone) (singleText lone fullEnv.symbols.protos fullEnv.symbols.objs) 1) = some E' ∧
      Becomes E' (str% "foo") [.ident (str% "gdo_hndl"), .punct (str% "."), .ident (str% "GDO_PTR_foo")] ∧
      Becomes E' (str% "bar") [.punct (str% "*"), .ident (str% "gdo_hndl"), .punct (str% "."), .ident (str% "GDO_PTR_bar")] := by
  have m := moves_file (inc := fun _ => []) lone prefix_example front_lone.file (opened lone fun _ => none)
  have hU := (m.2 lone.defines).trans (after_nil _ _)
  obtain ⟨E', h1, h2⟩ := C107_single_partial (inc := fun _ => []) leads_lone front_lone (by decide) (fun _ _ _ => rfl) rfl hU
    ⟨named_all, calm_all, fun _ _ _ => rfl, by decide +kernel, by decide +kernel⟩ (by decide +kernel) (by decide +kernel) (by decide +kernel) (by decide +kernel) 1
  exact ⟨E', h1, h2.function (by decide +kernel) (by decide +kernel) aFunction (by simp [fullEnv]), h2.object (by decide +kernel) anObject (by simp [fullEnv])⟩

/-- Visible wrappers are asked for, and `foo` is renamed all the same. -/
example : let s : Settings := { lone with defines := str% "#define GDO_WRAP_VISIBILITY\n" }
    ∃ E', after (fun _ => []) (fun _ => none) (headerText fullEnv s (allDefines fullEnv s) (singleText s fullEnv.symbols.protos fullEnv.symbols.objs) 1) = some E' ∧
      ∀ p ∈ fullEnv.symbols.protos, (E' p.symbol).isSome = true := by
  intro s
  have hf : FrontGiven fullEnv s := ⟨prefix_example, compiledList_eq .filenameMacros (ok_all .filenameMacros), by decide, front_separated.includes, front_separated.typedefs,
    front_separated.library, .inr ⟨_, whole_of_tokens (a := str% "#define GDO_WRAP_VISIBILITY") rfl⟩⟩
  have m := moves_file (inc := fun _ => []) s prefix_example hf.file (opened s fun _ => none)
  exact C107_visible_violated (inc := fun _ => []) (s := s) ⟨prefix_example, compiledList_eq .license (ok_all .license), by decide, by unfold LiteralText; decide⟩ hf (by decide) (fun _ _ _ => rfl) rfl
    ((m.2 _).trans (after_run (t := [(str% "GDO_WRAP_VISIBILITY", some emptyMacro)]) (by decide +kernel)))
    ⟨named_all, calm_all, fun _ _ _ => rfl, by decide +kernel, by decide +kernel⟩ (by decide +kernel) (by decide +kernel) (by decide +kernel) (by decide +kernel) (by decide +kernel) 1

end Gdo.Cpp
