import Verif.Props.CMacroWrapper

/-!
C112 for the whole file that is generated in C.
-/

set_option maxRecDepth 20000

namespace Gdo.Cpp
open Gdo Rename Tmpl Builtin Gdo.Sub Opt Tpl Gen Pfx Clean

variable {u l : Str} {E E' E1 E2 : Str → Option Macro} {inc : List T → Table} {D : Str → Bool} {protos objs : List Proto}

/-! ### The text in front of the templates -/

theorem runs_of_after {a : Str} {x : List T} (hw : Whole a x) (h : after inc E a = some E1) : ∃ t, Runs inc (fun x => (E x).isSome) ([], []) a (t, []) ∧ E1 = known E t := by
  obtain ⟨ts, t, ht, hr, rfl⟩ := after_split h
  refine ⟨t, runs_of_run hw ?_, rfl⟩
  rw [List.append_nil]
  unfold run
  rw [ht, Option.bind_some, hr]
  rfl

theorem runs_calm {a : Str} (h : CalmText .code .code a) : Runs inc D ([], []) a ([], []) := by
  obtain ⟨h1, rfl | ⟨c', rfl⟩⟩ := h
  · exact .inl ⟨rfl, rfl⟩
  · obtain ⟨x, wx, hx⟩ := calm_whole h1
    exact .inr ⟨x, wx, runLines_noHash inc D ([], []) hx⟩

theorem runs_line (n : Nat) (on : Bool) {name : Str} (h : LiteralText name) : Runs inc D ([], []) (lineDirectiveText n on name).1 ([], []) := by
  unfold lineDirectiveText
  cases on
  · exact .inl ⟨rfl, rfl⟩
  · refine .inr ⟨_, line_whole _ h, ?_⟩
    rw [splitLines_one (by simp)]
    rfl

theorem runs_opening (s : Settings) : Runs inc D ([], []) (openingOf s) ([], []) := by
  unfold openingOf
  split
  · exact .inl ⟨rfl, rfl⟩
  · refine .inr ⟨_, whole_opening, ?_⟩
    show (Option.map _ (some ((⟨D (str% "__cplusplus"), D (str% "__cplusplus"), false⟩ : Cc.Cond) :: []))).bind _ = _
    rfl

theorem runs_blank (s : Table × List Cc.Cond) : Runs inc D s ['\n'] s := .inr ⟨[], whole_blank, rfl⟩

theorem runs_guard {g : Str} (hg : WordText g) (hE : E g = none) :
    Runs inc (fun x => (E x).isSome) ([], []) (str% "\n#ifndef " ++ g ++ str% "\n#define " ++ g ++ str% "\n\n") ([(g, some emptyMacro)], [⟨true, true, false⟩]) := by
  have hi : WordText (str% "ifndef") := ⟨by decide, by decide, by decide⟩
  have hd : WordText (str% "define") := ⟨by decide, by decide, by decide⟩
  have e : str% "\n#ifndef " ++ g ++ str% "\n#define " ++ g ++ str% "\n\n" = ['\n'] ++ (('#' :: (str% "ifndef" ++ ' ' :: (g ++ ['\n']))) ++ (('#' :: (str% "define" ++ ' ' :: (g ++ ['\n']))) ++ ['\n'])) := by
    simp
  rw [e]
  have r1 : Runs inc (fun x => (E x).isSome) ([], []) ('#' :: (str% "ifndef" ++ ' ' :: (g ++ ['\n']))) ([], [⟨true, true, false⟩]) := by
    refine .inr ⟨_, whole_hash hi hg, ?_⟩
    rw [splitLines_one (by simp)]
    show (Option.map _ (some ((⟨!isDefined (fun x => (E x).isSome) [] g, !isDefined (fun x => (E x).isSome) [] g, false⟩ : Cc.Cond) :: []))).bind _ = _
    rw [show isDefined (fun x => (E x).isSome) [] g = false by simp [isDefined, hE]]
    rfl
  have r2 : Runs inc (fun x => (E x).isSome) ([], [⟨true, true, false⟩]) ('#' :: (str% "define" ++ ' ' :: (g ++ ['\n']))) ([(g, some emptyMacro)], [⟨true, true, false⟩]) := by
    refine .inr ⟨_, whole_hash hd hg, ?_⟩
    rw [splitLines_one (by simp)]
    rfl
  exact (runs_blank _).append (r1.append (r2.append (runs_blank _)))

/-- Behind whole lines with conditionals that are open and true. -/
theorem Meets.deep {text code a : Str} {t : Table} {base : List Cc.Cond} (ha : Runs inc (fun x => (E x).isSome) ([], []) a (t, base)) (hb : Cc.active base = true)
    (h : Meets inc (known E t) text code E1) : Meets inc E (a ++ text) code E1 := by
  obtain ⟨a', b, t', st, rfl, h1, h2, rfl⟩ := h
  refine ⟨a ++ a', b, t' ++ t, st ++ base, by simp, ha.append ?_, by rw [active_base hb]; exact h2, known_append E t' t⟩
  exact (h1.base hb).start

/-- A place in the templates, seen from in front of the header. -/
theorem meets_file {env : Gen.Env} {s : Settings} (h : Leads env s) (hg : E (guardName (headerName s) (toUpper s.pfx)) = none) {defines body code : Str} {k : Nat}
    (hf : after inc (opened s E) (frontText env s defines) = some E1) (hb : Meets inc E1 body code E2) : Meets inc E (headerText env s defines body k) code E2 := by
  obtain ⟨xf, wf⟩ := front_more hf
  obtain ⟨t, rf, rfl⟩ := runs_of_after wf hf
  have inside : Meets inc (opened s E) (insideText env s defines body k) code E2 := by
    rw [inside_text]
    exact Meets.front (t := []) (runs_opening s) (Meets.front rf (hb.more _))
  have lead : Runs inc (fun x => (E x).isSome) ([], []) (headText env s ++ (lineDirectiveText (headLines env s) s.lineDirective (headerName s)).1) ([], []) :=
    (runs_calm ((note_calm _ h.date).append (license_calm s h.pfx h.license))).append (runs_line _ _ h.name)
  unfold opened at inside
  cases hpo : s.pragmaOnce with
  | true =>
    rw [if_pos hpo] at inside
    have e : headerText env s defines body k = (headText env s ++ (lineDirectiveText (headLines env s) s.lineDirective (headerName s)).1) ++ (str% "\n#pragma once\n\n" ++
        insideText env s defines body k) := by
      unfold headerText midText guardBegin guardEnd insideText
      rw [hpo]
      simp
    rw [e]
    refine Meets.front (t := []) lead (Meets.front (t := []) (.inr ⟨[nlT, ⟨true, .punct (str% "#")⟩, ⟨false, .ident (str% "pragma")⟩, ⟨true, .ident (str% "once")⟩, nlT],
      ⟨by decide +kernel, str% "\n#pragma once\n", rfl⟩, rfl⟩) inside)
  | false =>
    rw [if_neg (by simp [hpo]), ← known_single] at inside
    rw [header_guarded env s defines body k hpo]
    unfold guardedText
    rw [List.append_assoc (str% "\n#ifndef " ++ _ ++ _ ++ _ ++ _)]
    exact Meets.front (t := []) lead (Meets.deep (runs_guard (guard_text _ _) hg) rfl (inside.more _))

/-! ### C112 -/

/-- A function with variable arguments. -/
def Variadic (p : Proto) : Prop := str% "..." <:+ p.args

theorem symbol_inj : ∀ {ps : List Proto}, (ps.map (·.symbol)).Nodup → ∀ {p q : Proto}, p ∈ ps → q ∈ ps → p.symbol = q.symbol → p = q
  | a :: r, hd, p, q, hp, hq, e => by
    rw [List.map_cons, List.nodup_cons] at hd
    rcases List.mem_cons.mp hp with rfl | hp <;> rcases List.mem_cons.mp hq with rfl | hq
    · rfl
    · exact absurd (List.mem_map.mpr ⟨q, hq, e.symm⟩) hd.1
    · exact absurd (List.mem_map.mpr ⟨p, ‹_›, e⟩) hd.1
    · exact symbol_inj hd.2 hp hq e

theorem va_free {s : Settings} (hd : (protos.map (·.symbol)).Nodup) {p : Proto} (hp : p ∈ protos) (hv : ¬ Variadic p) :
    toUpper s.pfx ++ (str% "_" ++ (str% "HAS_VA_ARGS_" ++ p.symbol)) ∉ toolNames s (protos.filter fun p => (str% "...").isSuffixOf p.args) := by
  intro hm
  unfold toolNames at hm
  rw [List.mem_append] at hm
  rcases hm with hm | hm
  · have : toUpper s.pfx ++ (str% "_" ++ (str% "HAS_VA_ARGS_" ++ p.symbol)) ∈ toolNames s [] := by
      unfold toolNames
      exact List.mem_append_left _ hm
    obtain ⟨w, e, h⟩ := tool_mem this
    have e := prefixed_inj e
    subst e
    have hw : ∀ w ∈ toolWords, w.take 5 ≠ str% "HAS_V" := by decide
    rcases h with h | ⟨q, -⟩
    · exact hw _ h.1 rfl
    · simp only [List.mem_append, List.mem_singleton] at hm
      rcases hm with (hm | hm) | hm
      · split at hm
        · have := List.mem_singleton.mp hm
          have := prefixed_inj (y := str% "SEPARATE") this
          cases this
        · cases hm
      · split at hm
        · cases hm
        · simp only [hardNames, List.mem_cons, List.not_mem_nil, or_false] at hm
          rcases hm with hm | hm
          · have := prefixed_inj (y := str% "HARDCODED_DEFAULT_LIBA") hm
            have := congrArg (List.take 3) this
            simp at this
          · have := prefixed_inj (y := str% "HARDCODED_DEFAULT_LIBW") hm
            have := congrArg (List.take 3) this
            simp at this
      · have := prefixed_inj (y := str% "COMMON_PREFIX") hm
        cases this
  · obtain ⟨q, hq, e⟩ := List.mem_map.mp hm
    obtain ⟨hq, hqv⟩ := List.mem_filter.mp hq
    have e : q.symbol = p.symbol := by
      rw [List.append_assoc] at e
      exact List.append_cancel_left (as := str% "_HAS_VA_ARGS_") (List.append_cancel_left e)
    have : q = p := symbol_inj hd hq hp e
    subst this
    exact hv (List.isSuffixOf_iff_suffix.mp hqv)

/-- The whole file, header or single file: `b` is what stands in front of `c.h`, `more` what follows it. -/
theorem C112_file {env : Gen.Env} {s : Settings} (h : Leads env s) (hF : FrontGiven env s) (hA : Aside s inc)
    (hg : E (guardName (headerName s) (toUpper s.pfx)) = none) {EU : Str → Option Macro}
    (hU : after inc (opened s E) (savedText s (env.builtin .filenameMacros) ++ s.defines) = some EU)
    (hP : Placed s inc EU env.symbols.protos env.symbols.objs)
    (hs : ∀ p ∈ env.symbols.protos ++ env.symbols.objs, p.symbol ∉ commonDefined.map (newName (toUpper s.pfx) (toLower s.pfx)))
    (hd : (env.symbols.protos.map (·.symbol)).Nodup) (hD : ∀ p ∈ env.symbols.protos, p.symbol ≠ str% "DECL")
    (hr : refused s.names (configured s EU) (toUpper s.pfx) = false) (hn : s.names ≠ .skip)
    (hw : (Has EU (toUpper s.pfx) (str% "WRAP_FUNCTIONS") || autoload (fun x => (EU x).isSome) (toUpper s.pfx)) = true) {p : Proto} (hp : p ∈ env.symbols.protos)
    (hinc : ∀ r, ∀ y ∈ checkName (toUpper s.pfx) :: hookName (toUpper s.pfx) p.symbol :: wrapNamesOf (toUpper s.pfx) p.symbol, (inc r).lookup y = none)
    (hv : EU (vaName (toUpper s.pfx) p.symbol) = none) {b : Str} (hb : Between s env.symbols.protos env.symbols.objs b) (more : Str) (k : Nat) :
    ∃ E', Reaches inc E (headerText env s (allDefines env s) (templateText s env.symbols.protos env.symbols.objs .commonHeader ++
        (b ++ templateText s env.symbols.protos env.symbols.objs .cHeader) ++ more) k) (wrapCode E' (toUpper s.pfx) p) E' ∧
      ((E' (vaName (toUpper s.pfx) p.symbol)).isSome = true ↔ Variadic p) ∧ Wraps EU E' (toUpper s.pfx) (toLower s.pfx) p := by
  have hc : ∀ r, ∀ x ∈ checkedNames (toUpper s.pfx), (inc r).lookup x = none := fun r x hx => hA r x (List.mem_append_left _ hx)
  have hpo := List.mem_append_left env.symbols.objs hp
  obtain ⟨E1, f1, f2, f3, f4, f5⟩ := front_all hF hU fun r x hx => hA r x (List.mem_append_right _ hx)
  have hcong := refused_congr (names := s.names) (configured_front h.pfx hc f2 f4)
  have same : ∀ y ∈ symbolNames (toUpper s.pfx) (toLower s.pfx) env.symbols.protos env.symbols.objs, y ≠ toUpper s.pfx ++ str% "_SEPARATE" → E1 y = EU y := fun y hy hn =>
    f2 y (tool_names hP.names.toNames _ y hy hn) fun r => hP.headers r y hy
  have conf : ∀ x ∈ configNames, x ≠ str% "SEPARATE" → Has E1 (toUpper s.pfx) x = Has EU (toUpper s.pfx) x := by
    intro x hx hn
    unfold Has
    rw [same _ (mem_config hx) fun e => hn (prefixed_inj (u := toUpper s.pfx) e)]
  have hP1 : Placed s inc E1 env.symbols.protos env.symbols.objs := by
    refine ⟨hP.names, hP.calm, hP.headers, ?_, fun q hq => ?_⟩
    · rw [same _ (List.mem_cons_self ..) (hP.names.handle' (str% "SEPARATE")), hP.handle]
    · rw [same _ (mem_symbol hq _ (by simp)) (fun e => by
        have := prefixed_inj (u := toUpper s.pfx) (y := str% "SEPARATE") e
        cases this), hP.members q hq]
  have hauto : autoload (fun x => (E1 x).isSome) (toUpper s.pfx) = autoload (fun x => (EU x).isSome) (toUpper s.pfx) := by
    refine hcong.2.trans ?_
    unfold autoload configured hardNames
    simp
  have e1 : (E1 (vaName (toUpper s.pfx) p.symbol)).isSome = true ↔ Variadic p := by
    have hi : ∀ r, (inc r).lookup (vaName (toUpper s.pfx) p.symbol) = none := fun r => hinc r _ (by simp [wrapNamesOf, vaName])
    by_cases hpv : Variadic p
    · have en : vaName (toUpper s.pfx) p.symbol = toUpper s.pfx ++ str% "_HAS_VA_ARGS_" ++ p.symbol := by simp [vaName]
      rw [en] at hi ⊢
      exact ⟨fun _ => hpv, fun _ => f5 p (List.mem_filter.mpr ⟨hp, List.isSuffixOf_iff_suffix.mpr hpv⟩) hi⟩
    · rw [f2 (vaName (toUpper s.pfx) p.symbol) (va_free hd hp hpv) hi, hv]
      exact ⟨fun h => by simp at h, fun h => absurd h hpv⟩
  have e2 : E1 (toUpper s.pfx ++ (str% "_" ++ (str% "WRAP_" ++ p.symbol))) = EU (toUpper s.pfx ++ (str% "_" ++ (str% "WRAP_" ++ p.symbol))) :=
    f2 _ (tool_word (fun hm => by
      have : ∀ w ∈ toolWords, w.head? ≠ some 'W' := by decide
      exact this _ hm rfl) (no_va (by simp))) fun r => hinc r _ (by simp [wrapNamesOf])
  have e3 : E1 p.symbol = EU p.symbol := same _ (mem_symbol hpo _ (by simp)) (hP.names.own p hpo (str% "SEPARATE"))
  have e4 : E1 (toUpper s.pfx ++ str% "_HOOK_" ++ p.symbol) = EU (toUpper s.pfx ++ str% "_HOOK_" ++ p.symbol) := by
    rw [← hookName_eq]
    exact f2 _ (tool_word (fun hm => by
      have : ∀ w ∈ toolWords, w.take 2 ≠ str% "HO" := by decide
      exact this _ hm rfl) (fun q e => by have := congrArg (List.take 2) e; simp at this)) fun r => hinc r _ (by simp)
  obtain ⟨E', m1, m2, m3⟩ := meets_header (E := E1) s h.pfx hc hP1 hs hd hD (hcong.1.trans hr) hn (by rw [conf _ (by decide) (by decide), hauto, hw]) hp hinc hb
  have hvis := conf (str% "WRAP_VISIBILITY") (by decide) (by decide)
  refine ⟨E', (meets_file h hg f1 (m1.more more)).reaches, by rw [m3, e1], fun a => m2.inner (hvis.trans a), fun a => m2.outer (hvis.trans a), fun w hw hE => m2.named w (by rw [hvis]; exact hw) ?_, m2.raw, m2.check, by rw [m2.hook, e4]⟩
  rw [← hE, hw]
  split
  · exact e3
  · exact e2

/-- A successful run in C, for symbols from a text file: the wrappers in the header, or the single
file, that was written. -/
theorem C112_program (w : Program.World) (win : Bool) (argv : List Str) (node : Nat → Option Node) (s : Settings) (ws : List Str)
    (hparse : parseCmdline win argv = some (some (.settings s ws))) (hb : ∀ t, compiledList t = some (w.env.builtin t))
    (s' : Settings) (sy : Symbols) (htok : Program.tokenize w s = some (.ok (s', sy))) (hft : Props.FromText sy)
    (hne : sy.protos ++ sy.objs ≠ []) (hps : s.printSymbols = false) (hct : s.customTemplate = []) (htp : s.templatesPath = [])
    (hp : PrefixOk s'.pfx) (hl : s'.lineDirective = false) (hfmt : s'.format = .c)
    (hdate : ∀ c ∈ w.env.date, c ≠ '\\' ∧ c ≠ '\n') (hname : LiteralText (headerName s')) (hinc : ∀ e ∈ s'.includes, IncludeLine e)
    (hlib : s'.defaultLib = [] ∨ ∃ sys f t, Opens sys s'.defaultLib f t) (hdef : s'.defines = [] ∨ ∃ x, Whole s'.defines x)
    (hN : AllNames (toUpper s'.pfx) (toLower s'.pfx) sy.protos sy.objs)
    (hcom : ∀ p ∈ sy.protos ++ sy.objs, p.symbol ∉ commonDefined.map (newName (toUpper s'.pfx) (toLower s'.pfx)))
    (hd : (sy.protos.map (·.symbol)).Nodup) (hD : ∀ p ∈ sy.protos, p.symbol ≠ str% "DECL") (hn : s'.names ≠ .skip) :
    ∃ N, ∀ n, N ≤ n → ∀ m st', Program.main { w with env := { w.env with n } } win argv node = .exit 0 m st' →
      ∃ text st1, Written w.env (outputPaths s').1 (Program.start node) text st1 ∧
        ∀ inc E EU, Aside s' inc → E (guardName (headerName s') (toUpper s'.pfx)) = none →
          after inc (opened s' E) (savedText s' (w.env.builtin .filenameMacros) ++ s'.defines) = some EU →
          refused s'.names (configured s' EU) (toUpper s'.pfx) = false →
          (∀ r, ∀ y ∈ symbolNames (toUpper s'.pfx) (toLower s'.pfx) sy.protos sy.objs, (inc r).lookup y = none) →
          EU (toLower s'.pfx ++ str% "_hndl") = none → (∀ p ∈ sy.protos ++ sy.objs, EU (toUpper s'.pfx ++ (str% "_" ++ (str% "PTR_" ++ p.symbol))) = none) →
          (Has EU (toUpper s'.pfx) (str% "WRAP_FUNCTIONS") || autoload (fun x => (EU x).isSome) (toUpper s'.pfx)) = true →
          ∀ p ∈ sy.protos, (∀ r, ∀ y ∈ checkName (toUpper s'.pfx) :: hookName (toUpper s'.pfx) p.symbol :: wrapNamesOf (toUpper s'.pfx) p.symbol, (inc r).lookup y = none) →
            EU (vaName (toUpper s'.pfx) p.symbol) = none →
            ∃ E', Reaches inc E text (wrapCode E' (toUpper s'.pfx) p) E' ∧ ((E' (vaName (toUpper s'.pfx) p.symbol)).isSome = true ↔ Variadic p) ∧
              Wraps EU E' (toUpper s'.pfx) (toLower s'.pfx) p := by
  obtain ⟨N, h⟩ := C94_program w win argv node s ws hparse hb s' sy htok hft hne hps hct htp hp hl
  refine ⟨N, fun n hn' m st' hm => ?_⟩
  have h := h n hn' m st' hm
  dsimp only at h
  have hL : Leads { w.env with symbols := sy } s' := ⟨hp, hb .license, hdate, hname⟩
  have hF : FrontGiven { w.env with symbols := sy } s' := by
    refine ⟨hp, hb .filenameMacros, CForm.text_word hft, hinc, fun t ht c hc => ?_, hlib, hdef⟩
    have hs := (Props.C84_characters_partial sy hft).2 t ht
    refine ⟨?_, ?_, ?_, ?_, ?_, ?_⟩ <;> rintro rfl <;> exact Props.harmless_not hs (by decide) (by decide) hc
  have htext : ∃ b more, Between s' sy.protos sy.objs b ∧
      allText s' sy (listNames s').1 = templateText s' sy.protos sy.objs .commonHeader ++ (b ++ templateText s' sy.protos sy.objs .cHeader) ++ more := by
    cases hsep : isSeparate s' with
    | true =>
      have hn : (listNames s').1 = [.commonHeader, .cHeader] := by
        unfold listNames
        simp only [hsep, hfmt]
        rfl
      rw [hn]
      exact ⟨[], [], .inl rfl, by simp [allText, templateText, hl, unlines_append]⟩
    | false =>
      have hn : (listNames s').1 = [.commonHeader, .commonBody, .cHeader, .cBody] := by
        unfold listNames
        simp only [hsep, hfmt]
        rfl
      rw [hn]
      exact ⟨_, templateText s' sy.protos sy.objs .cBody, .inr rfl, by simp [allText, templateText, hl, unlines_append]⟩
  obtain ⟨b, more, hb', htext⟩ := htext
  have key : ∀ inc E EU, Aside s' inc → E (guardName (headerName s') (toUpper s'.pfx)) = none →
      after inc (opened s' E) (savedText s' (w.env.builtin .filenameMacros) ++ s'.defines) = some EU → _ :=
    fun inc E EU hA hg hU hr hi hh hm hw p hp hi2 hv =>
      C112_file (env := { w.env with symbols := sy }) (E := E) (inc := inc) (EU := EU) hL hF hA hg hU ⟨hN, C102_text sy hft, hi, hh, hm⟩ hcom hd hD hr hn hw (p := p) hp hi2 hv hb' more 0
  cases hsep : isSeparate s' with
  | true =>
    rw [if_pos hsep, htext] at h
    obtain ⟨st1, hw, _⟩ := h
    exact ⟨_, st1, hw, key⟩
  | false =>
    rw [if_neg (by simp [hsep]), htext] at h
    exact ⟨_, st', h, key⟩

/-! ### Examples -/

/-- The header with automatic loading, included by a program: the wrapper of the function is
reached and is not given another name. -/
example : ∃ EU E', EU (str% "GDO_WRAP_VISIBILITY") = none ∧ Reaches (fun _ => []) (fun _ => none) (headerText fullEnv separated (allDefines fullEnv separated)
      (templateText separated [aFunction] [anObject] .commonHeader ++ templateText separated [aFunction] [anObject] .cHeader ++ []) 0) (wrapperText (str% "GDO") aFunction) E' ∧
      Wraps EU E' (str% "GDO") (str% "gdo") aFunction ∧
      E' (str% "GDO_HOOK_foo") = some ⟨some [], true, [⟨true, .ident (str% "_gdo_noop")⟩, ⟨false, .punct (str% "(")⟩, ⟨false, .punct (str% ")")⟩]⟩ := by
  have m := moves_file (inc := fun _ => []) separated prefix_example (compiledList_eq .filenameMacros (ok_all .filenameMacros)) (opened separated fun _ => none)
  obtain ⟨E', h1, h2, h3⟩ := C112_file (E := fun _ => none) (inc := fun _ => []) leads_separated front_separated (fun _ _ _ => rfl) rfl
    ((m.2 _).trans (after_run (t := [(str% "GDO_ENABLE_AUTOLOAD", some emptyMacro)]) (by decide +kernel)))
    ⟨named_all, calm_all, fun _ _ _ => rfl, by decide +kernel, by decide +kernel⟩ (by decide +kernel) (by decide +kernel) (by decide +kernel)
    (by decide +kernel) (by decide) (by decide +kernel) (p := aFunction) (by simp [fullEnv]) (fun _ _ _ => rfl) (by decide +kernel) (.inl rfl) [] 0
  have hv : (E' (vaName (toUpper separated.pfx) aFunction.symbol)).isSome = false := by
    rw [Bool.eq_false_iff, ne_eq, h2]
    unfold Variadic
    decide +kernel
  unfold wrapCode at h1
  rw [hv] at h1
  exact ⟨_, E', by decide +kernel, h1, h3, h3.hook.trans (by decide +kernel)⟩

end Gdo.Cpp
