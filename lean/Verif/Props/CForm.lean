import Verif.Lemmas.CFormCheck
import Verif.Lemmas.CText
import Verif.Props.Builtin

/-!
Property C95: what is written is well-formed C text: all comments, literals, brackets and
conditionals are closed in the place where they belong.
-/

namespace Gdo.CForm
open Gdo Tpl Opt Gen Tmpl Sub Rename Builtin

/-! ### The templates -/

/-- The text of every template is well-formed, for every prefix and for all symbols whose
    data have closed brackets and no quotes, comments or line ends. -/
theorem C95_template (u l : Str) (names : ParamNames) (protos objs : List Proto) (t : TName) (hu : ∀ c ∈ u, isWord c = true)
    (hl : ∀ c ∈ l, isWord c = true) (hln : l ≠ []) (hd : ∀ p ∈ protos ++ objs, Clean p) :
    WellFormed (unlines (instantiate u l names protos objs (lines t))) :=
  template_texts hu hl hln hd (wf_all names t)

/-- Processing the built-in templates gives well-formed text, with and without `-line`. -/
theorem C95_processed (env : Env) (s : Settings) (hb : ∀ t, compiledList t = some (env.builtin t)) (hp : PrefixOk s.pfx)
    (ht : s.templatesPath = []) (hd : ∀ p ∈ env.symbols.protos ++ env.symbols.objs, PlainData p ∧ Clean p)
    (hne : env.symbols.protos ++ env.symbols.objs ≠ []) :
    ∃ N, ∀ n, N ≤ n → ∃ css k bss j,
      headerSubst { env with n } s = .ok (css, k) ∧ bodySubst { env with n } s = .ok (bss, j) ∧
      WellFormed (bytes css.flatten.flatten) ∧ WellFormed (bytes bss.flatten.flatten) := by
  have hL : env.builtin = list := by
    funext t
    have := hb t
    rw [compiledList_eq t (ok_all t)] at this
    exact (Option.some.inj this).symm
  obtain ⟨N0, h0⟩ := C94_processed env s hb hp ht (fun p hp => (hd p hp).1) hne
  have hc : ∀ p ∈ (subConfig env s).prototypes ++ (subConfig env s).objects, Clean p := fun p hp => (hd p hp).2
  obtain ⟨N1, h1⟩ := substLists_written (subConfig env s) hp (fun p hp => (hd p hp).1) (listNames s).1 fun t _ => ok_all t
  obtain ⟨N2, h2⟩ := substLists_written (subConfig env s) hp (fun p hp => (hd p hp).1) (listNames s).2 fun t _ => ok_all t
  refine ⟨max N0 (max N1 N2), fun n hn => ?_⟩
  obtain ⟨css, k, bss, j, e1, e2, _⟩ := h0 n (by omega)
  obtain ⟨css', k', a1, _, a3⟩ := h1 n (by omega)
  obtain ⟨bss', j', b1, _, b3⟩ := h2 n (by omega)
  have hsrc : srcList { env with n } s = list := by
    funext t
    simp [srcList, ht, hL]
  have key : ∀ {ts : List TName} {c c' : List (List (List Chunk))} {i i' : Nat}, substitute n (subConfig env s) (ts.map list) = .ok (c, i) →
      substLists n (subConfig env s) false (ts.map list) = .ok (c', i') → c = c' := by
    intro ts c c' i i' x1 x2
    unfold substitute at x1
    split at x1
    · rename_i hx
      cases ts with
      | nil => cases x1; cases x2; rfl
      | cons _ _ => cases hx
    · split at x1
      · cases x1
      · rw [x2] at x1
        cases x1
        rfl
  have f1 : css = css' := by
    unfold headerSubst at e1
    rw [hsrc] at e1
    exact key e1 a1
  have f2 : bss = bss' := by
    unfold bodySubst at e2
    rw [hsrc] at e2
    exact key e2 b1
  subst f1; subst f2
  exact ⟨css, k, bss, j, e1, e2, templates_chunks hp hc a3 fun t _ => wf_all _ t, templates_chunks hp hc b3 fun t _ => wf_all _ t⟩

/-! ### Other parts of the files -/

theorem line_comment {t : Str} (h : ∀ c ∈ t, c ≠ '\\' ∧ c ≠ '\n') (p : Pos) (st : List Frame) :
    run ⟨.line, p, false, st⟩ t = some ⟨.line, p, false, st⟩ :=
  same_run fun c hc => by
    obtain ⟨h1, h2⟩ := h c hc
    simp [step, h1, h2]

/-- The first lines of a file. -/
theorem note_wf (b : Bool) {date : Str} (h : ∀ c ∈ date, c ≠ '\\' ∧ c ≠ '\n') : WellFormed (noteText b date) := by
  intro stack
  unfold noteText
  have h' : ∀ c ∈ (if b then date else []), c ≠ '\\' ∧ c ≠ '\n' := by
    cases b
    · simp
    · exact h
  have e1 : run (fresh stack) (str% "// Do not edit this file!\n// It was automatically generated by gendlopen") =
      some ⟨.line, .start, false, stack⟩ := rfl
  rw [run_append, run_append, e1, Option.bind_some, line_comment h' _ _]
  rfl

/-- A name in quotes. -/
theorem quoted_run {t : Str} (h : ∀ c ∈ t, c ≠ '"' ∧ c ≠ '\\' ∧ c ≠ '\n') (st : List Frame) :
    run ⟨.str, .rest, false, st⟩ t = some ⟨.str, .rest, false, st⟩ :=
  same_run fun c hc => by
    obtain ⟨h1, h2, h3⟩ := h c hc
    simp [step, h1, h2, h3]

theorem quoted_inline {t : Str} (h : ∀ c ∈ t, c ≠ '"' ∧ c ≠ '\\' ∧ c ≠ '\n') : Inline (str% "\"" ++ t ++ str% "\"") := by
  intro stack
  have e1 : run ⟨.code, .rest, false, stack⟩ (str% "\"") = some ⟨.str, .rest, false, stack⟩ := rfl
  rw [run_append, run_append, e1, Option.bind_some, quoted_run h]
  rfl

theorem word_inline {t : Str} (h : ∀ c ∈ t, isWord c = true) : Inline t := fun _ => rest_word h

theorem guard_word (h u : Str) (hu : ∀ c ∈ u, isWord c = true) : ∀ c ∈ guardName h u, isWord c = true := by
  intro c hc
  unfold guardName at hc
  simp only [List.mem_append, List.mem_singleton] at hc
  rcases hc with (((rfl | hc) | rfl) | hc) | rfl
  · rfl
  · exact hu c hc
  · rfl
  · exact Pfx.C30_upper h c hc
  · rfl

/-- A line of a directive: text that leads into the line, something in it, and the rest. -/
theorem line_wf {a t b : Str} (ha : run (fresh []) a = some ⟨.code, .rest, false, []⟩) (ht : Inline t)
    (hb : run ⟨.code, .rest, false, []⟩ b = some (fresh [])) : WellFormed (a ++ t ++ b) := by
  refine wellFormed_of ?_
  rw [run_append, run_append, ha, Option.bind_some, ht, Option.bind_some, hb]

/-- The text in front of the body. -/
theorem includeHeader_wf {h u : Str} (hh : ∀ c ∈ h, c ≠ '"' ∧ c ≠ '\\' ∧ c ≠ '\n') (hu : ∀ c ∈ u, isWord c = true) :
    WellFormed (includeHeader h u) := by
  have h1 : WellFormed (str% "\n#define " ++ (u ++ str% "_INCLUDED_IN_BODY") ++ str% "\n") :=
    line_wf rfl ((word_inline hu).append (word_inline (by decide))) rfl
  have h2 : WellFormed (str% "#include " ++ (str% "\"" ++ h ++ str% "\"") ++ str% "\n\n") := line_wf rfl (quoted_inline hh) rfl
  have := h1.append h2
  unfold includeHeader
  simpa using this

theorem lineDirective_wf {h : Str} (hh : ∀ c ∈ h, c ≠ '"' ∧ c ≠ '\\' ∧ c ≠ '\n') (n : Nat) (b : Bool) :
    WellFormed (lineDirectiveText n b h).1 := by
  cases b
  · exact WellFormed.nil
  · have : WellFormed (str% "#line " ++ (Nat.toDigits 10 (n + 2) ++ (str% " " ++ (str% "\"" ++ h ++ str% "\""))) ++ str% "\n") :=
      line_wf rfl (Inline.append (fun _ => digits_run _ _) (Inline.append (inline_of rfl) (quoted_inline hh))) rfl
    simpa [lineDirectiveText] using this

/-- The license text and the file name macros. -/
theorem saved_wf (s : Settings) (hp : PrefixOk s.pfx) (t : TName) (ht : t = .license ∨ t = .filenameMacros) (l : List Entry)
    (hL : compiledList t = some l) : WellFormed (savedText s l) := by
  rw [C94_saved s hp .skip [] [] t ht l hL, unlines_append]
  refine WellFormed.append ?_ (C95_template _ _ _ _ _ _ (Pfx.C30_upper _) (Pfx.C30_lower _) (prefix_ne hp) (by simp))
  split
  · exact wellFormed_unlines (by intro x hx; cases List.mem_singleton.mp hx; exact lineText_wf t)
  · exact WellFormed.nil

theorem includes_wf {incs : List Str} (h : ∀ i ∈ incs, Inline i) (b : Bool) : WellFormed (includesText incs b) := by
  unfold includesText
  refine WellFormed.append (WellFormed.append (WellFormed.append (wellFormed_of rfl) ?_) ?_) (wellFormed_of rfl)
  · cases b <;> exact wellFormed_of rfl
  · exact WellFormed.flatMap fun i hi => line_wf rfl (h i hi) rfl

theorem typedefs_wf {tds : List Str} (h : ∀ t ∈ tds, Inline t) : WellFormed (typedefsText tds) := by
  unfold typedefsText
  split
  · exact WellFormed.nil
  · exact WellFormed.append (WellFormed.append (wellFormed_of rfl) (WellFormed.flatMap fun t ht => line_wf rfl (h t ht) rfl)) (wellFormed_of rfl)

theorem extra_wf {d : Str} (h : WellFormed d) : WellFormed (extraDefines d) := by
  unfold extraDefines
  split
  · exact WellFormed.nil
  · exact WellFormed.append (WellFormed.append (wellFormed_of rfl) h) (wellFormed_of rfl)

/-- What the user gives: the data of the symbols, the texts of options, the names of
    files. -/
structure Given (env : Env) (s : Settings) : Prop where
  data : ∀ p ∈ env.symbols.protos ++ env.symbols.objs, Clean p
  typedefs : ∀ t ∈ env.symbols.typedefs, Inline t
  defines : WellFormed s.defines
  library : ∀ a w, libTexts s.defaultLib (toUpper s.pfx) = some (a, w) → Inline a ∧ Inline w
  includes : ∀ i ∈ s.includes, Inline i
  date : ∀ c ∈ env.date, c ≠ '\\' ∧ c ≠ '\n'
  name : ∀ c ∈ headerName s, c ≠ '"' ∧ c ≠ '\\' ∧ c ≠ '\n'
  symbols : ∀ p ∈ env.symbols.protos ++ env.symbols.objs, ∀ c ∈ p.symbol, isWord c = true

theorem library_wf {lib u : Str} (hu : ∀ c ∈ u, isWord c = true) (h : ∀ a w, libTexts lib u = some (a, w) → Inline a ∧ Inline w) :
    WellFormed (formatLibname lib u) := by
  unfold formatLibname
  cases hx : libTexts lib u with
  | none => exact WellFormed.nil
  | some x =>
    obtain ⟨a, w⟩ := x
    obtain ⟨h1, h2⟩ := h a w hx
    have key : ∀ (k t : Str), (∀ c ∈ k, isWord c = true) → Inline t → WellFormed (str% "#define " ++ (u ++ (k ++ (str% " " ++ t))) ++ str% "\n") :=
      fun k t hk ht => line_wf rfl ((word_inline hu).append ((word_inline hk).append ((inline_of rfl).append ht))) rfl
    have := (key (str% "_HARDCODED_DEFAULT_LIBA") a (by decide) h1).append (key (str% "_HARDCODED_DEFAULT_LIBW") w (by decide) h2)
    simpa using this

theorem common_word {env : Env} (h : ∀ p ∈ env.symbols.protos ++ env.symbols.objs, ∀ c ∈ p.symbol, isWord c = true) :
    ∀ c ∈ (Common.getCommonPrefix (env.symbols.protos.map (·.symbol)) (env.symbols.objs.map (·.symbol))).getD [], isWord c = true := by
  intro c hc
  cases hx : Common.getCommonPrefix (env.symbols.protos.map (·.symbol)) (env.symbols.objs.map (·.symbol)) with
  | none => rw [hx] at hc; cases hc
  | some r =>
    rw [hx] at hc
    have hpre := Common.C31_prefix _ _ r hx
    cases hn : env.symbols.protos ++ env.symbols.objs with
    | nil =>
      have h1 : env.symbols.protos = [] := List.append_eq_nil_iff.mp hn |>.1
      have h2 : env.symbols.objs = [] := List.append_eq_nil_iff.mp hn |>.2
      rw [h1, h2] at hx
      cases hx
      cases hc
    | cons p ps =>
      have hm : p ∈ env.symbols.protos ++ env.symbols.objs := by rw [hn]; simp
      have : r <+: p.symbol := hpre _ (by rw [← List.map_append]; exact List.mem_map.mpr ⟨p, hm, rfl⟩)
      exact h p hm c (this.subset hc)

/-- All the `#define` lines. -/
theorem defines_wf {env : Env} {s : Settings} (h : Given env s) : WellFormed (allDefines env s) := by
  have hu := Pfx.C30_upper s.pfx
  unfold allDefines addedDefines
  dsimp only
  refine h.defines.append ?_
  rw [List.append_assoc, List.append_assoc, List.append_assoc, List.append_assoc, List.append_assoc, List.append_assoc]
  refine WellFormed.append ?_ (WellFormed.append ?_ ?_)
  · split
    · have : WellFormed (str% "#define " ++ (toUpper s.pfx ++ str% "_SEPARATE") ++ str% "\n") :=
        line_wf rfl ((word_inline hu).append (word_inline (by decide))) rfl
      simpa using this
    · exact WellFormed.nil
  · split
    · exact WellFormed.nil
    · exact library_wf hu h.library
  · have h1 : WellFormed (str% "#define " ++ (toUpper s.pfx ++ (str% "_COMMON_PREFIX" ++ (str% " " ++ (str% "\"" ++
        (Common.getCommonPrefix (env.symbols.protos.map (·.symbol)) (env.symbols.objs.map (·.symbol))).getD [] ++ str% "\"")))) ++ str% "\n") :=
      line_wf rfl ((word_inline hu).append ((word_inline (by decide)).append ((inline_of rfl).append (quoted_inline fun c hc => by
        have := word_ne (common_word h.symbols c hc)
        exact ⟨this.2.2.1, this.2.2.2.1, this.2.2.2.2.1⟩)))) rfl
    have h2 : WellFormed ((env.symbols.protos.filter fun p => (str% "...").isSuffixOf p.args).flatMap fun p =>
        str% "#define " ++ toUpper s.pfx ++ str% "_HAS_VA_ARGS_" ++ p.symbol ++ str% " 1\n") := by
      refine WellFormed.flatMap fun p hp => ?_
      have hm := (List.mem_filter.mp hp).1
      have : WellFormed (str% "#define " ++ (toUpper s.pfx ++ (str% "_HAS_VA_ARGS_" ++ p.symbol)) ++ str% " 1\n") :=
        line_wf rfl ((word_inline hu).append ((word_inline (by decide)).append (word_inline (h.symbols p (by simp [hm]))))) rfl
      simpa using this
    have := h1.append h2
    simpa using this

/-! ### The files -/

/-- The body is well-formed. -/
theorem C95_body (env : Env) (s : Settings) (hb : ∀ t, compiledList t = some (env.builtin t)) (hp : PrefixOk s.pfx) (h : Given env s)
    (body : Str) (hw : WellFormed body) : WellFormed (bodyText env s body) :=
  (((note_wf _ h.date).append (saved_wf s hp .license (Or.inl rfl) _ (hb _))).append (includeHeader_wf h.name (Pfx.C30_upper _))).append hw

/-- A file for compilers of C and C++: what either of them sees is well-formed, with a
    linkage specification around a part of it for C++. -/
def WellFormedBoth (t : Str) : Prop :=
  ∃ a b c, t = a ++ str% "#ifdef __cplusplus\nextern \"C\" {\n#endif\n" ++ b ++ str% "#ifdef __cplusplus\n} /* extern \"C\" */\n#endif\n" ++ c ∧
    WellFormed b ∧ WellFormed (a ++ b ++ c) ∧ WellFormed (a ++ str% "extern \"C\" {\n" ++ b ++ str% "} /* extern \"C\" */\n" ++ c)

/-- Something between the guard is well-formed if it is. -/
theorem guard_wf {g t : Str} (hg : ∀ c ∈ g, isWord c = true) (ht : WellFormed t) :
    WellFormed (str% "\n#ifndef " ++ g ++ str% "\n#define " ++ g ++ str% "\n\n" ++ t ++ (str% "\n#endif //" ++ g ++ str% "\n")) := by
  intro stack
  have e1 : run (fresh stack) (str% "\n#ifndef ") = some ⟨.code, .rest, false, .cond false :: stack⟩ := rfl
  have e2 : run ⟨.code, .rest, false, .cond false :: stack⟩ (str% "\n#define ") = some ⟨.code, .rest, false, .cond false :: stack⟩ := rfl
  have e3 : run ⟨.code, .rest, false, .cond false :: stack⟩ (str% "\n\n") = some (fresh (.cond false :: stack)) := rfl
  have e4 : run (fresh (.cond false :: stack)) (str% "\n#endif //") = some ⟨.line, .rest, false, stack⟩ := rfl
  have e5 : run ⟨.line, .rest, false, stack⟩ g = some ⟨.line, .rest, false, stack⟩ := line_comment (fun c hc => by
    have := word_ne (hg c hc)
    exact ⟨this.2.2.2.1, this.2.2.2.2.1⟩) _ _
  have hgr := word_inline hg (.cond false :: stack)
  simp only [run_append, e1, Option.bind_some, hgr, e2, e3, ht (.cond false :: stack), e4, e5]
  rfl

theorem pragma_wf {t : Str} (ht : WellFormed t) : WellFormed (str% "\n#pragma once\n\n" ++ t) := WellFormed.append (wellFormed_of rfl) ht

theorem externC_wf {t : Str} (ht : WellFormed t) : WellFormed (str% "extern \"C\" {\n" ++ t ++ str% "} /* extern \"C\" */\n") := by
  intro stack
  have e1 : run (fresh stack) (str% "extern \"C\" {\n") = some (fresh (.curly :: stack)) := rfl
  have e2 : run (fresh (.curly :: stack)) (str% "} /* extern \"C\" */\n") = some (fresh stack) := rfl
  rw [run_append, run_append, e1, Option.bind_some, ht, Option.bind_some, e2]

/-- The header is well-formed. -/
theorem C95_header (env : Env) (s : Settings) (hb : ∀ t, compiledList t = some (env.builtin t)) (hp : PrefixOk s.pfx) (h : Given env s)
    (body : Str) (hw : WellFormed body) (k : Nat) :
    if Format.isCxx s.format then WellFormed (headerText env s (allDefines env s) body k)
    else WellFormedBoth (headerText env s (allDefines env s) body k) := by
  -- the part inside of the linkage specification
  have hin : ∀ n, WellFormed (savedText s (env.builtin .filenameMacros) ++ extraDefines (allDefines env s) ++
      includesText s.includes (Format.isCxx s.format) ++ typedefsText env.symbols.typedefs ++ body ++
      (lineDirectiveText n s.lineDirective (headerName s)).1) := fun n =>
    (((((saved_wf s hp .filenameMacros (Or.inr rfl) _ (hb _)).append (extra_wf (defines_wf h))).append (includes_wf h.includes _)).append
      (typedefs_wf h.typedefs)).append hw).append (lineDirective_wf h.name _ _)
  have hhead : WellFormed (headText env s ++ (lineDirectiveText (headLines env s) s.lineDirective (headerName s)).1) :=
    ((note_wf _ h.date).append (saved_wf s hp .license (Or.inl rfl) _ (hb _))).append (lineDirective_wf h.name _ _)
  have hg := guard_word (headerName s) (toUpper s.pfx) (Pfx.C30_upper _)
  -- a guard or a pragma around it
  have hwrap : ∀ t, WellFormed t → WellFormed (headText env s ++ (lineDirectiveText (headLines env s) s.lineDirective (headerName s)).1 ++
      ((if s.pragmaOnce then str% "\n#pragma once\n\n" else str% "\n#ifndef " ++ guardName (headerName s) (toUpper s.pfx) ++ str% "\n#define " ++
        guardName (headerName s) (toUpper s.pfx) ++ str% "\n\n") ++ t ++
       (if s.pragmaOnce then [] else str% "\n#endif //" ++ guardName (headerName s) (toUpper s.pfx) ++ str% "\n"))) := by
    intro t ht
    refine hhead.append ?_
    cases s.pragmaOnce
    · exact guard_wf hg ht
    · simpa using pragma_wf ht
  have hin := hin (headLines env s + (lineDirectiveText (headLines env s) s.lineDirective (headerName s)).2 + midLines env s (allDefines env s) + k)
  split
  · rename_i hc
    have := hwrap _ hin
    unfold headerText midText guardBegin guardEnd
    simpa [hc] using this
  · rename_i hc
    have hin' := WellFormed.append (a := str% "\n") (wellFormed_of rfl) hin
    have htext : headerText env s (allDefines env s) body k =
        headText env s ++ (lineDirectiveText (headLines env s) s.lineDirective (headerName s)).1 ++
        (if s.pragmaOnce then str% "\n#pragma once\n\n" else str% "\n#ifndef " ++ guardName (headerName s) (toUpper s.pfx) ++ str% "\n#define " ++
          guardName (headerName s) (toUpper s.pfx) ++ str% "\n\n") ++ str% "#ifdef __cplusplus\nextern \"C\" {\n#endif\n" ++
        (str% "\n" ++ (savedText s (env.builtin .filenameMacros) ++ extraDefines (allDefines env s) ++
          includesText s.includes (Format.isCxx s.format) ++ typedefsText env.symbols.typedefs ++ body ++
          (lineDirectiveText (headLines env s + (lineDirectiveText (headLines env s) s.lineDirective (headerName s)).2 +
            midLines env s (allDefines env s) + k) s.lineDirective (headerName s)).1)) ++
        str% "#ifdef __cplusplus\n} /* extern \"C\" */\n#endif\n" ++
        (if s.pragmaOnce then [] else str% "\n#endif //" ++ guardName (headerName s) (toUpper s.pfx) ++ str% "\n") := by
      unfold headerText midText guardBegin guardEnd
      simp [hc]
    rw [htext]
    refine ⟨_, _, _, rfl, hin', ?_, ?_⟩
    · have := hwrap _ hin'
      simpa only [List.append_assoc] using this
    · have hx := externC_wf hin'
      have := hwrap _ hx
      simpa only [List.append_assoc] using this

/-- A header of this format. -/
def HeaderOk (s : Settings) (t : Str) : Prop := if Format.isCxx s.format then WellFormed t else WellFormedBoth t

/-- Whatever `generate` writes from the built-in templates is well-formed: a header, or a
    header and a body. -/
theorem C95_generate (env : Env) (s : Settings) (hb : ∀ t, compiledList t = some (env.builtin t)) (hp : PrefixOk s.pfx)
    (ht : s.templatesPath = []) (hd : ∀ p ∈ env.symbols.protos ++ env.symbols.objs, PlainData p)
    (hne : env.symbols.protos ++ env.symbols.objs ≠ []) (hg : Given env s) :
    ∃ N, ∀ n, N ≤ n → ∀ st st' : State, (∀ t, Fresh st.mem t) → generate { env with n } s st = .ok () st' →
      if isSeparate s then ∃ h b st1, HeaderOk s h ∧ WellFormed b ∧ Written env (outputPaths s).1 st h st1 ∧ Written env (outputPaths s).2 st1 b st'
      else ∃ h, HeaderOk s h ∧ Written env (outputPaths s).1 st h st' := by
  obtain ⟨N, h⟩ := C95_processed env s hb hp ht (fun p hp => ⟨hd p hp, hg.data p hp⟩) hne
  refine ⟨N, fun n hn st st' hf hgen => ?_⟩
  obtain ⟨css, k, bss, j, h1, h2, w1, w2⟩ := h n hn
  have hr : Readable { env with n } s := by
    intro hx
    rw [ht] at hx
    cases hx
  cases hsep : isSeparate s with
  | false =>
    rw [if_neg (by simp)]
    obtain ⟨css', k', e1, e2⟩ := generate_ok_single hr hf hsep hgen
    rw [h1] at e1
    cases e1
    exact ⟨_, C95_header env s hb hp hg _ w1 _, e2⟩
  | true =>
    rw [if_pos rfl]
    obtain ⟨css', k', bss', j', st1, e1, e2, e3, e4⟩ := generate_ok_separate ht hf hsep hgen
    rw [h1] at e1
    rw [h2] at e2
    cases e1
    cases e2
    exact ⟨_, _, st1, C95_header env s hb hp hg _ w1 _, C95_body env s hb hp hg _ w2, e3, e4⟩

/-! ### What is given -/

/-- All brackets are closed in the data of the symbols. -/
def Closed (sy : Symbols) : Prop :=
  (∀ p ∈ sy.protos ++ sy.objs, Inline p.type ∧ Inline p.args ∧ Inline p.paramNames) ∧ ∀ t ∈ sy.typedefs, Inline t

theorem harmless_value {t : Str} (h : Props.Harmless t) (hi : Inline t) : Value t := by
  refine ⟨fun c hc hx => ?_, hi⟩
  have key : ∀ d, d.isAlphanum = false → d ∉ ['_', '*', ',', '(', ')', '[', ']', '.', ' '] → c ≠ d := by
    rintro d h1 h2 rfl
    exact Props.harmless_not h h1 h2 hc
  simp only [List.mem_cons, List.not_mem_nil, or_false] at hx
  rcases hx with rfl | rfl | rfl | rfl | rfl | rfl <;> exact key _ (by decide) (by decide) rfl

/-- The names of symbols that come from a text file are words. -/
theorem text_word {sy : Symbols} (h : Props.FromText sy) : ∀ p ∈ sy.protos ++ sy.objs, ∀ c ∈ p.symbol, isWord c = true := by
  obtain ⟨ro, text, pfx, mode, P, S, h⟩ := h
  obtain ⟨h1, _⟩ := declData_tokenize (stream_lexTok ro text) (declText_lower pfx) h
  exact fun p hp => (h1 p hp).symbol.2

/-- Symbols that come from a text file can be given if all brackets are closed; there are
    no quotes and comments in their data. -/
theorem C95_text (sy : Symbols) (h : Props.FromText sy) (hc : Closed sy) : ∀ p ∈ sy.protos ++ sy.objs, Clean p := by
  intro p hp
  obtain ⟨⟨_, _⟩, h2, h3, h4⟩ := (Props.C84_characters_partial sy h).1 p hp
  obtain ⟨i1, i2, i3⟩ := hc.1 p hp
  refine ⟨harmless_value h2 i1, ?_, harmless_value h3 i2, harmless_value h4 i3⟩
  have hw := text_word h p hp
  refine ⟨fun c hc hx => ?_, word_inline hw⟩
  have hwc := hw c hc
  simp only [List.mem_cons, List.not_mem_nil, or_false] at hx
  rcases hx with rfl | rfl | rfl | rfl | rfl | rfl <;> (revert hwc; decide)

/-- Options `-D`: a word and a value with closed brackets and literals. -/
theorem C95_define (s : Settings) (p n q v : Str) (hp : ∀ c ∈ p, isSpace c = true) (hq : ∀ c ∈ q, isSpace c = true) (hn : n ≠ [])
    (hw : ∀ c ∈ n, isWord c = true) (hv : Inline v) (hs : WellFormed s.defines) :
    WellFormed (addDef (p ++ n ++ q ++ str% "=" ++ v) s).defines ∧ WellFormed (addDef (p ++ n ++ q) s).defines := by
  have hcore : Core n := ⟨hn, fun c hc => Spec.isWord_space (hw c (List.mem_of_head? hc)), fun c hc => Spec.isWord_space (hw c (List.mem_of_getLast? hc))⟩
  have he : '=' ∉ n := fun h => absurd (hw _ h) (by decide)
  have key : ∀ t, Inline t → WellFormed (guarded n t) := by
    intro t ht stack
    have e1 : run (fresh stack) (str% "#ifndef ") = some ⟨.code, .rest, false, .cond false :: stack⟩ := rfl
    have e2 : run ⟨.code, .rest, false, .cond false :: stack⟩ (str% "\n# define ") = some ⟨.code, .rest, false, .cond false :: stack⟩ := rfl
    have e3 : run ⟨.code, .rest, false, .cond false :: stack⟩ (str% "\n#endif\n") = some (fresh stack) := rfl
    simp only [guarded, run_append, e1, e2, e3, Option.bind_some, word_inline hw (.cond false :: stack), ht (.cond false :: stack)]
  rw [C40_define s p n q v hp hq hcore he, C40_define_plain s p n q hp hq hcore he]
  exact ⟨hs.append (key _ ((inline_of rfl).append hv)), hs.append (key _ (fun _ => rfl))⟩

/-- Option `-library`: a name without quotes, backslashes and line ends, as it is or behind
    `ext:`. -/
theorem C95_library (lib u : Str) (hu : ∀ c ∈ u, isWord c = true) (h : ∀ c ∈ lib, c ≠ '"' ∧ c ≠ '\\' ∧ c ≠ '\n')
    (hm : ∀ c, lib.head? = some c → c ∉ ['N', 'n', 'A', 'a']) : ∀ a w, libTexts lib u = some (a, w) → Inline a ∧ Inline w := by
  have key : ∀ t : Str, (∀ c ∈ t, c ≠ '"' ∧ c ≠ '\\' ∧ c ≠ '\n') → Inline (quoteLib t false) ∧ Inline (quoteLib t true) := by
    intro t ht
    have hq := quoted_inline ht
    have n1 : ¬ (t.length ≥ 2 ∧ frontAndBack t (str% "\"") (str% "\"") = true) := by
      rintro ⟨_, hx⟩
      simp only [frontAndBack, Bool.and_eq_true, List.isPrefixOf_iff_prefix] at hx
      exact (ht '"' (hx.1.subset (by simp))).1 rfl
    have n2 : ¬ (t.length ≥ 3 ∧ frontAndBack t (str% "L\"") (str% "\"") = true) := by
      rintro ⟨_, hx⟩
      simp only [frontAndBack, Bool.and_eq_true, List.isPrefixOf_iff_prefix] at hx
      exact (ht '"' (hx.1.subset (by simp))).1 rfl
    constructor
    · unfold quoteLib
      rw [if_neg (by simp), if_neg n1]
      exact hq
    · unfold quoteLib
      rw [if_pos rfl, if_neg n2, if_neg n1]
      have := (inline_of (t := str% "L") rfl).append hq
      simpa using this
  intro a w hx
  have hd : ∀ x, x ∈ ['N', 'n', 'A', 'a'] → lib.headD '\x00' ≠ x := by
    rintro x hx rfl
    cases hl : lib with
    | nil => rw [hl] at hx; revert hx; decide
    | cons y ys => rw [hl] at hx; exact hm y (by rw [hl]; rfl) hx
  unfold libTexts at hx
  dsimp only at hx
  rw [if_neg (by rintro (h | h) <;> exact hd _ (by decide) h)] at hx
  split at hx
  · split at hx
    · obtain ⟨k1, k2⟩ := key (lib.drop 4) (fun c hc => h c (List.mem_of_mem_drop hc))
      cases hx
      exact ⟨((k1.append (inline_of rfl)).append (word_inline hu)).append (word_inline (by decide)),
        ((k2.append (inline_of rfl)).append (word_inline hu)).append (word_inline (by decide))⟩
    · cases hx
  · rw [if_neg (by rintro (h | h) <;> exact hd _ (by decide) h)] at hx
    cases hx
    exact key lib h

/-- Option `-include` gives text in angle brackets or quotes. -/
theorem C95_include (i : Str) (h : ∀ c ∈ i, isWord c = true ∨ c ∈ ['.', '-', '+', '<', '>']) : Inline i := by
  intro stack
  refine same_run fun c hc => ?_
  rcases h c hc with hw | hx
  · rw [step_word hw]; rfl
  · simp only [List.mem_cons, List.not_mem_nil, or_false] at hx
    rcases hx with rfl | rfl | rfl | rfl | rfl <;> rfl

/-- The data of symbols can have brackets that are not closed, and then what is written
    has them, too: nothing checks them. -/
theorem C95_violated : ∃ sy, Props.FromText sy ∧ sy.protos.map (·.args) = [str% "int a)"] ∧
    ¬ WellFormed (unlines (instantiate (str% "GDO") (str% "gdo") .skip sy.protos sy.objs (lines .minCHeader))) := by
  refine ⟨_, ⟨true, str% "void f(int a));\n", str% "gdo", .skip, [], [], rfl⟩, rfl, fun h => ?_⟩
  exact absurd (h []) (by decide +kernel)

/-! ### The whole program -/

/-- A run of the program with a text file and the built-in templates writes well-formed
    files.  Missing: `Closed` is not true of every text file that is accepted. -/
theorem C95_program_partial (w : Program.World) (win : Bool) (argv : List Str) (node : Nat → Option Node) (s : Settings) (ws : List Str)
    (hparse : parseCmdline win argv = some (some (.settings s ws))) (hb : ∀ t, compiledList t = some (w.env.builtin t))
    (s' : Settings) (sy : Symbols) (htok : Program.tokenize w s = some (.ok (s', sy))) (hft : Props.FromText sy) (hc : Closed sy)
    (hne : sy.protos ++ sy.objs ≠ []) (hps : s.printSymbols = false) (hct : s.customTemplate = []) (htp : s.templatesPath = [])
    (hp : PrefixOk s'.pfx) (hdef : WellFormed s'.defines)
    (hlib : ∀ a w, libTexts s'.defaultLib (toUpper s'.pfx) = some (a, w) → Inline a ∧ Inline w)
    (hinc : ∀ i ∈ s'.includes, Inline i) (hdate : ∀ c ∈ w.env.date, c ≠ '\\' ∧ c ≠ '\n')
    (hname : ∀ c ∈ headerName s', c ≠ '"' ∧ c ≠ '\\' ∧ c ≠ '\n') :
    ∃ N, ∀ n, N ≤ n → ∀ m st', Program.main { w with env := { w.env with n } } win argv node = .exit 0 m st' →
      if isSeparate s' then ∃ h b st1, HeaderOk s' h ∧ WellFormed b ∧
        Written w.env (outputPaths s').1 (Program.start node) h st1 ∧ Written w.env (outputPaths s').2 st1 b st'
      else ∃ h, HeaderOk s' h ∧ Written w.env (outputPaths s').1 (Program.start node) h st' := by
  have hsame := Program.tokenize_same htok
  have htp' : s'.templatesPath = [] := by rw [hsame.templatesPath]; exact htp
  have hcl := C95_text sy hft hc
  have hg : Given { w.env with symbols := sy } s' := ⟨hcl, hc.2, hdef, hlib, hinc, hdate, hname, text_word hft⟩
  obtain ⟨N, h⟩ := C95_processed { w.env with symbols := sy } s' hb hp htp' (fun p hp => ⟨Props.C84_plain sy hft p hp, hcl p hp⟩) hne
  refine ⟨N, fun n hn m st' hm => ?_⟩
  obtain ⟨css, k, bss, j, h1, h2, w1, w2⟩ := h n hn
  obtain ⟨s2, sy2, e0, _, hcase⟩ := Program.C81_success { w with env := { w.env with n } } win argv node s ws hparse m st' hm
  have htok' : Program.tokenize { w with env := { w.env with n } } s = some (.ok (s', sy)) := htok
  rw [htok'] at e0
  cases e0
  rcases hcase with ⟨hx, _⟩ | ⟨_, hx, _⟩ | ⟨_, _, hx⟩
  · rw [hps] at hx; cases hx
  · exact absurd hct hx
  · rcases hx htp with ⟨hsep, css', k', e1, e2⟩ | ⟨hsep, css', k', bss', j', st1, e1, e2, e3, e4⟩
    · have e1 : headerSubst { w.env with symbols := sy, n } s' = .ok (css', k') := e1
      rw [h1] at e1
      cases e1
      rw [if_neg (by simp [hsep])]
      have H := C95_header { w.env with symbols := sy } s' hb hp hg _ w1 k
      exact ⟨_, H, e2⟩
    · have e1 : headerSubst { w.env with symbols := sy, n } s' = .ok (css', k') := e1
      have e2 : bodySubst { w.env with symbols := sy, n } s' = .ok (bss', j') := e2
      rw [h1] at e1
      rw [h2] at e2
      cases e1
      cases e2
      rw [if_pos hsep]
      have H := C95_header { w.env with symbols := sy } s' hb hp hg _ w1 k
      have B := C95_body { w.env with symbols := sy } s' hb hp hg _ w2
      exact ⟨_, _, st1, H, B, e3, e4⟩

/-! ### Examples -/

/-- Symbols from a text, with closed brackets. -/
example : ∃ sy, Props.FromText sy ∧ Closed sy ∧ sy.protos.map (·.args) = [str% "const char *s, int (*cb)(void *), int v[3]"] ∧
    sy.typedefs = [str% "int gdo_table__t[4]"] := by
  refine ⟨_, ⟨true, str% "extern int log_it(const char *s, int (*cb)(void *), int v[3]);\nextern int table[4];\n", str% "gdo", .skip, [], [], rfl⟩,
    ⟨?_, ?_⟩, rfl, rfl⟩
  · intro p hp
    have hp : p ∈ [_, _] := hp
    simp only [List.mem_cons, List.not_mem_nil, or_false] at hp
    rcases hp with rfl | rfl <;> exact ⟨inline_of rfl, inline_of rfl, inline_of rfl⟩
  · intro t ht
    have ht : t ∈ [str% "int gdo_table__t[4]"] := ht
    cases List.mem_singleton.mp ht
    exact inline_of rfl

/-- Texts that are well-formed, and texts that are not. -/
example : WellFormed (str% "#if A\nint f(char *s) { return s[0] == '}'; } // {\n#else\n#define F(x) \\\n  g(x)\n#endif\n") ∧
    ¬ WellFormed (str% "#if A\nint f(void) {\n#else\nint g(void) {\n#endif\n}\n") ∧
    ¬ WellFormed (str% "int f(void;\n") ∧ ¬ WellFormed (str% "/* a\n") ∧ ¬ WellFormed (str% "char *s = \"a;\n") ∧
    ¬ WellFormed (str% "#if A\n#else\n#else\n#endif\n") ∧ ¬ WellFormed (str% "#endif\n") ∧ ¬ WellFormed (str% "int a[3);\n") :=
  ⟨wellFormed_of rfl, fun h => absurd (h []) (by decide), fun h => absurd (h []) (by decide), fun h => absurd (h []) (by decide),
    fun h => absurd (h []) (by decide), fun h => absurd (h []) (by decide), fun h => absurd (h []) (by decide), fun h => absurd (h []) (by decide)⟩

/-- Options that can be given. -/
example : (∀ c ∈ (str% "ext:libX11"), c ≠ '"' ∧ c ≠ '\\' ∧ c ≠ '\n') ∧ Inline (str% "<X11/Xlib.h>") ∧ Inline (str% "\"a b\"") ∧
    (∀ c ∈ (str% "<stdio.h>"), isWord c = true ∨ c ∈ ['.', '-', '+', '<', '>']) :=
  ⟨by decide, inline_of rfl, inline_of rfl, by decide⟩

end Gdo.CForm
