import Verif.Lemmas.BuiltinOut
import Verif.Props.Program
import Verif.Props.Output

/-!
Property C94: what the program writes from its own templates.
-/

namespace Gdo.Builtin
open Gdo Tpl Opt Gen Tmpl Sub Rename

/-! ### The built-in lists -/

/-- The template files compile to lists whose entries are the lines of the file, with
    those that end with `@` joined. -/
theorem C94_compiled (t : TName) : compiledList t = some (
    (if t = .license then [] else [⟨lineText t, false, 1⟩]) ++
    ((blocks (lines t)).map fun b => ⟨joinLines b, (joinLines b).contains '%', nlCount (joinLines b) + 1⟩) ++ [terminator]) := by
  rw [compiledList_eq t (ok_all t)]
  unfold list
  rw [lineEntry_eq]
  have : mkEntry (lineText t) = ⟨lineText t, false, 1⟩ := by cases t <;> decide
  rw [this]
  rfl

/-- Dumping a built-in list gives the template file, behind the initial `#line` line. -/
theorem C94_dumped (t : TName) (l : List Entry) (h : compiledList t = some l) :
    saveToFile l = (if t = .license then [] else lineText t ++ str% "\n") ++ fileText t := by
  have hf := ok_all t
  rw [compiledList_eq t hf] at h
  cases h
  simp only [fileOk, Bool.and_eq_true, Bool.not_eq_true', List.isEmpty_eq_false_iff, List.all_eq_true] at hf
  obtain ⟨⟨⟨⟨⟨h1, h2⟩, h3⟩, _⟩, _⟩, _⟩ := hf
  have he : ∀ e ∈ (if t = .license then [] else [builtinLineEntry t.file]) ++ entriesOf (lines t), e.lineCount ≠ 0 := by
    intro e he
    rcases List.mem_append.mp he with he | he
    · split at he
      · cases he
      · simp only [List.mem_singleton] at he
        rw [he, lineEntry_eq]
        simp [mkEntry]
    · obtain ⟨b, _, rfl⟩ := List.mem_map.mp he
      simp [mkEntry]
  unfold saveToFile list
  rw [listEntries_append_terminator _ he, List.flatMap_append]
  congr 1
  · split
    · rfl
    · rw [lineEntry_eq]
      cases t <;> decide
  · exact blocks_dump (printable_nl h2) h3

/-! ### Processing -/

/-- Processing built-in templates never fails: it writes the texts that the lines of the
    template files stand for. -/
theorem C94_output (cfg : Config) (hp : PrefixOk cfg.pfx) (hd : ∀ p ∈ cfg.prototypes ++ cfg.objects, PlainData p)
    (hne : cfg.prototypes ++ cfg.objects ≠ []) (ts : List TName) (L : TName → List Entry) (hL : ∀ t, compiledList t = some (L t)) :
    ∃ N, ∀ n, N ≤ n → ∃ csss k, substitute n cfg (ts.map L) = .ok (csss, k) ∧
      Tmpl.texts csss.flatten.flatten = ts.flatMap (outputTexts cfg) ∧
      (cfg.lineDirective = false → bytes csss.flatten.flatten = unlines (ts.flatMap fun t =>
        instantiate (toUpper cfg.pfx) (toLower cfg.pfx) cfg.names cfg.prototypes cfg.objects (lines t))) := by
  have hLl : L = list := by
    funext t
    have := hL t
    rw [compiledList_eq t (ok_all t)] at this
    exact (Option.some.inj this).symm
  obtain ⟨N, h⟩ := substLists_written cfg hp hd ts fun t _ => ok_all t
  refine ⟨N, fun n hn => ?_⟩
  obtain ⟨csss, k, h1, h2, _⟩ := h n hn
  have hb : cfg.lineDirective = false → bytes csss.flatten.flatten = unlines (ts.flatMap fun t =>
        instantiate (toUpper cfg.pfx) (toLower cfg.pfx) cfg.names cfg.prototypes cfg.objects (lines t)) := by
    intro hl
    rw [bytes_allText (substLists_allText hl h1), h2]
    congr 2
    funext t
    unfold outputTexts
    rw [if_neg (by simp [hl]), List.nil_append]
  refine ⟨csss, k, ?_, h2, hb⟩
  unfold substitute
  rw [hLl]
  cases ts with
  | nil => rw [← h1]; rfl
  | cons t ts =>
    rw [List.map_cons, List.isEmpty_cons]
    have : (cfg.prototypes.isEmpty && cfg.objects.isEmpty) = false := by
      cases hpr : cfg.prototypes with
      | cons _ _ => rfl
      | nil =>
        cases hob : cfg.objects with
        | cons _ _ => rfl
        | nil => rw [hpr, hob] at hne; exact absurd rfl hne
    rw [this]
    exact h1

/-! ### No keyword is left -/

/-- Nothing that is written has two percent signs after each other: every keyword and
    every marker is gone. -/
theorem C94_nothing_left (u l : Str) (names : ParamNames) (protos objs : List Proto) (t : TName)
    (hu : ∀ c ∈ u, isWord c = true) (hl : ∀ c ∈ l, isWord c = true) (hln : l ≠ []) (hd : ∀ p ∈ protos ++ objs, PlainData p) :
    ∀ x ∈ instantiate u l names protos objs (lines t), ¬ str% "%%" <:+: x := by
  intro x hx
  unfold instantiate at hx
  obtain ⟨d, hds, hx⟩ := List.mem_flatMap.mp hx
  obtain ⟨h1, h2⟩ := shown_mem d hds
  have ho := texts_ok t d h1 h2
  have hwords : WordsOk (parts d) := splits_words (splits _) (pieces_valid _)
  unfold lineOk at ho
  rw [Bool.and_eq_true] at ho
  cases hk : firstKind (parts d) with
  | some k =>
    rw [hk] at ho
    have := written_chars (P := fun c => c ≠ '%') (by decide) (fun c hc => (word_blank hc).2.1) hu hl hln
      (fun p hp => by
        obtain ⟨⟨a, _⟩, ⟨b, _⟩, c, e⟩ := hd p hp
        exact ⟨fun x hx hn => a (hn ▸ hx), fun x hx hn => b (hn ▸ hx), fun x hx hn => c (hn ▸ hx), fun x hx hn => e (hn ▸ hx)⟩)
      hk ho.2 (keywordsOk_mem ho.2).2 x hx
    intro hi
    exact this '%' (hi.subset (by decide)) rfl
  | none =>
    rw [hk] at ho
    unfold written at hx
    dsimp only at hx
    rw [hk] at hx
    simp only [List.mem_singleton] at hx
    rw [hx, fillIn_none hu hl hln _ hwords, parts, ← source_items (newName_keyword _ _) (splits _)]
    intro hh
    obtain ⟨a, b, hh⟩ := hh
    refine renamed_noPercent ?_ ho.2 ⟨a, b, hh.symm⟩
    intro w hw
    obtain ⟨h1, h2⟩ := valid_mem (pieces_valid d) hw
    have := newName_word hu hl hln h2 h1
    exact ⟨this.1, fun c hc => (word_blank (this.2 c hc)).2.1⟩

/-! ### The files -/

/-- The license text and the file name macros are written without template processing. -/
theorem C94_saved (s : Settings) (hp : PrefixOk s.pfx) (names : ParamNames) (protos objs : List Proto) (t : TName)
    (ht : t = .license ∨ t = .filenameMacros) (l : List Entry) (hL : compiledList t = some l) :
    savedText s l = unlines ((if s.lineDirective ∧ t ≠ .license then [lineText t] else []) ++
      instantiate (toUpper s.pfx) (toLower s.pfx) names protos objs (lines t)) := by
  rw [compiledList_eq t (ok_all t)] at hL
  cases hL
  have hplain : noKeywords (lines t) = true := by
    rcases ht with rfl | rfl
    · exact plain_license
    · exact plain_filenameMacros
  have hu := Pfx.C30_upper s.pfx
  have hlo := Pfx.C30_lower s.pfx
  have hln := prefix_ne hp
  have hone : ∀ d, lineOk d = true → firstKind (parts d) = none →
      written (toUpper s.pfx) (toLower s.pfx) protos objs d = [Pfx.applyPrefix s.pfx d] := by
    intro d h1 h2
    unfold written
    dsimp only
    rw [h2, applyPrefix_items hp h1]
    dsimp only
    have hw : WordsOk (parts d) := splits_words (splits _) (pieces_valid _)
    rw [fillIn_none hu hlo hln _ hw]
  have hline : Pfx.applyPrefix s.pfx (lineText t) = lineText t := by
    obtain ⟨h1, h2, _⟩ := lineText_ok t
    have h3 : firstKind (parts (lineText t)) = none := by cases t <;> decide +kernel
    have := hone (lineText t) h1 h3
    rw [lineText_written] at this
    exact (List.cons.inj this).1.symm
  have hshown : ∀ ds : List Str, (∀ d ∈ ds, markerLine d = none) → shown names none ds = ds := by
    intro ds h
    induction ds with
    | nil => rfl
    | cons d ds ih =>
      rw [shown, h d (by simp), ih fun x hx => h x (by simp [hx])]
      rfl
  have hall : ∀ d ∈ texts t, markerLine d = none ∧ firstKind (parts d) = none := by
    intro d hd
    have := List.all_eq_true.mp hplain d hd
    simpa using this
  have htexts : ∀ ds : List Str, (∀ d ∈ ds, lineOk d = true ∧ firstKind (parts d) = none) →
      ds.flatMap (written (toUpper s.pfx) (toLower s.pfx) protos objs) = ds.map (Pfx.applyPrefix s.pfx) := by
    intro ds h
    induction ds with
    | nil => rfl
    | cons d ds ih =>
      rw [List.flatMap_cons, hone d (h d (by simp)).1 (h d (by simp)).2, ih fun x hx => h x (by simp [hx])]
      rfl
  have hinst : instantiate (toUpper s.pfx) (toLower s.pfx) names protos objs (lines t) = (texts t).map (Pfx.applyPrefix s.pfx) := by
    unfold instantiate
    rw [show (blocks (lines t)).map joinLines = texts t from rfl, hshown _ fun d hd => (hall d hd).1]
    exact htexts _ fun d hd => ⟨texts_ok t d hd (hall d hd).1, (hall d hd).2⟩
  unfold savedText savedBufs
  rw [processed_list _ t (ok_all t), hinst, List.map_map]
  unfold unlines processedTexts
  congr 1
  rw [List.map_append]
  congr 1
  dsimp only
  split
  · simp [mkEntry, hline]
  · rfl

/-- The text of all the templates in a list. -/
def allText (s : Settings) (sy : Symbols) (ts : List TName) : Str :=
  unlines (ts.flatMap fun t => instantiate (toUpper s.pfx) (toLower s.pfx) s.names sy.protos sy.objs (lines t))

/-- Processing the templates of the header and of the body never fails. -/
theorem C94_processed (env : Env) (s : Settings) (hb : ∀ t, compiledList t = some (env.builtin t)) (hp : PrefixOk s.pfx)
    (ht : s.templatesPath = []) (hd : ∀ p ∈ env.symbols.protos ++ env.symbols.objs, PlainData p)
    (hne : env.symbols.protos ++ env.symbols.objs ≠ []) :
    ∃ N, ∀ n, N ≤ n → ∃ css k bss j,
      headerSubst { env with n } s = .ok (css, k) ∧ bodySubst { env with n } s = .ok (bss, j) ∧
      Tmpl.texts css.flatten.flatten = (listNames s).1.flatMap (outputTexts (subConfig env s)) ∧
      Tmpl.texts bss.flatten.flatten = (listNames s).2.flatMap (outputTexts (subConfig env s)) ∧
      (s.lineDirective = false → bytes css.flatten.flatten = allText s env.symbols (listNames s).1 ∧
        bytes bss.flatten.flatten = allText s env.symbols (listNames s).2) := by
  obtain ⟨N1, h1⟩ := C94_output (subConfig env s) hp hd hne (listNames s).1 env.builtin hb
  obtain ⟨N2, h2⟩ := C94_output (subConfig env s) hp hd hne (listNames s).2 env.builtin hb
  refine ⟨max N1 N2, fun n hn => ?_⟩
  obtain ⟨css, k, a1, a2, a3⟩ := h1 n (by omega)
  obtain ⟨bss, j, b1, b2, b3⟩ := h2 n (by omega)
  have hsrc : srcList { env with n } s = env.builtin := by
    funext t
    simp [srcList, ht]
  refine ⟨css, k, bss, j, ?_, ?_, a2, b2, fun hl => ⟨a3 hl, b3 hl⟩⟩
  · unfold headerSubst
    rw [hsrc]
    exact a1
  · unfold bodySubst
    rw [hsrc]
    exact b1

/-- Without `-line` the number of lines does not matter. -/
theorem headerText_noLine {s : Settings} (hl : s.lineDirective = false) (env : Env) (d b : Str) (k k' : Nat) :
    headerText env s d b k = headerText env s d b k' := by
  unfold headerText lineDirectiveText
  simp [hl]

/-- With the built-in templates a run never fails in the templates, and what it writes is
    the text that the template files stand for. -/
theorem C94_generate (env : Env) (s : Settings) (hb : ∀ t, compiledList t = some (env.builtin t)) (hp : PrefixOk s.pfx)
    (ht : s.templatesPath = []) (hd : ∀ p ∈ env.symbols.protos ++ env.symbols.objs, PlainData p)
    (hne : env.symbols.protos ++ env.symbols.objs ≠ []) :
    ∃ N, ∀ n, N ≤ n → ∀ st : State, (∀ t, Fresh st.mem t) →
      (∀ e st', generate { env with n } s st ≠ .error (.subst e) st') ∧
      (s.lineDirective = false → ∀ st', generate { env with n } s st = .ok () st' →
        if isSeparate s then ∃ st1,
          Written env (outputPaths s).1 st (headerText env s (allDefines env s) (allText s env.symbols (listNames s).1) 0) st1 ∧
          Written env (outputPaths s).2 st1 (bodyText env s (allText s env.symbols (listNames s).2)) st'
        else Written env (outputPaths s).1 st (headerText env s (allDefines env s) (allText s env.symbols (listNames s).1) 0) st') := by
  obtain ⟨N, h⟩ := C94_processed env s hb hp ht hd hne
  refine ⟨N, fun n hn st hf => ?_⟩
  obtain ⟨css, k, bss, j, h1, h2, _, _, h3⟩ := h n hn
  have hr : Readable { env with n } s := by
    intro hx
    rw [ht] at hx
    cases hx
  refine ⟨?_, ?_⟩
  · intro e st' hg
    rcases generate_subst hr hf (Or.inr ht) hg with hx | hx
    · rw [h1] at hx; cases hx
    · rw [h2] at hx; cases hx
  · intro hl st' hg
    obtain ⟨b1, b2⟩ := h3 hl
    cases hsep : isSeparate s with
    | false =>
      rw [if_neg (by simp)]
      obtain ⟨css', k', e1, e2⟩ := generate_ok_single hr hf hsep hg
      rw [h1] at e1
      cases e1
      rw [b1, headerText_noLine hl _ _ _ _ 0] at e2
      exact e2
    | true =>
      rw [if_pos rfl]
      obtain ⟨css', k', bss', j', st1, e1, e2, e3, e4⟩ := generate_ok_separate ht hf hsep hg
      rw [h1] at e1
      rw [h2] at e2
      cases e1
      cases e2
      rw [b1, headerText_noLine hl _ _ _ _ 0] at e3
      rw [b2] at e4
      exact ⟨st1, e3, e4⟩

/-- The same for the whole program: with symbols read from a text file, a run with the
    built-in templates does not go on forever, and if it succeeds, the files have these
    texts. -/
theorem C94_program (w : Program.World) (win : Bool) (argv : List Str) (node : Nat → Option Node) (s : Settings) (ws : List Str)
    (hparse : parseCmdline win argv = some (some (.settings s ws))) (hb : ∀ t, compiledList t = some (w.env.builtin t))
    (s' : Settings) (sy : Symbols) (htok : Program.tokenize w s = some (.ok (s', sy))) (hft : Props.FromText sy)
    (hne : sy.protos ++ sy.objs ≠ []) (hps : s.printSymbols = false) (hct : s.customTemplate = []) (htp : s.templatesPath = [])
    (hp : PrefixOk s'.pfx) (hl : s'.lineDirective = false) :
    ∃ N, ∀ n, N ≤ n → ∀ m st', Program.main { w with env := { w.env with n } } win argv node = .exit 0 m st' →
      let env := { w.env with symbols := sy }
      if isSeparate s' then ∃ st1,
        Written w.env (outputPaths s').1 (Program.start node) (headerText env s' (allDefines env s') (allText s' sy (listNames s').1) 0) st1 ∧
        Written w.env (outputPaths s').2 st1 (bodyText env s' (allText s' sy (listNames s').2)) st'
      else Written w.env (outputPaths s').1 (Program.start node) (headerText env s' (allDefines env s') (allText s' sy (listNames s').1) 0) st' := by
  have hsame := Program.tokenize_same htok
  have htp' : s'.templatesPath = [] := by rw [hsame.templatesPath]; exact htp
  obtain ⟨N, h⟩ := C94_processed { w.env with symbols := sy } s' hb hp htp' (Props.C84_plain sy hft) hne
  refine ⟨N, fun n hn m st' hm => ?_⟩
  obtain ⟨css, k, bss, j, h1, h2, _, _, h3⟩ := h n hn
  obtain ⟨b1, b2⟩ := h3 hl
  obtain ⟨s2, sy2, e0, _, hcase⟩ := Program.C81_success { w with env := { w.env with n } } win argv node s ws hparse m st' hm
  have htok' : Program.tokenize { w with env := { w.env with n } } s = some (.ok (s', sy)) := htok
  rw [htok'] at e0
  cases e0
  rcases hcase with ⟨hx, _⟩ | ⟨_, hx, _⟩ | ⟨_, _, hx⟩
  · rw [hps] at hx; cases hx
  · exact absurd hct hx
  · rcases hx htp with ⟨hsep, css', k', e1, e2⟩ | ⟨hsep, css', k', bss', j', st1, e1, e2, e3, e4⟩
    · have e1 : headerSubst { w.env with symbols := sy, n } s' = .ok (css', k') := e1
      rw [h1] at e1
      cases e1
      rw [b1, headerText_noLine hl _ _ _ _ 0] at e2
      dsimp only
      rw [if_neg (by simp [hsep])]
      exact e2
    · have e1 : headerSubst { w.env with symbols := sy, n } s' = .ok (css', k') := e1
      have e2 : bodySubst { w.env with symbols := sy, n } s' = .ok (bss', j') := e2
      rw [h1] at e1
      rw [h2] at e2
      cases e1
      cases e2
      rw [b1, headerText_noLine hl _ _ _ _ 0] at e3
      rw [b2] at e4
      dsimp only
      rw [if_pos hsep]
      exact ⟨st1, e3, e4⟩

/-! ### Examples -/

/-- What lines of `c.h` stand for. -/
example :
    written (str% "MY") (str% "my") [{ kind := .function, type := str% "int", symbol := str% "f", args := str% "int a", paramNames := str% "a" }, { kind := .function, type := str% "char *", symbol := str% "gg", args := str% "void" }] []
      (str% "  %%type%% (*%%func_symbol_pad%%_)(%%args%%); /* gdo_x GDO_Y */") =
    [str% "  int (*f _)(int a); /* my_x MY_Y */", str% "  char *(*gg_)(void); /* my_x MY_Y */"] := by decide +kernel

example : blocks [str% "a@", str% "b@", str% "c", str% "d"] = [[str% "a", str% "b", str% "c"], [str% "d"]] := by decide

example : (∀ t, compiledList t = some (list t)) ∧ PrefixOk (str% "gdo") ∧ PlainData { kind := .function, type := str% "int", symbol := str% "f", args := str% "int a", paramNames := str% "a" } :=
  ⟨fun t => compiledList_eq t (ok_all t), ⟨by decide, by rintro ⟨c, r, h, hc⟩; cases h; revert hc; decide⟩,
   ⟨by decide, by decide⟩, ⟨by decide, by decide⟩, by decide, by decide⟩

/-- The templates have all kinds of lines. -/
example : (texts .cBody).any (fun d => firstKind (parts d) == some .function) = true ∧
    (texts .cBody).any (fun d => firstKind (parts d) == some .object) = true ∧
    (texts .cBody).any (fun d => firstKind (parts d) == some .symbol) = true ∧
    (texts .cHeader).any (fun d => markerLine d == some .remove) = true ∧
    (blocks (lines .cHeader)).any (fun b => b.length > 1) = true := by decide +kernel

end Gdo.Builtin
