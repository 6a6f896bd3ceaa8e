import Verif.Lemmas.CMacroMin
import Verif.Props.CMacroCxxWhole

/-!
C109: the generated file in the minimal formats: what the names of the symbols stand for behind it.
-/

set_option maxRecDepth 20000

namespace Gdo.Cpp.Min
open Gdo Rename Tmpl Builtin Gdo.Sub Opt Tpl Gen Pfx

variable {u l : Str} {E E' E1 : Str → Option Macro} {inc : List T → Table} {protos objs : List Proto} {cxx : Bool}

/-! ### The texts -/

/-- The entries in front of the definitions for names. -/
def leadEntries (cxx on : Bool) : List Str := lineEntry on (template cxx) ++ (texts (template cxx)).take (begins cxx)

/-- The definitions for names (minimal.h 106-115, minimal_cxxeh.hpp 146-155). -/
def aliasPart (cxx : Bool) (u l : Str) (protos objs : List Proto) : Str := unlines (((texts (template cxx)).drop (begins cxx)).flatMap (written u l protos objs))

theorem no_marker (cxx : Bool) : (texts (template cxx)).all (fun d => markerLine d == none) = true := by cases cxx <;> decide +kernel

theorem min_text (cxx : Bool) (s : Settings) (protos objs : List Proto) : templateText s protos objs (template cxx) =
    entriesText (toUpper s.pfx) (toLower s.pfx) protos objs (leadEntries cxx s.lineDirective) ++ aliasPart cxx (toUpper s.pfx) (toLower s.pfx) protos objs := by
  unfold templateText instantiate
  have e := shown_plain s.names (ds := texts (template cxx)) (r := []) fun d hd => eq_of_beq (List.all_eq_true.mp (no_marker cxx) d hd)
  rw [show (blocks (lines (template cxx))).map joinLines = texts (template cxx) from rfl]
  rw [List.append_nil, show shown s.names none [] = [] from rfl, List.append_nil] at e
  rw [e, unlines_app]
  unfold entriesText leadEntries aliasPart
  rw [List.flatMap_append, lineEntry_written, unlines_app, List.append_assoc, ← unlines_app (a := List.flatMap _ _), ← List.flatMap_append, List.take_append_drop]
  unfold lineEntry
  rfl

/-! ### The names -/

/-- What may be asked about the names of symbols: they are identifiers, none begins with
the prefix, is the name of the handle or namespace, or the name of the macro that loads a symbol,
and functions and objects have different names. -/
structure Names (cxx : Bool) (u l : Str) (protos objs : List Proto) : Prop where
  prefixes : Prefixes u l
  functions : ∀ p ∈ protos, Identifier p.symbol
  objects : ∀ p ∈ objs, Identifier p.symbol
  own : ∀ p ∈ protos ++ objs, ∀ x, p.symbol ≠ u ++ (str% "_" ++ x)
  owner : ∀ p ∈ protos ++ objs, p.symbol ≠ owner cxx l
  same : l.length = u.length
  apart : ∀ p ∈ protos, ∀ o ∈ objs, p.symbol ≠ o.symbol
  free : ∀ p ∈ protos ++ objs, p.symbol ≠ str% "_" ++ (u ++ str% "_LOAD_SYM")
  plain : ∀ p ∈ protos, p.symbol ∉ encodings

/-- The names that the text in front must leave alone. -/
def symbolNames (cxx : Bool) (u l : Str) (protos objs : List Proto) : List Str :=
  owner cxx l :: (u ++ (str% "_" ++ str% "DISABLE_ALIASING")) :: (protos ++ objs).flatMap fun p => [p.symbol, u ++ (str% "_" ++ (str% "PTR_" ++ p.symbol))]

/-- The tokens for the pointer to a symbol. -/
def pointer (cxx : Bool) (u l : Str) (p : Proto) : List PTok := [.ident (owner cxx l), .punct (access cxx), .ident (u ++ (str% "_" ++ (str% "PTR_" ++ p.symbol)))]

/-- What the names of symbols stand for; `on`: whether they are renamed. -/
structure Stands (cxx : Bool) (E E' : Str → Option Macro) (u l : Str) (protos objs : List Proto) (on : Bool) : Prop where
  function : on = true → ∀ p ∈ protos, Becomes E' p.symbol (pointer cxx u l p)
  object : on = true → ∀ p ∈ objs, Becomes E' p.symbol (.punct (str% "*") :: pointer cxx u l p)
  not : on = false → ∀ p ∈ protos ++ objs, E' p.symbol = E p.symbol

/-- The handle or namespace has no name with the prefix in upper case, except for one ending. -/
theorem owner_ne (hN : Names cxx u l protos objs) {x : Str} (hx : x ≠ str% "hndl") : owner cxx l ≠ u ++ (str% "_" ++ x) := by
  intro e
  cases cxx with
  | true =>
    have := congrArg List.length (show l = u ++ (str% "_" ++ x) from e)
    rw [hN.same] at this
    simp at this
  | false =>
    have := (List.append_inj (show l ++ (str% "_" ++ str% "hndl") = u ++ (str% "_" ++ x) from e) hN.same).2
    exact hx (List.append_cancel_left this).symm

theorem not_symbolName {y : Str} (h1 : y ≠ owner cxx l) (h2 : y ≠ u ++ (str% "_" ++ str% "DISABLE_ALIASING")) (h3 : ∀ p ∈ protos ++ objs, y ≠ p.symbol)
    (h4 : ∀ s, y ≠ u ++ (str% "_" ++ (str% "PTR_" ++ s))) : y ∉ symbolNames cxx u l protos objs := by
  intro hm
  unfold symbolNames at hm
  rcases List.mem_cons.mp hm with h | h
  · exact h1 h
  rcases List.mem_cons.mp h with h | h
  · exact h2 h
  obtain ⟨p, hp, h⟩ := List.mem_flatMap.mp h
  simp only [List.mem_cons, List.not_mem_nil, or_false] at h
  rcases h with h | h
  · exact h3 p hp h
  · exact h4 _ h

/-- The names that the templates define otherwise. -/
def okPlain (n : Str) : Bool := [str% "GDO_WINAPI", str% "GDO_LINKAGE", str% "_GDO_LOAD_SYM"].contains n

theorem plain_free (hN : Names cxx u l protos objs) {n : Str} (h : okPlain n = true) : newName u l n ∉ symbolNames cxx u l protos objs := by
  have h' : n ∈ [str% "GDO_WINAPI", str% "GDO_LINKAGE", str% "_GDO_LOAD_SYM"] := by simpa [okPlain] using h
  clear h
  have up : ∀ w ∈ [str% "WINAPI", str% "LINKAGE"], newName u l (str% "GDO_" ++ w) ∉ symbolNames cxx u l protos objs := by
    intro w hw
    rw [newName_upper]
    have hw' : w ≠ str% "hndl" ∧ w ≠ str% "DISABLE_ALIASING" ∧ w.head? ≠ some 'P' := by
      revert w
      decide
    refine not_symbolName (fun e => owner_ne hN hw'.1 e.symm) (fun e => hw'.2.1 (prefixed_inj e)) (fun p hp e => hN.own p hp w e.symm) fun s e => hw'.2.2 ?_
    rw [prefixed_inj (u := u) e]
    rfl
  simp only [List.mem_cons, List.not_mem_nil, or_false] at h'
  rcases h' with rfl | rfl | rfl
  · exact up (str% "WINAPI") (by simp)
  · exact up (str% "LINKAGE") (by simp)
  · have e1 : newName u l (str% "_GDO_LOAD_SYM") = str% "_" ++ (u ++ str% "_LOAD_SYM") := by
      rw [show str% "_GDO_LOAD_SYM" = str% "_GDO_" ++ str% "LOAD_SYM" from rfl, newName_under]
      simp
    rw [e1]
    have other : ∀ {y : Str}, (y.head? ≠ some '_') → str% "_" ++ (u ++ str% "_LOAD_SYM") ≠ u ++ (str% "_" ++ y) := by
      intro y hy e
      have := under_rotate (u := u) (a := str% "_LOAD_SYM") (b := y) e
      rw [(List.cons.inj this).2.symm] at hy
      exact hy rfl
    refine not_symbolName (fun e => ?_) (other (by decide)) (fun p hp e => hN.free p hp e.symm) fun s => other (by simp)
    have := congrArg List.length e
    cases cxx <;> simp [owner, hN.same] at this <;> omega

/-! ### The text in front -/

theorem lead_walk (cxx on : Bool) : walkEntries okPlain (fun _ => false) ⟨.code, [], []⟩ (leadEntries cxx on) = some ⟨.code, [], []⟩ := by
  cases cxx <;> cases on <;> decide +kernel

/-- What must be known about the text that the template is put in: the
names, plain data, and that neither headers nor the text before define the names used. -/
structure Placed (cxx : Bool) (s : Settings) (inc : List T → Table) (E : Str → Option Macro) (protos objs : List Proto) : Prop where
  names : Names cxx (toUpper s.pfx) (toLower s.pfx) protos objs
  calm : ∀ p ∈ protos ++ objs, CalmProto p
  headers : ∀ r, ∀ y ∈ symbolNames cxx (toUpper s.pfx) (toLower s.pfx) protos objs, (inc r).lookup y = none
  owner : E (owner cxx (toLower s.pfx)) = none
  members : ∀ p ∈ protos ++ objs, E (toUpper s.pfx ++ (str% "_" ++ (str% "PTR_" ++ p.symbol))) = none

theorem mem_symbol {p : Proto} (hp : p ∈ protos ++ objs) : p.symbol ∈ symbolNames cxx u l protos objs ∧ u ++ (str% "_" ++ (str% "PTR_" ++ p.symbol)) ∈ symbolNames cxx u l protos objs := by
  constructor <;> exact List.mem_cons_of_mem _ (List.mem_cons_of_mem _ (List.mem_flatMap.mpr ⟨p, hp, by simp⟩))

theorem Placed.front {s : Settings} (h : Placed cxx s inc E protos objs)
    (h1 : ∀ x ∈ symbolNames cxx (toUpper s.pfx) (toLower s.pfx) protos objs, E1 x = E x) : Placed cxx s inc E1 protos objs := by
  refine ⟨h.names, h.calm, h.headers, ?_, fun p hp => ?_⟩
  · rw [h1 _ (List.mem_cons_self ..), h.owner]
  · rw [h1 _ (mem_symbol hp).2, h.members p hp]

theorem Stands.front {on : Bool} (h : ∀ x ∈ symbolNames cxx u l protos objs, E1 x = E x) (hs : Stands cxx E1 E' u l protos objs on) : Stands cxx E E' u l protos objs on :=
  ⟨hs.function, hs.object, fun ho p hp => by rw [hs.not ho p hp, h _ (mem_symbol hp).1]⟩

/-! ### C109 -/

/-- What the names stand for behind the definitions. -/
theorem C109_aliases (hN : Names cxx u l protos objs) (h1 : E (owner cxx l) = none) (h2 : ∀ p ∈ protos ++ objs, E (u ++ (str% "_" ++ (str% "PTR_" ++ p.symbol))) = none) :
    ∃ E', after inc E (aliasPart cxx u l protos objs) = some E' ∧ Stands cxx E E' u l protos objs (!Has E u (str% "DISABLE_ALIASING")) := by
  have e := run_end hN.prefixes cxx hN.functions hN.objects inc (fun x => (E x).isSome) [] []
  rw [List.append_nil, List.append_nil, show newName u l (str% "GDO_DISABLE_ALIASING") = u ++ (str% "_" ++ str% "DISABLE_ALIASING") from newName_upper u l (str% "DISABLE_ALIASING"),
    show isDefined (fun x => (E x).isSome) [] (u ++ (str% "_" ++ str% "DISABLE_ALIASING")) = Has E u (str% "DISABLE_ALIASING") from rfl] at e
  refine ⟨_, after_run (t := endTable cxx u l (!Has E u (str% "DISABLE_ALIASING")) protos objs) e, ?_⟩
  generalize (!Has E u (str% "DISABLE_ALIASING")) = on
  have hptr : ∀ p : Proto, u ++ str% "_PTR_" ++ p.symbol = u ++ (str% "_" ++ (str% "PTR_" ++ p.symbol)) := fun p => by simp
  have skip : ∀ {y}, (∀ p ∈ protos ++ objs, p.symbol ≠ y) → known E (endTable cxx u l true protos objs) y = E y := by
    intro y hy
    unfold known endTable
    rw [if_pos rfl, List.lookup_append, lookup_defs (name := symbolOf) (fun p hp => hy p (List.mem_append_right _ hp)),
      lookup_defs (name := symbolOf) (fun p hp => hy p (List.mem_append_left _ hp))]
    rfl
  refine ⟨fun ho p hp => ?_, fun ho p hp => ?_, fun ho p hp => ?_⟩
  · subst ho
    have hp' := List.mem_append_left objs hp
    have hf : known E (endTable cxx u l true protos objs) p.symbol = some ⟨none, false, functionBody cxx u l p⟩ := by
      unfold known endTable
      rw [if_pos rfl, List.lookup_append, lookup_defs (name := symbolOf) (fun q hq e => hN.apart p hp q hq (show p.symbol = q.symbol from e.symm)),
        show (defs symbolOf (functionBody cxx u l) protos).lookup p.symbol = some (some ⟨none, false, functionBody cxx u l p⟩) from
          lookup_defs_mem (name := symbolOf) hp fun q _ e => by
            unfold functionBody
            rw [show q.symbol = p.symbol from e]]
      rfl
    have := turns_function hf (by rw [skip fun q hq => hN.owner q hq, h1]) (by rw [hptr, skip fun q hq => hN.own q hq _, h2 p hp'])
    rw [hptr] at this
    exact this.becomes
  · subst ho
    have hp' := List.mem_append_right protos hp
    have hf : known E (endTable cxx u l true protos objs) p.symbol = some ⟨none, false, objectBody cxx u l p⟩ := by
      unfold known endTable
      rw [if_pos rfl, List.lookup_append, show (defs symbolOf (objectBody cxx u l) objs).lookup p.symbol = some (some ⟨none, false, objectBody cxx u l p⟩) from
          lookup_defs_mem (name := symbolOf) hp fun q _ e => by
            unfold objectBody
            rw [show q.symbol = p.symbol from e]]
      rfl
    have := turns_object hf (by rw [skip fun q hq => hN.owner q hq, h1]) (by rw [hptr, skip fun q hq => hN.own q hq _, h2 p hp'])
    rw [hptr] at this
    exact this.becomes
  · subst ho
    rfl

/-- What the names stand for behind all of the template. -/
theorem C109_template (s : Settings) (h : Placed cxx s inc E protos objs) :
    ∃ E', after inc E (templateText s protos objs (template cxx)) = some E' ∧
      Stands cxx E E' (toUpper s.pfx) (toLower s.pfx) protos objs (!Has E (toUpper s.pfx) (str% "DISABLE_ALIASING")) := by
  have hh : Harmless inc (symbolNames cxx (toUpper s.pfx) (toLower s.pfx) protos objs) (entriesText (toUpper s.pfx) (toLower s.pfx) protos objs (leadEntries cxx s.lineDirective)) :=
    walk_harmless (okA := okPlain) (okB := fun _ => false) ⟨h.names.prefixes, h.headers, fun _ => plain_free h.names⟩ h.calm (fun p hp => ⟨h.names.functions p hp, h.names.plain p hp⟩) (fun _ _ _ hn => nomatch hn)
      (lead_walk cxx s.lineDirective)
  obtain ⟨E1, h1, e1⟩ := after_lead (E := E) (b := aliasPart cxx (toUpper s.pfx) (toLower s.pfx) protos objs) hh
  rw [min_text, e1]
  have h' := h.front h1
  obtain ⟨E', r1, r2⟩ := C109_aliases (inc := inc) h'.names h'.owner h'.members
  refine ⟨E', r1, ?_⟩
  have hd : Has E1 (toUpper s.pfx) (str% "DISABLE_ALIASING") = Has E (toUpper s.pfx) (str% "DISABLE_ALIASING") := by
    unfold Has
    rw [h1 _ (List.mem_cons_of_mem _ (List.mem_cons_self ..))]
  rw [hd] at r2
  exact r2.front h1

theorem template_end (s : Settings) (hp : Prefixes (toUpper s.pfx) (toLower s.pfx)) (protos objs : List Proto) : ∃ a, templateText s protos objs (template cxx) = (a ++ ['\n']) ++ ['\n'] := by
  rw [min_text]
  unfold aliasPart
  rw [tail_lines, show startLines ++ functionLine cxx :: objectLine cxx :: endLines = (startLines ++ [functionLine cxx, objectLine cxx, str% ""]) ++ [str% "#endif // !GDO_DISABLE_ALIASING", str% ""] from by
    simp [endLines], List.flatMap_append, List.flatMap_cons, List.flatMap_cons, written_plain hp protos objs (d := str% "#endif // !GDO_DISABLE_ALIASING") (by decide +kernel),
    show written (toUpper s.pfx) (toLower s.pfx) protos objs (str% "") = [[]] from by rfl, unlines_append]
  refine ⟨entriesText (toUpper s.pfx) (toLower s.pfx) protos objs (leadEntries cxx s.lineDirective) ++
    (unlines ((startLines ++ [functionLine cxx, objectLine cxx, str% ""]).flatMap (written (toUpper s.pfx) (toLower s.pfx) protos objs)) ++
      renamedLine (toUpper s.pfx) (toLower s.pfx) (str% "#endif // !GDO_DISABLE_ALIASING")), ?_⟩
  simp [unlines]

/-- The text of the tool defines none of the names used. -/
theorem tool_names {s : Settings} (hN : Names cxx (toUpper s.pfx) (toLower s.pfx) protos objs) (ps : List Proto) :
    ∀ y ∈ symbolNames cxx (toUpper s.pfx) (toLower s.pfx) protos objs, y ∉ toolNames s ps := by
  intro y hy hm
  refine not_symbolName (y := y) ?_ ?_ ?_ ?_ hy
  · rintro rfl
    obtain ⟨w, e, hw⟩ := tool_mem hm
    refine owner_ne hN (fun h => ?_) e
    subst h
    rcases hw with ⟨hw, _⟩ | ⟨q, hq⟩
    · exact absurd hw (by decide)
    · cases hq
  · rintro rfl
    exact tool_word (by decide) (no_va (by decide)) hm
  · rintro p hp rfl
    obtain ⟨w, e, _⟩ := tool_mem hm
    exact hN.own p hp w e
  · rintro q rfl
    refine tool_word (fun h => ?_) (no_va (by simp)) hm
    have : ∀ w ∈ toolWords, w.head? ≠ some 'P' := by decide
    exact this _ h rfl

/-- The whole file, included for the first time: it is accepted in every configuration, and the names
of the symbols stand for their pointers unless the user's definitions turn that off. -/
theorem C109_whole {env : Gen.Env} {s : Settings} (h : Leads env s) (hF : FrontGiven env s) (hinc : ∀ r, ∀ x ∈ toolNames s [], (inc r).lookup x = none)
    (hg : E (guardName (headerName s) (toUpper s.pfx)) = none) {EU : Str → Option Macro}
    (hU : after inc (opened s E) (savedText s (env.builtin .filenameMacros) ++ s.defines) = some EU)
    (hP : Placed cxx s inc EU env.symbols.protos env.symbols.objs) (k : Nat) :
    ∃ E', after inc E (headerText env s (allDefines env s) (templateText s env.symbols.protos env.symbols.objs (template cxx)) k) = some E' ∧
      Stands cxx EU E' (toUpper s.pfx) (toLower s.pfx) env.symbols.protos env.symbols.objs (!Has EU (toUpper s.pfx) (str% "DISABLE_ALIASING")) := by
  obtain ⟨E1, f1, f2, _, _⟩ := C107_front hF hU hinc
  have same : ∀ y ∈ symbolNames cxx (toUpper s.pfx) (toLower s.pfx) env.symbols.protos env.symbols.objs, E1 y = EU y := fun y hy =>
    f2 y (tool_names hP.names _ y hy) fun r => hP.headers r y hy
  obtain ⟨E', r1, r2⟩ := C109_template s (hP.front same)
  obtain ⟨xf, wf⟩ := front_more f1
  obtain ⟨a, ea⟩ := template_end (cxx := cxx) s (prefixes_of h.pfx) env.symbols.protos env.symbols.objs
  obtain ⟨x, hw⟩ := whole_after (a := a ++ ['\n']) (ea ▸ r1) fun r e => by
    have := congrArg List.getLast? e
    simp at this
  rw [← ea] at hw
  refine ⟨E', ?_, ?_⟩
  · have inside : after inc (opened s E) (insideText env s (allDefines env s) (templateText s env.symbols.protos env.symbols.objs (template cxx)) k) = some E' := by
      rw [inside_text, quiet_openingOf, after_more wf f1, after_more hw r1, quiet_line _ _ h.name, ← List.append_nil (closingOf s), quiet_closingOf, after_nil]
    unfold opened at inside
    cases hpo : s.pragmaOnce with
    | true =>
      rw [if_pos hpo] at inside
      rw [C105_pragma hpo h.pfx h.license h.date h.name, inside]
    | false =>
      rw [if_neg (by simp [hpo])] at inside
      exact C105_header_first ⟨hpo, h.pfx, h.license, h.date, h.name⟩ _ _ k hg inside
  · have r3 := r2.front same
    have hd : Has E1 (toUpper s.pfx) (str% "DISABLE_ALIASING") = Has EU (toUpper s.pfx) (str% "DISABLE_ALIASING") := by
      unfold Has
      rw [same _ (List.mem_cons_of_mem _ (List.mem_cons_self ..))]
    rw [hd] at r3
    exact r3

/-- A successful run in a minimal format, for symbols from a text file: what the
file that was written means.  No text of a template appears in this statement. -/
theorem C109_program (cxx : Bool) (w : Program.World) (win : Bool) (argv : List Str) (node : Nat → Option Node) (s : Settings) (ws : List Str)
    (hparse : parseCmdline win argv = some (some (.settings s ws))) (hb : ∀ t, compiledList t = some (w.env.builtin t))
    (s' : Settings) (sy : Symbols) (htok : Program.tokenize w s = some (.ok (s', sy))) (hft : Props.FromText sy)
    (hne : sy.protos ++ sy.objs ≠ []) (hps : s.printSymbols = false) (hct : s.customTemplate = []) (htp : s.templatesPath = [])
    (hp : PrefixOk s'.pfx) (hl : s'.lineDirective = false) (hfmt : s'.format = if cxx then .minimalCxx else .minimal)
    (hdate : ∀ c ∈ w.env.date, c ≠ '\\' ∧ c ≠ '\n') (hname : LiteralText (headerName s')) (hinc : ∀ e ∈ s'.includes, IncludeLine e)
    (hlib : s'.defaultLib = [] ∨ ∃ sys f t, Opens sys s'.defaultLib f t) (hdef : s'.defines = [] ∨ ∃ x, Whole s'.defines x)
    (hN : Names cxx (toUpper s'.pfx) (toLower s'.pfx) sy.protos sy.objs) :
    ∃ N, ∀ n, N ≤ n → ∀ m st', Program.main { w with env := { w.env with n } } win argv node = .exit 0 m st' →
      ∃ text, Written w.env (outputPaths s').1 (Program.start node) text st' ∧
        ∀ inc E EU, (∀ r, ∀ x ∈ toolNames s' [] ++ symbolNames cxx (toUpper s'.pfx) (toLower s'.pfx) sy.protos sy.objs, (inc r).lookup x = none) →
          E (guardName (headerName s') (toUpper s'.pfx)) = none →
          after inc (opened s' E) (savedText s' (w.env.builtin .filenameMacros) ++ s'.defines) = some EU →
          EU (owner cxx (toLower s'.pfx)) = none → (∀ p ∈ sy.protos ++ sy.objs, EU (toUpper s'.pfx ++ (str% "_" ++ (str% "PTR_" ++ p.symbol))) = none) →
          ∃ E', after inc E text = some E' ∧ Stands cxx EU E' (toUpper s'.pfx) (toLower s'.pfx) sy.protos sy.objs (!Has EU (toUpper s'.pfx) (str% "DISABLE_ALIASING")) := by
  have hsep : isSeparate s' = false := by
    unfold isSeparate
    rw [hfmt]
    cases cxx <;> simp [Format.isMinimal]
  obtain ⟨N, h⟩ := C94_program w win argv node s ws hparse hb s' sy htok hft hne hps hct htp hp hl
  refine ⟨N, fun n hn m st' hm => ?_⟩
  have h := h n hn m st' hm
  dsimp only at h
  rw [if_neg (by simp [hsep])] at h
  refine ⟨_, h, fun inc E EU hA hg hU ho hm => ?_⟩
  have hL : Leads { w.env with symbols := sy } s' := ⟨hp, hb .license, hdate, hname⟩
  have hF : FrontGiven { w.env with symbols := sy } s' := by
    refine ⟨hp, hb .filenameMacros, CForm.text_word hft, hinc, fun t ht c hc => ?_, hlib, hdef⟩
    have hs := (Props.C84_characters_partial sy hft).2 t ht
    refine ⟨?_, ?_, ?_, ?_, ?_, ?_⟩ <;> rintro rfl <;> exact Props.harmless_not hs (by decide) (by decide) hc
  have htext : allText s' sy (listNames s').1 = templateText s' sy.protos sy.objs (template cxx) := by
    have hn : (listNames s').1 = [template cxx] := by
      unfold listNames
      simp only [hsep, hfmt]
      cases cxx <;> rfl
    rw [hn]
    simp [allText, templateText, hl]
  rw [htext]
  exact C109_whole hL hF (fun r x hx => hA r x (List.mem_append_left _ hx)) hg hU ⟨hN, C102_text sy hft, fun r y hy => hA r y (List.mem_append_right _ hy), ho, hm⟩ 0

/-! ### Where the code is wrong -/

/-- Where objects are renamed, `object[i]` is `*` of the element of the pointer: there are no
parentheses around the macro (minimal.h 112, minimal_cxxeh.hpp 152). -/
theorem C109_object_violated (h : Stands cxx E E' u l protos objs true) {o : Proto} (ho : o ∈ objs) (i : Str) :
    ∃ k, ∀ sp s1 s2 s3 n, ∃ out, expand E' (n + k) [⟨[], sp, .ident o.symbol⟩, ⟨[], s1, .punct (str% "[")⟩, ⟨[], s2, .num i⟩, ⟨[], s3, .punct (str% "]")⟩] = some out ∧
      out.map (·.tok) = .punct (str% "*") :: pointer cxx u l o ++ [.punct (str% "["), .num i, .punct (str% "]")] ∧
      out.map (·.tok) ≠ .punct (str% "(") :: .punct (str% "*") :: pointer cxx u l o ++ [.punct (str% ")"), .punct (str% "["), .num i, .punct (str% "]")] := by
  obtain ⟨k, hk⟩ := h.object rfl o ho
  refine ⟨k + 4, fun sp s1 s2 s3 n => ?_⟩
  obtain ⟨out, e1, e2⟩ := hk sp [⟨[], s1, .punct (str% "[")⟩, ⟨[], s2, .num i⟩, ⟨[], s3, .punct (str% "]")⟩] (n + 4)
  rw [show n + (k + 4) = n + 4 + k from by omega, e2]
  refine ⟨out ++ [⟨[], s1, .punct (str% "[")⟩, ⟨[], s2, .num i⟩, ⟨[], s3, .punct (str% "]")⟩], by simp [expand], ?_, ?_⟩
  · rw [List.map_append, e1]
    rfl
  · rw [List.map_append, e1]
    simp [pointer]

/-- A function with the name of the handle or namespace: the name of every other function becomes
something that is not its pointer (minimal.h 111, minimal_cxxeh.hpp 151). -/
theorem C109_owner_violated (cxx : Bool) : (after (fun _ => []) (fun _ => none)
      (aliasPart cxx (str% "GDO") (str% "gdo") [{ aFunction with symbol := owner cxx (str% "gdo") }, aFunction] [])).bind
      (fun E' => (expand E' 20 [⟨[], true, .ident (str% "foo")⟩]).map (·.map (·.tok))) =
    some [.ident (owner cxx (str% "gdo")), .punct (access cxx), .ident (str% "GDO_PTR_" ++ owner cxx (str% "gdo")), .punct (access cxx), .ident (str% "GDO_PTR_foo")] := by
  cases cxx <;> decide +kernel

/-! ### Examples -/

theorem named (cxx : Bool) : Names cxx (str% "GDO") (str% "gdo") [aFunction] [anObject] := by
  refine ⟨Gdo.Cpp.named.prefixes, Gdo.Cpp.named.functions, Gdo.Cpp.named.objects, Gdo.Cpp.named.own, ?_, by decide, by decide, by decide, by decide⟩
  cases cxx <;> decide

/-- The settings for a minimal format. -/
def small (cxx : Bool) : Settings := { lone with format := if cxx then .minimalCxx else .minimal }

theorem leads_small (cxx : Bool) : Leads fullEnv (small cxx) :=
  ⟨prefix_example, compiledList_eq .license (ok_all .license), by decide, by cases cxx <;> unfold LiteralText <;> decide⟩

theorem front_small (cxx : Bool) : FrontGiven fullEnv (small cxx) :=
  ⟨prefix_example, compiledList_eq .filenameMacros (ok_all .filenameMacros), by decide, front_separated.includes, front_separated.typedefs, front_separated.library, .inl rfl⟩

example (cxx : Bool) : ∃ E', after (fun _ => []) (fun _ => none) (headerText fullEnv (small cxx) (allDefines fullEnv (small cxx))
      (templateText (small cxx) fullEnv.symbols.protos fullEnv.symbols.objs (template cxx)) 1) = some E' ∧
      Becomes E' (str% "foo") [.ident (owner cxx (str% "gdo")), .punct (access cxx), .ident (str% "GDO_PTR_foo")] ∧
      Becomes E' (str% "bar") [.punct (str% "*"), .ident (owner cxx (str% "gdo")), .punct (access cxx), .ident (str% "GDO_PTR_bar")] := by
  have m := moves_file (inc := fun _ => []) (small cxx) prefix_example (front_small cxx).file (opened (small cxx) fun _ => none)
  have hU := (m.2 (small cxx).defines).trans (after_nil _ _)
  obtain ⟨E', h1, h2⟩ := C109_whole (cxx := cxx) (inc := fun _ => []) (leads_small cxx) (front_small cxx) (fun _ _ _ => rfl) rfl hU
    ⟨named cxx, calm_all, fun _ _ _ => rfl, by cases cxx <;> decide +kernel, by cases cxx <;> decide +kernel⟩ 1
  exact ⟨E', h1, h2.function (by cases cxx <;> decide +kernel) aFunction (by simp [fullEnv]), h2.object (by cases cxx <;> decide +kernel) anObject (by simp [fullEnv])⟩

end Gdo.Cpp.Min
