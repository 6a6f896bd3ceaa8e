import Verif.Lemmas.CMacroHead

/-!
C100: the macros for file names of libraries and for the default library, as a C
preprocessor understands the generated text.
-/

set_option maxRecDepth 20000

namespace Gdo.Cpp
open Gdo Rename Tmpl Builtin Sub Opt Tpl Gen Pfx

variable {E : Str → Option Macro} {u l : Str} {sys : System} {wide : Bool}

theorem painted_none {ts : List T} (h : ∀ t, ts.head? = some t → t.sp = true) : withSpace true (painted [] (ts.map toH)) = ts.map toH := by
  cases ts with
  | nil => rfl
  | cons t r =>
    have := h t rfl
    obtain ⟨sp, t⟩ := t
    subst this
    simp [withSpace, painted, toH]

theorem means_body {text : Str} {ts : List T} {s : Str} (ht : tokens text = some ts) (h1 : ∀ t, ts.head? = some t → t.sp = true) (h : BodyGives E u ts wide s) :
    Means E text wide s := by
  have := h [] (fun _ h => nomatch h)
  rw [painted_none h1] at this
  exact ⟨ts, ht, this⟩

theorem tokens_word {w : Str} (h : WordText w) : tokens w = some [⟨true, .ident w⟩] := by
  unfold tokens
  rw [pieces_word h]
  simp [lex, step, begin, h.head, flush]

/-- The general macro. -/
theorem yields_general (hE : FileMacros E u sys wide) {Q : Str → Prop} {ta tb : List T} (ha : Tight Q ta) (hb : Tight Q tb) (hQ : ∀ w, Q w → E w = none) :
    Yields E ((⟨true, .ident (u ++ str% "_LIBNAME")⟩ :: punctT false (str% "(") :: (ta ++ punctT false (str% ",") :: (tb ++ [punctT false (str% ")")])) : List T).map toH) wide
      (sys.fileName (spelled ta) (spelled tb)) := by
  have sa : Simple (ta.map toH) := simple_tight ha toH fun _ => rfl
  have sb : Simple (tb.map toH) := simple_tight hb toH fun _ => rfl
  have inert : ∀ {ts : List T}, Tight Q ts → ∀ t ∈ ts.map toH, Inert E t := by
    intro ts h t ht w hw
    obtain ⟨x, hx, rfl⟩ := List.mem_map.mp ht
    exact .inr (hQ w ((h x hx).2.2 w hw))
  have shape : (⟨true, .ident (u ++ str% "_LIBNAME")⟩ :: punctT false (str% "(") :: (ta ++ punctT false (str% ",") :: (tb ++ [punctT false (str% ")")])) : List T).map toH =
      ⟨[], true, .ident (u ++ str% "_LIBNAME")⟩ :: toH (punctT false (str% "(")) :: (ta.map toH ++ toH (punctT false (str% ",")) :: (tb.map toH ++ toH (punctT false (str% ")")) :: [])) := by
    simp [toH, punctT]
  rw [shape]
  have hne : ∀ s, ¬ s <:+ str% "NAME" → ¬ s <:+ str% "API" → u ++ s ≠ str% "NAME" ∧ u ++ s ≠ str% "API" := fun s h1 h2 => suffix_param h1 h2
  have hw := hne (if wide then str% "_LIBNAMEW" else str% "_LIBNAMEA") (by cases wide <;> decide) (by cases wide <;> decide)
  have step : ∀ n, ta.length + tb.length + 2 ≤ n → expand E (n + 1) (⟨[], true, .ident (u ++ str% "_LIBNAME")⟩ :: toH (punctT false (str% "(")) ::
      (ta.map toH ++ toH (punctT false (str% ",")) :: (tb.map toH ++ toH (punctT false (str% ")")) :: []))) =
      expand E n (⟨[u ++ str% "_LIBNAME"], true, .ident (u ++ (if wide then str% "_LIBNAMEW" else str% "_LIBNAMEA"))⟩ :: ⟨[u ++ str% "_LIBNAME"], false, .punct (str% "(")⟩ ::
        (painted [u ++ str% "_LIBNAME"] (withSpace false (ta.map toH)) ++ ⟨[u ++ str% "_LIBNAME"], false, .punct (str% ",")⟩ ::
          (painted [u ++ str% "_LIBNAME"] (withSpace true (tb.map toH)) ++ [⟨[u ++ str% "_LIBNAME"], false, .punct (str% ")")⟩]))) := by
    intro n hn
    have hf := fill_call _ hw true (ta.map toH) (tb.map toH) (ta.map toH) (tb.map toH)
    have e1 := expand_inert (inert ha) (n := n) (by rw [List.length_map]; omega)
    have e2 := expand_inert (inert hb) (n := n) (by rw [List.length_map]; omega)
    rw [expand_function (hs := []) (by simp) hE.name sa sb rfl rfl rfl n (by rw [e1, e2]; exact hf) true []]
    simp [withSpace, painted, toH, punctT]
  have hx : ∀ s, s ≠ str% "_LIBNAME" → u ++ s ∉ [u ++ str% "_LIBNAME"] := fun s h hm => suffix_ne h (List.mem_singleton.mp hm)
  have pa : ∀ sp, ∀ t ∈ painted [u ++ str% "_LIBNAME"] (withSpace sp (ta.map toH)), Inert E t := by
    intro sp t ht w hw
    obtain ⟨y, hy, rfl⟩ := List.mem_map.mp ht
    cases ta with
    | nil => cases hy
    | cons x r =>
      rcases List.mem_cons.mp hy with rfl | hy
      · exact .inr (hQ w ((ha x (by simp)).2.2 w hw))
      · obtain ⟨z, hz, rfl⟩ := List.mem_map.mp hy
        exact .inr (hQ w ((ha z (by simp [hz])).2.2 w hw))
  have pb : ∀ sp, ∀ t ∈ painted [u ++ str% "_LIBNAME"] (withSpace sp (tb.map toH)), Inert E t := by
    intro sp t ht w hw
    obtain ⟨y, hy, rfl⟩ := List.mem_map.mp ht
    cases tb with
    | nil => cases hy
    | cons x r =>
      rcases List.mem_cons.mp hy with rfl | hy
      · exact .inr (hQ w ((hb x (by simp)).2.2 w hw))
      · obtain ⟨z, hz, rfl⟩ := List.mem_map.mp hy
        exact .inr (hQ w ((hb z (by simp [hz])).2.2 w hw))
  have len : ∀ sp (ts : List T), (painted [u ++ str% "_LIBNAME"] (withSpace sp (ts.map toH))).length = ts.length := by
    intro sp ts
    cases ts <;> simp [painted, withSpace]
  cases wide with
  | false =>
    refine yields_narrow (ta.length + tb.length + 10) fun n hn => ?_
    obtain ⟨n, rfl⟩ : ∃ m, n = m + 1 := ⟨n - 1, by omega⟩
    rw [step n (by omega)]
    obtain ⟨hs, e⟩ := expand_nameA (n := n) hE (hs := [u ++ str% "_LIBNAME"]) (hx _ (by decide))
      (simple_painted (hs := [u ++ str% "_LIBNAME"]) (simple_withSpace (sp := false) sa)) (simple_painted (hs := [u ++ str% "_LIBNAME"]) (simple_withSpace (sp := true) sb))
      (o := ⟨[u ++ str% "_LIBNAME"], false, .punct (str% "(")⟩) (c := ⟨[u ++ str% "_LIBNAME"], false, .punct (str% ",")⟩)
      (p := ⟨[u ++ str% "_LIBNAME"], false, .punct (str% ")")⟩) rfl rfl rfl (by omega)
    rw [stringify_painted, stringify_painted, stringify_withSpace, stringify_withSpace, stringify_tight ha, stringify_tight hb] at e
    exact ⟨hs, e⟩
  | true =>
    refine yields_wide (ta.length + tb.length + 12) fun n hn => ?_
    obtain ⟨n, rfl⟩ : ∃ m, n = m + 1 := ⟨n - 1, by omega⟩
    rw [step n (by omega)]
    obtain ⟨hs, hs', e⟩ := expand_nameW (n := n) hE (hs := [u ++ str% "_LIBNAME"]) (hx _ (by decide)) (hx _ (by decide))
      (simple_painted (hs := [u ++ str% "_LIBNAME"]) (simple_withSpace (sp := false) sa)) (simple_painted (hs := [u ++ str% "_LIBNAME"]) (simple_withSpace (sp := true) sb))
      (pa false) (pb true)
      (o := ⟨[u ++ str% "_LIBNAME"], false, .punct (str% "(")⟩) (c := ⟨[u ++ str% "_LIBNAME"], false, .punct (str% ",")⟩)
      (p := ⟨[u ++ str% "_LIBNAME"], false, .punct (str% ")")⟩) rfl rfl rfl (by rw [len, len]; omega)
    rw [stringify_painted, stringify_painted, stringify_withSpace, stringify_withSpace, stringify_tight ha, stringify_tight hb] at e
    exact ⟨hs, hs', e⟩

theorem yields_ext (hE : FileMacros E u sys wide) : Yields E [⟨[], true, .ident (u ++ str% "_LIBEXT")⟩] wide sys.extension := by
  refine yields_name (by simp) hE.ext ?_
  have hA : u ++ str% "_LIBEXTA" ∉ [u ++ str% "_LIBEXT"] := fun h => suffix_ne (a := str% "_LIBEXTA") (b := str% "_LIBEXT") (by decide) (List.mem_singleton.mp h)
  have hW : u ++ str% "_LIBEXTW" ∉ [u ++ str% "_LIBEXT"] := fun h => suffix_ne (a := str% "_LIBEXTW") (b := str% "_LIBEXT") (by decide) (List.mem_singleton.mp h)
  cases wide with
  | false => exact yields_extA hE hA
  | true => exact yields_extW hE hA hW

/-! ### The file name macros -/

/-- The system that the macros `E` tell. -/
def systemIn (E : Str → Option Macro) : System := systemOf fun x => (E x).isSome

/-- Whether the general file name macros are for wide characters. -/
def wideNames (E : Str → Option Macro) : Bool := (E (str% "_WIN32")).isSome && (E (str% "_UNICODE")).isSome

theorem after_file (s : Settings) (hp : PrefixOk s.pfx) {L : List Entry} (hL : compiledList .filenameMacros = some L) (inc : List T → Table) (E : Str → Option Macro) :
    after inc E (savedText s L) = some (known E (renTable (newName (toUpper s.pfx) (toLower s.pfx)) (fileTable (systemIn E) (wideNames E)))) := by
  have hpp := prefixes_of hp
  rw [C94_saved s hp .skip [] [] .filenameMacros (.inr rfl) L hL, file_text hpp]
  refine after_run ?_
  have := run_fileMacros hpp s.lineDirective inc (fun x => (E x).isSome) []
  rw [List.append_nil] at this
  rw [this]
  rfl

/-- The narrow file name macro gives the file name of the system for all names and API
    numbers, whatever is defined before. -/
theorem C100_narrow (s : Settings) (hp : PrefixOk s.pfx) (L : List Entry) (hL : compiledList .filenameMacros = some L) (inc : List T → Table)
    (E : Str → Option Macro) (a b : Str) (ha : NameText a) (hb : NameText b) :
    ∃ E', after inc E (savedText s L) = some E' ∧
      Means E' (toUpper s.pfx ++ str% "_LIBNAMEA(" ++ a ++ str% "," ++ b ++ str% ")") false ((systemIn E).fileName a b) := by
  have hpp := prefixes_of hp
  refine ⟨_, after_file s hp hL inc E, ?_⟩
  have hw := prefix_word hpp (s := str% "_LIBNAMEA") (by decide)
  obtain ⟨ta, tb, e1, e2, e3, e4, e5⟩ := tokens_call (Q := fun _ => True) hw ha hb (fun _ _ => trivial) (fun _ _ => trivial)
  have := gives_call (fileMacros_known (u := toUpper s.pfx) (l := toLower s.pfx) E (systemIn E) (wideNames E)) e2 e3
  rw [e4, e5] at this
  refine means_body (ts := _) ?_ ?_ this
  · rw [← e1]
    simp
  · intro t ht
    cases ht
    rfl

/-- The macros for file name extensions. -/
theorem C100_extension (s : Settings) (hp : PrefixOk s.pfx) (L : List Entry) (hL : compiledList .filenameMacros = some L) (inc : List T → Table)
    (E : Str → Option Macro) :
    ∃ E', after inc E (savedText s L) = some E' ∧
      StandsFor E' (toUpper s.pfx ++ str% "_LIBEXTA") false (systemIn E).extension ∧
      StandsFor E' (toUpper s.pfx ++ str% "_LIBEXTW") true (systemIn E).extension ∧
      StandsFor E' (toUpper s.pfx ++ str% "_LIBEXT") (wideNames E) (systemIn E).extension := by
  have hE := fileMacros_known (u := toUpper s.pfx) (l := toLower s.pfx) E (systemIn E) (wideNames E)
  exact ⟨_, after_file s hp hL inc E, yields_extA hE (by simp), yields_extW hE (by simp) (by simp), yields_ext hE⟩

/-- The wide and the general file name macro, if no word of the name and of the API number
    is a macro. -/
theorem C100_wide_partial (s : Settings) (hp : PrefixOk s.pfx) (L : List Entry) (hL : compiledList .filenameMacros = some L) (inc : List T → Table)
    (E : Str → Option Macro) :
    ∃ E', after inc E (savedText s L) = some E' ∧ ∀ a b, NameText a → NameText b → NoWords E' a → NoWords E' b →
      Means E' (toUpper s.pfx ++ str% "_LIBNAMEW(" ++ a ++ str% "," ++ b ++ str% ")") true ((systemIn E).fileName a b) ∧
      Means E' (toUpper s.pfx ++ str% "_LIBNAME(" ++ a ++ str% "," ++ b ++ str% ")") (wideNames E) ((systemIn E).fileName a b) := by
  have hpp := prefixes_of hp
  refine ⟨_, after_file s hp hL inc E, fun a b ha hb na nb => ⟨?_, ?_⟩⟩
  · have hw := prefix_word hpp (s := str% "_LIBNAMEW") (by decide)
    obtain ⟨ta, tb, e1, e2, e3, e4, e5⟩ := tokens_call hw ha hb na nb
    have := gives_wideCall (fileMacros_known (u := toUpper s.pfx) (l := toLower s.pfx) E (systemIn E) (wideNames E)) e2 e3 (fun _ h => h)
    rw [e4, e5] at this
    refine means_body (ts := _) ?_ ?_ this
    · rw [← e1]
      simp
    · intro t ht
      cases ht
      rfl
  · have hw := prefix_word hpp (s := str% "_LIBNAME") (by decide)
    obtain ⟨ta, tb, e1, e2, e3, e4, e5⟩ := tokens_call hw ha hb na nb
    have := yields_general (fileMacros_known (u := toUpper s.pfx) (l := toLower s.pfx) E (systemIn E) (wideNames E)) e2 e3 (fun _ h => h)
    rw [e4, e5] at this
    refine ⟨_, ?_, this⟩
    rw [← e1]
    simp

/-- Nothing else is defined or removed. -/
theorem C100_others (s : Settings) (hp : PrefixOk s.pfx) (L : List Entry) (hL : compiledList .filenameMacros = some L) (inc : List T → Table)
    (E : Str → Option Macro) :
    ∃ E', after inc E (savedText s L) = some E' ∧ ∀ x, x ∉ [toUpper s.pfx ++ str% "_LIBEXTA", toUpper s.pfx ++ str% "_LIBNAMEA", toUpper s.pfx ++ str% "_LIBEXTW",
      toUpper s.pfx ++ str% "_LIBNAMEW", toUpper s.pfx ++ str% "_LIBEXT", toUpper s.pfx ++ str% "_LIBNAME"] → E' x = E x := by
  refine ⟨_, after_file s hp hL inc E, fun x hx => ?_⟩
  have : fileNames.map (newName (toUpper s.pfx) (toLower s.pfx)) = [toUpper s.pfx ++ str% "_LIBEXTA", toUpper s.pfx ++ str% "_LIBNAMEA", toUpper s.pfx ++ str% "_LIBEXTW",
      toUpper s.pfx ++ str% "_LIBNAMEW", toUpper s.pfx ++ str% "_LIBEXT", toUpper s.pfx ++ str% "_LIBNAME"] := by
    have e : fileNames = [str% "GDO_" ++ str% "LIBEXTA", str% "GDO_" ++ str% "LIBNAMEA", str% "GDO_" ++ str% "LIBEXTW", str% "GDO_" ++ str% "LIBNAMEW",
      str% "GDO_" ++ str% "LIBEXT", str% "GDO_" ++ str% "LIBNAME"] := rfl
    rw [e]
    simp only [List.map_cons, List.map_nil, newName_upper]
    rfl
  rw [← this] at hx
  unfold known
  rw [file_other _ _ hx]

/-! ### The default library -/

theorem FileMacros.congr {E E' : Str → Option Macro} (h : FileMacros E u sys wide) (he : ∀ x ∈ watched u, E' x = E x) : FileMacros E' u sys wide :=
  ⟨(he _ (by simp [watched])).trans h.extA, (he _ (by simp [watched])).trans h.nameA, (he _ (by simp [watched])).trans h.extW,
    (he _ (by simp [watched])).trans h.nameW, (he _ (by simp [watched])).trans h.ext, (he _ (by simp [watched])).trans h.name⟩

theorem known_append_none {E : Str → Option Macro} {t t' : Table} {x : Str} (h : t'.lookup x = none) : known E (t' ++ t) x = known E t x := by
  unfold known
  rw [List.lookup_append, h]
  rfl

theorem known_cons_ne {E : Str → Option Macro} {t : Table} {x y : Str} {m : Option Macro} (h : x ≠ y) : known E ((y, m) :: t) x = known E t x := by
  unfold known
  rw [List.lookup_cons, beq_eq_false_iff_ne.mpr h]

theorem known_cons_eq {E : Str → Option Macro} {t : Table} {x : Str} {m : Option Macro} : known E ((x, m) :: t) x = m := by
  unfold known
  rw [List.lookup_cons, beq_self_eq_true]

theorem isDefined_isSome (E : Str → Option Macro) (t : Table) (x : Str) : isDefined (fun x => (E x).isSome) t x = (known E t x).isSome := by
  unfold isDefined known
  split <;> rfl

/-- The names of the definitions for the library. -/
def hardNames (u : Str) : List Str := [u ++ str% "_HARDCODED_DEFAULT_LIBA", u ++ str% "_HARDCODED_DEFAULT_LIBW"]

theorem fileNames_prefix (u l : Str) : fileNames.map (newName u l) = [u ++ str% "_LIBEXTA", u ++ str% "_LIBNAMEA", u ++ str% "_LIBEXTW", u ++ str% "_LIBNAMEW", u ++ str% "_LIBEXT",
    u ++ str% "_LIBNAME"] := by
  have e : fileNames = [str% "GDO_" ++ str% "LIBEXTA", str% "GDO_" ++ str% "LIBNAMEA", str% "GDO_" ++ str% "LIBEXTW", str% "GDO_" ++ str% "LIBNAMEW",
    str% "GDO_" ++ str% "LIBEXT", str% "GDO_" ++ str% "LIBNAME"] := rfl
  rw [e]
  simp only [List.map_cons, List.map_nil, newName_upper]
  rfl

/-- The table behind the file name macros, other text and the definitions for the library. -/
def libraryTable (u l : Str) (sys : System) (wide : Bool) (t : Table) (tsA tsW : List T) : Table :=
  (u ++ str% "_HARDCODED_DEFAULT_LIBW", some ⟨none, false, tsW⟩) :: (u ++ str% "_HARDCODED_DEFAULT_LIBA", some ⟨none, false, tsA⟩) ::
    (t ++ renTable (newName u l) (fileTable sys wide))

/-- The text of the file name macros and the definitions for the library. -/
theorem run_toLibrary (s : Settings) (hp : PrefixOk s.pfx) {L : List Entry} (hL : compiledList .filenameMacros = some L) {inc : List T → Table} {S : List Str}
    {lib f t mid : Str} (E : Str → Option Macro) (ho : Opens (systemIn E) lib f t) (hmid : Harmless inc S mid) :
    ∃ tsA tsW t', BodyOk tsA ∧ BodyOk tsW ∧ (∀ E' wide, FileMacros E' (toUpper s.pfx) (systemIn E) wide → BodyGives E' (toUpper s.pfx) tsA false f) ∧
      (∀ E' wide, FileMacros E' (toUpper s.pfx) (systemIn E) wide → NoWords E' t → BodyGives E' (toUpper s.pfx) tsW true f) ∧ (∀ x ∈ S, t'.lookup x = none) ∧
      ∀ b, run inc (fun x => (E x).isSome) ([], []) (savedText s L ++ mid ++ formatLibname lib (toUpper s.pfx) ++ b) =
        run inc (fun x => (E x).isSome) (libraryTable (toUpper s.pfx) (toLower s.pfx) (systemIn E) (wideNames E) t' tsA tsW, []) b := by
  have hpp := prefixes_of hp
  obtain ⟨a, w, tsA, tsW, e1, e2, e3, e4, e5, e6, e7⟩ := opens_bodies hpp ho
  obtain ⟨t', f1, f2⟩ : ∃ t', (∀ b, run inc (fun x => (E x).isSome) (renTable (newName (toUpper s.pfx) (toLower s.pfx)) (fileTable (systemIn E) (wideNames E)), []) (mid ++ b) =
      run inc (fun x => (E x).isSome) (t' ++ renTable (newName (toUpper s.pfx) (toLower s.pfx)) (fileTable (systemIn E) (wideNames E)), []) b) ∧ ∀ y ∈ S, t'.lookup y = none := by
    rcases hmid with rfl | ⟨x, h1, h2⟩
    · exact ⟨[], fun _ => rfl, fun _ _ => rfl⟩
    · obtain ⟨t', g1, g2⟩ := h2 (isDefined (fun x => (E x).isSome) (renTable (newName (toUpper s.pfx) (toLower s.pfx)) (fileTable (systemIn E) (wideNames E))))
      refine ⟨t', fun b => ?_, g2⟩
      rw [run_whole h1, runLines_start, g1]
      rfl
  refine ⟨tsA, tsW, t', e4, e5, e6, e7, f2, fun b => ?_⟩
  rw [C94_saved s hp .skip [] [] .filenameMacros (.inr rfl) L hL, file_text hpp, List.append_assoc, List.append_assoc, run_fileMacros hpp]
  refine (f1 _).trans ?_
  rw [e1, run_library hpp e2 e3 e4 e5]
  rfl

theorem file_known (E : Str → Option Macro) (u l : Str) (sys : System) (wide : Bool) {t : Table} (ht : ∀ x ∈ watched u, t.lookup x = none) (tsA tsW : List T) :
    FileMacros (known E (libraryTable u l sys wide t tsA tsW)) u sys wide ∧
    known E (libraryTable u l sys wide t tsA tsW) (u ++ str% "_HARDCODED_DEFAULT_LIBA") = some ⟨none, false, tsA⟩ ∧
    known E (libraryTable u l sys wide t tsA tsW) (u ++ str% "_HARDCODED_DEFAULT_LIBW") = some ⟨none, false, tsW⟩ ∧
    ∀ x ∈ watched u, x ∉ hardNames u → x ∉ fileNames.map (newName u l) → known E (libraryTable u l sys wide t tsA tsW) x = E x := by
  have hf := fileMacros_known (u := u) (l := l) E sys wide
  have keep : ∀ x ∈ watched u, x ∉ hardNames u → known E (libraryTable u l sys wide t tsA tsW) x = known E (renTable (newName u l) (fileTable sys wide)) x := by
    intro x hx hh
    simp only [hardNames, List.mem_cons, List.not_mem_nil, or_false, not_or] at hh
    unfold libraryTable
    rw [known_cons_ne hh.2, known_cons_ne hh.1, known_append_none (ht x hx)]
  have nh : ∀ s, s ≠ str% "_HARDCODED_DEFAULT_LIBA" → s ≠ str% "_HARDCODED_DEFAULT_LIBW" → u ++ s ∉ hardNames u := by
    intro s h1 h2 hm
    simp only [hardNames, List.mem_cons, List.not_mem_nil, or_false] at hm
    rcases hm with hm | hm
    · exact suffix_ne h1 hm
    · exact suffix_ne h2 hm
  refine ⟨⟨(keep _ (by simp [watched]) (nh _ (by decide) (by decide))).trans hf.extA, (keep _ (by simp [watched]) (nh _ (by decide) (by decide))).trans hf.nameA,
    (keep _ (by simp [watched]) (nh _ (by decide) (by decide))).trans hf.extW, (keep _ (by simp [watched]) (nh _ (by decide) (by decide))).trans hf.nameW,
    (keep _ (by simp [watched]) (nh _ (by decide) (by decide))).trans hf.ext, (keep _ (by simp [watched]) (nh _ (by decide) (by decide))).trans hf.name⟩, ?_, ?_, ?_⟩
  · unfold libraryTable
    rw [known_cons_ne (suffix_ne (by decide)), known_cons_eq]
  · unfold libraryTable
    rw [known_cons_eq]
  · intro x hx h1 h2
    rw [keep x hx h1]
    unfold known
    rw [file_other _ _ h2]

theorem hard_stands {E : Str → Option Macro} {x : Str} {ts : List T} {hs : List Str} {f : Str} {wide : Bool} (ok : BodyOk ts) (he : E x = some ⟨none, false, ts⟩)
    (hb : BodyGives E u ts wide f) (hx : x ∉ hs) (hu : x ∉ helperNames u) (hh : ∀ y ∈ hs, y ∉ helperNames u) : Yields E [⟨hs, true, .ident x⟩] wide f := by
  refine yields_object hx he ok.paste (hb _ ?_)
  intro y hy
  rcases List.mem_cons.mp hy with rfl | hy
  · exact hu
  · exact hh y hy

theorem not_helper {s : Str} (h : s ∉ [str% "_LIBEXTA", str% "_LIBEXTW", str% "_LIBNAMEA", str% "_LIBNAMEW"]) : u ++ s ∉ helperNames u := by
  intro hm
  refine h ?_
  simp only [helperNames, List.mem_cons, List.not_mem_nil, or_false, List.append_cancel_left_eq] at hm
  simpa using hm

/-- Behind the definitions of the default library, its macros stand for the file. -/
theorem C100_library_partial (s : Settings) (hp : PrefixOk s.pfx) (L : List Entry) (hL : compiledList .filenameMacros = some L) (inc : List T → Table)
    (E : Str → Option Macro) (lib f t mid : Str) (ho : Opens (systemIn E) lib f t) (hmid : Harmless inc (watched (toUpper s.pfx)) mid) :
    ∃ E', after inc E (savedText s L ++ mid ++ formatLibname lib (toUpper s.pfx)) = some E' ∧
      StandsFor E' (toUpper s.pfx ++ str% "_HARDCODED_DEFAULT_LIBA") false f ∧
      (NoWords E' t → StandsFor E' (toUpper s.pfx ++ str% "_HARDCODED_DEFAULT_LIBW") true f) := by
  obtain ⟨tsA, tsW, t', o1, o2, g1, g2, ht, hr⟩ := run_toLibrary s hp hL E ho hmid
  have := hr []
  rw [List.append_nil] at this
  obtain ⟨k1, k2, k3, k4⟩ := file_known E (toUpper s.pfx) (toLower s.pfx) (systemIn E) (wideNames E) ht tsA tsW
  refine ⟨_, after_run (this.trans rfl), ?_, fun hn => ?_⟩
  · exact hard_stands o1 k2 (g1 _ _ k1) (by simp) (not_helper (by decide)) (by simp)
  · exact hard_stands o2 k3 (g2 _ _ k1 hn) (by simp) (not_helper (by decide)) (by simp)

/-- The text of `common.h` up to the sections for parameter names. -/
def commonPart (s : Settings) : Str :=
  unlines ((if s.lineDirective then [lineText .commonHeader] else []) ++ commonLines.map (renamedLine (toUpper s.pfx) (toLower s.pfx)))

/-- It is the text of the whole template without its last lines. -/
theorem C100_part (s : Settings) (hp : PrefixOk s.pfx) (protos objs : List Proto) :
    unlines ((if s.lineDirective then [lineText .commonHeader] else []) ++ instantiate (toUpper s.pfx) (toLower s.pfx) s.names protos objs (lines .commonHeader)) =
      commonPart s ++ unlines (instantiate (toUpper s.pfx) (toLower s.pfx) s.names protos objs commonTail) := by
  rw [common_text (prefixes_of hp), ← List.append_assoc, unlines_append]
  rfl

theorem commonPart_ren (s : Settings) (hp : PrefixOk s.pfx) : commonPart s =
    unlines (((if s.lineDirective then [lineText .commonHeader] else []) ++ commonLines).map (renamedLine (toUpper s.pfx) (toLower s.pfx))) := by
  unfold commonPart
  rw [List.map_append]
  cases s.lineDirective with
  | false => rfl
  | true =>
    rw [if_pos rfl, List.map_singleton, lineText_renamed (prefixes_of hp)]

/-- The names in the code and in the template. -/
theorem watched_iff {u l : Str} {x : Str} (h : x ∈ tracked) : newName u l x ∈ watched u := by
  rw [← tracked_names u l]
  exact List.mem_map.mpr ⟨x, h, rfl⟩

/-- The definitions behind `common.h`. -/
theorem known_common (u l : Str) (E : Str → Option Macro) {t t' : Table} (h : ∀ x ∈ tracked.map (newName u l), t'.lookup x =
      (renTable (newName u l) (defaultTable fun w => (known E t (newName u l w)).isSome) ++ t).lookup x) {x : Str} (hx : x ∈ tracked) :
    known E t' (newName u l x) = match (defaultTable fun w => (known E t (newName u l w)).isSome).lookup x with
      | some m => m.map (renMacro (newName u l))
      | none => known E t (newName u l x) := by
  unfold known
  rw [h _ (List.mem_map.mpr ⟨x, hx, rfl⟩), List.lookup_append, lookup_ren (apart_inj allNames_apart) (List.mem_cons_of_mem _ hx) (defaultTable_names _)]
  unfold known
  cases List.lookup x _ <;> rfl

theorem run_commonPart (s : Settings) (hp : PrefixOk s.pfx) {inc : List T → Table} (hinc : ∀ r, ∀ x ∈ watched (toUpper s.pfx), (inc r).lookup x = none)
    (E : Str → Option Macro) (t : Table) : ∃ t', run inc (fun x => (E x).isSome) (t, []) (commonPart s) = some (t', []) ∧
      ∀ x ∈ tracked.map (newName (toUpper s.pfx) (toLower s.pfx)), t'.lookup x = (renTable (newName (toUpper s.pfx) (toLower s.pfx))
        (defaultTable fun w => (known E t (newName (toUpper s.pfx) (toLower s.pfx) w)).isSome) ++ t).lookup x := by
  obtain ⟨t', h1, h2⟩ := run_common (prefixes_of hp) s.lineDirective (inc := inc) (by rw [tracked_names]; exact hinc) (fun x => (E x).isSome) t []
  rw [← commonPart_ren s hp, List.append_nil] at h1
  refine ⟨t', h1.trans rfl, ?_⟩
  simp only [isDefined_isSome] at h2
  exact h2

/-- What is defined before as the default library stays behind `common.h`. -/
theorem C100_override (s : Settings) (hp : PrefixOk s.pfx) (inc : List T → Table) (hinc : ∀ r, ∀ x ∈ watched (toUpper s.pfx), (inc r).lookup x = none)
    (E : Str → Option Macro) : ∃ E', after inc E (commonPart s) = some E' ∧
      ∀ x ∈ [toUpper s.pfx ++ str% "_DEFAULT_LIBA", toUpper s.pfx ++ str% "_DEFAULT_LIBW", toUpper s.pfx ++ str% "_DEFAULT_LIB"], (E x).isSome = true → E' x = E x := by
  obtain ⟨t', h1, h2⟩ := run_commonPart s hp hinc E []
  refine ⟨_, after_run h1, fun x hx he => ?_⟩
  have hn : ∃ y ∈ [str% "GDO_DEFAULT_LIBA", str% "GDO_DEFAULT_LIBW", str% "GDO_DEFAULT_LIB"], x = newName (toUpper s.pfx) (toLower s.pfx) y := by
    simp only [List.mem_cons, List.not_mem_nil, or_false] at hx
    rcases hx with rfl | rfl | rfl
    · exact ⟨_, by simp, (newName_upper _ _ (str% "DEFAULT_LIBA")).symm⟩
    · exact ⟨_, by simp, (newName_upper _ _ (str% "DEFAULT_LIBW")).symm⟩
    · exact ⟨_, by simp, (newName_upper _ _ (str% "DEFAULT_LIB")).symm⟩
  obtain ⟨y, hy, rfl⟩ := hn
  have hy' : y ∈ tracked := by
    clear hx he
    revert y
    decide
  rw [known_common _ _ E h2 hy', default_override _ hy he]
  rfl

/-- The default library of the tool is the one that the macros for it stand for behind
    `common.h`. -/
theorem C100_default_partial (s : Settings) (hp : PrefixOk s.pfx) (L : List Entry) (hL : compiledList .filenameMacros = some L) (inc : List T → Table)
    (hinc : ∀ r, ∀ x ∈ watched (toUpper s.pfx), (inc r).lookup x = none) (E : Str → Option Macro)
    (hE : ∀ x ∈ [toUpper s.pfx ++ str% "_DEFAULT_LIBA", toUpper s.pfx ++ str% "_DEFAULT_LIBW", toUpper s.pfx ++ str% "_DEFAULT_LIB",
      str% "_" ++ toUpper s.pfx ++ str% "_TARGET_WIDECHAR", toUpper s.pfx ++ str% "_WINAPI"], E x = none)
    (lib f t mid mid' : Str) (ho : Opens (systemIn E) lib f t) (hmid : Harmless inc (watched (toUpper s.pfx)) mid) (hmid' : Harmless inc (watched (toUpper s.pfx)) mid') :
    ∃ E', after inc E (savedText s L ++ mid ++ formatLibname lib (toUpper s.pfx) ++ mid' ++ commonPart s) = some E' ∧
      StandsFor E' (toUpper s.pfx ++ str% "_DEFAULT_LIBA") false f ∧
      (wideTarget (fun x => (E x).isSome) (toUpper s.pfx) = false → StandsFor E' (toUpper s.pfx ++ str% "_DEFAULT_LIB") false f) ∧
      (NoWords E' t → StandsFor E' (toUpper s.pfx ++ str% "_DEFAULT_LIBW") true f ∧
        (wideTarget (fun x => (E x).isSome) (toUpper s.pfx) = true → StandsFor E' (toUpper s.pfx ++ str% "_DEFAULT_LIB") true f)) := by
  obtain ⟨tsA, tsW, t1, o1, o2, g1, g2, ht, hr⟩ := run_toLibrary s hp hL E ho hmid
  obtain ⟨t2, r2, ht2⟩ := run_harmless hmid' (fun x => (E x).isSome)
    (libraryTable (toUpper s.pfx) (toLower s.pfx) (systemIn E) (wideNames E) t1 tsA tsW) (commonPart s)
  obtain ⟨t3, r3, ht3⟩ := run_commonPart s hp hinc E (t2 ++ libraryTable (toUpper s.pfx) (toLower s.pfx) (systemIn E) (wideNames E) t1 tsA tsW)
  obtain ⟨k1, k2, k3, k4⟩ := file_known E (toUpper s.pfx) (toLower s.pfx) (systemIn E) (wideNames E) ht tsA tsW
  have hall := hr (mid' ++ commonPart s)
  rw [r2, r3, ← List.append_assoc] at hall
  have kc := fun x hx => known_common (toUpper s.pfx) (toLower s.pfx) E ht3 (x := x) hx
  have inj := apart_inj (u := toUpper s.pfx) (l := toLower s.pfx) allNames_apart
  generalize toUpper s.pfx = u at *
  generalize toLower s.pfx = l at *
  have base : ∀ x ∈ tracked, known E (t2 ++ libraryTable u l (systemIn E) (wideNames E) t1 tsA tsW) (newName u l x) =
      known E (libraryTable u l (systemIn E) (wideNames E) t1 tsA tsW) (newName u l x) := fun x hx => known_append_none (ht2 _ (watched_iff hx))
  have free : ∀ x ∈ [str% "GDO_DEFAULT_LIBA", str% "GDO_DEFAULT_LIBW", str% "GDO_DEFAULT_LIB", str% "_GDO_TARGET_WIDECHAR", str% "GDO_WINAPI", str% "GDO_USE_DLOPEN", str% "_WIN32",
      str% "_UNICODE"], known E (t2 ++ libraryTable u l (systemIn E) (wideNames E) t1 tsA tsW) (newName u l x) = E (newName u l x) := by
    intro x hx
    have hx' : x ∈ tracked ∧ x ∉ fileNames ∧ x ≠ str% "GDO_HARDCODED_DEFAULT_LIBA" ∧ x ≠ str% "GDO_HARDCODED_DEFAULT_LIBW" := by
      revert x
      decide
    have hm := List.mem_cons_of_mem (str% "GDO_DLFCN_WIN32") hx'.1
    rw [base x hx'.1]
    refine k4 _ (watched_iff hx'.1) ?_ ?_
    · intro hc
      simp only [hardNames, List.mem_cons, List.not_mem_nil, or_false] at hc
      rcases hc with hc | hc
      · exact hx'.2.2.1 (inj _ hm _ (List.elem_iff.mp rfl) (hc.trans (newName_upper u l (str% "HARDCODED_DEFAULT_LIBA")).symm))
      · exact hx'.2.2.2 (inj _ hm _ (List.elem_iff.mp rfl) (hc.trans (newName_upper u l (str% "HARDCODED_DEFAULT_LIBW")).symm))
    · intro hc
      obtain ⟨y, hy, e⟩ := List.mem_map.mp hc
      have hy' : y ∈ allNames := List.mem_cons_of_mem _ (List.mem_append_left _ hy)
      exact hx'.2.1 (inj _ hy' _ hm e ▸ hy)
  have nA : newName u l (str% "GDO_DEFAULT_LIBA") = u ++ str% "_DEFAULT_LIBA" := newName_upper u l (str% "DEFAULT_LIBA")
  have nW : newName u l (str% "GDO_DEFAULT_LIBW") = u ++ str% "_DEFAULT_LIBW" := newName_upper u l (str% "DEFAULT_LIBW")
  have nL : newName u l (str% "GDO_DEFAULT_LIB") = u ++ str% "_DEFAULT_LIB" := newName_upper u l (str% "DEFAULT_LIB")
  have nT : newName u l (str% "_GDO_TARGET_WIDECHAR") = str% "_" ++ u ++ str% "_TARGET_WIDECHAR" := newName_under u l (str% "TARGET_WIDECHAR")
  have nI : newName u l (str% "GDO_WINAPI") = u ++ str% "_WINAPI" := newName_upper u l (str% "WINAPI")
  have nD : newName u l (str% "GDO_USE_DLOPEN") = u ++ str% "_USE_DLOPEN" := newName_upper u l (str% "USE_DLOPEN")
  have hA : newName u l (str% "GDO_HARDCODED_DEFAULT_LIBA") = u ++ str% "_HARDCODED_DEFAULT_LIBA" := newName_upper u l (str% "HARDCODED_DEFAULT_LIBA")
  have hW : newName u l (str% "GDO_HARDCODED_DEFAULT_LIBW") = u ++ str% "_HARDCODED_DEFAULT_LIBW" := newName_upper u l (str% "HARDCODED_DEFAULT_LIBW")
  have n32 : newName u l (str% "_WIN32") = str% "_WIN32" := rfl
  have nU : newName u l (str% "_UNICODE") = str% "_UNICODE" := rfl
  obtain ⟨d1, d2, d3⟩ := default_chosen (fun w => (known E (t2 ++ libraryTable u l (systemIn E) (wideNames E) t1 tsA tsW) (newName u l w)).isSome)
    (by
      intro x hx
      have hf := free x (by clear hE; revert x; decide)
      have he : E (newName u l x) = none := by
        simp only [List.mem_cons, List.not_mem_nil, or_false] at hx
        rcases hx with rfl | rfl | rfl | rfl | rfl
        · rw [nA]; exact hE _ (by simp)
        · rw [nW]; exact hE _ (by simp)
        · rw [nL]; exact hE _ (by simp)
        · rw [nT]; exact hE _ (by simp)
        · rw [nI]; exact hE _ (by simp)
      show (known E _ (newName u l x)).isSome = false
      rw [hf, he]
      rfl)
    (by
      show (known E _ (newName u l _)).isSome = true
      rw [base _ (List.elem_iff.mp rfl), hA, k2]
      rfl)
    (by
      show (known E _ (newName u l _)).isSome = true
      rw [base _ (List.elem_iff.mp rfl), hW, k3]
      rfl)
  have kA := kc (str% "GDO_DEFAULT_LIBA") (List.elem_iff.mp rfl)
  have kW := kc (str% "GDO_DEFAULT_LIBW") (List.elem_iff.mp rfl)
  have kL := kc (str% "GDO_DEFAULT_LIB") (List.elem_iff.mp rfl)
  rw [d1] at kA
  rw [d2] at kW
  rw [d3, free _ (by simp), free _ (by simp), free _ (by simp), n32, nU, nD] at kL
  have keep : ∀ x ∈ fileNames ++ [str% "GDO_HARDCODED_DEFAULT_LIBA", str% "GDO_HARDCODED_DEFAULT_LIBW"],
      known E t3 (newName u l x) = known E (libraryTable u l (systemIn E) (wideNames E) t1 tsA tsW) (newName u l x) := by
    intro x hx
    have hx' : x ∈ tracked ∧ x ∉ [str% "GDO_DEFAULT_LIBA", str% "GDO_DEFAULT_LIBW", str% "GDO_DEFAULT_LIB", str% "_GDO_TARGET_WIDECHAR",
        str% "GDO_DLFCN_WIN32", str% "GDO_WINAPI"] := by
      revert x
      decide
    rw [kc x hx'.1, default_keeps _ hx'.2]
    exact base x hx'.1
  have kHA := keep (str% "GDO_HARDCODED_DEFAULT_LIBA") (List.elem_iff.mp rfl)
  have kHW := keep (str% "GDO_HARDCODED_DEFAULT_LIBW") (List.elem_iff.mp rfl)
  have kF : FileMacros (known E t3) u (systemIn E) (wideNames E) := by
    have get : ∀ x, str% "GDO_" ++ x ∈ fileNames ++ [str% "GDO_HARDCODED_DEFAULT_LIBA", str% "GDO_HARDCODED_DEFAULT_LIBW"] →
        known E t3 (u ++ (str% "_" ++ x)) = known E (libraryTable u l (systemIn E) (wideNames E) t1 tsA tsW) (u ++ (str% "_" ++ x)) := by
      intro x hx
      rw [← newName_upper u l x]
      exact keep _ hx
    exact ⟨(get (str% "LIBEXTA") (List.elem_iff.mp rfl)).trans k1.extA, (get (str% "LIBNAMEA") (List.elem_iff.mp rfl)).trans k1.nameA,
      (get (str% "LIBEXTW") (List.elem_iff.mp rfl)).trans k1.extW, (get (str% "LIBNAMEW") (List.elem_iff.mp rfl)).trans k1.nameW,
      (get (str% "LIBEXT") (List.elem_iff.mp rfl)).trans k1.ext, (get (str% "LIBNAME") (List.elem_iff.mp rfl)).trans k1.name⟩
  rw [hA, k2] at kHA
  rw [hW, k3] at kHW
  rw [nA] at kA
  rw [nW] at kW
  rw [nL] at kL
  have mA : known E t3 (u ++ str% "_DEFAULT_LIBA") = some ⟨none, false, [⟨true, .ident (u ++ str% "_HARDCODED_DEFAULT_LIBA")⟩]⟩ := by
    rw [kA, ← hA]
    rfl
  have mW : known E t3 (u ++ str% "_DEFAULT_LIBW") = some ⟨none, false, [⟨true, .ident (u ++ str% "_HARDCODED_DEFAULT_LIBW")⟩]⟩ := by
    rw [kW, ← hW]
    rfl
  have mL : known E t3 (u ++ str% "_DEFAULT_LIB") = some ⟨none, false, [⟨true, .ident (u ++ if wideTarget (fun x => (E x).isSome) u then str% "_DEFAULT_LIBW" else str% "_DEFAULT_LIBA")⟩]⟩ := by
    rw [kL]
    show some (renMacro (newName u l) (nameMacro (if wideTarget (fun x => (E x).isSome) u then str% "GDO_DEFAULT_LIBW" else str% "GDO_DEFAULT_LIBA"))) = _
    cases wideTarget (fun x => (E x).isSome) u with
    | false => rw [if_neg (by simp), if_neg (by simp), ← nA]; rfl
    | true => rw [if_pos rfl, if_pos rfl, ← nW]; rfl
  have help : ∀ s, s ∉ [str% "_LIBEXTA", str% "_LIBEXTW", str% "_LIBNAMEA", str% "_LIBNAMEW"] → u ++ s ∉ helperNames u := fun s h => not_helper h
  have yA : ∀ hs : List Str, (∀ x ∈ hs, x = u ++ str% "_DEFAULT_LIB") → Yields (known E t3) [⟨hs, true, .ident (u ++ str% "_DEFAULT_LIBA")⟩] false f := by
    intro hs hh
    refine yields_name (fun hm => suffix_ne (by decide) (hh _ hm)) mA (hard_stands o1 kHA (g1 _ _ kF) ?_ (help _ (by decide)) ?_)
    · intro hm
      rcases List.mem_cons.mp hm with e | hm
      · exact suffix_ne (by decide) e
      · exact suffix_ne (by decide) (hh _ hm)
    · intro y hy
      rcases List.mem_cons.mp hy with rfl | hy
      · exact help _ (by decide)
      · rw [hh _ hy]
        exact help _ (by decide)
  have yW : NoWords (known E t3) t → ∀ hs : List Str, (∀ x ∈ hs, x = u ++ str% "_DEFAULT_LIB") → Yields (known E t3) [⟨hs, true, .ident (u ++ str% "_DEFAULT_LIBW")⟩] true f := by
    intro hn hs hh
    refine yields_name (fun hm => suffix_ne (by decide) (hh _ hm)) mW (hard_stands o2 kHW (g2 _ _ kF hn) ?_ (help _ (by decide)) ?_)
    · intro hm
      rcases List.mem_cons.mp hm with e | hm
      · exact suffix_ne (by decide) e
      · exact suffix_ne (by decide) (hh _ hm)
    · intro y hy
      rcases List.mem_cons.mp hy with rfl | hy
      · exact help _ (by decide)
      · rw [hh _ hy]
        exact help _ (by decide)
  refine ⟨_, after_run hall, yA [] (by simp), fun h => ?_, fun hn => ⟨yW hn [] (by simp), fun h => ?_⟩⟩
  · rw [h] at mL
    exact yields_name (by simp) mL (yA _ (by simp))
  · rw [h] at mL
    exact yields_name (by simp) mL (yW hn _ (by simp))

/-! ### The disagreement -/

/-- The macro `linux` that compilers on Linux predefine without `-std=c…`. -/
def gnuLinux (x : Str) : Option Macro := if x = str% "linux" then some ⟨none, false, [⟨true, .num (str% "1")⟩]⟩ else none

theorem yields_unique {E : Str → Option Macro} {ts : List H} {w w' : Bool} {s s' : Str} (h : Yields E ts w s) (h' : Yields E ts w' s') : w = w' ∧ s = s' := by
  obtain ⟨N, h⟩ := h
  obtain ⟨N', h'⟩ := h'
  obtain ⟨o, e1, _, e2⟩ := h (max N N') (by omega)
  obtain ⟨o', e1', _, e2'⟩ := h' (max N N') (by omega)
  rw [e1] at e1'
  cases e1'
  rw [e2] at e2'
  cases e2'
  exact ⟨rfl, rfl⟩

/-- The wide and the general macro expand the name before it is made a string: with `linux`
    predefined, the name `linux` becomes another one. -/
theorem C100_violated (inc : List T → Table) (s : Settings) (hs : s.pfx = str% "gdo") (L : List Entry) (hL : compiledList .filenameMacros = some L) :
    ∃ E', after inc gnuLinux (savedText s L) = some E' ∧ Means E' (str% "GDO_LIBNAMEA(linux,1)") false (str% "liblinux.so.1") ∧
      Means E' (str% "GDO_LIBNAME(linux,1)") false (str% "lib1.so.1") ∧ ¬ Means E' (str% "GDO_LIBNAME(linux,1)") false (str% "liblinux.so.1") := by
  have hp : PrefixOk s.pfx := by
    rw [hs]
    exact ⟨by simp, by rintro ⟨c, r, h, hd⟩; cases h; exact absurd hd (by decide)⟩
  have ha := after_file s hp hL inc gnuLinux
  rw [hs] at ha
  have h1 : tokens (str% "GDO_LIBNAMEA(linux,1)") = some [⟨true, .ident (str% "GDO_LIBNAMEA")⟩, ⟨false, .punct (str% "(")⟩, ⟨false, .ident (str% "linux")⟩, ⟨false, .punct (str% ",")⟩,
    ⟨false, .num (str% "1")⟩, ⟨false, .punct (str% ")")⟩] := by decide +kernel
  have h2 : tokens (str% "GDO_LIBNAME(linux,1)") = some [⟨true, .ident (str% "GDO_LIBNAME")⟩, ⟨false, .punct (str% "(")⟩, ⟨false, .ident (str% "linux")⟩, ⟨false, .punct (str% ",")⟩,
    ⟨false, .num (str% "1")⟩, ⟨false, .punct (str% ")")⟩] := by decide +kernel
  refine ⟨_, ha, ⟨_, h1, 20, fun n hn => ?_⟩, ?_⟩
  · obtain ⟨m, rfl⟩ : ∃ m, n = m + 20 := ⟨n - 20, by omega⟩
    exact ⟨_, rfl, by simp, rfl⟩
  · have h : Means (known gnuLinux (renTable (newName (toUpper (str% "gdo")) (toLower (str% "gdo"))) (fileTable (systemIn gnuLinux) (wideNames gnuLinux))))
        (str% "GDO_LIBNAME(linux,1)") false (str% "lib1.so.1") := by
      refine ⟨_, h2, 20, fun n hn => ?_⟩
      obtain ⟨m, rfl⟩ : ∃ m, n = m + 20 := ⟨n - 20, by omega⟩
      exact ⟨_, rfl, by simp, rfl⟩
    refine ⟨h, fun h' => ?_⟩
    obtain ⟨ts, e1, y1⟩ := h
    obtain ⟨ts', e2, y2⟩ := h'
    rw [e1] at e2
    cases e2
    exact absurd (yields_unique y1 y2).2 (by decide)

/-! ### The hypotheses can be met -/

example : PrefixOk (str% "gdo") ∧ compiledList .filenameMacros = some (list .filenameMacros) ∧ NameText (str% "stdc++") ∧ NameText (str% "6.0-rc1") :=
  ⟨⟨by decide, by rintro ⟨c, r, h, hc⟩; cases h; revert hc; decide⟩, compiledList_eq _ (ok_all _), by unfold NameText; decide, by unfold NameText; decide⟩

example : systemIn gnuLinux = .elf ∧ NoWords gnuLinux (str% "z,1") ∧ ¬ NoWords gnuLinux (str% "linux,1") := by
  refine ⟨by decide +kernel, ?_, ?_⟩
  · intro w hw
    have : pieces (str% "z,1") = [.word (str% "z"), .other ',', .word (str% "1")] := by decide +kernel
    rw [this] at hw
    simp at hw
    rcases hw with rfl | rfl <;> decide +kernel
  · intro h
    have := h (str% "linux") (by decide +kernel)
    revert this
    decide +kernel

example : Opens .elf (str% "api:1:z") (str% "libz.so.1") (str% "z,1") ∧ Opens .macos (str% "ext:libz") (str% "libz.dylib") [] ∧ Opens .windows (str% "zlib1.dll") (str% "zlib1.dll") [] ∧
    Opens .elf (str% "\"./n.so\"") (str% "./n.so") [] :=
  ⟨Opens.api (sys := .elf) (m := str% "api:") (v := str% "1") (s := str% "z") (by decide) (by unfold NameText; decide) (by unfold NameText; decide),
   Opens.extension (sys := .macos) (m := str% "ext:") (s := str% "libz") (by decide) (by unfold LiteralText; decide) (by decide),
   .plain (by unfold LiteralText; decide) (by intro c r h; cases h; decide) (by decide),
   Opens.quoted (sys := .elf) (s := str% "./n.so") (by unfold LiteralText; decide)⟩

/-- The texts between: the comment, and a definition with an inclusion. -/
example : Harmless (fun _ => []) (watched (str% "GDO")) (str% "/* extra defines */\n") ∧
    Harmless (fun _ => []) (watched (str% "GDO")) (str% "#define GDO_COMMON_PREFIX \"\"\n#include <z.h>\n") :=
  ⟨.inr ⟨[], ⟨by decide +kernel, str% "/* extra defines */", by decide +kernel⟩, fun D => ⟨[], rfl, fun _ _ => rfl⟩⟩,
   .inr ⟨[⟨true, .punct (str% "#")⟩, ⟨false, .ident (str% "define")⟩, ⟨true, .ident (str% "GDO_COMMON_PREFIX")⟩, ⟨true, .str [] []⟩, nlT,
      ⟨true, .punct (str% "#")⟩, ⟨false, .ident (str% "include")⟩, ⟨true, .punct (str% "<")⟩, ⟨false, .ident (str% "z")⟩, ⟨false, .punct (str% ".")⟩,
      ⟨false, .ident (str% "h")⟩, ⟨false, .punct (str% ">")⟩],
    ⟨by decide +kernel, str% "#define GDO_COMMON_PREFIX \"\"\n#include <z.h>", by decide +kernel⟩,
    fun D => ⟨[(str% "GDO_COMMON_PREFIX", some ⟨none, false, [⟨true, .str [] []⟩]⟩)], rfl, by decide⟩⟩⟩

end Gdo.Cpp
