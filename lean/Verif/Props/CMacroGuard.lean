import Verif.Lemmas.CMacroGuard
import Verif.Props.CMacroConfig
import Verif.Props.CForm

/-!
C105: the guard of the header, as a preprocessor reads it.
-/

set_option maxRecDepth 20000

namespace Gdo.Cpp
open Gdo Rename Tmpl Builtin Gdo.Sub Opt Tpl Gen Pfx

variable {u l : Str} {E E' : Str → Option Macro} {inc : List T → Table}

/-! ### Names that a text does not mention -/

theorem definition_mem {r : List T} {m : Str × Macro} (h : definition r = some m) : ∃ t ∈ r, t.tok = .ident m.1 := by
  unfold definition at h
  split at h
  · split at h
    · simp only [Option.map_eq_some_iff] at h
      obtain ⟨a, _, rfl⟩ := h
      exact ⟨_, List.mem_cons_self .., rfl⟩
    · cases h
      exact ⟨_, List.mem_cons_self .., rfl⟩
  · cases h
    exact ⟨_, List.mem_cons_self .., rfl⟩
  · cases h

theorem runLine_absent {g : Str} (hi : ∀ r, (inc r).lookup g = none) {D : Str → Bool} {s s' : Table × List Cc.Cond} {ln : List T} (hg : ∀ t ∈ ln, t.tok ≠ .ident g)
    (h : runLine inc D s ln = some s') : s'.1.lookup g = s.1.lookup g := by
  unfold runLine at h
  split at h
  · rename_i r
    split at h
    · have hg' : ∀ t ∈ r, t.tok ≠ .ident g := fun t ht => hg t (List.mem_cons_of_mem _ ht)
      unfold runDirective at h
      split at h
      · cases h; rfl
      · rename_i d r
        split at h
        · simp only [Option.map_eq_some_iff] at h
          obtain ⟨st, _, rfl⟩ := h
          rfl
        · split at h
          · simp only [Option.map_eq_some_iff] at h
            obtain ⟨t, ht, rfl⟩ := h
            unfold action at ht
            split at ht
            · simp only [Option.map_eq_some_iff] at ht
              obtain ⟨m, hm, rfl⟩ := ht
              obtain ⟨t, ht, hx⟩ := definition_mem hm
              have hne : g ≠ m.1 := fun e => hg' t (List.mem_cons_of_mem _ ht) (by rw [hx, e])
              simp only [List.lookup_cons, beq_eq_false_iff_ne.mpr hne]
            · split at ht
              · split at ht
                · rename_i x
                  cases ht
                  have hne : g ≠ x := fun e => hg' ⟨_, .ident x⟩ (List.mem_cons_of_mem _ (List.mem_cons_self ..)) (by rw [e])
                  simp only [List.lookup_cons, beq_eq_false_iff_ne.mpr hne]
                · cases ht
              · split at ht
                · cases ht
                  rw [List.lookup_append, hi]
                  rfl
                · split at ht
                  · cases ht; rfl
                  · cases ht
          · cases h; rfl
      · cases h
    · cases h; rfl
  · cases h; rfl

theorem runLines_absent {g : Str} (hi : ∀ r, (inc r).lookup g = none) {D : Str → Bool} {lns : List (List T)} (hg : ∀ ln ∈ lns, ∀ t ∈ ln, t.tok ≠ .ident g) :
    ∀ {s s' : Table × List Cc.Cond}, runLines inc D s lns = some s' → s'.1.lookup g = s.1.lookup g := by
  induction lns with
  | nil => intro s s' h; cases h; rfl
  | cons ln lns ih =>
    intro s s' h
    rw [runLines] at h
    cases h1 : runLine inc D s ln with
    | none => rw [h1] at h; cases h
    | some s1 =>
      rw [h1] at h
      rw [ih (fun ln hl => hg ln (List.mem_cons_of_mem _ hl)) h, runLine_absent hi (hg ln (List.mem_cons_self ..)) h1]

theorem mem_splitLines {ts : List T} : ∀ {ln : List T}, ln ∈ splitLines ts → ∀ t ∈ ln, t ∈ ts := by
  induction ts with
  | nil => intro ln h t ht; cases List.mem_singleton.mp h; cases ht
  | cons a r ih =>
    intro ln h t ht
    rw [splitLines] at h
    split at h
    · rcases List.mem_cons.mp h with rfl | h
      · cases ht
      · exact List.mem_cons_of_mem _ (ih h t ht)
    · split at h
      · rename_i l0 ls e
        rcases List.mem_cons.mp h with rfl | h
        · rcases List.mem_cons.mp ht with rfl | ht
          · exact List.mem_cons_self ..
          · exact List.mem_cons_of_mem _ (ih (by rw [e]; exact List.mem_cons_self ..) t ht)
        · exact List.mem_cons_of_mem _ (ih (by rw [e]; exact List.mem_cons_of_mem _ h) t ht)
      · cases List.mem_singleton.mp h
        cases List.mem_singleton.mp ht
        exact List.mem_cons_self ..

/-! ### Any guarded text -/

/-- The macros with another one that stands for nothing. -/
def withEmpty (E : Str → Option Macro) (g : Str) : Str → Option Macro := fun x => if x = g then some emptyMacro else E x

/-- An identifier does not occur among the tokens of a text. -/
def Unmentioned (g t : Str) : Prop := ∀ ts, tokens t = some ts → ∀ x ∈ ts, x.tok ≠ .ident g

theorem known_single (E : Str → Option Macro) (g : Str) : known E [(g, some emptyMacro)] = withEmpty E g := by
  funext x
  unfold known withEmpty
  by_cases h : x = g
  · subst h; simp
  · simp [List.lookup, h, beq_eq_false_iff_ne.mpr h]

theorem after_split {text : Str} (h : after inc E text = some E') :
    ∃ ts t, tokens text = some ts ∧ runLines inc (fun x => (E x).isSome) ([], []) (splitLines ts) = some (t, []) ∧ E' = known E t := by
  unfold after at h
  rw [definitions_run] at h
  unfold run at h
  cases ht : tokens text with
  | none => rw [ht] at h; cases h
  | some ts =>
    rw [ht, Option.bind_some] at h
    cases hr : runLines inc (fun x => (E x).isSome) ([], []) (splitLines ts) with
    | none => rw [hr] at h; cases h
    | some s =>
      obtain ⟨t, st⟩ := s
      rw [hr, Option.bind_some] at h
      cases st with
      | nil => cases h; exact ⟨ts, t, rfl, hr, rfl⟩
      | cons c st => cases h

/-- The first time, a guarded text is what is inside of the guard, with the guard defined. -/
theorem C105_first {g inner : Str} (hg : WordText g) (hE : E g = none) (h : after inc (withEmpty E g) inner = some E') : after inc E (guardedText g inner) = some E' := by
  obtain ⟨ts, t, ht, hr, rfl⟩ := after_split h
  have e : (fun x => (withEmpty E g x).isSome) = isDefined (fun x => (E x).isSome) [(g, some emptyMacro)] := by
    rw [← known_single, isDefined_known]
  rw [e] at hr
  have h1 : runLines inc (fun x => (E x).isSome) ([(g, some emptyMacro)], []) (splitLines ts) = some (t ++ [(g, some emptyMacro)], []) := by
    rw [runLines_start, hr]
    rfl
  have h2 := runLines_base (base := [⟨true, true, false⟩]) rfl h1
  have h3 := run_guarded hg ht inc (fun x => (E x).isSome) [] []
  rw [List.append_nil, if_neg (by simp [isDefined, hE])] at h3
  have h4 : runLines inc (fun x => (E x).isSome) ((g, some ⟨none, false, []⟩) :: [], [⟨true, true, false⟩]) (splitLines ts) = some (t ++ [(g, some emptyMacro)], [] ++ [⟨true, true, false⟩]) := h2
  rw [h4] at h3
  rw [after_run h3, ← known_append, known_single]

/-- After that, it does nothing, whatever is defined then. -/
theorem C105_again {g inner : Str} (hg : WordText g) (hE : E g ≠ none) {inc0 : List T → Table} {E0 E1 : Str → Option Macro} (h : after inc0 E0 inner = some E1) :
    after inc E (guardedText g inner) = some E := by
  obtain ⟨ts, t, ht, hr, _⟩ := after_split h
  have h3 := run_guarded hg ht inc (fun x => (E x).isSome) [] []
  have hd : isDefined (fun x => (E x).isSome) [] g = true := by simpa [isDefined, Option.isSome_iff_ne_none] using hE
  rw [List.append_nil, if_pos hd] at h3
  obtain ⟨st2, h4, h5⟩ := runLines_off (inc' := inc) (D' := fun x => (E x).isSome) (s := []) (base := [⟨false, false, false⟩]) rfl hr (st2 := []) rfl (by simp)
  have : st2 = [] := by simpa using h5
  subst this
  rw [List.nil_append] at h4
  rw [h4] at h3
  rw [after_run h3]
  rfl

/-- The guard stays defined. -/
theorem C105_stays {g inner : Str} (hi : ∀ r, (inc r).lookup g = none) (hm : Unmentioned g inner) (h : after inc E inner = some E') : E' g = E g := by
  obtain ⟨ts, t, ht, hr, rfl⟩ := after_split h
  have := runLines_absent hi (fun ln hl x hx => hm ts ht x (mem_splitLines hl x hx)) hr
  unfold known
  rw [this]
  rfl

theorem after_more {a b : Str} {x : List T} (hw : Whole a x) (h : after inc E a = some E') : after inc E (a ++ b) = after inc E' b := by
  obtain ⟨ts, t, ht, hr, rfl⟩ := after_split h
  have h1 := run_whole hw inc (fun x => (E x).isSome) ([], []) []
  have h2 := run_whole hw inc (fun x => (E x).isSome) ([], []) b
  rw [List.append_nil] at h1
  unfold run at h1
  rw [ht, Option.bind_some, hr] at h1
  cases hx : runLines inc (fun x => (E x).isSome) ([], []) (splitLines x) with
  | none => rw [hx] at h1; cases h1
  | some s =>
    rw [hx, Option.bind_some] at h1
    have : s = (t, []) := by
      have e : (tokens []).bind (fun ts => runLines inc (fun x => (E x).isSome) s (splitLines ts)) = some s := rfl
      rw [e] at h1
      cases h1
      rfl
    subst this
    refine after_table ?_
    rw [h2, hx]
    rfl

theorem whole_guarded {g inner : Str} (hg : WordText g) {ts : List T} (ht : tokens inner = some ts) : ∃ x, Whole (guardedText g inner) x := by
  have hi : WordText (str% "ifndef") := ⟨by decide, by decide, by decide⟩
  have hd : WordText (str% "define") := ⟨by decide, by decide, by decide⟩
  have e : guardedText g inner = ['\n'] ++ (('#' :: (str% "ifndef" ++ ' ' :: (g ++ ['\n']))) ++ (('#' :: (str% "define" ++ ' ' :: (g ++ ['\n']))) ++
      (['\n'] ++ ((inner ++ ['\n']) ++ (str% "#endif //" ++ g ++ str% "\n"))))) := by
    simp [guardedText]
  rw [e]
  exact ⟨_, whole_append whole_blank (whole_append (whole_hash hi hg) (whole_append (whole_hash hd hg) (whole_append whole_blank (whole_append (whole_of_tokens ht) (whole_endif hg.word)))))⟩

/-- A guarded text may be included any number of times. -/
theorem C105_times {g inner : Str} (hg : WordText g) (hE : E g = none) (h : after inc (withEmpty E g) inner = some E') (hs : E' g ≠ none) (n : Nat) :
    after inc E (List.replicate (n + 1) (guardedText g inner)).flatten = some E' := by
  obtain ⟨ts, t, ht, -, -⟩ := after_split h
  obtain ⟨x, hw⟩ := whole_guarded hg ht
  rw [List.replicate_succ, List.flatten_cons, after_more hw (C105_first hg hE h)]
  induction n with
  | zero => exact after_nil inc E'
  | succ n ih =>
    rw [List.replicate_succ, List.flatten_cons, after_more hw (C105_again hg hs h)]
    exact ih

/-! ### The header -/

/-- Text that does nothing. -/
def Quiet (a : Str) : Prop := ∀ (inc : List T → Table) (E : Str → Option Macro) (b : Str), after inc E (a ++ b) = after inc E b

theorem Quiet.append {a b : Str} (ha : Quiet a) (hb : Quiet b) : Quiet (a ++ b) := fun inc E c => by
  rw [List.append_assoc, ha, hb]

theorem quiet_nil : Quiet [] := fun _ _ _ => rfl

theorem quiet_whole {a : Str} {x : List T} (hw : Whole a x) (h : ∀ (inc : List T → Table) D, runLines inc D ([], []) (splitLines x) = some ([], [])) : Quiet a := fun inc E b => by
  have := after_table (inc := inc) (E := E) (a := a) (b := b) (t := []) (by rw [run_whole hw, h]; rfl)
  rw [this]
  rfl

theorem quiet_calm {a : Str} (h : CalmText .code .code a) : Quiet a := by
  obtain ⟨h1, rfl | ⟨c', rfl⟩⟩ := h
  · exact quiet_nil
  · obtain ⟨x, wx, hx⟩ := calm_whole h1
    exact quiet_whole wx fun inc D => runLines_noHash inc D ([], []) hx

theorem note_calm (b : Bool) {date : Str} (h : ∀ c ∈ date, c ≠ '\\' ∧ c ≠ '\n') : CalmText .code .code (noteText b date) := by
  have h' : ∀ c ∈ (if b then date else []), c ≠ '\\' ∧ c ≠ '\n' := by
    cases b
    · simp
    · exact h
  have e1 : absRun .line (if b then date else []) = some .line := absRun_stay fun c hc => by
    obtain ⟨h1, h2⟩ := h' c hc
    unfold absChar
    split
    · rfl
    · simp [absOther, h1, h2]
  refine ⟨?_, .inr ⟨str% "// Do not edit this file!\n// It was automatically generated by gendlopen" ++
    (if b then date else []) ++ str% ".\n// All changes made will be lost.\n", by simp [noteText]⟩⟩
  unfold noteText
  rw [absRun_append, absRun_append, show absRun .code (str% "// Do not edit this file!\n// It was automatically generated by gendlopen") = some .line from by decide +kernel,
    Option.bind_some, e1, Option.bind_some]
  decide +kernel

theorem absRun_renamed (hp : Prefixes u l) (a : Ab) (d : Str) : absRun a (renamedLine u l d) = absRun a d := by
  rw [← absPieces_pieces, pieces_renamedLine hp, ← absPieces_pieces]
  generalize pieces d = ps
  induction ps generalizing a with
  | nil => rfl
  | cons p r ih =>
    cases p with
    | word w => exact ih _
    | other c =>
      show (absOther a c).bind _ = (absOther a c).bind _
      cases absOther a c with
      | none => rfl
      | some a' => exact ih a'

theorem absRun_lines (hp : Prefixes u l) (a : Ab) (ls : List Str) : absRun a (unlines (ls.map (renamedLine u l))) = absRun a (unlines ls) := by
  induction ls generalizing a with
  | nil => rfl
  | cons d ls ih =>
    have e : ∀ (x : Str) (xs : List Str), unlines (x :: xs) = x ++ (str% "\n" ++ unlines xs) := fun x xs => by simp [unlines]
    rw [List.map_cons, e, e, absRun_append, absRun_append, absRun_renamed hp]
    cases absRun a d with
    | none => rfl
    | some b =>
      simp only [Option.bind_some, absRun_append]
      cases absRun b (str% "\n") with
      | none => rfl
      | some c => exact ih c

theorem license_calm (s : Settings) (hp : PrefixOk s.pfx) {L : List Entry} (hL : compiledList .license = some L) : CalmText .code .code (savedText s L) := by
  have hpp := prefixes_of hp
  have h : ∀ d ∈ texts .license, markerLine d = none ∧ firstKind (parts d) = none := by
    intro d hd
    have := List.all_eq_true.mp plain_license d hd
    simpa using this
  have e : savedText s L = unlines ((texts .license).map (renamedLine (toUpper s.pfx) (toLower s.pfx))) := by
    rw [C94_saved s hp .skip [] [] .license (.inl rfl) L hL, if_neg (by simp), List.nil_append]
    refine congrArg unlines ?_
    unfold instantiate
    have e := shown_plain .skip (ds := texts .license) (fun d hd => (h d hd).1) []
    rw [List.append_nil, show shown .skip none [] = [] from rfl, List.append_nil] at e
    rw [show (blocks (lines .license)).map joinLines = texts .license from rfl, e]
    exact written_lines hpp [] [] (List.all_eq_true.mpr fun d hd => by simpa using (h d hd).2)
  rw [e]
  refine ⟨?_, ?_⟩
  · rw [absRun_lines hpp]
    decide +kernel
  · have hne : (texts .license).map (renamedLine (toUpper s.pfx) (toLower s.pfx)) ≠ [] := by
      have : texts .license ≠ [] := by decide +kernel
      simpa using this
    have e2 : ∀ xs : List Str, xs ≠ [] → ∃ c, unlines xs = c ++ ['\n'] := by
      intro xs
      induction xs with
      | nil => intro h; exact absurd rfl h
      | cons x xs ih =>
        intro _
        have e : unlines (x :: xs) = x ++ (str% "\n" ++ unlines xs) := by simp [unlines]
        cases xs with
        | nil => exact ⟨x, by rw [e]; simp [unlines]⟩
        | cons y ys =>
          obtain ⟨c, hc⟩ := ih (by simp)
          exact ⟨x ++ (str% "\n" ++ c), by rw [e, hc]; simp⟩
    exact .inr (e2 _ hne)

theorem digits_piece (n : Nat) : pieces (Nat.toDigits 10 n) = [.word (Nat.toDigits 10 n)] ∧ startsDigit (Nat.toDigits 10 n) = true := by
  have hd : ∀ c ∈ Nat.toDigits 10 n, isDigit c = true := fun c hc => by
    have := Nat.isDigit_of_mem_toDigits (b := 10) (by omega) (by omega) hc
    simp only [Char.isDigit, Bool.and_eq_true, decide_eq_true_eq] at this
    simp only [isDigit, Bool.and_eq_true, decide_eq_true_eq]
    exact this
  have hne : Nat.toDigits 10 n ≠ [] := by
    intro h
    have := Nat.length_toDigits_pos (b := 10) (n := n)
    rw [h] at this
    exact absurd this (by decide)
  constructor
  · have := pieces_words (w := Nat.toDigits 10 n) (fun c hc => by simp [isWord, isAlnum, hd c hc]) hne (s := []) (fun v r e => nomatch e)
    rw [List.append_nil] at this
    exact this
  · cases h : Nat.toDigits 10 n with
    | nil => exact absurd h hne
    | cons c r =>
      have := hd c (by rw [h]; simp)
      simpa [startsDigit, isDigit] using this

theorem line_whole (n : Nat) {name : Str} (h : LiteralText name) :
    Whole (str% "#line " ++ Nat.toDigits 10 n ++ str% " \"" ++ name ++ str% "\"\n")
      [⟨true, .punct (str% "#")⟩, ⟨false, .ident (str% "line")⟩, ⟨true, .num (Nat.toDigits 10 n)⟩, ⟨true, .str [] name⟩] := by
  refine ⟨?_, str% "#line " ++ Nat.toDigits 10 n ++ str% " \"" ++ name ++ str% "\"", by simp⟩
  obtain ⟨h1, h2⟩ := digits_piece n
  have e : str% "#line " ++ Nat.toDigits 10 n ++ str% " \"" ++ name ++ str% "\"\n" = str% "#line" ++ ' ' :: (Nat.toDigits 10 n ++ ' ' :: (str% "\"" ++ name ++ '"' :: ['\n'])) := by simp
  rw [e, pieces_sep _ (by decide), pieces_sep _ (by decide), h1, lex_append]
  show (some _).bind _ = _
  rw [Option.bind_some]
  show ((lex (.word false (str% "line")) (.other ' ' :: .word (Nat.toDigits 10 n) :: .other ' ' :: pieces _))).map _ = _
  rw [lex]
  show ((lex (.gap true) (.word (Nat.toDigits 10 n) :: .other ' ' :: pieces _)).map _).map _ = _
  have s1 : step (.gap true) (.word (Nat.toDigits 10 n)) = some (.num true (Nat.toDigits 10 n), []) := by
    simp [step, begin, h2]
  rw [lex, s1, Option.bind_some, lex]
  have s2 : step (.num true (Nat.toDigits 10 n)) (.other ' ') = some (.gap true, [⟨true, .num (Nat.toDigits 10 n)⟩]) := by
    simp only [step]
    rw [if_neg (by simp)]
    rfl
  rw [s2, Option.bind_some, lex_literal h]
  rfl

theorem quiet_line (n : Nat) (on : Bool) {name : Str} (h : LiteralText name) : Quiet (lineDirectiveText n on name).1 := by
  unfold lineDirectiveText
  cases on
  · exact quiet_nil
  · exact quiet_whole (line_whole _ h) fun inc D => by
      rw [splitLines_one (by simp)]
      rfl

/-- The text inside of the guard. -/
def insideText (env : Gen.Env) (s : Settings) (defines body : Str) (k : Nat) : Str :=
  (if Format.isCxx s.format then [] else str% "#ifdef __cplusplus\nextern \"C\" {\n#endif\n\n") ++
  savedText s (env.builtin .filenameMacros) ++ extraDefines defines ++ includesText s.includes (Format.isCxx s.format) ++
  typedefsText env.symbols.typedefs ++ body ++
  (lineDirectiveText (headLines env s + (lineDirectiveText (headLines env s) s.lineDirective (headerName s)).2 + midLines env s defines + k) s.lineDirective (headerName s)).1 ++
  (if Format.isCxx s.format then [] else str% "#ifdef __cplusplus\n} /* extern \"C\" */\n#endif\n")

theorem header_guarded (env : Gen.Env) (s : Settings) (defines body : Str) (k : Nat) (hp : s.pragmaOnce = false) :
    headerText env s defines body k = headText env s ++ (lineDirectiveText (headLines env s) s.lineDirective (headerName s)).1 ++
      guardedText (guardName (headerName s) (toUpper s.pfx)) (insideText env s defines body k) := by
  unfold headerText midText guardBegin guardEnd guardedText insideText
  rw [hp]
  simp

theorem guard_text (header pfx : Str) : WordText (guardName header (toUpper pfx)) :=
  ⟨by simp [guardName], Gdo.CForm.guard_word header (toUpper pfx) (Pfx.C30_upper _), rfl⟩

/-- What must be known about the settings. -/
structure GuardGiven (env : Gen.Env) (s : Settings) : Prop where
  guard : s.pragmaOnce = false
  pfx : PrefixOk s.pfx
  license : compiledList .license = some (env.builtin .license)
  date : ∀ c ∈ env.date, c ≠ '\\' ∧ c ≠ '\n'
  name : LiteralText (headerName s)

/-- The text in front of the guard does nothing. -/
theorem lead_quiet {env : Gen.Env} {s : Settings} (h : GuardGiven env s) : Quiet (headText env s ++ (lineDirectiveText (headLines env s) s.lineDirective (headerName s)).1) :=
  (quiet_calm ((note_calm _ h.date).append (license_calm s h.pfx h.license))).append (quiet_line _ _ h.name)

/-- The header without a guard that is defined. -/
theorem C105_header_first {env : Gen.Env} {s : Settings} (h : GuardGiven env s) (defines body : Str) (k : Nat)
    (hE : E (guardName (headerName s) (toUpper s.pfx)) = none)
    (hb : after inc (withEmpty E (guardName (headerName s) (toUpper s.pfx))) (insideText env s defines body k) = some E') :
    after inc E (headerText env s defines body k) = some E' := by
  rw [header_guarded env s defines body k h.guard, lead_quiet h]
  exact C105_first (guard_text _ _) hE hb

/-- The header with a guard that is defined, and anything else changed. -/
theorem C105_header_again {env : Gen.Env} {s : Settings} (h : GuardGiven env s) (defines body : Str) (k : Nat)
    (hE : E (guardName (headerName s) (toUpper s.pfx)) ≠ none) {inc0 : List T → Table} {E0 E1 : Str → Option Macro}
    (hb : after inc0 E0 (insideText env s defines body k) = some E1) :
    after inc E (headerText env s defines body k) = some E := by
  rw [header_guarded env s defines body k h.guard, lead_quiet h]
  exact C105_again (guard_text _ _) hE hb

/-- The header included any number of times. -/
theorem C105_header_times {env : Gen.Env} {s : Settings} (h : GuardGiven env s) (defines body : Str) (k : Nat)
    (hE : E (guardName (headerName s) (toUpper s.pfx)) = none)
    (hb : after inc (withEmpty E (guardName (headerName s) (toUpper s.pfx))) (insideText env s defines body k) = some E')
    (hs : E' (guardName (headerName s) (toUpper s.pfx)) ≠ none) (n : Nat) :
    after inc E (List.replicate (n + 1) (headerText env s defines body k)).flatten = some E' := by
  have key : ∀ (E1 : Str → Option Macro) b, after inc E1 (headerText env s defines body k ++ b) =
      after inc E1 (guardedText (guardName (headerName s) (toUpper s.pfx)) (insideText env s defines body k) ++ b) := by
    intro E1 b
    rw [header_guarded env s defines body k h.guard, List.append_assoc, lead_quiet h]
  obtain ⟨ts, t, ht, -, -⟩ := after_split hb
  obtain ⟨x, hw⟩ := whole_guarded (guard_text (headerName s) s.pfx) ht
  rw [List.replicate_succ, List.flatten_cons, key, after_more hw (C105_first (guard_text _ _) hE hb)]
  induction n with
  | zero => exact after_nil inc E'
  | succ n ih =>
    rw [List.replicate_succ, List.flatten_cons, key, after_more hw (C105_again (guard_text _ _) hs hb)]
    exact ih

/-- With `#pragma once`, the header is what is inside. -/
theorem C105_pragma {env : Gen.Env} {s : Settings} (hpo : s.pragmaOnce = true) (hp : PrefixOk s.pfx) (hl : compiledList .license = some (env.builtin .license))
    (hd : ∀ c ∈ env.date, c ≠ '\\' ∧ c ≠ '\n') (hn : LiteralText (headerName s)) (defines body : Str) (k : Nat) :
    after inc E (headerText env s defines body k) = after inc E (insideText env s defines body k) := by
  have e : headerText env s defines body k = (headText env s ++ (lineDirectiveText (headLines env s) s.lineDirective (headerName s)).1 ++ str% "\n#pragma once\n\n") ++
      insideText env s defines body k := by
    unfold headerText midText guardBegin guardEnd insideText
    rw [hpo]
    simp
  have hq : Quiet (str% "\n#pragma once\n\n") := by
    refine quiet_whole (x := [nlT, ⟨true, .punct (str% "#")⟩, ⟨false, .ident (str% "pragma")⟩, ⟨true, .ident (str% "once")⟩, nlT]) ⟨by decide +kernel, str% "\n#pragma once\n", rfl⟩ fun inc D => rfl
  rw [e]
  exact (((quiet_calm ((note_calm _ hd).append (license_calm s hp hl))).append (quiet_line _ _ hn)).append hq) inc E _

/-! ### Examples -/

/-- A text that defines a macro once. -/
example : ∃ E', after (fun _ => []) (withEmpty (fun _ => none) (str% "_A_")) (str% "#ifdef X\n#error twice\n#endif\n#define X 1\n") = some E' ∧
    (E' (str% "X")).isSome ∧ E' (str% "_A_") ≠ none := by
  refine ⟨_, after_run (t := [(str% "X", some ⟨none, false, [⟨true, .num (str% "1")⟩]⟩)]) (by decide +kernel), by decide +kernel, by decide +kernel⟩

example : WordText (str% "_A_") := ⟨by decide, by decide, by decide⟩

/-- Without its guard, it cannot be included twice. -/
example : after (fun _ => []) (fun _ => none) (str% "#ifdef X\n#error twice\n#endif\n#define X 1\n#ifdef X\n#error twice\n#endif\n#define X 1\n") = none := by
  unfold after
  have : definitions (fun _ => []) (fun x => ((fun _ => none : Str → Option Macro) x).isSome)
    (str% "#ifdef X\n#error twice\n#endif\n#define X 1\n#ifdef X\n#error twice\n#endif\n#define X 1\n") = none := by decide +kernel
  rw [this]
  rfl

/-- A name that is not mentioned. -/
example : Unmentioned (str% "_A_") (str% "int _A_B; // _A_\n") := by
  intro ts h x hx e
  have h' : tokens (str% "int _A_B; // _A_\n") = some [⟨true, .ident (str% "int")⟩, ⟨true, .ident (str% "_A_B")⟩, ⟨false, .punct (str% ";")⟩, ⟨false, .nl⟩] := by decide +kernel
  rw [h'] at h
  cases h
  have : ∀ x ∈ ([⟨true, .ident (str% "int")⟩, ⟨true, .ident (str% "_A_B")⟩, ⟨false, .punct (str% ";")⟩, ⟨false, .nl⟩] : List T), x.tok ≠ .ident (str% "_A_") := by decide
  exact this x hx e

/-- A header with the real license text. -/
def guardEnv : Gen.Env := { demoEnv with builtin := fun t => if t = .license then Builtin.list .license else [] }

example : GuardGiven guardEnv { pragmaOnce := false } :=
  ⟨rfl, ⟨by decide, by rintro ⟨c, r, h, hd⟩; cases h; revert hd; decide⟩, compiledList_eq .license (ok_all .license), by decide, by unfold LiteralText; decide⟩

example : guardName (headerName { pragmaOnce := false }) (toUpper (str% "gdo")) = str% "_GDO_GDO_H_" := by decide

example : ∃ E', after (fun _ => []) (withEmpty (fun _ => none) (str% "_GDO_GDO_H_")) (insideText guardEnv { pragmaOnce := false } (str% "#define A\n") (str% "#define X 1\n") 1) = some E' ∧
    (E' (str% "X")).isSome ∧ E' (str% "_GDO_GDO_H_") ≠ none := by
  refine ⟨_, after_run (t := [(str% "X", some ⟨none, false, [⟨true, .num (str% "1")⟩]⟩), (str% "A", some emptyMacro)]) (by decide +kernel), by decide +kernel, by decide +kernel⟩

end Gdo.Cpp
