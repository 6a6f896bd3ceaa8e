import Verif.Props.CMacroRefuse

/-!
C106: the whole text of the generated C header.
-/

set_option maxRecDepth 20000

namespace Gdo.Cpp
open Gdo Rename Tmpl Builtin Gdo.Sub Opt Tpl Gen Pfx

variable {u l : Str} {E E' E1 : Str → Option Macro} {inc : List T → Table} {D : Str → Bool} {protos objs : List Proto}

/-! ### Text that ends with a line -/

theorem step_splice {st : Lex} {p : Piece} {ts : List T} (h : step st p = some (.splice, ts)) : p = .other '\\' := by
  have hw : ∀ sp w, (begin sp (.word w)).1 ≠ .splice := by
    intro sp w
    simp only [begin]
    split <;> exact fun e => nomatch e
  cases p with
  | word w =>
    exfalso
    cases st <;> simp only [step, next] at h <;> repeat' split at h
    all_goals try (cases h; done)
    all_goals
      simp only [Option.some.injEq, Prod.mk.injEq] at h
      exact hw _ _ (by first | exact h.1 | exact congrArg Prod.fst h)
  | other c =>
    by_cases hc : c = '\\'
    · rw [hc]
    · exfalso
      have hb : ∀ sp, (begin sp (.other c)).1 ≠ .splice := by
        intro sp
        simp only [begin, if_neg hc]
        repeat' split
        all_goals exact fun e => nomatch e
      cases st <;> simp only [step, next] at h <;> repeat' split at h
      all_goals try (cases h; done)
      all_goals
        simp only [Option.some.injEq, Prod.mk.injEq] at h
        exact hb _ (by first | exact h.1 | exact congrArg Prod.fst h)

/-- A text with tokens that ends with a line break behind anything but a backslash is whole. -/
theorem whole_end {a : Str} {ts : List T} (h : tokens (a ++ ['\n']) = some ts) (ha : ∀ r, a ≠ r ++ ['\\']) : ∃ x, Whole (a ++ ['\n']) x := by
  unfold tokens at h
  have e : pieces (a ++ ['\n']) = pieces a ++ [.other '\n'] := by
    rw [pieces_sep _ (by decide)]
    rfl
  rw [e, lex_append] at h
  cases hl : lex (.gap true) (pieces a) with
  | none => rw [hl] at h; cases h
  | some y =>
    obtain ⟨st, xs⟩ := y
    rw [hl, Option.bind_some, lex] at h
    have key : ∀ {zs : List T}, step st (.other '\n') = some (.gap true, zs ++ [nlT]) → ∃ x, Whole (a ++ ['\n']) x := by
      intro zs hz
      refine ⟨xs ++ zs, ?_, a, rfl⟩
      rw [e, lex_append, hl, Option.bind_some, lex]
      show Option.map _ ((step st (.other '\n')).bind _) = _
      rw [hz, Option.bind_some, lex]
      simp
    cases st with
    | gap sp => exact key (zs := []) rfl
    | word sp w =>
      refine key (zs := [⟨sp, .ident w⟩]) ?_
      simp only [step]
      rw [if_neg (by simp), if_neg (by simp)]
      rfl
    | num sp w =>
      refine key (zs := [⟨sp, .num w⟩]) ?_
      simp only [step]
      rw [if_neg (by simp)]
      rfl
    | punct sp w =>
      refine key (zs := [⟨sp, .punct w⟩]) ?_
      simp only [step]
      rw [if_neg (by simp), if_neg (by simp), if_neg]
      · rfl
      · intro hm
        have : ∀ q ∈ punctuators, '\n' ∉ q := by decide
        exact this _ hm (by simp)
    | line => exact key (zs := []) rfl
    | splice =>
      exfalso
      rcases List.eq_nil_or_concat (pieces a) with hn | ⟨r, p, hr⟩
      · rw [hn] at hl
        cases hl
      · rw [List.concat_eq_append] at hr
        rw [hr, lex_append] at hl
        cases hq : lex (.gap true) r with
        | none => rw [hq] at hl; cases hl
        | some z =>
          rw [hq, Option.bind_some, lex] at hl
          cases hs : step z.1 p with
          | none => rw [hs] at hl; cases hl
          | some v =>
            obtain ⟨v1, v2⟩ := v
            rw [hs] at hl
            simp only [Option.bind_some, lex, Option.map_some, Option.some.injEq, Prod.mk.injEq] at hl
            have hp := step_splice (hs.trans (by rw [hl.1]))
            refine ha (Rename.textOf r) ?_
            rw [← pieces_text a, hr, hp]
            simp [Rename.textOf, Piece.text]
    | str _ _ _ => cases h
    | strEsc _ _ _ => cases h
    | chr _ _ _ => cases h
    | chrEsc _ _ _ => cases h
    | block => cases h
    | star => cases h

theorem whole_after {a : Str} (h : after inc E (a ++ ['\n']) = some E') (ha : ∀ r, a ≠ r ++ ['\\']) : ∃ x, Whole (a ++ ['\n']) x := by
  obtain ⟨ts, _, ht, _⟩ := after_split h
  exact whole_end ht ha

/-! ### The front -/

/-- The text inside of the guard in front of the templates. -/
def frontText (env : Gen.Env) (s : Settings) (defines : Str) : Str :=
  savedText s (env.builtin .filenameMacros) ++ extraDefines defines ++ includesText s.includes (Format.isCxx s.format) ++ typedefsText env.symbols.typedefs

/-- It ends with an empty line. -/
theorem front_end (env : Gen.Env) (s : Settings) (defines : Str) : ∃ a, frontText env s defines = (a ++ ['\n']) ++ ['\n'] := by
  have inc1 : ∃ a, includesText s.includes (Format.isCxx s.format) = (a ++ ['\n']) ++ ['\n'] := by
    unfold includesText
    rcases List.eq_nil_or_concat s.includes with h | ⟨r, e, h⟩
    · rw [h]
      cases Format.isCxx s.format
      · exact ⟨str% "/* extra headers */\n#include <stddef.h>\n#include <string.h>", rfl⟩
      · exact ⟨str% "/* extra headers */\n#include <cstddef>\n#include <cstring>", rfl⟩
    · rw [h, List.concat_eq_append, List.flatMap_append]
      refine ⟨str% "/* extra headers */\n" ++ (if Format.isCxx s.format then str% "#include <cstddef>\n#include <cstring>\n" else str% "#include <stddef.h>\n#include <string.h>\n") ++
        (r.flatMap fun e => str% "#include " ++ e ++ str% "\n") ++ (str% "#include " ++ e), ?_⟩
      simp
  unfold frontText
  cases h : env.symbols.typedefs.isEmpty with
  | true =>
    obtain ⟨a, ha⟩ := inc1
    refine ⟨savedText s (env.builtin .filenameMacros) ++ extraDefines defines ++ a, ?_⟩
    rw [ha, typedefsText, if_pos h]
    simp
  | false =>
    rw [typedefsText, if_neg (by simp [h])]
    rcases List.eq_nil_or_concat env.symbols.typedefs with h' | ⟨r, e, h'⟩
    · rw [h'] at h
      cases h
    · rw [h', List.concat_eq_append, List.flatMap_append]
      refine ⟨savedText s (env.builtin .filenameMacros) ++ extraDefines defines ++ includesText s.includes (Format.isCxx s.format) ++ (str% "/* typedefs */\n" ++
        (r.flatMap fun e => str% "typedef " ++ e ++ str% ";\n") ++ (str% "typedef " ++ e ++ str% ";")), ?_⟩
      simp

theorem front_more {env : Gen.Env} {s : Settings} {defines : Str} (h : after inc E (frontText env s defines) = some E1) :
    ∃ x, Whole (frontText env s defines) x := by
  obtain ⟨a, ha⟩ := front_end env s defines
  rw [ha] at h ⊢
  exact whole_after h fun r e => by
    have := congrArg List.getLast? e
    simp at this

/-- The beginning of the text inside of the guard. -/
def opening : Str := str% "#ifdef __cplusplus\nextern \"C\" {\n#endif\n\n"

theorem whole_opening : Whole opening [⟨true, .punct (str% "#")⟩, ⟨false, .ident (str% "ifdef")⟩, ⟨true, .ident (str% "__cplusplus")⟩, nlT, ⟨true, .ident (str% "extern")⟩,
    ⟨true, .str [] (str% "C")⟩, ⟨true, .punct (str% "{")⟩, nlT, ⟨true, .punct (str% "#")⟩, ⟨false, .ident (str% "endif")⟩, nlT] :=
  ⟨by decide +kernel, str% "#ifdef __cplusplus\nextern \"C\" {\n#endif\n", rfl⟩

theorem quiet_opening : Quiet opening := by
  refine quiet_whole whole_opening fun inc D => ?_
  show (Option.map _ (some ((⟨D (str% "__cplusplus"), D (str% "__cplusplus"), false⟩ : Cc.Cond) :: []))).bind _ = _
  rfl

/-- The end of the header. -/
def closing : Str := str% "#ifdef __cplusplus\n} /* extern \"C\" */\n#endif\n"

theorem quiet_closing : Quiet closing := by
  refine quiet_whole (x := [⟨true, .punct (str% "#")⟩, ⟨false, .ident (str% "ifdef")⟩, ⟨true, .ident (str% "__cplusplus")⟩, nlT, ⟨true, .punct (str% "}")⟩, nlT,
    ⟨true, .punct (str% "#")⟩, ⟨false, .ident (str% "endif")⟩]) ⟨by decide +kernel, str% "#ifdef __cplusplus\n} /* extern \"C\" */\n#endif", rfl⟩ fun inc D => ?_
  show (Option.map _ (some ((⟨D (str% "__cplusplus"), D (str% "__cplusplus"), false⟩ : Cc.Cond) :: []))).bind _ = _
  rfl

/-! ### Inside of the guard -/

theorem guard_open {g a : Str} {x : List T} (hg : WordText g) (hE : E g = none) (hw : Whole a x) (h : after inc (withEmpty E g) a = some E1) :
    ∃ t, (∀ y, isDefined (fun x => (E x).isSome) t y = (E1 y).isSome) ∧
      ∀ b, run inc (fun x => (E x).isSome) ([], []) (guardedText g (a ++ b)) = run inc (fun x => (E x).isSome) (t, [⟨true, true, false⟩]) (b ++ (str% "\n#endif //" ++ g ++ str% "\n")) := by
  obtain ⟨ts, t, ht, hr, rfl⟩ := after_split h
  have e : (fun x => (withEmpty E g x).isSome) = isDefined (fun x => (E x).isSome) [(g, some emptyMacro)] := by
    rw [← known_single, isDefined_known]
  have hr' : runLines inc (isDefined (fun x => (E x).isSome) [(g, some emptyMacro)]) ([], []) (splitLines x) = some (t, []) := by
    have h1 := run_whole hw inc (fun x => (withEmpty E g x).isSome) ([], []) []
    rw [List.append_nil] at h1
    unfold run at h1
    rw [ht, Option.bind_some, hr] at h1
    rw [← e]
    generalize runLines inc (fun x => (withEmpty E g x).isSome) ([], []) (splitLines x) = y at h1
    cases y with
    | none => cases h1
    | some y => exact h1.symm
  have h1 : runLines inc (fun x => (E x).isSome) ([(g, some emptyMacro)], []) (splitLines x) = some (t ++ [(g, some emptyMacro)], []) := by
    rw [runLines_start, hr']
    rfl
  have h2 := runLines_base (base := [⟨true, true, false⟩]) rfl h1
  refine ⟨t ++ [(g, some emptyMacro)], fun y => ?_, fun b => ?_⟩
  · rw [isDefined_isSome, ← known_append, known_single]
  · have hi : WordText (str% "ifndef") := ⟨by decide, by decide, by decide⟩
    have hd : WordText (str% "define") := ⟨by decide, by decide, by decide⟩
    have e2 : guardedText g (a ++ b) = ['\n'] ++ (('#' :: (str% "ifndef" ++ ' ' :: (g ++ ['\n']))) ++ (('#' :: (str% "define" ++ ' ' :: (g ++ ['\n']))) ++
        (['\n'] ++ (a ++ (b ++ (str% "\n#endif //" ++ g ++ str% "\n")))))) := by
      simp [guardedText]
    rw [e2, run_whole whole_blank, show splitLines [] = [[]] from rfl]
    show run inc (fun x => (E x).isSome) ([], []) _ = _
    rw [run_whole (whole_hash hi hg), splitLines_one (by simp)]
    have e1 : runLines inc (fun x => (E x).isSome) ([], []) [[⟨true, .punct (str% "#")⟩, ⟨false, .ident (str% "ifndef")⟩, ⟨true, .ident g⟩]] = some ([], [⟨true, true, false⟩]) := by
      show (Option.map _ (some ((⟨!isDefined (fun x => (E x).isSome) [] g, !isDefined (fun x => (E x).isSome) [] g, false⟩ : Cc.Cond) :: []))).bind _ = _
      rw [show isDefined (fun x => (E x).isSome) [] g = false by simp [isDefined, hE]]
      rfl
    rw [e1, Option.bind_some, run_whole (whole_hash hd hg), splitLines_one (by simp)]
    show (run inc (fun x => (E x).isSome) ([(g, some emptyMacro)], [⟨true, true, false⟩]) _) = _
    rw [run_whole whole_blank, show splitLines [] = [[]] from rfl]
    show (run inc (fun x => (E x).isSome) ([(g, some emptyMacro)], [⟨true, true, false⟩]) _) = _
    rw [run_whole hw]
    have h4 : runLines inc (fun x => (E x).isSome) ([(g, some emptyMacro)], [⟨true, true, false⟩]) (splitLines x) = some (t ++ [(g, some emptyMacro)], [] ++ [⟨true, true, false⟩]) := h2
    rw [h4]
    rfl

/-- The end of `c.h`. -/
theorem cHeader_end (s : Settings) (hp : Prefixes (toUpper s.pfx) (toLower s.pfx)) (protos objs : List Proto) : ∃ a, templateText s protos objs .cHeader = (a ++ ['\n']) ++ ['\n'] := by
  rw [header_text]
  have e : (texts .cHeader).drop 241 = ((texts .cHeader).drop 241).take 28 ++ [str% "#endif //GDO_SEPARATE ...", str% ""] := by decide +kernel
  unfold headerPart
  rw [e, List.flatMap_append, List.flatMap_cons, List.flatMap_cons, written_plain hp protos objs (d := str% "#endif //GDO_SEPARATE ...") (by decide +kernel),
    show written (toUpper s.pfx) (toLower s.pfx) protos objs (str% "") = [[]] from by rfl, unlines_append]
  refine ⟨entriesText (toUpper s.pfx) (toLower s.pfx) protos objs (leadEntries s.lineDirective) ++ (pointerPart (toUpper s.pfx) (toLower s.pfx) protos objs ++
    (entriesText (toUpper s.pfx) (toLower s.pfx) protos objs (midEntries s.names) ++ (unlines ((((texts .cHeader).drop 241).take 28).flatMap (written (toUpper s.pfx) (toLower s.pfx) protos objs)) ++
      renamedLine (toUpper s.pfx) (toLower s.pfx) (str% "#endif //GDO_SEPARATE ...")))), ?_⟩
  simp [unlines]

/-! ### C106 -/

/-- What must be known about the settings for the text around the templates. -/
structure Leads (env : Gen.Env) (s : Settings) : Prop where
  pfx : PrefixOk s.pfx
  license : compiledList .license = some (env.builtin .license)
  date : ∀ c ∈ env.date, c ≠ '\\' ∧ c ≠ '\n'
  name : LiteralText (headerName s)

/-- The beginning and the end for C code in C++. -/
def openingOf (s : Settings) : Str := if Format.isCxx s.format then [] else opening

def closingOf (s : Settings) : Str := if Format.isCxx s.format then [] else closing

theorem quiet_openingOf (s : Settings) : Quiet (openingOf s) := by
  unfold openingOf
  split
  · exact quiet_nil
  · exact quiet_opening

theorem quiet_closingOf (s : Settings) : Quiet (closingOf s) := by
  unfold closingOf
  split
  · exact quiet_nil
  · exact quiet_closing

theorem whole_openingOf (s : Settings) {a : Str} {x : List T} (h : Whole a x) : ∃ y, Whole (openingOf s ++ a) y := by
  unfold openingOf
  split
  · exact ⟨x, h⟩
  · exact ⟨_, whole_append whole_opening h⟩

/-- What is defined inside of the guard. -/
def opened (s : Settings) (E : Str → Option Macro) : Str → Option Macro :=
  if s.pragmaOnce then E else withEmpty E (guardName (headerName s) (toUpper s.pfx))

theorem inside_text (env : Gen.Env) (s : Settings) (defines body : Str) (k : Nat) :
    insideText env s defines body k = openingOf s ++ (frontText env s defines ++ (body ++
      ((lineDirectiveText (headLines env s + (lineDirectiveText (headLines env s) s.lineDirective (headerName s)).2 + midLines env s defines + k) s.lineDirective (headerName s)).1 ++ closingOf s))) := by
  unfold insideText frontText openingOf closingOf opening closing
  split <;> simp

/-- A configuration that is refused: the text of the header is not accepted.  `E1`: what is
defined in front of the templates. -/
theorem C106_header_refused {env : Gen.Env} {s : Settings} (h : Leads env s) (defines : Str) (hinc : ∀ r, ∀ x ∈ checkedNames (toUpper s.pfx), (inc r).lookup x = none)
    (hg : E (guardName (headerName s) (toUpper s.pfx)) = none) (hf : after inc (opened s E) (frontText env s defines) = some E1) (protos objs : List Proto)
    (hr : refused s.names (fun x => (E1 x).isSome) (toUpper s.pfx) = true) (rest : Str) (k : Nat) :
    after inc E (headerText env s defines (templateText s protos objs .commonHeader ++ rest) k) = none := by
  obtain ⟨xf, wf⟩ := front_more hf
  unfold opened at hf
  cases hpo : s.pragmaOnce with
  | true =>
    rw [if_pos hpo] at hf
    rw [C105_pragma hpo h.pfx h.license h.date h.name, inside_text, quiet_openingOf, after_more wf hf, List.append_assoc]
    exact C106_refused s h.pfx hinc protos objs hr _
  | false =>
    rw [if_neg (by simp [hpo])] at hf
    have hG : GuardGiven env s := ⟨hpo, h.pfx, h.license, h.date, h.name⟩
    rw [header_guarded env s defines _ k hpo, lead_quiet hG, inside_text]
    obtain ⟨x, t1, c1, c2, c3, c4, c5⟩ := common_behind s h.pfx hinc E1
    have hw := c5 _ (wrap_free _ _) fun r => hinc r _ (List.mem_append_right _ (by simp))
    obtain ⟨_, wh⟩ := whole_openingOf s (whole_append wf c1)
    have hP : after inc (withEmpty E (guardName (headerName s) (toUpper s.pfx))) (openingOf s ++ (frontText env s defines ++ commonPart s)) = some (known E1 t1) := by
      rw [quiet_openingOf, after_more wf hf]
      have := run_whole c1 inc (fun x => (E1 x).isSome) ([], []) []
      rw [List.append_nil, c2] at this
      exact after_run this
    obtain ⟨t, g1, g2⟩ := guard_open (guard_text _ _) hg wh hP
    unfold templateText
    rw [C100_part s h.pfx]
    have e : ∀ y : Str, openingOf s ++ (frontText env s defines ++ (commonPart s ++ unlines (instantiate (toUpper s.pfx) (toLower s.pfx) s.names protos objs commonTail) ++ rest ++ y)) =
        (openingOf s ++ (frontText env s defines ++ commonPart s)) ++ (unlines (instantiate (toUpper s.pfx) (toLower s.pfx) s.names protos objs commonTail) ++ (rest ++ y)) := by
      intro y
      simp
    rw [e]
    unfold after
    rw [definitions_run, g2, List.append_assoc, run_tail (prefixes_of h.pfx) s.names protos objs rfl, g1, g1, g1, hw, c3, c4, ← refused_eq s.names (fun x => (E1 x).isSome), hr]
    rfl

/-! ### The names of `common.h` -/

/-- A text within another one. -/
def hasIn (p n : Str) : Bool := (List.range (n.length + 1)).any fun k => p.isPrefixOf (n.drop k)

theorem hasIn_of {p n a b : Str} (h : n = a ++ (p ++ b)) : hasIn p n = true := by
  unfold hasIn
  rw [List.any_eq_true]
  refine ⟨a.length, by rw [List.mem_range, h]; simp; omega, ?_⟩
  rw [h, List.drop_left, List.isPrefixOf_iff_prefix]
  exact ⟨b, rfl⟩

/-- The words behind the prefix. -/
def configWords : List Str :=
  [str% "WRAP_FUNCTIONS", str% "ENABLE_AUTOLOAD", str% "SEPARATE", str% "INCLUDED_IN_BODY", str% "DISABLE_ALIASING", str% "WRAP_VISIBILITY", str% "WRAP_IS_VISIBLE", str% "FUNC_ALIAS"]

/-- `common.h` defines no name that belongs to a symbol or to the configuration, apart from
the one for automatic loading. -/
theorem common_names {protos objs : List Proto} (hN : Names u l protos objs) (hs : ∀ p ∈ protos ++ objs, p.symbol ∉ commonDefined.map (newName u l)) :
    ∀ y ∈ symbolNames u l protos objs, y ≠ u ++ str% "_ENABLE_AUTOLOAD" → y ∉ commonDefined.map (newName u l) := by
  intro y hy ha hm
  obtain ⟨n, hn, e⟩ := List.mem_map.mp hm
  refine not_symbolName (y := y) (u := u) (l := l) (protos := protos) (objs := objs) ?_ ?_ ?_ ?_ hy
  · intro h
    by_cases hu : str% "GDO_" <+: n
    · obtain ⟨x, rfl⟩ := hu
      rw [newName_upper, h] at e
      exact hN.handle' x e.symm
    · by_cases hv : str% "_GDO_" <+: n
      · have last : ∀ n ∈ commonDefined, str% "_GDO_" <+: n → n.drop 5 ≠ [] ∧ (n.drop 5).getLast? ≠ some 'l' := by decide +kernel
        have h1 := last n hn hv
        obtain ⟨x, rfl⟩ := hv
        rw [newName_under, h] at e
        have h2 := hndl_last l
        rw [← e, ← List.append_assoc, List.getLast?_append] at h2
        have h3 : (str% "_GDO_" ++ x).drop 5 = x := rfl
        rw [h3] at h1
        cases hx : x.getLast? with
        | none => exact h1.1 (List.getLast?_eq_none_iff.mp hx)
        | some c =>
          rw [hx] at h1 h2
          exact h1.2 h2
      · have fix : ∀ n ∈ commonDefined, ¬ str% "GDO_" <+: n → ¬ str% "_GDO_" <+: n → fixedWord n = true ∧ ¬ str% "_hndl" <:+ n := by decide +kernel
        obtain ⟨f1, f2⟩ := fix n hn hu hv
        rw [newName_fixed f1, h] at e
        exact f2 ⟨l, e.symm⟩
  · intro w hw h
    by_cases hu : str% "GDO_" <+: n
    · have upper : ∀ n ∈ commonDefined, str% "GDO_" <+: n → n.drop 4 ∈ configWords → n = str% "GDO_ENABLE_AUTOLOAD" := by decide +kernel
      have h1 := upper n hn hu
      obtain ⟨x, rfl⟩ := hu
      rw [newName_upper, h] at e
      have h2 : x = w := prefixed_inj (u := u) e
      subst h2
      have h3 : x = str% "ENABLE_AUTOLOAD" := List.append_cancel_left (as := str% "GDO_") (h1 hw)
      exact ha (h.trans (by rw [h3]; rfl))
    · by_cases hv : str% "_GDO_" <+: n
      · obtain ⟨x, rfl⟩ := hv
        rw [newName_under, h] at e
        have h1 := under_word (a := x) (b := w) (by simpa using e)
        have : ∀ w ∈ configWords, w.head? ≠ some '_' := by decide
        exact this w hw (by rw [h1]; rfl)
      · have fix : ∀ n ∈ commonDefined, ¬ str% "GDO_" <+: n → ¬ str% "_GDO_" <+: n → fixedWord n = true ∧ ∀ w ∈ configWords, ¬ (str% "_" ++ w) <:+ n := by decide +kernel
        obtain ⟨f1, f2⟩ := fix n hn hu hv
        rw [newName_fixed f1, h] at e
        exact f2 w hw ⟨u, e.symm⟩
  · intro p hp h
    exact hs p hp (h ▸ hm)
  · have key : ∀ w ∈ [str% "RAWPTR_", str% "PTR_"], ∀ q, y ≠ u ++ (str% "_" ++ (w ++ q)) := by
      intro w hw q h
      by_cases hu : str% "GDO_" <+: n
      · have upper : ∀ n ∈ commonDefined, ∀ w ∈ [str% "RAWPTR_", str% "PTR_"], str% "GDO_" <+: n → ¬ w <+: n.drop 4 := by decide +kernel
        have h1 := upper n hn w hw hu
        obtain ⟨x, rfl⟩ := hu
        rw [newName_upper, h] at e
        exact h1 ⟨q, (prefixed_inj (u := u) e).symm⟩
      · by_cases hv : str% "_GDO_" <+: n
        · obtain ⟨x, rfl⟩ := hv
          rw [newName_under, h] at e
          have h1 := under_word (a := x) (b := w ++ q) (by simpa using e)
          simp only [List.mem_cons, List.not_mem_nil, or_false] at hw
          rcases hw with rfl | rfl <;> cases h1
        · have fix : ∀ n ∈ commonDefined, ¬ str% "GDO_" <+: n → ¬ str% "_GDO_" <+: n → fixedWord n = true ∧
              ∀ w ∈ [str% "RAWPTR_", str% "PTR_"], hasIn (str% "_" ++ w) n = false := by decide +kernel
          obtain ⟨f1, f2⟩ := fix n hn hu hv
          rw [newName_fixed f1, h] at e
          have h1 := f2 w hw
          rw [hasIn_of (a := u) (b := q) (by rw [e]; simp)] at h1
          cases h1
    exact fun q => ⟨key _ (by simp) q, key _ (by simp) q⟩

/-- What is left to say about `c.h` in the header: `E1` is what is defined in front of the
templates. -/
theorem C106_templates (s : Settings) (hp : PrefixOk s.pfx) (hinc : ∀ r, ∀ x ∈ checkedNames (toUpper s.pfx), (inc r).lookup x = none) (h : Placed s inc E protos objs)
    (hs : ∀ p ∈ protos ++ objs, p.symbol ∉ commonDefined.map (newName (toUpper s.pfx) (toLower s.pfx)))
    (hr : refused s.names (fun x => (E x).isSome) (toUpper s.pfx) = false) :
    ∃ E', (∀ b, after inc E (templateText s protos objs .commonHeader ++ templateText s protos objs .cHeader ++ b) = after inc E' b) ∧
      Stands E E' (toUpper s.pfx) (toLower s.pfx) protos objs
        (Has E (toUpper s.pfx) (str% "SEPARATE") && !Has E (toUpper s.pfx) (str% "INCLUDED_IN_BODY") && !Has E (toUpper s.pfx) (str% "DISABLE_ALIASING") &&
          !Has E (toUpper s.pfx) (str% "WRAP_VISIBILITY"))
        (Has E (toUpper s.pfx) (str% "SEPARATE") && !Has E (toUpper s.pfx) (str% "INCLUDED_IN_BODY") && !Has E (toUpper s.pfx) (str% "DISABLE_ALIASING"))
        (Has E (toUpper s.pfx) (str% "WRAP_FUNCTIONS") || autoload (fun x => (E x).isSome) (toUpper s.pfx)) := by
  obtain ⟨E2, a1, a2, _, a4⟩ := C106_accepted s hp hinc protos objs hr
  have same : ∀ y ∈ symbolNames (toUpper s.pfx) (toLower s.pfx) protos objs, y ≠ toUpper s.pfx ++ str% "_ENABLE_AUTOLOAD" → E2 y = E y := fun y hy hn =>
    a4 y (common_names h.names.toNames hs y hy hn) fun r => h.headers r y hy
  have conf : ∀ x ∈ configNames, x ≠ str% "ENABLE_AUTOLOAD" → Has E2 (toUpper s.pfx) x = Has E (toUpper s.pfx) x := by
    intro x hx hn
    unfold Has
    rw [same _ (List.mem_cons_of_mem _ (List.mem_append_left _ (List.mem_map.mpr ⟨x, by
      unfold configNames at hx
      simp only [List.mem_cons, List.not_mem_nil, or_false] at hx ⊢
      rcases hx with h | h | h | h | h | h | h <;> simp [h], rfl⟩))) fun e => hn (prefixed_inj (u := toUpper s.pfx) e)]
  have sym : ∀ p ∈ protos ++ objs, E2 p.symbol = E p.symbol := fun p hp =>
    same _ (List.mem_cons_of_mem _ (List.mem_append_right _ (List.mem_flatMap.mpr ⟨p, hp, by simp⟩))) (h.names.own p hp (str% "ENABLE_AUTOLOAD"))
  have h2 : Placed s inc E2 protos objs := by
    refine ⟨h.names, h.calm, h.headers, ?_, fun p hp => ?_⟩
    · rw [same _ (List.mem_cons_self ..) (h.names.handle' (str% "ENABLE_AUTOLOAD")), h.handle]
    · rw [same _ (List.mem_cons_of_mem _ (List.mem_append_right _ (List.mem_flatMap.mpr ⟨p, hp, by simp⟩))) (fun e => by
        have := prefixed_inj (u := toUpper s.pfx) (y := str% "ENABLE_AUTOLOAD") e
        cases this), h.members p hp]
  obtain ⟨E', r1, r2⟩ := C102_header_file s h2
  obtain ⟨a, ea⟩ := cHeader_end s (prefixes_of hp) protos objs
  obtain ⟨x, hw⟩ := whole_after (a := a ++ ['\n']) (ea ▸ r1) fun r e => by
    have := congrArg List.getLast? e
    simp at this
  rw [← ea] at hw
  refine ⟨E', fun b => ?_, ?_⟩
  · rw [List.append_assoc, a1, after_more hw r1]
  · have hauto : Has E2 (toUpper s.pfx) (str% "ENABLE_AUTOLOAD") = autoload (fun x => (E x).isSome) (toUpper s.pfx) := a2
    rw [conf _ (by decide) (by decide), conf _ (by decide) (by decide), conf _ (by decide) (by decide), conf _ (by decide) (by decide), conf _ (by decide) (by decide), hauto] at r2
    refine ⟨r2.raw, r2.wrapper, r2.function, r2.renamed, fun ha p hp => ?_, r2.object, fun hb p hp => ?_⟩
    · rw [r2.noFunction ha p hp, sym p (List.mem_append_left _ hp)]
    · rw [r2.noObject hb p hp, sym p (List.mem_append_right _ hp)]

/-- The whole header of separate output, included for the first time: it is accepted, and the
names of symbols stand for what the configuration in front of the templates asks for. -/
theorem C106_header {env : Gen.Env} {s : Settings} (h : Leads env s) (defines : Str) (hinc : ∀ r, ∀ x ∈ checkedNames (toUpper s.pfx), (inc r).lookup x = none)
    (hg : E (guardName (headerName s) (toUpper s.pfx)) = none) (hf : after inc (opened s E) (frontText env s defines) = some E1) (hP : Placed s inc E1 protos objs)
    (hs : ∀ p ∈ protos ++ objs, p.symbol ∉ commonDefined.map (newName (toUpper s.pfx) (toLower s.pfx)))
    (hr : refused s.names (fun x => (E1 x).isSome) (toUpper s.pfx) = false) (k : Nat) :
    ∃ E', after inc E (headerText env s defines (templateText s protos objs .commonHeader ++ templateText s protos objs .cHeader) k) = some E' ∧
      Stands E1 E' (toUpper s.pfx) (toLower s.pfx) protos objs
        (Has E1 (toUpper s.pfx) (str% "SEPARATE") && !Has E1 (toUpper s.pfx) (str% "INCLUDED_IN_BODY") && !Has E1 (toUpper s.pfx) (str% "DISABLE_ALIASING") &&
          !Has E1 (toUpper s.pfx) (str% "WRAP_VISIBILITY"))
        (Has E1 (toUpper s.pfx) (str% "SEPARATE") && !Has E1 (toUpper s.pfx) (str% "INCLUDED_IN_BODY") && !Has E1 (toUpper s.pfx) (str% "DISABLE_ALIASING"))
        (Has E1 (toUpper s.pfx) (str% "WRAP_FUNCTIONS") || autoload (fun x => (E1 x).isSome) (toUpper s.pfx)) := by
  obtain ⟨xf, wf⟩ := front_more hf
  obtain ⟨E', r1, r2⟩ := C106_templates s h.pfx hinc hP hs hr
  refine ⟨E', ?_, r2⟩
  have inside : after inc (opened s E) (insideText env s defines (templateText s protos objs .commonHeader ++ templateText s protos objs .cHeader) k) = some E' := by
    rw [inside_text, quiet_openingOf, after_more wf hf, r1, quiet_line _ _ h.name, ← List.append_nil (closingOf s), quiet_closingOf, after_nil]
  unfold opened at inside
  cases hpo : s.pragmaOnce with
  | true =>
    rw [if_pos hpo] at inside
    rw [C105_pragma hpo h.pfx h.license h.date h.name, inside]
  | false =>
    rw [if_neg (by simp [hpo])] at inside
    exact C105_header_first ⟨hpo, h.pfx, h.license, h.date, h.name⟩ defines _ k hg inside

/-- With the library names of the tool (`C100_library_partial`), a configuration is refused
only if the names of parameters are missing. -/
theorem C106_library {names : ParamNames} {D : Str → Bool} (hn : names ≠ .skip) (ha : D (u ++ str% "_HARDCODED_DEFAULT_LIBA") = true)
    (hw : D (u ++ str% "_HARDCODED_DEFAULT_LIBW") = true) : refused names D u = false := by
  have h : library D u = true := by
    unfold library
    rw [ha, hw]
    cases wideNamed D u <;> simp
  cases names with
  | skip => exact absurd rfl hn
  | _ => simp [refused, h]

/-! ### Examples -/

/-- Automatic loading without a library. -/
example (b : Str) : after (fun _ => []) (fun x => if x = str% "GDO_ENABLE_AUTOLOAD_LAZY" then some emptyMacro else none) (templateText {} [aFunction] [anObject] .commonHeader ++ b) = none :=
  C106_refused {} ⟨by decide, by rintro ⟨c, r, h, hd⟩; cases h; revert hd; decide⟩ (fun _ _ _ => rfl) _ _ (by decide) b

/-- With a library. -/
example : ∃ E', (∀ b, after (fun _ => []) (fun x => if x ∈ [str% "GDO_ENABLE_AUTOLOAD_LAZY", str% "GDO_DEFAULT_LIBA"] then some emptyMacro else none)
      (templateText {} [aFunction] [anObject] .commonHeader ++ b) = after (fun _ => []) E' b) ∧
    (E' (str% "GDO_ENABLE_AUTOLOAD")).isSome = true ∧ (E' (str% "GDO_DEFAULT_LIB")).isSome = true := by
  obtain ⟨E', h1, h2, h3, _⟩ := C106_accepted (E := fun x => if x ∈ [str% "GDO_ENABLE_AUTOLOAD_LAZY", str% "GDO_DEFAULT_LIBA"] then some emptyMacro else none) (inc := fun _ => []) {}
    ⟨by decide, by rintro ⟨c, r, h, hd⟩; cases h; revert hd; decide⟩ (fun _ _ _ => rfl) [aFunction] [anObject] (by decide)
  refine ⟨E', h1, ?_, ?_⟩
  · exact h2.trans (by decide)
  · exact h3.trans (by decide)

/-- A header with a guard and with extra definitions. -/
def guarded : Settings := { pragmaOnce := false }

theorem leads_example : Leads guardEnv guarded :=
  ⟨⟨by decide, by rintro ⟨c, r, h, hd⟩; cases h; revert hd; decide⟩, compiledList_eq .license (ok_all .license), by decide, by unfold LiteralText; decide⟩

/-- Automatic loading without a library. -/
example : after (fun _ => []) (fun _ => none) (headerText guardEnv guarded (str% "#define GDO_ENABLE_AUTOLOAD\n") (templateText guarded [aFunction] [anObject] .commonHeader ++
    templateText guarded [aFunction] [anObject] .cHeader) 1) = none :=
  C106_header_refused (E := fun _ => none) (inc := fun _ => []) leads_example (str% "#define GDO_ENABLE_AUTOLOAD\n") (fun _ _ _ => rfl) rfl
    (after_run (t := [(str% "GDO_ENABLE_AUTOLOAD", some emptyMacro)]) (by decide +kernel)) _ _ (by decide +kernel) _ 1

/-- The header for other files, with a library for automatic loading. -/
example : ∃ E', after (fun _ => []) (fun _ => none) (headerText guardEnv guarded (str% "#define GDO_SEPARATE\n#define GDO_ENABLE_AUTOLOAD\n#define GDO_DEFAULT_LIB \"x\"\n")
      (templateText guarded [aFunction] [anObject] .commonHeader ++ templateText guarded [aFunction] [anObject] .cHeader) 1) = some E' ∧ (E' aFunction.symbol).isSome = true ∧
      Becomes E' (str% "bar") [.punct (str% "*"), .ident (str% "gdo_hndl"), .punct (str% "."), .ident (str% "GDO_PTR_bar")] := by
  have hf : after (fun _ => []) (opened guarded fun _ => none) (frontText guardEnv guarded (str% "#define GDO_SEPARATE\n#define GDO_ENABLE_AUTOLOAD\n#define GDO_DEFAULT_LIB \"x\"\n")) =
      some (known (opened guarded fun _ => none) [(str% "GDO_DEFAULT_LIB", some ⟨none, false, [⟨true, .str [] (str% "x")⟩]⟩), (str% "GDO_ENABLE_AUTOLOAD", some emptyMacro),
        (str% "GDO_SEPARATE", some emptyMacro)]) := after_run (by decide +kernel)
  obtain ⟨E', h1, h2⟩ := C106_header (protos := [aFunction]) (objs := [anObject]) leads_example _ (fun _ _ _ => rfl) rfl hf
    ⟨named_all, calm_all, fun _ _ _ => rfl, by decide +kernel, by decide +kernel⟩ (by decide +kernel) (by decide +kernel) 1
  exact ⟨E', h1, h2.renamed (by decide +kernel) aFunction (by simp), h2.object (by decide +kernel) anObject (by simp)⟩

example : refused .create (fun x => x ∈ [str% "GDO_ENABLE_AUTOLOAD", str% "GDO_HARDCODED_DEFAULT_LIBA", str% "GDO_HARDCODED_DEFAULT_LIBW"]) (str% "GDO") = false :=
  C106_library (by decide) (by decide) (by decide)

end Gdo.Cpp
