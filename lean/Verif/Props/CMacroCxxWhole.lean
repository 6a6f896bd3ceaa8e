import Verif.Props.CMacroSingle
import Verif.Props.CMacroCxxFile

/-!
C108 for whole files in C++: the text of the tool, `common.h` and the C++ templates.
-/

set_option maxRecDepth 20000

namespace Gdo.Cpp.Cxx
open Gdo Rename Tmpl Builtin Gdo.Sub Opt Tpl Gen Pfx

variable {u l : Str} {E E' E1 E2 : Str → Option Macro} {inc : List T → Table} {D : Str → Bool} {protos objs : List Proto}

/-! ### The ends of the templates -/

/-- The end of `cxx.hpp`. -/
theorem header_end (s : Settings) (hp : Prefixes (toUpper s.pfx) (toLower s.pfx)) (protos objs : List Proto) : ∃ a, templateText s protos objs .cxxHeader = (a ++ ['\n']) ++ ['\n'] := by
  rw [header_text]
  have e : (texts .cxxHeader).drop 459 = ((texts .cxxHeader).drop 459).take 28 ++ [str% "#endif //GDO_SEPARATE ...", str% ""] := by decide +kernel
  unfold headerPart
  rw [e, List.flatMap_append, List.flatMap_cons, List.flatMap_cons, written_plain hp protos objs (d := str% "#endif //GDO_SEPARATE ...") (by decide +kernel),
    show written (toUpper s.pfx) (toLower s.pfx) protos objs (str% "") = [[]] from by rfl, unlines_append]
  refine ⟨entriesText (toUpper s.pfx) (toLower s.pfx) protos objs (leadEntries s.lineDirective) ++ (pointerPart (toUpper s.pfx) (toLower s.pfx) protos objs ++
    (entriesText (toUpper s.pfx) (toLower s.pfx) protos objs (midEntries s.names) ++ (unlines ((((texts .cxxHeader).drop 459).take 28).flatMap (written (toUpper s.pfx) (toLower s.pfx) protos objs)) ++
      renamedLine (toUpper s.pfx) (toLower s.pfx) (str% "#endif //GDO_SEPARATE ...")))), ?_⟩
  simp [unlines]

/-- The end of `cxx.cpp`. -/
theorem body_end (s : Settings) (hp : Prefixes (toUpper s.pfx) (toLower s.pfx)) (protos objs : List Proto) : ∃ a c, c ≠ '\\' ∧ templateText s protos objs .cxxBody = (a ++ [c]) ++ ['\n'] := by
  rw [own_text]
  have e : (texts .cxxBody).drop 1047 = ((texts .cxxBody).drop 1047).dropLast ++ [str% "#undef GDO_SET_LAST_ERRNO"] := by decide +kernel
  unfold bodyPart
  rw [e, List.flatMap_append, List.flatMap_cons, written_plain hp protos objs (d := str% "#undef GDO_SET_LAST_ERRNO") (by decide +kernel), unlines_append]
  have e2 : renamedLine (toUpper s.pfx) (toLower s.pfx) (str% "#undef GDO_SET_LAST_ERRNO") = str% "#undef " ++ (toUpper s.pfx ++ str% "_SET_LAST_ERRN") ++ ['O'] := by
    have e3 : newName (toUpper s.pfx) (toLower s.pfx) (str% "GDO_SET_LAST_ERRNO") = toUpper s.pfx ++ str% "_SET_LAST_ERRNO" := newName_upper _ _ (str% "SET_LAST_ERRNO")
    have e4 : newName (toUpper s.pfx) (toLower s.pfx) (str% "undef") = str% "undef" := rfl
    have e5 : pieces (str% "#undef GDO_SET_LAST_ERRNO") = [.other '#', .word (str% "undef"), .other ' ', .word (str% "GDO_SET_LAST_ERRNO")] := by decide +kernel
    simp [renamedLine, e5, mapWords, Rename.textOf, Piece.text, e3, e4]
  rw [e2]
  refine ⟨entriesText (toUpper s.pfx) (toLower s.pfx) protos objs (lineEntry s.lineDirective .cxxBody ++ shown s.names none ((texts .cxxBody).take 1047)) ++
    (unlines ((((texts .cxxBody).drop 1047).dropLast).flatMap (written (toUpper s.pfx) (toLower s.pfx) protos objs)) ++ (str% "#undef " ++ (toUpper s.pfx ++ str% "_SET_LAST_ERRN"))), 'O', by decide, ?_⟩
  simp [unlines]

/-! ### The names of `common.h` and of the tool -/

/-- `common.h` defines no name that belongs to a symbol or to the configuration, apart from
the one for automatic loading. -/
theorem common_names {protos objs : List Proto} (hN : Names u l protos objs) (hs : ∀ p ∈ protos ++ objs, p.symbol ∉ commonDefined.map (newName u l))
    (hl : l ∉ commonDefined.map (newName u l)) :
    ∀ y ∈ symbolNames u l protos objs, y ≠ u ++ str% "_ENABLE_AUTOLOAD" → y ∉ commonDefined.map (newName u l) := by
  intro y hy ha hm
  obtain ⟨n, hn, e⟩ := List.mem_map.mp hm
  refine not_symbolName (y := y) (u := u) (l := l) (protos := protos) (objs := objs) ?_ ?_ ?_ ?_ hy
  · rintro rfl
    exact hl hm
  · intro w hw h
    by_cases hu : str% "GDO_" <+: n
    · have upper : ∀ n ∈ commonDefined, str% "GDO_" <+: n → n.drop 4 ∈ configWords → n = str% "GDO_ENABLE_AUTOLOAD" := by decide +kernel
      have h1 := upper n hn hu
      obtain ⟨x, rfl⟩ := hu
      rw [newName_upper, h] at e
      have h2 : x = w := prefixed_inj (u := u) e
      subst h2
      have h3 : x = str% "ENABLE_AUTOLOAD" := List.append_cancel_left (as := str% "GDO_") (h1 hw)
      exact ha (h.trans (by rw [h3]; rfl))
    · by_cases hv : str% "_GDO_" <+: n
      · obtain ⟨x, rfl⟩ := hv
        rw [newName_under, h] at e
        have h1 := under_word (a := x) (b := w) (by simpa using e)
        have : ∀ w ∈ configWords, w.head? ≠ some '_' := by decide
        exact this w hw (by rw [h1]; rfl)
      · have fix : ∀ n ∈ commonDefined, ¬ str% "GDO_" <+: n → ¬ str% "_GDO_" <+: n → fixedWord n = true ∧ ∀ w ∈ configWords, ¬ (str% "_" ++ w) <:+ n := by decide +kernel
        obtain ⟨f1, f2⟩ := fix n hn hu hv
        rw [newName_fixed f1, h] at e
        exact f2 w hw ⟨u, e.symm⟩
  · intro p hp h
    exact hs p hp (h ▸ hm)
  · have key : ∀ w ∈ [str% "RAWPTR_", str% "PTR_"], ∀ q, y ≠ u ++ (str% "_" ++ (w ++ q)) := by
      intro w hw q h
      by_cases hu : str% "GDO_" <+: n
      · have upper : ∀ n ∈ commonDefined, ∀ w ∈ [str% "RAWPTR_", str% "PTR_"], str% "GDO_" <+: n → ¬ w <+: n.drop 4 := by decide +kernel
        have h1 := upper n hn w hw hu
        obtain ⟨x, rfl⟩ := hu
        rw [newName_upper, h] at e
        exact h1 ⟨q, (prefixed_inj (u := u) e).symm⟩
      · by_cases hv : str% "_GDO_" <+: n
        · obtain ⟨x, rfl⟩ := hv
          rw [newName_under, h] at e
          have h1 := under_word (a := x) (b := w ++ q) (by simpa using e)
          simp only [List.mem_cons, List.not_mem_nil, or_false] at hw
          rcases hw with rfl | rfl <;> cases h1
        · have fix : ∀ n ∈ commonDefined, ¬ str% "GDO_" <+: n → ¬ str% "_GDO_" <+: n → fixedWord n = true ∧
              ∀ w ∈ [str% "RAWPTR_", str% "PTR_"], hasIn (str% "_" ++ w) n = false := by decide +kernel
          obtain ⟨f1, f2⟩ := fix n hn hu hv
          rw [newName_fixed f1, h] at e
          have h1 := f2 w hw
          rw [hasIn_of (a := u) (b := q) (by rw [e]; simp)] at h1
          cases h1
    exact fun q => ⟨key _ (by simp) q, key _ (by simp) q⟩

/-- The names of symbols and of the configuration, apart from the one for separate files. -/
theorem tool_names {s : Settings} (hN : Names (toUpper s.pfx) (toLower s.pfx) protos objs) (ps : List Proto) :
    ∀ y ∈ symbolNames (toUpper s.pfx) (toLower s.pfx) protos objs, y ≠ toUpper s.pfx ++ str% "_SEPARATE" → y ∉ toolNames s ps := by
  intro y hy hne hm
  refine not_symbolName (y := y) ?_ ?_ ?_ ?_ hy
  · rintro rfl
    obtain ⟨w, e, _⟩ := tool_mem hm
    exact hN.space' w e
  · rintro x hx rfl
    have hx' : ∀ x ∈ configWords, x ≠ str% "SEPARATE" → x ∉ toolWords ∧ x.head? ≠ some 'H' := by decide
    obtain ⟨h1, h2⟩ := hx' x hx fun e => hne (by rw [e]; rfl)
    exact tool_word h1 (no_va h2) hm
  · rintro p hp rfl
    obtain ⟨w, e, _⟩ := tool_mem hm
    exact hN.own p hp w e
  · intro q
    constructor <;> rintro rfl
    · refine tool_word (fun h => ?_) (no_va (by simp)) hm
      have : ∀ w ∈ toolWords, w.head? ≠ some 'R' := by decide
      exact this _ h rfl
    · refine tool_word (fun h => ?_) (no_va (by simp)) hm
      have : ∀ w ∈ toolWords, w.head? ≠ some 'P' := by decide
      exact this _ h rfl

theorem lower_chars (s : Str) : ∀ c ∈ toLower s, isUpper c = false := by
  intro c hc
  obtain ⟨d, _, rfl⟩ := List.mem_map.mp hc
  simp only [if_true]
  split
  · unfold toLowerC
    split
    next h =>
      have h2 : ∀ n : Fin 128, isUpper (Char.ofNat n.val) = true → isUpper (Char.ofNat ((Char.ofNat n.val).toNat + 32)) = false := by decide +kernel
      have h3 : d.toNat < 128 := by
        simp only [isUpper, Bool.and_eq_true, decide_eq_true_eq] at h
        have : d.toNat ≤ 'Z'.toNat := h.2
        have : 'Z'.toNat = 90 := rfl
        omega
      have h4 : Char.ofNat d.toNat = d := Char.ofNat_toNat d
      have h5 := h2 ⟨d.toNat, h3⟩
      simp only [h4] at h5
      exact h5 h
    next h => simpa using h
  · decide

/-- The namespace has none of the names of `common.h`. -/
theorem space_free (s : Settings) : toLower s.pfx ∉ commonDefined.map (newName (toUpper s.pfx) (toLower s.pfx)) := by
  intro hm
  obtain ⟨n, hn, e⟩ := List.mem_map.mp hm
  have hlen : (toLower s.pfx).length = (toUpper s.pfx).length := by simp [toLower, toUpper]
  by_cases hu : str% "GDO_" <+: n
  · obtain ⟨x, rfl⟩ := hu
    rw [newName_upper] at e
    have := congrArg List.length e
    simp [hlen] at this
  · by_cases hv : str% "_GDO_" <+: n
    · obtain ⟨x, rfl⟩ := hv
      rw [newName_under] at e
      have := congrArg List.length e
      simp [hlen] at this
      omega
    · have fix : ∀ n ∈ commonDefined, ¬ str% "GDO_" <+: n → ¬ str% "_GDO_" <+: n → fixedWord n = true ∧ n.any isUpper = true := by decide +kernel
      obtain ⟨f1, f2⟩ := fix n hn hu hv
      rw [newName_fixed f1] at e
      obtain ⟨c, h1, h2⟩ := List.any_eq_true.mp f2
      rw [lower_chars s.pfx c (e ▸ h1)] at h2
      cases h2

/-! ### C108 -/

/-- What is left to say about `cxx.hpp` in the header: `E1` is what is defined in front of the
templates. -/
theorem C108_templates (s : Settings) (hp : PrefixOk s.pfx) (hinc : ∀ r, ∀ x ∈ checkedNames (toUpper s.pfx), (inc r).lookup x = none) (h : Placed s inc E protos objs)
    (hs : ∀ p ∈ protos ++ objs, p.symbol ∉ commonDefined.map (newName (toUpper s.pfx) (toLower s.pfx)))
    (hr : refused s.names (fun x => (E x).isSome) (toUpper s.pfx) = false) :
    ∃ E', (∀ b, after inc E (templateText s protos objs .commonHeader ++ templateText s protos objs .cxxHeader ++ b) = after inc E' b) ∧
      Stands E E' (toUpper s.pfx) (toLower s.pfx) protos objs
        (Has E (toUpper s.pfx) (str% "SEPARATE") && !Has E (toUpper s.pfx) (str% "INCLUDED_IN_BODY") && !Has E (toUpper s.pfx) (str% "DISABLE_ALIASING") &&
          !Has E (toUpper s.pfx) (str% "WRAP_VISIBILITY"))
        (Has E (toUpper s.pfx) (str% "SEPARATE") && !Has E (toUpper s.pfx) (str% "INCLUDED_IN_BODY") && !Has E (toUpper s.pfx) (str% "DISABLE_ALIASING"))
        (Has E (toUpper s.pfx) (str% "WRAP_FUNCTIONS") || autoload (fun x => (E x).isSome) (toUpper s.pfx)) := by
  obtain ⟨E2, a1, a2, _, a4⟩ := C106_accepted s hp hinc protos objs hr
  have same : ∀ y ∈ symbolNames (toUpper s.pfx) (toLower s.pfx) protos objs, y ≠ toUpper s.pfx ++ str% "_ENABLE_AUTOLOAD" → E2 y = E y := fun y hy hn =>
    a4 y (common_names h.names.toNames hs (space_free s) y hy hn) fun r => h.headers r y hy
  have conf : ∀ x ∈ configNames, x ≠ str% "ENABLE_AUTOLOAD" → Has E2 (toUpper s.pfx) x = Has E (toUpper s.pfx) x := by
    intro x hx hn
    unfold Has
    rw [same _ (List.mem_cons_of_mem _ (List.mem_append_left _ (List.mem_map.mpr ⟨x, by
      unfold configNames at hx
      simp only [List.mem_cons, List.not_mem_nil, or_false] at hx ⊢
      rcases hx with h | h | h | h | h | h | h <;> simp [h], rfl⟩))) fun e => hn (prefixed_inj (u := toUpper s.pfx) e)]
  have sym : ∀ p ∈ protos ++ objs, E2 p.symbol = E p.symbol := fun p hp =>
    same _ (List.mem_cons_of_mem _ (List.mem_append_right _ (List.mem_flatMap.mpr ⟨p, hp, by simp⟩))) (h.names.own p hp (str% "ENABLE_AUTOLOAD"))
  have h2 : Placed s inc E2 protos objs := by
    refine ⟨h.names, h.calm, h.headers, ?_, fun p hp => ?_⟩
    · rw [same _ (List.mem_cons_self ..) (h.names.space' (str% "ENABLE_AUTOLOAD")), h.space]
    · rw [same _ (List.mem_cons_of_mem _ (List.mem_append_right _ (List.mem_flatMap.mpr ⟨p, hp, by simp⟩))) (fun e => by
        have := prefixed_inj (u := toUpper s.pfx) (y := str% "ENABLE_AUTOLOAD") e
        cases this), h.members p hp]
  obtain ⟨E', r1, r2⟩ := C108_header_file s h2
  obtain ⟨a, ea⟩ := header_end s (prefixes_of hp) protos objs
  obtain ⟨x, hw⟩ := whole_after (a := a ++ ['\n']) (ea ▸ r1) fun r e => by
    have := congrArg List.getLast? e
    simp at this
  rw [← ea] at hw
  refine ⟨E', fun b => ?_, ?_⟩
  · rw [List.append_assoc, a1, after_more hw r1]
  · have hauto : Has E2 (toUpper s.pfx) (str% "ENABLE_AUTOLOAD") = autoload (fun x => (E x).isSome) (toUpper s.pfx) := a2
    rw [conf _ (by decide) (by decide), conf _ (by decide) (by decide), conf _ (by decide) (by decide), conf _ (by decide) (by decide), conf _ (by decide) (by decide), hauto] at r2
    refine ⟨r2.raw, r2.wrapper, r2.function, r2.renamed, fun ha p hp => ?_, r2.object, fun hb p hp => ?_⟩
    · rw [r2.noFunction ha p hp, sym p (List.mem_append_left _ hp)]
    · rw [r2.noObject hb p hp, sym p (List.mem_append_right _ hp)]

/-- The whole header of separate output, included for the first time: it is accepted, and the
names of symbols stand for what the configuration in front of the templates asks for. -/
theorem C108_header_whole {env : Gen.Env} {s : Settings} (h : Leads env s) (defines : Str) (hinc : ∀ r, ∀ x ∈ checkedNames (toUpper s.pfx), (inc r).lookup x = none)
    (hg : E (guardName (headerName s) (toUpper s.pfx)) = none) (hf : after inc (opened s E) (frontText env s defines) = some E1) (hP : Placed s inc E1 protos objs)
    (hs : ∀ p ∈ protos ++ objs, p.symbol ∉ commonDefined.map (newName (toUpper s.pfx) (toLower s.pfx)))
    (hr : refused s.names (fun x => (E1 x).isSome) (toUpper s.pfx) = false) (k : Nat) :
    ∃ E', after inc E (headerText env s defines (templateText s protos objs .commonHeader ++ templateText s protos objs .cxxHeader) k) = some E' ∧
      Stands E1 E' (toUpper s.pfx) (toLower s.pfx) protos objs
        (Has E1 (toUpper s.pfx) (str% "SEPARATE") && !Has E1 (toUpper s.pfx) (str% "INCLUDED_IN_BODY") && !Has E1 (toUpper s.pfx) (str% "DISABLE_ALIASING") &&
          !Has E1 (toUpper s.pfx) (str% "WRAP_VISIBILITY"))
        (Has E1 (toUpper s.pfx) (str% "SEPARATE") && !Has E1 (toUpper s.pfx) (str% "INCLUDED_IN_BODY") && !Has E1 (toUpper s.pfx) (str% "DISABLE_ALIASING"))
        (Has E1 (toUpper s.pfx) (str% "WRAP_FUNCTIONS") || autoload (fun x => (E1 x).isSome) (toUpper s.pfx)) := by
  obtain ⟨xf, wf⟩ := front_more hf
  obtain ⟨E', r1, r2⟩ := C108_templates s h.pfx hinc hP hs hr
  refine ⟨E', ?_, r2⟩
  have inside : after inc (opened s E) (insideText env s defines (templateText s protos objs .commonHeader ++ templateText s protos objs .cxxHeader) k) = some E' := by
    rw [inside_text, quiet_openingOf, after_more wf hf, r1, quiet_line _ _ h.name, ← List.append_nil (closingOf s), quiet_closingOf, after_nil]
  unfold opened at inside
  cases hpo : s.pragmaOnce with
  | true =>
    rw [if_pos hpo] at inside
    rw [C105_pragma hpo h.pfx h.license h.date h.name, inside]
  | false =>
    rw [if_neg (by simp [hpo])] at inside
    exact C105_header_first ⟨hpo, h.pfx, h.license, h.date, h.name⟩ defines _ k hg inside

/-- Any other configuration: the header of separate output is accepted, and the names of the
symbols stand for what the configuration asks for. -/
theorem C108_separate {env : Gen.Env} {s : Settings} (h : Leads env s) (hF : FrontGiven env s) (hsep : isSeparate s = true) (hinc : Aside s inc)
    (hg : E (guardName (headerName s) (toUpper s.pfx)) = none) {EU : Str → Option Macro}
    (hU : after inc (opened s E) (savedText s (env.builtin .filenameMacros) ++ s.defines) = some EU)
    (hP : Placed s inc EU env.symbols.protos env.symbols.objs)
    (hs : ∀ p ∈ env.symbols.protos ++ env.symbols.objs, p.symbol ∉ commonDefined.map (newName (toUpper s.pfx) (toLower s.pfx)))
    (hr : refused s.names (configured s EU) (toUpper s.pfx) = false) (k : Nat) :
    ∃ E', after inc E (headerText env s (allDefines env s) (templateText s env.symbols.protos env.symbols.objs .commonHeader ++
        templateText s env.symbols.protos env.symbols.objs .cxxHeader) k) = some E' ∧
      Stands EU E' (toUpper s.pfx) (toLower s.pfx) env.symbols.protos env.symbols.objs
        (!Has EU (toUpper s.pfx) (str% "INCLUDED_IN_BODY") && !Has EU (toUpper s.pfx) (str% "DISABLE_ALIASING") && !Has EU (toUpper s.pfx) (str% "WRAP_VISIBILITY"))
        (!Has EU (toUpper s.pfx) (str% "INCLUDED_IN_BODY") && !Has EU (toUpper s.pfx) (str% "DISABLE_ALIASING"))
        (Has EU (toUpper s.pfx) (str% "WRAP_FUNCTIONS") || autoload (fun x => (EU x).isSome) (toUpper s.pfx)) := by
  have hc : ∀ r, ∀ x ∈ checkedNames (toUpper s.pfx), (inc r).lookup x = none := fun r x hx => hinc r x (List.mem_append_left _ hx)
  obtain ⟨E1, f1, f2, f3, f4⟩ := C107_front hF hU fun r x hx => hinc r x (List.mem_append_right _ hx)
  have hcong := refused_congr (names := s.names) (configured_front h.pfx hc f2 f4)
  have same : ∀ y ∈ symbolNames (toUpper s.pfx) (toLower s.pfx) env.symbols.protos env.symbols.objs, y ≠ toUpper s.pfx ++ str% "_SEPARATE" → E1 y = EU y := fun y hy hn =>
    f2 y (tool_names hP.names.toNames _ y hy hn) fun r => hP.headers r y hy
  have sym : ∀ p ∈ env.symbols.protos ++ env.symbols.objs, E1 p.symbol = EU p.symbol := fun p hp =>
    same _ (List.mem_cons_of_mem _ (List.mem_append_right _ (List.mem_flatMap.mpr ⟨p, hp, by simp⟩))) (hP.names.own p hp (str% "SEPARATE"))
  have conf : ∀ x ∈ configNames, x ≠ str% "SEPARATE" → Has E1 (toUpper s.pfx) x = Has EU (toUpper s.pfx) x := by
    intro x hx hn
    unfold Has
    rw [same _ (List.mem_cons_of_mem _ (List.mem_append_left _ (List.mem_map.mpr ⟨x, by
      unfold configNames at hx
      simp only [List.mem_cons, List.not_mem_nil, or_false] at hx ⊢
      rcases hx with h | h | h | h | h | h | h <;> simp [h], rfl⟩))) fun e => hn (prefixed_inj (u := toUpper s.pfx) e)]
  have hP1 : Placed s inc E1 env.symbols.protos env.symbols.objs := by
    refine ⟨hP.names, hP.calm, hP.headers, ?_, fun p hp => ?_⟩
    · rw [same _ (List.mem_cons_self ..) (hP.names.space' (str% "SEPARATE")), hP.space]
    · rw [same _ (List.mem_cons_of_mem _ (List.mem_append_right _ (List.mem_flatMap.mpr ⟨p, hp, by simp⟩))) (fun e => by
        have := prefixed_inj (u := toUpper s.pfx) (y := str% "SEPARATE") e
        cases this), hP.members p hp]
  obtain ⟨E', r1, r2⟩ := C108_header_whole h _ hc hg f1 hP1 hs (hcong.1.trans hr) k
  refine ⟨E', r1, ?_⟩
  have hsp : Has E1 (toUpper s.pfx) (str% "SEPARATE") = true := f3 hsep
  have hauto : autoload (fun x => (E1 x).isSome) (toUpper s.pfx) = autoload (fun x => (EU x).isSome) (toUpper s.pfx) := by
    refine hcong.2.trans ?_
    unfold autoload configured hardNames
    simp
  rw [hsp, conf _ (by decide) (by decide), conf _ (by decide) (by decide), conf _ (by decide) (by decide), conf _ (by decide) (by decide), hauto, Bool.true_and] at r2
  refine ⟨r2.raw, r2.wrapper, r2.function, r2.renamed, fun ha p hp => ?_, r2.object, fun hb p hp => ?_⟩
  · rw [r2.noFunction ha p hp, sym p (List.mem_append_left _ hp)]
  · rw [r2.noObject hb p hp, sym p (List.mem_append_right _ hp)]

/-- A successful run with separate output in C++, for symbols from a text file: what the
header that was written means.  No text of a template appears in this statement. -/
theorem C108_program (w : Program.World) (win : Bool) (argv : List Str) (node : Nat → Option Node) (s : Settings) (ws : List Str)
    (hparse : parseCmdline win argv = some (some (.settings s ws))) (hb : ∀ t, compiledList t = some (w.env.builtin t))
    (s' : Settings) (sy : Symbols) (htok : Program.tokenize w s = some (.ok (s', sy))) (hft : Props.FromText sy)
    (hne : sy.protos ++ sy.objs ≠ []) (hps : s.printSymbols = false) (hct : s.customTemplate = []) (htp : s.templatesPath = [])
    (hp : PrefixOk s'.pfx) (hl : s'.lineDirective = false) (hfmt : s'.format = .cxx) (hsep : isSeparate s' = true)
    (hdate : ∀ c ∈ w.env.date, c ≠ '\\' ∧ c ≠ '\n') (hname : LiteralText (headerName s')) (hinc : ∀ e ∈ s'.includes, IncludeLine e)
    (hlib : s'.defaultLib = [] ∨ ∃ sys f t, Opens sys s'.defaultLib f t) (hdef : s'.defines = [] ∨ ∃ x, Whole s'.defines x)
    (hN : AllNames (toUpper s'.pfx) (toLower s'.pfx) sy.protos sy.objs)
    (hcom : ∀ p ∈ sy.protos ++ sy.objs, p.symbol ∉ commonDefined.map (newName (toUpper s'.pfx) (toLower s'.pfx))) :
    ∃ N, ∀ n, N ≤ n → ∀ m st', Program.main { w with env := { w.env with n } } win argv node = .exit 0 m st' →
      ∃ text st1, Written w.env (outputPaths s').1 (Program.start node) text st1 ∧
        ∀ inc E EU, Aside s' inc → E (guardName (headerName s') (toUpper s'.pfx)) = none →
          after inc (opened s' E) (savedText s' (w.env.builtin .filenameMacros) ++ s'.defines) = some EU →
          if refused s'.names (configured s' EU) (toUpper s'.pfx) then after inc E text = none
          else (∀ r, ∀ y ∈ symbolNames (toUpper s'.pfx) (toLower s'.pfx) sy.protos sy.objs, (inc r).lookup y = none) →
            EU (toLower s'.pfx) = none → (∀ p ∈ sy.protos ++ sy.objs, EU (toUpper s'.pfx ++ (str% "_" ++ (str% "PTR_" ++ p.symbol))) = none) →
            ∃ E', after inc E text = some E' ∧ Stands EU E' (toUpper s'.pfx) (toLower s'.pfx) sy.protos sy.objs
              (!Has EU (toUpper s'.pfx) (str% "INCLUDED_IN_BODY") && !Has EU (toUpper s'.pfx) (str% "DISABLE_ALIASING") && !Has EU (toUpper s'.pfx) (str% "WRAP_VISIBILITY"))
              (!Has EU (toUpper s'.pfx) (str% "INCLUDED_IN_BODY") && !Has EU (toUpper s'.pfx) (str% "DISABLE_ALIASING"))
              (Has EU (toUpper s'.pfx) (str% "WRAP_FUNCTIONS") || autoload (fun x => (EU x).isSome) (toUpper s'.pfx)) := by
  obtain ⟨N, h⟩ := C94_program w win argv node s ws hparse hb s' sy htok hft hne hps hct htp hp hl
  refine ⟨N, fun n hn m st' hm => ?_⟩
  have h := h n hn m st' hm
  dsimp only at h
  rw [if_pos hsep] at h
  obtain ⟨st1, hw, _⟩ := h
  refine ⟨_, st1, hw, fun inc E EU hA hg hU => ?_⟩
  have hL : Leads { w.env with symbols := sy } s' := ⟨hp, hb .license, hdate, hname⟩
  have hF : FrontGiven { w.env with symbols := sy } s' := by
    refine ⟨hp, hb .filenameMacros, CForm.text_word hft, hinc, fun t ht c hc => ?_, hlib, hdef⟩
    have hs := (Props.C84_characters_partial sy hft).2 t ht
    refine ⟨?_, ?_, ?_, ?_, ?_, ?_⟩ <;> rintro rfl <;> exact Props.harmless_not hs (by decide) (by decide) hc
  have htext : allText s' sy (listNames s').1 = templateText s' sy.protos sy.objs .commonHeader ++ templateText s' sy.protos sy.objs .cxxHeader := by
    have hn : (listNames s').1 = [.commonHeader, .cxxHeader] := by
      unfold listNames
      simp only [hsep, hfmt]
      rfl
    rw [hn]
    simp [allText, templateText, hl, unlines_append]
  rw [htext]
  split
  next hr => exact C107_refused hL hF hA hg hU hr _ 0
  next hr => exact fun hi hh hm => C108_separate hL hF hsep hA hg hU ⟨hN, C102_text sy hft, hi, hh, hm⟩ hcom (by simpa using hr) 0

/-- The templates of a single file, in the order in which they are written. -/
def singleText (s : Settings) (protos objs : List Proto) : Str :=
  templateText s protos objs .commonHeader ++ (templateText s protos objs .commonBody ++ templateText s protos objs .cxxHeader ++ templateText s protos objs .cxxBody)

/-- What is defined behind the templates of a single file. -/
theorem C108_templates_single (s : Settings) (hp : PrefixOk s.pfx) (hinc : ∀ r, ∀ x ∈ checkedNames (toUpper s.pfx), (inc r).lookup x = none) (h : Placed s inc E protos objs)
    (hs : ∀ p ∈ protos ++ objs, p.symbol ∉ commonDefined.map (newName (toUpper s.pfx) (toLower s.pfx)))
    (hr : refused s.names (fun x => (E x).isSome) (toUpper s.pfx) = false) (h3 : Has E (toUpper s.pfx) (str% "SEPARATE") = false) :
    ∃ E', (∀ b, after inc E (singleText s protos objs ++ b) = after inc E' b) ∧
      Stands E E' (toUpper s.pfx) (toLower s.pfx) protos objs
        (!Has E (toUpper s.pfx) (str% "DISABLE_ALIASING") && !Has E (toUpper s.pfx) (str% "WRAP_VISIBILITY")) (!Has E (toUpper s.pfx) (str% "DISABLE_ALIASING"))
        (Has E (toUpper s.pfx) (str% "WRAP_FUNCTIONS") || autoload (fun x => (E x).isSome) (toUpper s.pfx)) := by
  obtain ⟨E2, a1, a2, _, a4⟩ := C106_accepted s hp hinc protos objs hr
  have same : ∀ y ∈ symbolNames (toUpper s.pfx) (toLower s.pfx) protos objs, y ≠ toUpper s.pfx ++ str% "_ENABLE_AUTOLOAD" → E2 y = E y := fun y hy hn =>
    a4 y (common_names h.names.toNames hs (space_free s) y hy hn) fun r => h.headers r y hy
  have conf : ∀ x ∈ configNames, x ≠ str% "ENABLE_AUTOLOAD" → Has E2 (toUpper s.pfx) x = Has E (toUpper s.pfx) x := by
    intro x hx hn
    unfold Has
    rw [same _ (List.mem_cons_of_mem _ (List.mem_append_left _ (List.mem_map.mpr ⟨x, by
      unfold configNames at hx
      simp only [List.mem_cons, List.not_mem_nil, or_false] at hx ⊢
      rcases hx with h | h | h | h | h | h | h <;> simp [h], rfl⟩))) fun e => hn (prefixed_inj (u := toUpper s.pfx) e)]
  have sym : ∀ p ∈ protos ++ objs, E2 p.symbol = E p.symbol := fun p hp =>
    same _ (List.mem_cons_of_mem _ (List.mem_append_right _ (List.mem_flatMap.mpr ⟨p, hp, by simp⟩))) (h.names.own p hp (str% "ENABLE_AUTOLOAD"))
  have h2 : Placed s inc E2 protos objs := by
    refine ⟨h.names, h.calm, h.headers, ?_, fun p hp => ?_⟩
    · rw [same _ (List.mem_cons_self ..) (h.names.space' (str% "ENABLE_AUTOLOAD")), h.space]
    · rw [same _ (List.mem_cons_of_mem _ (List.mem_append_right _ (List.mem_flatMap.mpr ⟨p, hp, by simp⟩))) (fun e => by
        have := prefixed_inj (u := toUpper s.pfx) (y := str% "ENABLE_AUTOLOAD") e
        cases this), h.members p hp]
  obtain ⟨E', r1, r2⟩ := C108_single_file s h2 (by rw [conf _ (by decide) (by decide), h3])
  obtain ⟨a, c, hc, ea⟩ := body_end s (prefixes_of hp) protos objs
  have ea : templateText s protos objs .commonBody ++ templateText s protos objs .cxxHeader ++ templateText s protos objs .cxxBody =
      (templateText s protos objs .commonBody ++ templateText s protos objs .cxxHeader ++ a ++ [c]) ++ ['\n'] := by
    rw [ea]
    simp
  obtain ⟨x, hw⟩ := whole_after (a := templateText s protos objs .commonBody ++ templateText s protos objs .cxxHeader ++ a ++ [c]) (ea ▸ r1) fun r e => by
    have := congrArg List.getLast? e
    simp at this
    exact hc this
  rw [← ea] at hw
  refine ⟨E', fun b => ?_, ?_⟩
  · unfold singleText
    rw [List.append_assoc, a1, after_more hw r1]
  · have hauto : Has E2 (toUpper s.pfx) (str% "ENABLE_AUTOLOAD") = autoload (fun x => (E x).isSome) (toUpper s.pfx) := a2
    rw [conf _ (by decide) (by decide), conf _ (by decide) (by decide), conf _ (by decide) (by decide), hauto] at r2
    refine ⟨r2.raw, r2.wrapper, r2.function, r2.renamed, fun ha p hp => ?_, r2.object, fun hb p hp => ?_⟩
    · rw [r2.noFunction ha p hp, sym p (List.mem_append_left _ hp)]
    · rw [r2.noObject hb p hp, sym p (List.mem_append_right _ hp)]

/-- The whole single file: it is accepted, and the names of the symbols stand for what the
user's definitions ask for. -/
theorem C108_whole {env : Gen.Env} {s : Settings} (h : Leads env s) (hF : FrontGiven env s) (hsep : isSeparate s = false) (hinc : Aside s inc)
    (hg : E (guardName (headerName s) (toUpper s.pfx)) = none) {EU : Str → Option Macro}
    (hU : after inc (opened s E) (savedText s (env.builtin .filenameMacros) ++ s.defines) = some EU)
    (hP : Placed s inc EU env.symbols.protos env.symbols.objs)
    (hs : ∀ p ∈ env.symbols.protos ++ env.symbols.objs, p.symbol ∉ commonDefined.map (newName (toUpper s.pfx) (toLower s.pfx)))
    (h3 : Has EU (toUpper s.pfx) (str% "SEPARATE") = false)
    (hr : refused s.names (configured s EU) (toUpper s.pfx) = false) (k : Nat) :
    ∃ E', after inc E (headerText env s (allDefines env s) (singleText s env.symbols.protos env.symbols.objs) k) = some E' ∧
      Stands EU E' (toUpper s.pfx) (toLower s.pfx) env.symbols.protos env.symbols.objs
        (!Has EU (toUpper s.pfx) (str% "DISABLE_ALIASING") && !Has EU (toUpper s.pfx) (str% "WRAP_VISIBILITY"))
        (!Has EU (toUpper s.pfx) (str% "DISABLE_ALIASING"))
        (Has EU (toUpper s.pfx) (str% "WRAP_FUNCTIONS") || autoload (fun x => (EU x).isSome) (toUpper s.pfx)) := by
  have hc : ∀ r, ∀ x ∈ checkedNames (toUpper s.pfx), (inc r).lookup x = none := fun r x hx => hinc r x (List.mem_append_left _ hx)
  obtain ⟨E1, f1, f2, _, f4⟩ := C107_front hF hU fun r x hx => hinc r x (List.mem_append_right _ hx)
  have hcong := refused_congr (names := s.names) (configured_front h.pfx hc f2 f4)
  have sepOk : toUpper s.pfx ++ str% "_SEPARATE" ∉ toolNames s (env.symbols.protos.filter fun p => (str% "...").isSuffixOf p.args) := by
    unfold toolNames
    rw [hsep]
    simp only [Bool.false_eq_true, reduceIte, List.nil_append, List.mem_append, List.mem_singleton, List.mem_map, not_or, not_exists, not_and]
    refine ⟨⟨?_, fun e => ?_⟩, fun p _ e => ?_⟩
    · split
      · simp
      · unfold hardNames
        simp
    · have := List.append_cancel_left e
      exact absurd this (by decide)
    · rw [List.append_assoc] at e
      have := List.append_cancel_left e
      cases this
  have same : ∀ y ∈ symbolNames (toUpper s.pfx) (toLower s.pfx) env.symbols.protos env.symbols.objs, E1 y = EU y := fun y hy => by
    by_cases hn : y = toUpper s.pfx ++ str% "_SEPARATE"
    · exact f2 y (hn ▸ sepOk) fun r => hP.headers r y hy
    · exact f2 y (tool_names hP.names.toNames _ y hy hn) fun r => hP.headers r y hy
  have hP1 := hP.front same
  have conf := fun {x : Str} (hx : x ∈ configNames) => has_front (u := toUpper s.pfx) same hx
  obtain ⟨E', r1, r2⟩ := C108_templates_single s h.pfx hc hP1 hs (hcong.1.trans hr) (by rw [conf (by decide), h3])
  obtain ⟨xf, wf⟩ := front_more f1
  refine ⟨E', ?_, ?_⟩
  · have inside : after inc (opened s E) (insideText env s (allDefines env s) (singleText s env.symbols.protos env.symbols.objs) k) = some E' := by
      rw [inside_text, quiet_openingOf, after_more wf f1, r1, quiet_line _ _ h.name, ← List.append_nil (closingOf s), quiet_closingOf, after_nil]
    unfold opened at inside
    cases hpo : s.pragmaOnce with
    | true =>
      rw [if_pos hpo] at inside
      rw [C105_pragma hpo h.pfx h.license h.date h.name, inside]
    | false =>
      rw [if_neg (by simp [hpo])] at inside
      exact C105_header_first ⟨hpo, h.pfx, h.license, h.date, h.name⟩ _ _ k hg inside
  · have hauto : autoload (fun x => (E1 x).isSome) (toUpper s.pfx) = autoload (fun x => (EU x).isSome) (toUpper s.pfx) := by
      refine hcong.2.trans ?_
      unfold autoload configured hardNames
      simp
    have r3 := r2.front same
    rw [conf (by decide), conf (by decide), conf (by decide), hauto] at r3
    exact r3

/-- A successful run with output in a single file (or to the standard output) in C++, for symbols
from a text file. -/
theorem C108_program_single (w : Program.World) (win : Bool) (argv : List Str) (node : Nat → Option Node) (s : Settings) (ws : List Str)
    (hparse : parseCmdline win argv = some (some (.settings s ws))) (hb : ∀ t, compiledList t = some (w.env.builtin t))
    (s' : Settings) (sy : Symbols) (htok : Program.tokenize w s = some (.ok (s', sy))) (hft : Props.FromText sy)
    (hne : sy.protos ++ sy.objs ≠ []) (hps : s.printSymbols = false) (hct : s.customTemplate = []) (htp : s.templatesPath = [])
    (hp : PrefixOk s'.pfx) (hl : s'.lineDirective = false) (hfmt : s'.format = .cxx) (hsep : isSeparate s' = false)
    (hdate : ∀ c ∈ w.env.date, c ≠ '\\' ∧ c ≠ '\n') (hname : LiteralText (headerName s')) (hinc : ∀ e ∈ s'.includes, IncludeLine e)
    (hlib : s'.defaultLib = [] ∨ ∃ sys f t, Opens sys s'.defaultLib f t) (hdef : s'.defines = [] ∨ ∃ x, Whole s'.defines x)
    (hN : AllNames (toUpper s'.pfx) (toLower s'.pfx) sy.protos sy.objs)
    (hcom : ∀ p ∈ sy.protos ++ sy.objs, p.symbol ∉ commonDefined.map (newName (toUpper s'.pfx) (toLower s'.pfx))) :
    ∃ N, ∀ n, N ≤ n → ∀ m st', Program.main { w with env := { w.env with n } } win argv node = .exit 0 m st' →
      ∃ text, Written w.env (outputPaths s').1 (Program.start node) text st' ∧
        ∀ inc E EU, Aside s' inc → E (guardName (headerName s') (toUpper s'.pfx)) = none →
          after inc (opened s' E) (savedText s' (w.env.builtin .filenameMacros) ++ s'.defines) = some EU →
          if refused s'.names (configured s' EU) (toUpper s'.pfx) then after inc E text = none
          else (∀ r, ∀ y ∈ symbolNames (toUpper s'.pfx) (toLower s'.pfx) sy.protos sy.objs, (inc r).lookup y = none) →
            EU (toLower s'.pfx) = none → (∀ p ∈ sy.protos ++ sy.objs, EU (toUpper s'.pfx ++ (str% "_" ++ (str% "PTR_" ++ p.symbol))) = none) →
            Has EU (toUpper s'.pfx) (str% "SEPARATE") = false →
            ∃ E', after inc E text = some E' ∧ Stands EU E' (toUpper s'.pfx) (toLower s'.pfx) sy.protos sy.objs
              (!Has EU (toUpper s'.pfx) (str% "DISABLE_ALIASING") && !Has EU (toUpper s'.pfx) (str% "WRAP_VISIBILITY"))
              (!Has EU (toUpper s'.pfx) (str% "DISABLE_ALIASING"))
              (Has EU (toUpper s'.pfx) (str% "WRAP_FUNCTIONS") || autoload (fun x => (EU x).isSome) (toUpper s'.pfx)) := by
  obtain ⟨N, h⟩ := C94_program w win argv node s ws hparse hb s' sy htok hft hne hps hct htp hp hl
  refine ⟨N, fun n hn m st' hm => ?_⟩
  have h := h n hn m st' hm
  dsimp only at h
  rw [if_neg (by simp [hsep])] at h
  refine ⟨_, h, fun inc E EU hA hg hU => ?_⟩
  have hL : Leads { w.env with symbols := sy } s' := ⟨hp, hb .license, hdate, hname⟩
  have hF : FrontGiven { w.env with symbols := sy } s' := by
    refine ⟨hp, hb .filenameMacros, CForm.text_word hft, hinc, fun t ht c hc => ?_, hlib, hdef⟩
    have hs := (Props.C84_characters_partial sy hft).2 t ht
    refine ⟨?_, ?_, ?_, ?_, ?_, ?_⟩ <;> rintro rfl <;> exact Props.harmless_not hs (by decide) (by decide) hc
  have htext : allText s' sy (listNames s').1 = singleText s' sy.protos sy.objs := by
    have hn : (listNames s').1 = [.commonHeader, .commonBody, .cxxHeader, .cxxBody] := by
      unfold listNames
      simp only [hsep, hfmt]
      rfl
    rw [hn]
    simp [allText, singleText, templateText, hl, unlines_append]
  rw [htext]
  split
  next hr => exact C107_refused hL hF hA hg hU hr _ 0
  next hr => exact fun hi hh hm h3 => C108_whole hL hF hsep hA hg hU ⟨hN, C102_text sy hft, hi, hh, hm⟩ hcom h3 (by simpa using hr) 0

/-! ### Examples -/

theorem named_all : AllNames (str% "GDO") (str% "gdo") [aFunction] [anObject] := by
  refine ⟨named, ?_, ?_, ?_⟩ <;> decide

/-- Separate output in C++ with a library and automatic loading. -/
def separatedCxx : Settings := { separated with format := .cxx, output := str% "out.cpp" }

theorem leads_separatedCxx : Leads fullEnv separatedCxx :=
  ⟨prefix_example, compiledList_eq .license (ok_all .license), by decide, by unfold LiteralText; decide⟩

theorem front_separatedCxx : FrontGiven fullEnv separatedCxx :=
  ⟨prefix_example, compiledList_eq .filenameMacros (ok_all .filenameMacros), by decide, front_separated.includes, front_separated.typedefs, front_separated.library, front_separated.defines⟩

/-- The names of the functions stand for wrappers, since the library is known. -/
example : ∃ E', after (fun _ => []) (fun _ => none) (headerText fullEnv separatedCxx (allDefines fullEnv separatedCxx) (templateText separatedCxx [aFunction] [anObject] .commonHeader ++
      templateText separatedCxx [aFunction] [anObject] .cxxHeader) 1) = some E' ∧ (E' aFunction.symbol).isSome = true ∧
      Becomes E' (str% "bar") [.punct (str% "*"), .ident (str% "gdo"), .punct (str% "::"), .ident (str% "GDO_PTR_bar")] := by
  have m := moves_file (inc := fun _ => []) separatedCxx prefix_example (compiledList_eq .filenameMacros (ok_all .filenameMacros)) (opened separatedCxx fun _ => none)
  obtain ⟨E', h1, h2⟩ := C108_separate (E := fun _ => none) (inc := fun _ => []) leads_separatedCxx front_separatedCxx (by decide) (fun _ _ _ => rfl) rfl
    ((m.2 _).trans (after_run (t := [(str% "GDO_ENABLE_AUTOLOAD", some emptyMacro)]) (by decide +kernel)))
    ⟨named_all, calm_all, fun _ _ _ => rfl, by decide +kernel, by decide +kernel⟩ (by decide +kernel) (by decide +kernel) 1
  exact ⟨E', h1, h2.renamed (by decide +kernel) aFunction (by simp [fullEnv]), h2.object (by decide +kernel) anObject (by simp [fullEnv])⟩

/-- A single file in C++ without wrappers. -/
def loneCxx : Settings := { lone with format := .cxx }

theorem leads_loneCxx : Leads fullEnv loneCxx :=
  ⟨prefix_example, compiledList_eq .license (ok_all .license), by decide, by unfold LiteralText; decide⟩

theorem front_loneCxx : FrontGiven fullEnv loneCxx :=
  ⟨prefix_example, compiledList_eq .filenameMacros (ok_all .filenameMacros), by decide, front_separated.includes, front_separated.typedefs, front_separated.library, .inl rfl⟩

example : ∃ E', after (fun _ => []) (fun _ => none) (headerText fullEnv loneCxx (allDefines fullEnv loneCxx) (singleText loneCxx fullEnv.symbols.protos fullEnv.symbols.objs) 1) = some E' ∧
      Becomes E' (str% "foo") [.ident (str% "gdo"), .punct (str% "::"), .ident (str% "GDO_PTR_foo")] := by
  have m := moves_file (inc := fun _ => []) loneCxx prefix_example front_loneCxx.file (opened loneCxx fun _ => none)
  have hU := (m.2 loneCxx.defines).trans (after_nil _ _)
  obtain ⟨E', h1, h2⟩ := C108_whole (inc := fun _ => []) leads_loneCxx front_loneCxx (by decide) (fun _ _ _ => rfl) rfl hU
    ⟨named_all, calm_all, fun _ _ _ => rfl, by decide +kernel, by decide +kernel⟩ (by decide +kernel) (by decide +kernel) (by decide +kernel) 1
  exact ⟨E', h1, h2.function (by decide +kernel) (by decide +kernel) aFunction (by simp [fullEnv])⟩

end Gdo.Cpp.Cxx
