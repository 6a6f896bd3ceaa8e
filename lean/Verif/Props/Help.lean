import Verif.Spec.Help
import Verif.Model.Help
import Verif.Props.Options
import Verif.Lemmas.SubstituteOut

/-! C92: the help texts and what the program accepts. -/

namespace Gdo.Help
open Gdo Cmd Opt

/-! ### The lines of the texts -/

theorem linesOf_append {l : Str} (h : '\n' ∉ l) (r : Str) : linesOf (l ++ '\n' :: r) = l :: linesOf r := by
  induction l with
  | nil => simp [linesOf]
  | cons c t ih =>
    simp only [List.mem_cons, not_or] at h
    have ih := ih h.2
    rw [List.cons_append, linesOf.eq_3 c _ (fun e => h.1 e.symm), ih]

theorem linesOf_unlines (ls : List Str) (h : ∀ l ∈ ls, '\n' ∉ l) : linesOf (unlines ls) = ls := by
  induction ls with
  | nil => rfl
  | cons l r ih =>
    have : unlines (l :: r) = l ++ '\n' :: unlines r := by simp [unlines]
    rw [this, linesOf_append (h l List.mem_cons_self), ih fun x hx => h x (List.mem_cons_of_mem _ hx)]

theorem usage_nl {prog : Str} (h : '\n' ∉ prog) : '\n' ∉ usage prog := by
  simp only [usage, List.mem_append, not_or]
  exact ⟨⟨by decide, h⟩, by decide⟩

theorem lines_brief (win : Bool) {prog : Str} (h : '\n' ∉ prog) :
    linesOf (brief win prog) = usage prog :: ((briefHead ++ briefPrefixes win ++ briefTail) ++ [[]]) := by
  refine linesOf_unlines _ fun l hl => ?_
  rw [List.cons_append, List.mem_cons] at hl
  rcases hl with rfl | hl
  · exact usage_nl h
  · have : ∀ l ∈ (briefHead ++ briefPrefixes win ++ briefTail) ++ [[]], '\n' ∉ l := by cases win <;> decide +kernel
    exact this l hl

theorem lines_full (win : Bool) {prog : Str} (h : '\n' ∉ prog) :
    linesOf (full win prog) = usage prog :: ((fullHead ++ fullPrefixes win ++ fullTail) ++ [[]]) := by
  refine linesOf_unlines _ fun l hl => ?_
  rw [List.cons_append, List.mem_cons] at hl
  rcases hl with rfl | hl
  · exact usage_nl h
  · have : ∀ l ∈ (fullHead ++ fullPrefixes win ++ fullTail) ++ [[]], '\n' ∉ l := by cases win <;> decide +kernel
    exact this l hl

/-- The two texts. -/
def IsHelp (win : Bool) (prog text : Str) : Prop := '\n' ∉ prog ∧ (text = brief win prog ∨ text = full win prog)

/-- The options of the texts. -/
def listed : List (Str × Form) :=
  [(str% "ast-all-symbols", .flag), (str% "D", .joined), (str% "dump-templates", .separated), (str% "force", .flag),
   (str% "format", .separated), (str% "full-help", .flag), (str% "help", .flag), (str% "ignore-options", .flag),
   (str% "include", .separated), (str% "library", .separated), (str% "line", .flag), (str% "no-date", .flag),
   (str% "no-pragma-once", .flag), (str% "out", .separated), (str% "P", .joined), (str% "param", .separated),
   (str% "prefix", .separated), (str% "print-symbols", .flag), (str% "S", .joined), (str% "separate", .flag),
   (str% "template", .separated), (str% "templates-path", .separated), (str% "version", .flag)]

theorem lists_iff {win : Bool} {prog text : Str} (h : IsHelp win prog text) (n : Str) (f : Form) :
    Lists text n f ↔ (n, f) ∈ listed := by
  have key : (linesOf text).filterMap entryOf = listed := by
    obtain ⟨hp, rfl | rfl⟩ := h
    · rw [lines_brief win hp, List.filterMap_cons]
      have : entryOf (usage prog) = none := rfl
      rw [this]
      cases win <;> decide +kernel
    · rw [lines_full win hp, List.filterMap_cons]
      have : entryOf (usage prog) = none := rfl
      rw [this]
      cases win <;> decide +kernel
  rw [← key, List.mem_filterMap]
  rfl

theorem listed_flag {n : Str} : (n, Form.flag) ∈ listed ↔ n ∈ flagNames ∧ n ≠ str% "?" := by
  constructor
  · intro h
    simp only [listed, List.mem_cons, Prod.mk.injEq, reduceCtorEq, and_false, and_true, false_or, or_false, List.not_mem_nil] at h
    rcases h with rfl|rfl|rfl|rfl|rfl|rfl|rfl|rfl|rfl|rfl|rfl <;> decide
  · rintro ⟨h, hq⟩
    simp only [flagNames, List.mem_cons, List.not_mem_nil, or_false] at h
    rcases h with rfl|rfl|rfl|rfl|rfl|rfl|rfl|rfl|rfl|rfl|rfl|rfl
    · exact absurd rfl hq
    all_goals decide

theorem listed_joined {n : Str} : (n, Form.joined) ∈ listed ↔ n ∈ argNames ∧ n.length = 1 := by
  constructor
  · intro h
    simp only [listed, List.mem_cons, Prod.mk.injEq, reduceCtorEq, and_false, and_true, false_or, or_false, List.not_mem_nil] at h
    rcases h with rfl|rfl|rfl <;> decide
  · rintro ⟨h, hl⟩
    simp only [argNames, List.mem_cons, List.not_mem_nil, or_false] at h
    rcases h with rfl|rfl|rfl|rfl|rfl|rfl|rfl|rfl|rfl|rfl|rfl|rfl <;> first | decide | simp at hl

theorem listed_separated {n : Str} : (n, Form.separated) ∈ listed ↔ n ∈ argNames ∧ 1 < n.length := by
  constructor
  · intro h
    simp only [listed, List.mem_cons, Prod.mk.injEq, reduceCtorEq, and_false, and_true, false_or, or_false, List.not_mem_nil] at h
    rcases h with rfl|rfl|rfl|rfl|rfl|rfl|rfl|rfl|rfl <;> decide
  · rintro ⟨h, hl⟩
    simp only [argNames, List.mem_cons, List.not_mem_nil, or_false] at h
    rcases h with rfl|rfl|rfl|rfl|rfl|rfl|rfl|rfl|rfl|rfl|rfl|rfl <;> first | decide | simp at hl

/-! ### C92 -/

theorem nameOf_flag {win : Bool} {n p : Str} (hn : n ∈ flagNames) (hp : MayPrefix win n p) : ∃ l, nameOf win (p ++ n) = some (n, l) := by
  simp only [flagNames, List.mem_cons, List.not_mem_nil, or_false] at hn
  rcases hp with rfl | ⟨rfl, hl⟩ | ⟨rfl, rfl⟩ <;>
    rcases hn with rfl|rfl|rfl|rfl|rfl|rfl|rfl|rfl|rfl|rfl|rfl|rfl <;> exact ⟨_, rfl⟩

theorem nameOf_file {win : Bool} {w : Str} (h : w = str% "-" ∨ (∀ t, w ≠ '-' :: t) ∧ (∀ t, win = true → w ≠ '/' :: t)) :
    nameOf win w = none := by
  rcases h with rfl | ⟨h1, h2⟩
  · rfl
  · match w with
    | [] => rfl
    | c :: r =>
      have hc : c ≠ '-' := fun e => h1 r (by rw [e])
      unfold nameOf
      split
      · rename_i e; exact absurd (List.cons.inj e).1 hc
      · rename_i e; exact absurd (List.cons.inj e).1 hc
      · rename_i e; exact absurd (List.cons.inj e).1 hc
      · rename_i c r e
        split
        · exact absurd e (h2 _ ‹_›)
        · rfl
      · rfl

theorem means_reads {win : Bool} {prog text w : Str} {e : Event} (h : IsHelp win prog text) (hm : Means win text w e) :
    ∀ {r es}, Reads win r es → Reads win (w :: r) (e :: es) := by
  intro r es hr
  cases hm with
  | @flag n p hl hp =>
    have hf := (listed_flag.mp ((lists_iff h _ _).mp hl)).1
    obtain ⟨l, hn⟩ := nameOf_flag hf hp
    exact .flag hn hf hr
  | @joined n p v hl hp hv =>
    obtain ⟨ha, h1⟩ := listed_joined.mp ((lists_iff h _ _).mp hl)
    obtain ⟨l, hn, hl'⟩ := nameOf_pfx v ha hp
    obtain ⟨c, rfl⟩ := List.length_eq_one_iff.mp h1
    rw [hl' rfl] at hn
    exact .joined hn ha hv hr
  | @separated n p v sep hl hp hs hv =>
    obtain ⟨ha, h1⟩ := listed_separated.mp ((lists_iff h _ _).mp hl)
    obtain ⟨l, hn, -⟩ := nameOf_pfx (sep :: v) ha hp
    exact .separated hn ha h1 hs hv hr

theorem describes_reads {win : Bool} {prog text : Str} (h : IsHelp win prog text) {args : List Str} {es : List Event}
    (hd : Describes win text args es) : Reads win args es := by
  induction hd with
  | nil => exact .nil
  | option hm _ ih => exact means_reads h hm ih
  | file hf _ ih => exact .input (nameOf_file hf) ih

/-- What either help text describes is what the program does: a command line made of listed
    options in the forms shown has the effect of these options. -/
theorem C92_described (win : Bool) (prog argv0 text : Str) (ht : IsHelp win prog text) (args : List Str) (es : List Event)
    (hc : CStrs args) (hd : Describes win text args es) :
    parseCmdline win (argv0 :: args) = some (some (outcome (eventsEffect {} es))) :=
  C38_effect win argv0 hc (describes_reads ht hd)

/-- Every option of an accepted command line is listed in both texts, as a flag or with a value. -/
theorem C92_complete_partial (win : Bool) (prog argv0 text : Str) (ht : IsHelp win prog text) (args : List Str) (hc : CStrs args)
    (s : Settings) (ws : List Str) (h : parseCmdline win (argv0 :: args) = some (some (.settings s ws))) :
    ∃ es, Reads win args es ∧ outcome (eventsEffect {} es) = .settings s ws ∧
      ∀ e ∈ es, (∀ n, e = .flag n → Lists text n .flag) ∧
        (∀ n v, e = .value n v → v ≠ [] ∧ (Lists text n .joined ∧ n.length = 1 ∨ Lists text n .separated ∧ 1 < n.length)) := by
  obtain ⟨es, hr, ho⟩ := C38_complete win argv0 hc h
  refine ⟨es, hr, ho, ?_⟩
  have hq : ∀ (es : List Event) (st : State), (∃ st', eventsEffect st es = .ok st') → Event.flag (str% "?") ∉ es := by
    intro es
    induction es with
    | nil => intro _ _ hm; cases hm
    | cons e r ih =>
      rintro st ⟨st', he⟩ hm
      rw [eventsEffect_cons] at he
      cases hx : eventEffect st e with
      | error x => rw [hx] at he; cases he
      | ok st1 =>
        rw [hx] at he
        rcases List.mem_cons.mp hm with rfl | hm
        · cases hx
        · exact ih st1 ⟨st', he⟩ hm
  have hok : ∃ st', eventsEffect {} es = .ok st' := by
    cases hx : eventsEffect {} es with
    | error x => rw [hx] at ho; cases ho
    | ok st => exact ⟨st, rfl⟩
  have hnot := hq es {} hok
  have hmem : ∀ {args : List Str} {es : List Event}, Reads win args es → ∀ e ∈ es,
      (∀ n, e = .flag n → n ∈ flagNames) ∧ (∀ n v, e = .value n v → v ≠ [] ∧ n ∈ argNames) := by
    intro args es hr
    induction hr with
    | nil => intro e he; cases he
    | input _ _ ih =>
      intro e he
      rcases List.mem_cons.mp he with rfl | he
      · exact ⟨(by rintro n hn; cases hn), by rintro n v hn; cases hn⟩
      · exact ih e he
    | flag _ hf _ ih =>
      intro e he
      rcases List.mem_cons.mp he with rfl | he
      · exact ⟨by rintro n hn; cases hn; exact hf, by rintro n v hn; cases hn⟩
      · exact ih e he
    | next _ ha _ hv _ ih =>
      intro e he
      rcases List.mem_cons.mp he with rfl | he
      · exact ⟨(by rintro n hn; cases hn), by rintro n v hn; cases hn; exact ⟨hv, ha⟩⟩
      · exact ih e he
    | joined _ ha hv _ ih =>
      intro e he
      rcases List.mem_cons.mp he with rfl | he
      · exact ⟨(by rintro n hn; cases hn), by rintro n v hn; cases hn; exact ⟨hv, ha⟩⟩
      · exact ih e he
    | separated _ ha _ _ hv _ ih =>
      intro e he
      rcases List.mem_cons.mp he with rfl | he
      · exact ⟨(by rintro n hn; cases hn), by rintro n v hn; cases hn; exact ⟨hv, ha⟩⟩
      · exact ih e he
  intro e he
  obtain ⟨h1, h2⟩ := hmem hr e he
  refine ⟨?_, ?_⟩
  · rintro n rfl
    refine (lists_iff ht _ _).mpr (listed_flag.mpr ⟨h1 n rfl, ?_⟩)
    rintro rfl
    exact hnot he
  · rintro n v rfl
    obtain ⟨hv, ha⟩ := h2 n v rfl
    refine ⟨hv, ?_⟩
    have hl : n.length = 1 ∨ 1 < n.length := by
      have := List.length_pos_iff.mpr (argNames_ne ha)
      omega
    rcases hl with hl | hl
    · exact .inl ⟨(lists_iff ht _ _).mpr (listed_joined.mpr ⟨ha, hl⟩), hl⟩
    · exact .inr ⟨(lists_iff ht _ _).mpr (listed_separated.mpr ⟨ha, hl⟩), hl⟩

/-- An option that neither is listed nor begins with the name of a listed one with a value is
    refused; `?` is the exception. -/
theorem C92_unlisted (win : Bool) (prog argv0 text : Str) (ht : IsHelp win prog text) (pre post : List Str) (es : List Event) (st : State)
    (w n : Str) (l : Bool) (hc : CStrs (pre ++ w :: post)) (hp : Describes win text pre es) (hst : eventsEffect {} es = .ok st)
    (hn : nameOf win w = some (n, l)) (hq : n ≠ str% "?") (h1 : ¬ Lists text n .flag)
    (h2 : ∀ o, Lists text o .joined ∨ Lists text o .separated → ¬ o <+: n) :
    parseCmdline win (argv0 :: (pre ++ w :: post)) = some (some (.stop (.error (.unknown w)))) := by
  refine C38_unknown win argv0 hc (describes_reads ht hp) hst hn ?_ ?_
  · intro hf
    exact h1 ((lists_iff ht _ _).mpr (listed_flag.mpr ⟨hf, hq⟩))
  · intro o ho
    have := List.length_pos_iff.mpr (argNames_ne ho)
    by_cases hl : o.length = 1
    · exact h2 o (.inl ((lists_iff ht _ _).mpr (listed_joined.mpr ⟨ho, hl⟩)))
    · exact h2 o (.inr ((lists_iff ht _ _).mpr (listed_separated.mpr ⟨ho, by omega⟩)))

/-- `-?` is accepted but not listed. -/
theorem C92_violated_question (win : Bool) (prog argv0 text : Str) (ht : IsHelp win prog text) (post : List Str) (hc : CStrs post) :
    (∀ f, ¬ Lists text (str% "?") f) ∧
    parseCmdline win (argv0 :: str% "-?" :: post) = some (some (.stop (.exit .help))) := by
  constructor
  · intro f hf
    have := (lists_iff ht _ _).mp hf
    revert this
    cases f <;> decide
  · have hc' : CStrs (str% "-?" :: post) := by
      intro w hw
      rcases List.mem_cons.mp hw with rfl | hw
      · unfold CStr; decide
      · exact hc w hw
    rw [parseCmdline_eq win argv0 _ hc']
    refine congrArg (fun o => some (some o)) ?_
    have := loopS_reads (win := win) (args := [str% "-?"]) (es := [.flag (str% "?")]) (.flag (n := str% "?") (l := false) rfl (by decide) .nil) post {}
    exact this

/-- The value of an option may be the next argument.  No text says so: the option alone has no
    meaning in them. -/
theorem C92_violated_next (win : Bool) (prog argv0 text v file : Str) (ht : IsHelp win prog text) (hv : v ≠ []) (hf : file ≠ [])
    (hn : nameOf win file = none) (hc : CStrs [v, file]) :
    (∀ e, ¬ Means win text (str% "-out") e) ∧
    parseCmdline win [argv0, str% "-out", v, file] = some (some (.settings { input := file, output := v } [])) := by
  constructor
  · intro e he
    have hr := means_reads ht he Reads.nil
    cases hr with
    | input h _ => cases h
    | @flag _ _ _ n _ h hm _ =>
      cases h
      revert hm
      decide
    | joined h hm _ _ =>
      cases h
      revert hm
      decide
    | @separated _ v _ _ n l sep h hm h1 hs hv _ =>
      have : n ++ sep :: v = str% "out" := by
        have h : some (str% "out", false) = some (n ++ sep :: v, l) := h
        exact ((Prod.mk.inj (Option.some.inj h)).1).symm
      have hm' : ('=' ∈ str% "out") ∨ (':' ∈ str% "out") := by
        rw [← this]
        rcases hs with rfl | ⟨-, rfl⟩
        · exact .inl (by simp)
        · exact .inr (by simp)
      revert hm'
      decide
  · have hc' : CStrs [str% "-out", v, file] := by
      intro w hw
      rcases List.mem_cons.mp hw with rfl | hw
      · unfold CStr; decide
      · exact hc w hw
    rw [C38_effect win argv0 hc' (.next (n := str% "out") (l := false) rfl (by decide) (fun _ => rfl) hv (.input hn .nil))]
    cases file with
    | nil => exact absurd rfl hf
    | cons c r => rfl

/-! #### Other names in the texts -/

/-- The full text tells to set the prefix with `-name`.  There is no such option. -/
theorem C92_violated_name (win : Bool) (prog argv0 t : Str) (hp : '\n' ∉ prog) (post : List Str) (hc : CStrs ((str% "-name" ++ t) :: post)) :
    (∃ l ∈ linesOf (full win prog), str% "name" ∈ mentions l) ∧
    parseCmdline win (argv0 :: (str% "-name" ++ t) :: post) = some (some (.stop (.error (.unknown (str% "-name" ++ t))))) := by
  constructor
  · rw [lines_full win hp]
    refine ⟨str% "    If a prefix was set with `-name' then any instances of `GDO_' and `gdo_'", List.mem_cons_of_mem _ ?_, by decide +kernel⟩
    cases win <;> decide +kernel
  · refine C38_unknown win argv0 (pre := []) (n := str% "name" ++ t) (l := false) hc .nil rfl rfl ?_ ?_
    · intro h
      simp [flagNames] at h
    · intro o ho hpre
      simp only [argNames, List.mem_cons, List.not_mem_nil, or_false] at ho
      rcases ho with rfl|rfl|rfl|rfl|rfl|rfl|rfl|rfl|rfl|rfl|rfl|rfl <;> simp [List.prefix_iff_eq_take] at hpre

/-- All other options that the texts mention are listed; an empty name is standard input. -/
theorem C92_mentions_partial (win : Bool) (prog text : Str) (ht : IsHelp win prog text) :
    ∀ l ∈ (linesOf text).tail, ∀ n ∈ mentions l, n = str% "name" ∨ n = [] ∨ n = str% "-" ∨ ∃ f, Lists text n f := by
  have key : ∀ l ∈ (linesOf text).tail, ∀ n ∈ mentions l, n = str% "name" ∨ n = [] ∨ n = str% "-" ∨ n ∈ listed.map (·.1) := by
    obtain ⟨hp, rfl | rfl⟩ := ht
    · rw [lines_brief win hp, List.tail_cons]
      cases win <;> decide +kernel
    · rw [lines_full win hp, List.tail_cons]
      cases win <;> decide +kernel
  intro l hl n hn
  rcases key l hl n hn with h | h | h | h
  · exact .inl h
  · exact .inr (.inl h)
  · exact .inr (.inr (.inl h))
  · obtain ⟨⟨m, f⟩, hm, rfl⟩ := List.mem_map.mp h
    exact .inr (.inr (.inr ⟨f, (lists_iff ht _ _).mpr hm⟩))

/-- The brief text mentions only options that it lists. -/
theorem C92_mentions (win : Bool) (prog : Str) (hp : '\n' ∉ prog) :
    ∀ l ∈ (linesOf (brief win prog)).tail, ∀ n ∈ mentions l, n = [] ∨ n = str% "-" ∨ ∃ f, Lists (brief win prog) n f := by
  have key : ∀ l ∈ (linesOf (brief win prog)).tail, ∀ n ∈ mentions l, n = [] ∨ n = str% "-" ∨ n ∈ listed.map (·.1) := by
    rw [lines_brief win hp, List.tail_cons]
    cases win <;> decide +kernel
  intro l hl n hn
  rcases key l hl n hn with h | h | h
  · exact .inl h
  · exact .inr (.inl h)
  · obtain ⟨⟨m, f⟩, hm, rfl⟩ := List.mem_map.mp h
    exact .inr (.inr ⟨f, (lists_iff ⟨hp, .inl rfl⟩ _ _).mpr hm⟩)

/-! #### `%option` -/

theorem listsOption_iff (win : Bool) {prog : Str} (hp : '\n' ∉ prog) (n : Str) (v : Bool) :
    ListsOption (full win prog) n v ↔ (n, v) ∈
      [(str% "D", true), (str% "format", true), (str% "include", true), (str% "library", true), (str% "line", false),
       (str% "no-date", false), (str% "no-pragma-once", false), (str% "param", true), (str% "prefix", true)] := by
  have key : (linesOf (full win prog)).filterMap optionEntry =
      [(str% "D", true), (str% "format", true), (str% "include", true), (str% "library", true), (str% "line", false),
       (str% "no-date", false), (str% "no-pragma-once", false), (str% "param", true), (str% "prefix", true)] := by
    rw [lines_full win hp, List.filterMap_cons]
    have : optionEntry (usage prog) = none := rfl
    rw [this]
    cases win <;> decide +kernel
  rw [← key, List.mem_filterMap]
  rfl

/-- The `%option` entries that the full text lists are those that are accepted. -/
theorem C92_options (win : Bool) (prog : Str) (hp : '\n' ∉ prog) (s : Settings) (tok : Str) :
    (∀ n, ListsOption (full win prog) n false → tok = n → parseOption s tok = flagEffect n s) ∧
    (∀ n v, ListsOption (full win prog) n true → v ≠ [] → tok = n ++ '=' :: v → parseOption s tok = valueEffect n v s) ∧
    (∀ s', parseOption s tok = .ok s' → ListsOption (full win prog) tok false ∨
      ∃ n v, ListsOption (full win prog) n true ∧ v ≠ [] ∧ tok = n ++ '=' :: v) := by
  refine ⟨?_, ?_, ?_⟩
  · rintro n hn rfl
    refine parseOption_eq (e := .flag tok) (.inl ⟨rfl, ?_⟩) s
    have := (listsOption_iff win hp _ _).mp hn
    simpa using this
  · rintro n v hn hv rfl
    refine parseOption_eq (e := .value n v) (.inr ⟨n, v, rfl, rfl, hv, ?_⟩) s
    have := (listsOption_iff win hp _ _).mp hn
    simpa using this
  · intro s' h
    by_cases he : ∃ e, optionEvent tok e
    · obtain ⟨e, ⟨-, hm⟩ | ⟨n, v, -, rfl, hv, hm⟩⟩ := he
      · left
        rw [listsOption_iff win hp]
        simpa using hm
      · right
        refine ⟨n, v, ?_, hv, rfl⟩
        rw [listsOption_iff win hp]
        simpa using hm
    · obtain ⟨e, h'⟩ := parseOption_unknown s (fun e h => he ⟨e, h⟩)
      rw [h'] at h
      cases h

/-! #### Values and defaults -/

/-- The formats that the brief text offers: each is accepted in upper and lower case, each format
    of the program is offered once, and the default is the one of a command line without
    `-format`. -/
theorem C92_formats (win : Bool) (prog : Str) (hp : '\n' ∉ prog) :
    ∃ l ∈ linesOf (brief win prog), entryOf l = some (str% "format", .separated) ∧
      (∀ w d v s, (w, d) ∈ alternatives (str% "output format: ") l → lower v = w →
        ∃ f, valueEffect (str% "format") v s = .ok { s with format := f } ∧ (d = true ↔ f = ({} : Settings).format)) ∧
      (∀ f : Format, ∃ w d, (w, d) ∈ alternatives (str% "output format: ") l ∧
        (∀ s, valueEffect (str% "format") w s = .ok { s with format := f }) ∧
        ∀ w' d', (w', d') ∈ alternatives (str% "output format: ") l →
          valueEffect (str% "format") w' {} = .ok { ({} : Settings) with format := f } → w' = w) := by
  rw [lines_brief win hp]
  refine ⟨str% "  -format=<string>  set output format: c (default), c++, plugin, minimal, minimal-c++",
    List.mem_cons_of_mem _ (by cases win <;> decide +kernel), by decide, ?_, ?_⟩
  · have ha : alternatives (str% "output format: ") (str% "  -format=<string>  set output format: c (default), c++, plugin, minimal, minimal-c++") =
        [(str% "c", true), (str% "c++", false), (str% "plugin", false), (str% "minimal", false), (str% "minimal-c++", false)] := by decide +kernel
    rw [ha]
    intro w d v s hw hv
    unfold valueEffect
    rw [if_neg (by decide), if_pos rfl, hv]
    simp only [List.mem_cons, Prod.mk.injEq, List.not_mem_nil, or_false] at hw
    rcases hw with ⟨rfl, rfl⟩ | ⟨rfl, rfl⟩ | ⟨rfl, rfl⟩ | ⟨rfl, rfl⟩ | ⟨rfl, rfl⟩ <;> exact ⟨_, rfl, by decide⟩
  · have ha : alternatives (str% "output format: ") (str% "  -format=<string>  set output format: c (default), c++, plugin, minimal, minimal-c++") =
        [(str% "c", true), (str% "c++", false), (str% "plugin", false), (str% "minimal", false), (str% "minimal-c++", false)] := by decide +kernel
    rw [ha]
    have hu : ∀ (f : Format) (w : Str), (∀ p ∈ [(str% "c", true), (str% "c++", false), (str% "plugin", false), (str% "minimal", false),
        (str% "minimal-c++", false)], valueEffect (str% "format") p.1 {} = .ok { ({} : Settings) with format := f } → p.1 = w) →
        ∀ w' d', (w', d') ∈ [(str% "c", true), (str% "c++", false), (str% "plugin", false), (str% "minimal", false), (str% "minimal-c++", false)] →
          valueEffect (str% "format") w' {} = .ok { ({} : Settings) with format := f } → w' = w :=
      fun f w h w' d' hm => h (w', d') hm
    intro f
    cases f with
    | c => exact ⟨str% "c", true, by decide, fun s => rfl, hu _ _ (by decide +kernel)⟩
    | cxx => exact ⟨str% "c++", false, by decide, fun s => rfl, hu _ _ (by decide +kernel)⟩
    | plugin => exact ⟨str% "plugin", false, by decide, fun s => rfl, hu _ _ (by decide +kernel)⟩
    | minimal => exact ⟨str% "minimal", false, by decide, fun s => rfl, hu _ _ (by decide +kernel)⟩
    | minimalCxx => exact ⟨str% "minimal-c++", false, by decide, fun s => rfl, hu _ _ (by decide +kernel)⟩

/-- The word of a line `    word  -  text` in the list of formats. -/
def formatOf (l : Str) : Option Str :=
  match l with
  | ' ' :: ' ' :: ' ' :: ' ' :: r =>
    let w := r.takeWhile (· != ' ')
    if w ≠ [] ∧ (str% "-  ").isPrefixOf ((r.dropWhile (· != ' ')).dropWhile (· == ' ')) then some w else none
  | _ => none

/-- The formats of the full text: each word of the list is accepted, and each format of the
    program is listed once; the one that is called the default is. -/
theorem C92_formats_full (win : Bool) (prog : Str) (hp : '\n' ∉ prog) :
    (∀ l ∈ linesOf (full win prog), ∀ w, formatOf l = some w → ∀ s, ∃ f, valueEffect (str% "format") w s = .ok { s with format := f } ∧
      ((∃ a, l = a ++ str% "this is the default") ↔ f = ({} : Settings).format)) ∧
    (∀ f : Format, ∃ l ∈ linesOf (full win prog), ∃ w, formatOf l = some w ∧ (∀ s, valueEffect (str% "format") w s = .ok { s with format := f }) ∧
      ∀ l' ∈ linesOf (full win prog), ∀ w', formatOf l' = some w' → valueEffect (str% "format") w' {} = .ok { ({} : Settings) with format := f } → w' = w) := by
  have h : ∀ l ∈ linesOf (full win prog), ∀ w, formatOf l = some w →
      (w, (str% "this is the default").isSuffixOf l) ∈ [(str% "C", true), (str% "C++", false), (str% "plugin", false), (str% "minimal", false), (str% "minimal-C++", false)] := by
    rw [lines_full win hp]
    intro l hl
    rw [List.mem_cons] at hl
    rcases hl with rfl | hl
    · intro w hw
      cases hw
    · revert l
      have : ((fullHead ++ fullPrefixes win ++ fullTail) ++ [[]]).all (fun l => match formatOf l with
          | some w => decide ((w, (str% "this is the default").isSuffixOf l) ∈ [(str% "C", true), (str% "C++", false), (str% "plugin", false), (str% "minimal", false), (str% "minimal-C++", false)])
          | none => true) = true := by cases win <;> decide +kernel
      intro l hl w hw
      have := List.all_eq_true.mp this l hl
      rw [hw] at this
      exact of_decide_eq_true this
  constructor
  · intro l hl w hw s
    have hm := h l hl w hw
    have hd : (∃ a, l = a ++ str% "this is the default") ↔ (str% "this is the default").isSuffixOf l = true := by
      rw [List.isSuffixOf_iff_suffix]
      exact ⟨fun ⟨a, e⟩ => ⟨a, e.symm⟩, fun ⟨a, e⟩ => ⟨a, e.symm⟩⟩
    rw [hd]
    simp only [List.mem_cons, Prod.mk.injEq, List.not_mem_nil, or_false] at hm
    rcases hm with ⟨rfl, e⟩ | ⟨rfl, e⟩ | ⟨rfl, e⟩ | ⟨rfl, e⟩ | ⟨rfl, e⟩ <;> rw [e] <;> exact ⟨_, rfl, by decide⟩
  · have one : ∀ (f : Format) (w : Str), (∀ s, valueEffect (str% "format") w s = .ok { s with format := f }) →
        (∀ p ∈ [(str% "C", true), (str% "C++", false), (str% "plugin", false), (str% "minimal", false), (str% "minimal-C++", false)],
          valueEffect (str% "format") p.1 {} = .ok { ({} : Settings) with format := f } → p.1 = w) →
        (((fullHead ++ fullPrefixes win ++ fullTail) ++ [[]]).any (fun l => decide (formatOf l = some w)) = true) →
        ∃ l ∈ linesOf (full win prog), ∃ w, formatOf l = some w ∧ (∀ s, valueEffect (str% "format") w s = .ok { s with format := f }) ∧
          ∀ l' ∈ linesOf (full win prog), ∀ w', formatOf l' = some w' → valueEffect (str% "format") w' {} = .ok { ({} : Settings) with format := f } → w' = w := by
      intro f w h1 h2 h3
      obtain ⟨l, hl, hw⟩ := List.any_eq_true.mp h3
      refine ⟨l, ?_, w, of_decide_eq_true hw, h1, fun l' hl' w' hw' => h2 _ (h l' hl' w' hw')⟩
      rw [lines_full win hp]
      exact List.mem_cons_of_mem _ hl
    intro f
    cases f with
    | c => exact one _ (str% "C") (fun _ => rfl) (by decide +kernel) (by cases win <;> decide +kernel)
    | cxx => exact one _ (str% "C++") (fun _ => rfl) (by decide +kernel) (by cases win <;> decide +kernel)
    | plugin => exact one _ (str% "plugin") (fun _ => rfl) (by decide +kernel) (by cases win <;> decide +kernel)
    | minimal => exact one _ (str% "minimal") (fun _ => rfl) (by decide +kernel) (by cases win <;> decide +kernel)
    | minimalCxx => exact one _ (str% "minimal-C++") (fun _ => rfl) (by decide +kernel) (by cases win <;> decide +kernel)

example : formatOf (str% "    minimal-C++  -  small C++ header with exception handling") = some (str% "minimal-C++") := by decide

/-- The modes of `-param` that the brief text offers are exactly the accepted ones, in upper and
    lower case, and the default is the one of a command line without `-param`. -/
theorem C92_modes (win : Bool) (prog : Str) (hp : '\n' ∉ prog) :
    ∃ l ∈ linesOf (brief win prog), alternatives (str% "modes are: ") l ≠ [] ∧
      (∀ v s, (∃ d, (lower v, d) ∈ alternatives (str% "modes are: ") l) ↔ ∃ s', valueEffect (str% "param") v s = .ok s') ∧
      (∀ w s, (w, true) ∈ alternatives (str% "modes are: ") l → valueEffect (str% "param") w s = .ok { s with names := ({} : Settings).names }) := by
  rw [lines_brief win hp]
  refine ⟨str% "                    modes are: read (default), skip, create", List.mem_cons_of_mem _ (by cases win <;> decide +kernel), by decide +kernel, ?_, ?_⟩
  · have ha : alternatives (str% "modes are: ") (str% "                    modes are: read (default), skip, create") =
        [(str% "read", true), (str% "skip", false), (str% "create", false)] := by decide +kernel
    rw [ha]
    intro v s
    unfold valueEffect
    rw [if_neg (by decide), if_neg (by decide), if_pos rfl]
    constructor
    · rintro ⟨d, hd⟩
      generalize lower v = x at hd ⊢
      simp only [List.mem_cons, Prod.mk.injEq, List.not_mem_nil, or_false] at hd
      rcases hd with ⟨rfl, rfl⟩ | ⟨rfl, rfl⟩ | ⟨rfl, rfl⟩ <;> exact ⟨_, rfl⟩
    · rintro ⟨s', h⟩
      generalize lower v = x at h ⊢
      by_cases h1 : x = str% "read"
      · exact ⟨true, by rw [h1]; decide⟩
      by_cases h2 : x = str% "skip"
      · exact ⟨false, by rw [h2]; decide⟩
      by_cases h3 : x = str% "create"
      · exact ⟨false, by rw [h3]; decide⟩
      have hl : modeNames.lookup x = none := by
        have b1 : (x == str% "read") = false := by simpa using h1
        have b2 : (x == str% "skip") = false := by simpa using h2
        have b3 : (x == str% "create") = false := by simpa using h3
        simp only [modeNames, List.lookup, b1, b2, b3]
      rw [hl] at h
      cases h
  · have ha : alternatives (str% "modes are: ") (str% "                    modes are: read (default), skip, create") =
        [(str% "read", true), (str% "skip", false), (str% "create", false)] := by decide +kernel
    rw [ha]
    intro w s hw
    simp only [List.mem_cons, Prod.mk.injEq, List.not_mem_nil, or_false] at hw
    rcases hw with ⟨rfl, -⟩ | ⟨-, h⟩ | ⟨-, h⟩
    · rfl
    · cases h
    · cases h

/-! #### Template keywords -/

open Gdo.Sub Gdo.Tpl in
/-- The keywords that the full text explains are those that make a template line be repeated:
    without any of them a line is written once. -/
theorem C92_keywords (win : Bool) (prog : Str) (hp : '\n' ∉ prog) :
    (∀ k, (∃ l ∈ linesOf (full win prog), keywordOf l = some k) ↔ k ∈ functionKeywords ++ objectKeywords ++ symbolKeywords) ∧
    ∀ (n : Nat) (cfg : Config) (lineno : Nat) (e : Entry), checkSkip e.data cfg.names = none →
      (∀ l ∈ linesOf (full win prog), ∀ k, keywordOf l = some k → ¬ Contains k (Gdo.Pfx.applyPrefix cfg.pfx e.data)) → e.data ≠ [] →
      substituteLine n cfg lineno false e =
        .ok ([.text (Gdo.Pfx.applyPrefix cfg.pfx e.data)], countLinefeed (Gdo.Pfx.applyPrefix cfg.pfx e.data) + 1, false) := by
  have key : ∀ k, (∃ l ∈ linesOf (full win prog), keywordOf l = some k) ↔ k ∈ functionKeywords ++ objectKeywords ++ symbolKeywords := by
    have h : (linesOf (full win prog)).filterMap keywordOf =
        [str% "%%type%%", str% "%%func_symbol%%", str% "%%func_symbol_pad%%", str% "%%args%%", str% "%%param_names%%", str% "%%return%%",
         str% "%%obj_type%%", str% "%%obj_symbol%%", str% "%%obj_symbol_pad%%", str% "%%sym_type%%", str% "%%symbol%%"] := by
      rw [lines_full win hp, List.filterMap_cons]
      have : keywordOf (usage prog) = none := rfl
      rw [this]
      cases win <;> decide +kernel
    intro k
    rw [← List.mem_filterMap, h]
    simp only [functionKeywords, objectKeywords, symbolKeywords, List.mem_cons, List.mem_append, List.not_mem_nil, or_false]
    constructor
    · rintro (h|h|h|h|h|h|h|h|h|h|h) <;> simp [h]
    · rintro ((((h|h|h|h|h|h)|(h|h|h))|(h|h))) <;> simp [h]
  refine ⟨key, ?_⟩
  intro n cfg lineno e hs hk hne
  have hf : ∀ ks : List Str, (∀ k ∈ ks, k ∈ functionKeywords ++ objectKeywords ++ symbolKeywords) →
      findKeyword ks (Gdo.Pfx.applyPrefix cfg.pfx e.data) = false := by
    intro ks hks
    unfold findKeyword
    rw [List.any_eq_false]
    intro k hk' hfound
    obtain ⟨l, hl, hkl⟩ := (key k).mpr (hks k hk')
    exact hk l hl k hkl ((found_iff_contains _ _).mp hfound)
  have h1 := hf functionKeywords (fun k hk => by simp [hk])
  have h2 := hf objectKeywords (fun k hk => by simp [hk])
  have h3 := hf symbolKeywords (fun k hk => by simp [hk])
  have hemp : e.data.isEmpty = false := by
    cases hd : e.data with
    | nil => exact absurd hd hne
    | cons _ _ => rfl
  have hskip : (if e.maybeKeyword = true then checkSkip e.data cfg.names else none) = none := by
    split
    · exact hs
    · rfl
  unfold substituteLine
  rw [hemp, hskip]
  simp only [h1, h2, h3, Bool.false_eq_true, if_false]
  split <;> rfl

/-! #### The name of the program -/

/-- Where `utils::progname` is used, the name shown is what follows the last separator, or the
    whole text if nothing follows it. -/
theorem C92_progname (win : Bool) (path : Str) :
    let sep (c : Char) : Prop := c = '/' ∨ (win = true ∧ c = '\\')
    (∃ d c, sep c ∧ path = d ++ c :: progname win path ∧ progname win path ≠ [] ∧ ∀ x ∈ progname win path, ¬ sep x) ∨
    (progname win path = path ∧ ((∀ x ∈ path, ¬ sep x) ∨ ∃ d c, sep c ∧ path = d ++ [c])) := by
  intro sep
  let b : Char → Bool := fun c => c == '/' || (win && c == '\\')
  have hb : ∀ c, b c = true ↔ sep c := by intro c; simp [b, sep]
  have hlast : ∀ p : Str, (p.any b = false ∧ ∀ x ∈ p, ¬ sep x) ∨
      ∃ d c, sep c ∧ p.any b = true ∧ p = d ++ c :: (p.reverse.takeWhile fun c => !b c).reverse := by
    intro p
    by_cases h : p.any b = true
    · right
      have hs := List.takeWhile_append_dropWhile (p := fun c => !b c) (l := p.reverse)
      cases hd : p.reverse.dropWhile (fun c => !b c) with
      | nil =>
        rw [hd, List.append_nil] at hs
        obtain ⟨x, hx, hbx⟩ := List.any_eq_true.mp h
        have : ∀ y ∈ p.reverse, (!b y) = true := by
          rw [← hs]
          intro y hy
          exact List.all_eq_true.mp (List.all_takeWhile (p := fun c => !b c) (l := p.reverse)) y hy
        have := this x (by simpa using hx)
        rw [hbx] at this
        cases this
      | cons c r =>
        have hc : b c = true := by
          have := List.head?_dropWhile_not (fun c => !b c) p.reverse
          rw [hd] at this
          simpa using this
        rw [hd] at hs
        refine ⟨r.reverse, c, (hb c).mp hc, h, ?_⟩
        have : p = (p.reverse.takeWhile (fun c => !b c) ++ c :: r).reverse := by rw [hs, List.reverse_reverse]
        rw [List.reverse_append, List.reverse_cons] at this
        simpa using this
    · left
      refine ⟨by simpa using h, fun x hx hsx => h (List.any_eq_true.mpr ⟨x, hx, (hb x).mpr hsx⟩)⟩
  rcases hlast path with ⟨h1, h2⟩ | ⟨d, c, hc, h1, h2⟩
  · right
    have : lastComponent win path = none := by
      unfold lastComponent
      rw [if_neg (by simpa [b] using h1)]
    refine ⟨?_, .inl h2⟩
    unfold progname
    rw [this]
  · have hcomp : lastComponent win path = some (path.reverse.takeWhile fun c => !b c).reverse := by
      unfold lastComponent
      rw [if_pos h1]
    cases ht : (path.reverse.takeWhile fun c => !b c).reverse with
    | nil =>
      right
      rw [ht] at h2 hcomp
      refine ⟨?_, .inr ⟨d, c, hc, h2⟩⟩
      unfold progname
      rw [hcomp]
    | cons x r =>
      left
      rw [ht] at h2 hcomp
      have hp : progname win path = x :: r := by
        unfold progname
        rw [hcomp]
      rw [hp]
      refine ⟨d, c, hc, h2, by simp, ?_⟩
      intro y hy hsy
      rw [← ht, List.mem_reverse] at hy
      have := List.all_eq_true.mp (List.all_takeWhile (p := fun c => !b c) (l := path.reverse)) y hy
      rw [(hb y).mpr hsy] at this
      cases this

/-! ### Examples -/

theorem exHelp : IsHelp false (str% "gendlopen") (brief false (str% "gendlopen")) := ⟨by decide, .inl rfl⟩

example : Describes false (brief false (str% "gendlopen")) [str% "--format=C++", str% "-DFOO=1", str% "-force", str% "in.txt"]
    [.value (str% "format") (str% "C++"), .value (str% "D") (str% "FOO=1"), .flag (str% "force"), .input (str% "in.txt")] :=
  .option (.separated (n := str% "format") (p := str% "--") (sep := '=') ((lists_iff exHelp _ _).mpr (by decide)) (.inr (.inl ⟨rfl, by decide⟩)) (.inl rfl) (by decide))
    (.option (.joined (n := str% "D") (p := str% "-") ((lists_iff exHelp _ _).mpr (by decide)) (.inl rfl) (by decide))
      (.option (.flag (n := str% "force") (p := str% "-") ((lists_iff exHelp _ _).mpr (by decide)) (.inl rfl))
        (.file (.inr ⟨by rintro t ⟨⟩, by rintro t ⟨⟩⟩) .nil)))

example : CStrs [str% "--format=C++", str% "-DFOO=1", str% "-force", str% "in.txt"] := by unfold CStrs CStr; decide

example : parseCmdline false [str% "gendlopen", str% "--format=C++", str% "-DFOO=1", str% "-force", str% "in.txt"] =
    some (some (.settings { input := str% "in.txt", format := .cxx, force := true, defines := str% "#ifndef FOO\n# define FOO 1\n#endif\n" } [])) := by
  decide +kernel

example : nameOf false (str% "--verbose") = some (str% "verbose", true) ∧ (∀ f, (str% "verbose", f) ∉ listed) := by
  refine ⟨rfl, fun f => ?_⟩
  cases f <;> decide

example : parseOption {} (str% "format=plugin") = .ok { format := .plugin } ∧ parseOption {} (str% "out=x") = .error (.error (.optionUnknown (str% "out=x"))) := by
  decide +kernel

example : progname true (str% "C:\\bin/gendlopen.exe") = str% "gendlopen.exe" ∧ progname false (str% "a\\b") = str% "a\\b" ∧
    progname false (str% "./") = str% "./" := by decide

end Gdo.Help
