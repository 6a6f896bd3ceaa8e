import Verif.Lemmas.SubstituteOut
import Verif.Props.Ast

/-!
Properties C23 to C28: keyword replacement, loops over symbols, line counts, `#line`
directives, sections and termination of template processing.
-/

namespace Gdo.Sub
open Gdo Tpl Tmpl

/-! ### C23, C24 -/

/-- A line that is processed: it is not empty and not a marker, and it is flagged as
    having a percent sign if it has one. -/
structure Line (e : Entry) : Prop where
  ne : e.data ≠ []
  flag : Flagged e
  marker : markerOf e = none

theorem substituteLine_line {e : Entry} (h : Line e) (n : Nat) (cfg : Config) (lineno : Nat) :
    substituteLine n cfg lineno false e = processLine n cfg lineno e := by
  rw [substituteLine_eq, if_neg (by simpa using h.ne), markerTest h.flag, h.marker]
  rfl

theorem texts_append (a b : List Chunk) : texts (a ++ b) = texts a ++ texts b := by simp [texts]

theorem texts_directive (cfg : Config) (l : Nat) : texts (if cfg.lineDirective then [.directive l] else []) = [] := by
  split <;> rfl

/-- A loop over symbols whose replacements all succeed. -/
theorem replaceLoop_texts {n : Nat} {cfg : Config} {lineno : Nat} {entry : Str} {l : List (List (Str × Str))} {vs : List Str}
    (h : l.map (fun ps => replaceSeq n ps entry) = vs.map .ok) :
    ∃ cs k, replaceLoop n cfg lineno entry l = .ok (cs, k) ∧ texts cs = vs := by
  induction l generalizing vs with
  | nil =>
    cases vs with
    | nil => exact ⟨[], 0, rfl, rfl⟩
    | cons v vs => simp at h
  | cons p l ih =>
    cases vs with
    | nil => simp at h
    | cons v vs =>
      simp only [List.map_cons, List.cons.injEq] at h
      obtain ⟨cs, k, h1, h2⟩ := ih h.2
      rw [replaceLoop, h.1]
      simp only [bind, Except.bind]
      rw [h1]
      refine ⟨_, _, rfl, ?_⟩
      rw [texts_append, texts_append, texts_directive, h2]
      rfl

/-- Conversely, a loop that ends writes the results of the replacements. -/
theorem replaceLoop_ok {n : Nat} {cfg : Config} {lineno : Nat} {entry : Str} {l : List (List (Str × Str))}
    {cs : List Chunk} {k : Nat} (h : replaceLoop n cfg lineno entry l = .ok (cs, k)) :
    l.map (fun ps => replaceSeq n ps entry) = (texts cs).map .ok := by
  induction l generalizing cs k with
  | nil => simp [replaceLoop] at h; rw [h.1]; rfl
  | cons p l ih =>
    rw [replaceLoop] at h
    cases hs : replaceSeq n p entry with
    | error x => rw [hs] at h; simp [bind, Except.bind] at h
    | ok copy =>
      rw [hs] at h
      simp only [bind, Except.bind] at h
      cases hr : replaceLoop n cfg lineno entry l with
      | error x => rw [hr] at h; simp at h
      | ok r =>
        obtain ⟨cs', k'⟩ := r
        rw [hr] at h
        simp only [pure, Except.pure, Except.ok.injEq, Prod.mk.injEq] at h
        rw [← h.1, texts_append, texts_append, texts_directive, List.map_cons, hs, ih hr]
        rfl

/-- The keyword tests of the code find the keywords of the entry. -/
theorem keyword_tests {ps : List Item} (hw : WellFormed ps) :
    (findKeyword functionKeywords (source ps) = true ↔ Uses ps .function) ∧
    (findKeyword objectKeywords (source ps) = true ↔ Uses ps .object) ∧
    (findKeyword symbolKeywords (source ps) = true ↔ Uses ps .symbol) := by
  have key : ∀ k : Str, k ≠ [] → (∀ c ∈ k, isNameChar c = true) →
      (found (str% "%%" ++ k ++ str% "%%") (source ps) = true ↔ .kw k ∈ ps) := fun k h1 h2 => found_iff hw h1 h2
  have e1 := key (str% "return") (by simp) (by decide)
  have e2 := key (str% "type") (by simp) (by decide)
  have e3 := key (str% "func_symbol") (by simp) (by decide)
  have e4 := key (str% "func_symbol_pad") (by simp) (by decide)
  have e5 := key (str% "args") (by simp) (by decide)
  have e6 := key (str% "param_names") (by simp) (by decide)
  have e7 := key (str% "obj_type") (by simp) (by decide)
  have e8 := key (str% "obj_symbol") (by simp) (by decide)
  have e9 := key (str% "obj_symbol_pad") (by simp) (by decide)
  have e10 := key (str% "sym_type") (by simp) (by decide)
  have e11 := key (str% "symbol") (by simp) (by decide)
  have hf : ∀ k, kindOf k = some .function ↔
      k ∈ [str% "return", str% "type", str% "func_symbol", str% "func_symbol_pad", str% "args", str% "param_names"] := by
    intro k
    unfold kindOf
    split
    · rename_i h; simpa using h
    · rename_i h
      split
      · simp_all
      · split <;> simp_all
  have ho : ∀ k, kindOf k = some .object ↔ k ∈ [str% "obj_type", str% "obj_symbol", str% "obj_symbol_pad"] := by
    intro k
    constructor
    · unfold kindOf
      split
      · simp
      · split
        · rename_i h; intro _; exact h
        · split <;> simp
    · intro h
      simp only [List.mem_cons, List.not_mem_nil, or_false] at h
      rcases h with rfl | rfl | rfl <;> decide
  have hs : ∀ k, kindOf k = some .symbol ↔ k ∈ [str% "sym_type", str% "symbol"] := by
    intro k
    constructor
    · unfold kindOf
      split
      · simp
      · split
        · simp
        · split
          · rename_i h; intro _; exact h
          · simp
    · intro h
      simp only [List.mem_cons, List.not_mem_nil, or_false] at h
      rcases h with rfl | rfl <;> decide
  simp only [List.cons_append, List.nil_append] at e1 e2 e3 e4 e5 e6 e7 e8 e9 e10 e11
  refine ⟨?_, ?_, ?_⟩
  · unfold findKeyword functionKeywords Uses
    simp only [List.any_cons, List.any_nil, Bool.or_eq_true, e1, e2, e3, e4, e5, e6, Bool.false_eq_true, or_false, hf]
    constructor
    · rintro (h | h | h | h | h | h) <;> exact ⟨_, h, by simp⟩
    · rintro ⟨k, h, hk⟩
      simp only [List.mem_cons, List.not_mem_nil, or_false] at hk
      rcases hk with rfl | rfl | rfl | rfl | rfl | rfl <;> simp [h]
  · unfold findKeyword objectKeywords Uses
    simp only [List.any_cons, List.any_nil, Bool.or_eq_true, e7, e8, e9, Bool.false_eq_true, or_false, ho]
    constructor
    · rintro (h | h | h) <;> exact ⟨_, h, by simp⟩
    · rintro ⟨k, h, hk⟩
      simp only [List.mem_cons, List.not_mem_nil, or_false] at hk
      rcases hk with rfl | rfl | rfl <;> simp [h]
  · unfold findKeyword symbolKeywords Uses
    simp only [List.any_cons, List.any_nil, Bool.or_eq_true, e10, e11, Bool.false_eq_true, or_false, hs]
    constructor
    · rintro (h | h) <;> exact ⟨_, h, by simp⟩
    · rintro ⟨k, h, hk⟩
      simp only [List.mem_cons, List.not_mem_nil, or_false] at hk
      rcases hk with rfl | rfl <;> simp [h]

theorem uses_percent {ps : List Item} {x : Kind} (h : Uses ps x) : found (str% "%%") (source ps) = true := by
  obtain ⟨k, hk, _⟩ := h
  rw [found_iff_contains]
  obtain ⟨a, b, rfl⟩ := List.append_of_mem hk
  exact ⟨source a, k ++ str% "%%" ++ source b, by simp [source_append, source_cons, Item.source]⟩

theorem bool_eq_false_of {b : Bool} {P : Prop} (h : b = true ↔ P) (hp : ¬ P) : b = false := by
  cases b with
  | false => rfl
  | true => exact absurd (h.mp rfl) hp

/-- The loop that an entry needs. -/
theorem loopOf_spec {e : Entry} {ps : List Item} (hw : WellFormed ps) (hk : e.maybeKeyword = true) :
    (Uses ps .function → ¬ Uses ps .object → ¬ Uses ps .symbol → loopOf e (source ps) = .ok (some .functions)) ∧
    (¬ Uses ps .function → Uses ps .object → ¬ Uses ps .symbol → loopOf e (source ps) = .ok (some .objects)) ∧
    (¬ Uses ps .function → ¬ Uses ps .object → Uses ps .symbol → loopOf e (source ps) = .ok (some .symbols)) ∧
    (¬ Uses ps .function → ¬ Uses ps .object → ¬ Uses ps .symbol → loopOf e (source ps) = .ok none) := by
  obtain ⟨h1, h2, h3⟩ := keyword_tests hw
  refine ⟨?_, ?_, ?_, ?_⟩
  · intro a b c
    unfold loopOf
    rw [hk, uses_percent a, h1.mpr a, bool_eq_false_of h2 b, bool_eq_false_of h3 c]
    rfl
  · intro a b c
    unfold loopOf
    rw [hk, uses_percent b, bool_eq_false_of h1 a, h2.mpr b, bool_eq_false_of h3 c]
    rfl
  · intro a b c
    unfold loopOf
    rw [hk, uses_percent c, bool_eq_false_of h1 a, bool_eq_false_of h2 b, h3.mpr c]
    rfl
  · intro a b c
    unfold loopOf
    split
    · rw [bool_eq_false_of h1 a, bool_eq_false_of h2 b, bool_eq_false_of h3 c]
    · rfl

/-- Functions: the entry is written once for each function, in order, with all
    keywords replaced at once.  Missing: entries with percent signs outside of the
    keywords or with keywords too close to each other, and data with percent signs. -/
theorem C23_functions_partial (cfg : Config) (lineno : Nat) (e : Entry) (hl : Line e) (hk : e.maybeKeyword = true)
    (ps : List Item) (hps : Pfx.applyPrefix cfg.pfx e.data = source ps) (hw : WellFormed ps)
    (hu : Uses ps .function) (ho : ¬ Uses ps .object) (hs : ¬ Uses ps .symbol)
    (hp : ∀ p ∈ cfg.prototypes, PlainData p) (n : Nat) (hn : ps.length < n) :
    ∃ cs k, substituteLine n cfg lineno false e = .ok (cs, k, false) ∧
      texts cs = cfg.prototypes.map fun p => Tmpl.replaceAll (functionValues (width cfg.prototypes) p) false ps := by
  rw [substituteLine_line hl]
  unfold processLine
  simp only
  rw [hps, (loopOf_spec hw hk).1 hu ho hs]
  simp only
  split
  · rename_i h0
    have : cfg.prototypes = [] := by simpa [loopEmpty] using h0
    refine ⟨_, _, rfl, ?_⟩
    rw [this]
    simp only [printLineno]
    rw [texts_directive]
    rfl
  · have := replaceLoop_texts (n := n) (cfg := cfg) (lineno := lineno) (entry := source ps)
      (l := loopPasses cfg (source ps) .functions)
      (vs := cfg.prototypes.map fun p => Tmpl.replaceAll (functionValues (width cfg.prototypes) p) false ps) (by
        unfold loopPasses
        simp only [List.map_map]
        apply List.map_congr_left
        intro p hmem
        simp only [Function.comp]
        apply function_seq _ _ (hp p hmem) _ hw _ _ _ hn
        intro hpad
        have := (found_iff hw (k := str% "func_symbol_pad") (by simp) (by decide)).mpr hpad
        simp only [List.cons_append, List.nil_append] at this
        rw [if_pos this, longestSymbol_eq]
        exact ⟨rfl, width_pos hmem (hp p hmem).symbol.2⟩)
    obtain ⟨cs, k, h1, h2⟩ := this
    rw [h1]
    exact ⟨cs, k, rfl, h2⟩

/-- Objects: the entry is written once for each object, in order, with all keywords
    replaced at once. -/
theorem C23_objects_partial (cfg : Config) (lineno : Nat) (e : Entry) (hl : Line e) (hk : e.maybeKeyword = true)
    (ps : List Item) (hps : Pfx.applyPrefix cfg.pfx e.data = source ps) (hw : WellFormed ps)
    (hu : ¬ Uses ps .function) (ho : Uses ps .object) (hs : ¬ Uses ps .symbol)
    (hp : ∀ p ∈ cfg.objects, PlainData p) (n : Nat) (hn : ps.length < n) :
    ∃ cs k, substituteLine n cfg lineno false e = .ok (cs, k, false) ∧
      texts cs = cfg.objects.map fun p => Tmpl.replaceAll (objectValues (width cfg.objects) p) false ps := by
  rw [substituteLine_line hl]
  unfold processLine
  simp only
  rw [hps, (loopOf_spec hw hk).2.1 hu ho hs]
  simp only
  split
  · rename_i h0
    have : cfg.objects = [] := by simpa [loopEmpty] using h0
    refine ⟨_, _, rfl, ?_⟩
    rw [this]
    simp only [printLineno]
    rw [texts_directive]
    rfl
  · have := replaceLoop_texts (n := n) (cfg := cfg) (lineno := lineno) (entry := source ps)
      (l := loopPasses cfg (source ps) .objects)
      (vs := cfg.objects.map fun p => Tmpl.replaceAll (objectValues (width cfg.objects) p) false ps) (by
        unfold loopPasses
        simp only [List.map_map]
        apply List.map_congr_left
        intro p hmem
        simp only [Function.comp]
        apply object_seq _ _ (hp p hmem) _ hw _ _ _ hn
        intro hpad
        have := (found_iff hw (k := str% "obj_symbol_pad") (by simp) (by decide)).mpr hpad
        simp only [List.cons_append, List.nil_append] at this
        rw [if_pos this, longestSymbol_eq]
        exact ⟨rfl, width_pos hmem (hp p hmem).symbol.2⟩)
    obtain ⟨cs, k, h1, h2⟩ := this
    rw [h1]
    exact ⟨cs, k, rfl, h2⟩

theorem functionPointer_percent {p : Proto} (h : PlainData p) : '%' ∉ functionPointer p := by
  unfold functionPointer
  have h1 := h.type.1
  have h2 := h.args
  cases isPointer p.type <;> simp [h1, h2]

theorem objectPointer_percent {p : Proto} (h : PlainData p) : '%' ∉ objectPointer p := by
  unfold objectPointer
  have h1 := h.type.1
  cases isPointer p.type <;> simp [h1]

/-- Symbols: the entry is written once for each function and then once for each
    object, in order, with all keywords replaced at once. -/
theorem C23_symbols_partial (cfg : Config) (lineno : Nat) (e : Entry) (hl : Line e) (hk : e.maybeKeyword = true)
    (ps : List Item) (hps : Pfx.applyPrefix cfg.pfx e.data = source ps) (hw : WellFormed ps)
    (hu : ¬ Uses ps .function) (ho : ¬ Uses ps .object) (hs : Uses ps .symbol)
    (hp : ∀ p ∈ cfg.prototypes ++ cfg.objects, PlainData p) (n : Nat) (hn : ps.length < n) :
    ∃ cs k, substituteLine n cfg lineno false e = .ok (cs, k, false) ∧
      texts cs = (cfg.prototypes.map fun p => Tmpl.replaceAll (symbolValues (functionPointer p) p.symbol) false ps) ++
        (cfg.objects.map fun p => Tmpl.replaceAll (symbolValues (objectPointer p) p.symbol) false ps) := by
  rw [substituteLine_line hl]
  unfold processLine
  simp only
  rw [hps, (loopOf_spec hw hk).2.2.1 hu ho hs]
  simp only [loopEmpty, Bool.false_eq_true, if_false]
  have := replaceLoop_texts (n := n) (cfg := cfg) (lineno := lineno) (entry := source ps)
    (l := loopPasses cfg (source ps) .symbols)
    (vs := (cfg.prototypes.map fun p => Tmpl.replaceAll (symbolValues (functionPointer p) p.symbol) false ps) ++
        (cfg.objects.map fun p => Tmpl.replaceAll (symbolValues (objectPointer p) p.symbol) false ps)) (by
      unfold loopPasses
      simp only [List.map_map, List.map_append]
      congr 1
      · apply List.map_congr_left
        intro p hmem
        have := hp p (by simp [hmem])
        simp only [Function.comp, functionSymType_eq]
        exact symbol_seq _ _ (functionPointer_percent this) this.symbol.1 _ hw _ hn
      · apply List.map_congr_left
        intro p hmem
        have := hp p (by simp [hmem])
        simp only [Function.comp, objectSymType_eq]
        exact symbol_seq _ _ (objectPointer_percent this) this.symbol.1 _ hw _ hn)
  obtain ⟨cs, k, h1, h2⟩ := this
  rw [h1]
  exact ⟨cs, k, rfl, h2⟩

/-- An entry without such keywords is written once, as it is. -/
theorem C23_plain_partial (cfg : Config) (lineno : Nat) (e : Entry) (hl : Line e)
    (ps : List Item) (hps : Pfx.applyPrefix cfg.pfx e.data = source ps) (hw : WellFormed ps)
    (hu : ∀ x, ¬ Uses ps x) (n : Nat) :
    ∃ k, substituteLine n cfg lineno false e = .ok ([.text (source ps)], k, false) := by
  rw [substituteLine_line hl]
  unfold processLine
  simp only
  have : loopOf e (source ps) = .ok none := by
    cases hk : e.maybeKeyword with
    | true => exact (loopOf_spec hw hk).2.2.2 (hu _) (hu _) (hu _)
    | false =>
      unfold loopOf
      rw [hk]
      rfl
  rw [hps, this]
  exact ⟨_, rfl⟩

/-- A function, `char *foo(int a)`. -/
def exProto : Proto := { kind := .function, type := str% "char *", symbol := str% "foo", args := str% "int a", paramNames := str% "a" }
/-- A function without a return value. -/
def exVoid : Proto := { kind := .function, type := str% "void", symbol := str% "x", args := str% "void" }
/-- An entry, `%%type%% %%func_symbol%%(%%args%%) { %%return%% p; }`. -/
def exItems : List Item :=
  [.kw (str% "type"), .ch ' ', .kw (str% "func_symbol"), .ch '(', .kw (str% "args"), .ch ')', .ch '{', .kw (str% "return"),
   .ch ' ', .ch ';', .ch '}']

example : WellFormed exItems ∧ Uses exItems .function ∧ ¬ Uses exItems .object ∧ ¬ Uses exItems .symbol := by
  refine ⟨?_, ⟨str% "type", by simp [exItems], by decide⟩, ?_, ?_⟩
  · simp [exItems, WellFormed, Separated, isNameChar, isLower]
  all_goals
    rintro ⟨k, h, hk⟩
    simp [exItems] at h
    rcases h with rfl | rfl | rfl | rfl <;> simp [kindOf] at hk

example : PlainData exProto ∧ PlainData exVoid := by
  constructor <;> constructor <;> simp [exProto, exVoid]

example : Tmpl.replaceAll (functionValues 3 exProto) false exItems = str% "char *foo(int a){return ;}" ∧
    Tmpl.replaceAll (functionValues 3 exVoid) false exItems = str% "void x(void){;}" := by decide

example : Line ⟨source exItems, true, 1⟩ := ⟨by decide, by unfold Flagged; decide, by decide⟩

/-- The data are taken for keywords: a parameter name list that contains `%%args%%`
    is replaced only if the keyword comes later.  Here the type contains `%%args%%`
    and the written text has the arguments in its place. -/
theorem C23_violated_data :
    substituteLine 9 { prototypes := [{ kind := .function, type := str% "%%args%%", symbol := str% "f", args := str% "int" }] } 0 false
      ⟨str% "%%type%%;", true, 1⟩ = .ok ([.text (str% "int;")], 1, false) ∧
    Tmpl.replaceAll (functionValues 1 { kind := .function, type := str% "%%args%%", symbol := str% "f", args := str% "int" }) false
      [.kw (str% "type"), .ch ';'] = str% "%%args%%;" := by decide

/-- Two keywords with the name of a keyword between them: the percent signs in the
    middle are taken for a keyword. -/
theorem C23_violated_between :
    substituteLine 9 { prototypes := [{ kind := .function, type := str% "t", symbol := str% "f", args := str% "a" }] } 0 false
      ⟨source [.kw (str% "args"), .ch 't', .ch 'y', .ch 'p', .ch 'e', .kw (str% "func_symbol")], true, 1⟩ =
      .ok ([.text (str% "%%argstfunc_symbol%%")], 1, false) ∧
    Tmpl.replaceAll (functionValues 1 { kind := .function, type := str% "t", symbol := str% "f", args := str% "a" }) false
      [.kw (str% "args"), .ch 't', .ch 'y', .ch 'p', .ch 'e', .kw (str% "func_symbol")] = str% "atypef" := by decide

/-- The number of symbols that an entry is written for. -/
def symbolCount (cfg : Config) : LoopKind → Nat
  | .functions => cfg.prototypes.length
  | .objects => cfg.objects.length
  | .symbols => cfg.prototypes.length + cfg.objects.length

theorem loopPasses_length (cfg : Config) (buf : Str) (k : LoopKind) : (loopPasses cfg buf k).length = symbolCount cfg k := by
  cases k <;> simp [loopPasses, symbolCount]

/-- The keywords of a class occur in the entry. -/
def HasKeyword (kws : List Str) (s : Str) : Prop := ∃ k ∈ kws, Contains k s

theorem findKeyword_iff (kws : List Str) (s : Str) : findKeyword kws s = true ↔ HasKeyword kws s := by
  unfold findKeyword HasKeyword
  simp only [List.any_eq_true, found_iff_contains]

theorem pct_found {e : Entry} {cfg : Config} (hf : Flagged e)
    {kws : List Str} (hk : ∀ x ∈ kws, ∃ y, x = str% "%%" ++ y) (h : HasKeyword kws (Pfx.applyPrefix cfg.pfx e.data)) :
    (e.maybeKeyword && found (str% "%%") (Pfx.applyPrefix cfg.pfx e.data)) = true := by
  obtain ⟨x, hx, p, q, hpq⟩ := h
  obtain ⟨y, rfl⟩ := hk x hx
  have h1 : e.maybeKeyword = true := hf.mpr (Pfx.applyPrefix_percent _ _ (by rw [hpq]; simp))
  rw [h1, Bool.true_and, found_iff_contains]
  exact ⟨p, y ++ q, by rw [hpq]; simp⟩

/-- Every entry, whatever its text is: processing that does not fail writes it once
    for each function if it has function keywords, once for each object if it has
    object keywords, once for each symbol if it has symbol keywords, and once if it
    has none.  It never has keywords of two classes. -/
theorem C24_once (n : Nat) (cfg : Config) (lineno : Nat) (e : Entry) (hl : Line e)
    (cs : List Chunk) (k : Nat) (s : Bool) (h : substituteLine n cfg lineno false e = .ok (cs, k, s)) :
    let buf := Pfx.applyPrefix cfg.pfx e.data
    let F := HasKeyword functionKeywords buf
    let O := HasKeyword objectKeywords buf
    let S := HasKeyword symbolKeywords buf
    (F → (texts cs).length = cfg.prototypes.length) ∧
    (O → (texts cs).length = cfg.objects.length) ∧
    (S → (texts cs).length = cfg.prototypes.length + cfg.objects.length) ∧
    (¬ F → ¬ O → ¬ S → texts cs = [buf]) ∧ ¬ (F ∧ O) ∧ ¬ (F ∧ S) ∧ ¬ (O ∧ S) := by
  rw [substituteLine_line hl] at h
  unfold processLine at h
  simp only at h ⊢
  have f1 := pct_found (cfg := cfg) (kws := functionKeywords) hl.flag (by intro x hx; simp only [functionKeywords, List.mem_cons, List.not_mem_nil, or_false] at hx; rcases hx with rfl | rfl | rfl | rfl | rfl | rfl <;> exact ⟨_, rfl⟩)
  have f2 := pct_found (cfg := cfg) (kws := objectKeywords) hl.flag (by intro x hx; simp only [objectKeywords, List.mem_cons, List.not_mem_nil, or_false] at hx; rcases hx with rfl | rfl | rfl <;> exact ⟨_, rfl⟩)
  have f3 := pct_found (cfg := cfg) (kws := symbolKeywords) hl.flag (by intro x hx; simp only [symbolKeywords, List.mem_cons, List.not_mem_nil, or_false] at hx; rcases hx with rfl | rfl <;> exact ⟨_, rfl⟩)
  have g1 := findKeyword_iff functionKeywords (Pfx.applyPrefix cfg.pfx e.data)
  have g2 := findKeyword_iff objectKeywords (Pfx.applyPrefix cfg.pfx e.data)
  have g3 := findKeyword_iff symbolKeywords (Pfx.applyPrefix cfg.pfx e.data)
  -- the number of texts of a loop
  have hloop : ∀ kind, loopOf e (Pfx.applyPrefix cfg.pfx e.data) = .ok (some kind) → (texts cs).length = symbolCount cfg kind := by
    intro kind hk
    rw [hk] at h
    simp only at h
    split at h
    · rename_i h0
      simp only [printLineno, Except.ok.injEq, Prod.mk.injEq] at h
      rw [← h.1, texts_directive]
      cases kind with
      | functions => simp [loopEmpty] at h0; simp [symbolCount, h0]
      | objects => simp [loopEmpty] at h0; simp [symbolCount, h0]
      | symbols => simp [loopEmpty] at h0
    · cases hr : replaceLoop n cfg lineno (Pfx.applyPrefix cfg.pfx e.data) (loopPasses cfg (Pfx.applyPrefix cfg.pfx e.data) kind) with
      | error x => rw [hr] at h; simp at h
      | ok r =>
        obtain ⟨cs', k'⟩ := r
        rw [hr] at h
        simp only [Except.ok.injEq, Prod.mk.injEq] at h
        rw [← h.1, ← loopPasses_length cfg (Pfx.applyPrefix cfg.pfx e.data) kind]
        have := congrArg List.length (replaceLoop_ok hr)
        simpa using this.symm
  unfold loopOf at h hloop
  cases hF : findKeyword functionKeywords (Pfx.applyPrefix cfg.pfx e.data) with
  | true =>
    have hF' := g1.mp hF
    rw [if_pos (f1 hF'), hF] at h hloop
    cases hO : findKeyword objectKeywords (Pfx.applyPrefix cfg.pfx e.data) with
    | true => rw [hO] at h; cases hS : findKeyword symbolKeywords (Pfx.applyPrefix cfg.pfx e.data) <;> rw [hS] at h <;> simp at h
    | false =>
      rw [hO] at h hloop
      cases hS : findKeyword symbolKeywords (Pfx.applyPrefix cfg.pfx e.data) with
      | true => rw [hS] at h; simp at h
      | false =>
        rw [hS] at hloop
        have hO' : ¬ HasKeyword objectKeywords (Pfx.applyPrefix cfg.pfx e.data) := fun x => by rw [g2.mpr x] at hO; simp at hO
        have hS' : ¬ HasKeyword symbolKeywords (Pfx.applyPrefix cfg.pfx e.data) := fun x => by rw [g3.mpr x] at hS; simp at hS
        exact ⟨fun _ => hloop .functions rfl, fun x => absurd x hO', fun x => absurd x hS', fun x => absurd hF' x,
          fun x => hO' x.2, fun x => hS' x.2, fun x => hO' x.1⟩
  | false =>
    have hF' : ¬ HasKeyword functionKeywords (Pfx.applyPrefix cfg.pfx e.data) := fun x => by rw [g1.mpr x] at hF; simp at hF
    cases hO : findKeyword objectKeywords (Pfx.applyPrefix cfg.pfx e.data) with
    | true =>
      have hO' := g2.mp hO
      rw [if_pos (f2 hO'), hF, hO] at h hloop
      cases hS : findKeyword symbolKeywords (Pfx.applyPrefix cfg.pfx e.data) with
      | true => rw [hS] at h; simp at h
      | false =>
        rw [hS] at hloop
        have hS' : ¬ HasKeyword symbolKeywords (Pfx.applyPrefix cfg.pfx e.data) := fun x => by rw [g3.mpr x] at hS; simp at hS
        exact ⟨fun x => absurd x hF', fun _ => hloop .objects rfl, fun x => absurd x hS', fun _ x => absurd hO' x,
          fun x => hF' x.1, fun x => hS' x.2, fun x => hS' x.2⟩
    | false =>
      have hO' : ¬ HasKeyword objectKeywords (Pfx.applyPrefix cfg.pfx e.data) := fun x => by rw [g2.mpr x] at hO; simp at hO
      cases hS : findKeyword symbolKeywords (Pfx.applyPrefix cfg.pfx e.data) with
      | true =>
        have hS' := g3.mp hS
        rw [if_pos (f3 hS'), hF, hO, hS] at hloop
        exact ⟨fun x => absurd x hF', fun x => absurd x hO', fun _ => hloop .symbols rfl, fun _ _ x => absurd hS' x,
          fun x => hF' x.1, fun x => hF' x.1, fun x => hO' x.1⟩
      | false =>
        have hS' : ¬ HasKeyword symbolKeywords (Pfx.applyPrefix cfg.pfx e.data) := fun x => by rw [g3.mpr x] at hS; simp at hS
        refine ⟨fun x => absurd x hF', fun x => absurd x hO', fun x => absurd x hS', fun _ _ _ => ?_,
          fun x => hF' x.1, fun x => hF' x.1, fun x => hO' x.1⟩
        rw [hF, hO, hS] at h
        split at h
        · rename_i x hx; split at hx <;> simp at hx
        · simp at h; rw [← h.1]; rfl
        · rename_i x hx; split at hx <;> simp at hx

/-- The `i`th element of a map. -/
theorem loop_one {n : Nat} {cfg cfg' : Config} {lineno : Nat} {entry : Str} {l : List (List (Str × Str))} {cs : List Chunk} {k : Nat}
    (h : replaceLoop n cfg lineno entry l = .ok (cs, k)) {i : Nat} {ps : List (Str × Str)} (hi : l[i]? = some ps) :
    ∃ s c k', (texts cs)[i]? = some s ∧ replaceLoop n cfg' lineno entry [ps] = .ok (c, k') ∧ texts c = [s] := by
  have h1 := replaceLoop_ok h
  have h2 := congrArg (fun x => x[i]?) h1
  simp only [List.getElem?_map, hi, Option.map_some] at h2
  cases hs : (texts cs)[i]? with
  | none => rw [hs] at h2; simp at h2
  | some s =>
    rw [hs] at h2
    simp at h2
    obtain ⟨c, k', h3, h4⟩ := replaceLoop_texts (n := n) (cfg := cfg') (lineno := lineno) (entry := entry) (l := [ps]) (vs := [s]) (by simp [h2])
    exact ⟨s, c, k', rfl, h3, h4⟩

/-- The order for functions: the `i`th text is the one that is written if the `i`th
    function is the only one.  (A padded name depends on the other names too.) -/
theorem C24_functions_in_order (n : Nat) (cfg : Config) (lineno : Nat) (e : Entry) (hl : Line e)
    (hF : HasKeyword functionKeywords (Pfx.applyPrefix cfg.pfx e.data))
    (hpad : ¬ Contains (str% "%%func_symbol_pad%%") (Pfx.applyPrefix cfg.pfx e.data))
    (cs : List Chunk) (k : Nat) (s : Bool) (h : substituteLine n cfg lineno false e = .ok (cs, k, s))
    (i : Nat) (p : Proto) (hi : cfg.prototypes[i]? = some p) :
    ∃ t cs' k', (texts cs)[i]? = some t ∧
      substituteLine n { cfg with prototypes := [p] } lineno false e = .ok (cs', k', false) ∧ texts cs' = [t] := by
  have hpad' : found (str% "%%func_symbol_pad%%") (Pfx.applyPrefix cfg.pfx e.data) = false := by
    cases hc : found (str% "%%func_symbol_pad%%") (Pfx.applyPrefix cfg.pfx e.data) with
    | false => rfl
    | true => exact absurd ((found_iff_contains _ _).mp hc) hpad
  rw [substituteLine_line hl] at h ⊢
  have hloop : loopOf e (Pfx.applyPrefix cfg.pfx e.data) = .ok (some .functions) := by
    have hf := (findKeyword_iff _ _).mpr hF
    unfold processLine at h
    simp only at h
    cases hk : loopOf e (Pfx.applyPrefix cfg.pfx e.data) with
    | error x => rw [hk] at h; simp at h
    | ok r =>
      unfold loopOf at hk
      rw [hf, if_pos (pct_found hl.flag (by
        intro x hx; simp only [functionKeywords, List.mem_cons, List.not_mem_nil, or_false] at hx
        rcases hx with rfl | rfl | rfl | rfl | rfl | rfl <;> exact ⟨_, rfl⟩) hF)] at hk
      cases ho : findKeyword objectKeywords (Pfx.applyPrefix cfg.pfx e.data) <;>
        cases hs : findKeyword symbolKeywords (Pfx.applyPrefix cfg.pfx e.data) <;> rw [ho, hs] at hk <;> simp at hk
      rw [hk]
  unfold processLine at h ⊢
  simp only at h ⊢
  rw [hloop] at h ⊢
  have hne : cfg.prototypes ≠ [] := by rintro h0; rw [h0] at hi; simp at hi
  simp only [loopEmpty, List.isEmpty_eq_false_iff.mpr hne, List.isEmpty_cons, Bool.false_eq_true, if_false] at h ⊢
  cases hr : replaceLoop n cfg lineno (Pfx.applyPrefix cfg.pfx e.data) (loopPasses cfg (Pfx.applyPrefix cfg.pfx e.data) .functions) with
  | error x => rw [hr] at h; simp at h
  | ok r =>
    obtain ⟨cs0, k0⟩ := r
    rw [hr] at h
    simp only [Except.ok.injEq, Prod.mk.injEq] at h
    obtain ⟨rfl, _, _⟩ := h
    unfold loopPasses at hr ⊢
    simp only [hpad', Bool.false_eq_true, if_false] at hr ⊢
    obtain ⟨t, c, k', h1, h2, h3⟩ := loop_one (cfg' := { cfg with prototypes := [p] }) hr (i := i)
      (ps := functionPasses 0 p) (by simp [hi])
    simp only [List.map_cons, List.map_nil]
    rw [h2]
    exact ⟨t, c, k', h1, rfl, h3⟩

example : Line ⟨str% "x %%symbol%% y", true, 1⟩ ∧ ∃ r, substituteLine 9 { prototypes := [exProto, exVoid] } 0 false ⟨str% "x %%symbol%% y", true, 1⟩ = .ok r ∧
    texts r.1 = [str% "x foo y", str% "x x y"] := by
  refine ⟨⟨by decide, by unfold Flagged; decide, by decide⟩, ?_⟩
  exact ⟨([.text (str% "x foo y"), .text (str% "x x y")], 2, false), by decide, by decide⟩

end Gdo.Sub
