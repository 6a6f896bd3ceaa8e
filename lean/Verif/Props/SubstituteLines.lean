import Verif.Props.Substitute
import Verif.Props.Template

/-!
Properties C25 to C28: line counts, `#line` directives, sections and termination of
template processing.
-/

namespace Gdo.Sub
open Gdo Tpl Tmpl

/-! ### C25 -/

/-- An entry is not dropped for want of symbols. -/
def NotDropped (cfg : Config) (e : Entry) : Prop :=
  (HasKeyword functionKeywords (Pfx.applyPrefix cfg.pfx e.data) → cfg.prototypes ≠ []) ∧
  (HasKeyword objectKeywords (Pfx.applyPrefix cfg.pfx e.data) → cfg.objects ≠ [])

theorem notDropped_loop {cfg : Config} {e : Entry} (h : NotDropped cfg e) {k : LoopKind}
    (hk : loopOf e (Pfx.applyPrefix cfg.pfx e.data) = .ok (some k)) : loopEmpty cfg k = false := by
  unfold loopOf at hk
  split at hk
  · split at hk
    · simp at hk
    · rename_i h1 _ _
      simp at hk
      subst hk
      simpa [loopEmpty] using h.1 ((findKeyword_iff _ _).mp h1)
    · rename_i _ h1 _
      simp at hk
      subst hk
      simpa [loopEmpty] using h.2 ((findKeyword_iff _ _).mp h1)
    · simp at hk
      subst hk
      rfl
    · simp at hk
  · simp at hk

theorem nl_text (s : Str) : nlCount (bytes [.text s]) = nlCount s + 1 := by
  rw [← text_lines]
  simp [bytes]

theorem nl_directive (k : Nat) : nlCount (bytes [.directive k]) = 1 := by
  rw [← directive_lines k]
  simp [bytes]

theorem substituteLine_count {n : Nat} {cfg : Config} {lineno : Nat} {skip : Bool} {e : Entry} {cs : List Chunk} {k : Nat} {s : Bool}
    (h1 : ∀ p ∈ cfg.prototypes ++ cfg.objects, OneLine p) (he : NotDropped cfg e)
    (h : substituteLine n cfg lineno skip e = .ok (cs, k, s)) : k = nlCount (bytes cs) := by
  rw [substituteLine_eq] at h
  split at h
  · split at h <;> simp at h <;> obtain ⟨rfl, rfl, _⟩ := h
    · rfl
    · rw [nl_text]; rfl
  · split at h
    · split at h <;> simp at h <;> obtain ⟨rfl, rfl, _⟩ := h
      · rw [nl_directive]
      · rfl
    · split at h
      · simp at h; obtain ⟨rfl, rfl, _⟩ := h; rfl
      · unfold processLine at h
        simp only at h
        split at h
        · simp at h
        · simp at h
          obtain ⟨rfl, rfl, _⟩ := h
          rw [nl_text, countLinefeed_eq]
        · rename_i kind hk
          rw [notDropped_loop he hk] at h
          simp only [Bool.false_eq_true, if_false] at h
          split at h
          · simp at h
          · rename_i r hr
            simp at h
            obtain ⟨rfl, rfl, _⟩ := h
            exact replaceLoop_lines (loopPasses_quiet h1 _ _) n hr

theorem substEntries_count {n : Nat} {cfg : Config} {es : List Entry} (h1 : ∀ p ∈ cfg.prototypes ++ cfg.objects, OneLine p)
    (he : ∀ e ∈ es, NotDropped cfg e) {lineno : Nat} {skip : Bool} {css : List (List Chunk)} {k : Nat} {s : Bool}
    (h : substEntries n cfg lineno skip es = .ok (css, k, s)) : k = nlCount (bytes css.flatten) := by
  induction es generalizing lineno skip css k s with
  | nil => simp [substEntries] at h; obtain ⟨rfl, rfl, _⟩ := h; rfl
  | cons e es ih =>
    rw [substEntries] at h
    cases hl : substituteLine n cfg lineno skip e with
    | error x => rw [hl] at h; simp [bind, Except.bind] at h
    | ok r =>
      obtain ⟨cs, k1, s1⟩ := r
      rw [hl] at h
      simp only [bind, Except.bind] at h
      cases hr : substEntries n cfg (lineno + e.lineCount) s1 es with
      | error x => rw [hr] at h; simp at h
      | ok r =>
        obtain ⟨css', k2, s2⟩ := r
        rw [hr] at h
        simp only [pure, Except.pure, Except.ok.injEq, Prod.mk.injEq] at h
        obtain ⟨rfl, rfl, _⟩ := h
        rw [List.flatten_cons, bytes_append, nl_append, ← ih (fun e he' => he e (by simp [he'])) hr,
          ← substituteLine_count h1 (he e (by simp)) hl]

/-- The number that `substitute` returns is the number of newlines it wrote, if the
    data of the symbols have no newlines and no entry was dropped because there are no
    functions or no objects.  Missing: the other cases, see the violations. -/
theorem C25_partial (n : Nat) (cfg : Config) (vec : List (List Entry)) (h1 : ∀ p ∈ cfg.prototypes ++ cfg.objects, OneLine p)
    (he : ∀ l ∈ vec, ∀ e ∈ l, NotDropped cfg e) (csss : List (List (List Chunk))) (k : Nat)
    (h : substitute n cfg vec = .ok (csss, k)) : k = nlCount (bytes csss.flatten.flatten) := by
  have key : ∀ (vec : List (List Entry)) (skip : Bool) (csss : List (List (List Chunk))) (k : Nat),
      (∀ l ∈ vec, ∀ e ∈ l, NotDropped cfg e) → substLists n cfg skip vec = .ok (csss, k) → k = nlCount (bytes csss.flatten.flatten) := by
    intro vec
    induction vec with
    | nil => intro skip csss k _ h; simp [substLists] at h; obtain ⟨rfl, rfl⟩ := h; rfl
    | cons l vec ih =>
      intro skip csss k he h
      rw [substLists] at h
      cases hl : substEntries n cfg 0 skip (processed cfg l) with
      | error x => rw [hl] at h; simp [bind, Except.bind] at h
      | ok r =>
        obtain ⟨css, k1, s1⟩ := r
        rw [hl] at h
        simp only [bind, Except.bind] at h
        cases hr : substLists n cfg s1 vec with
        | error x => rw [hr] at h; simp at h
        | ok r =>
          obtain ⟨csss', k2⟩ := r
          rw [hr] at h
          simp only [pure, Except.pure, Except.ok.injEq, Prod.mk.injEq] at h
          obtain ⟨rfl, rfl⟩ := h
          have hsub : ∀ e ∈ processed cfg l, NotDropped cfg e := by
            intro e hm
            apply he l (by simp)
            unfold processed listEntries at hm
            have := (List.takeWhile_sublist _).subset hm
            cases l with
            | nil => simp at this
            | cons a r =>
              simp only at this
              split at this
              · simp [this]
              · exact this
          rw [List.flatten_cons, List.flatten_append, bytes_append, nl_append,
            ← ih s1 csss' k2 (fun l hl => he l (by simp [hl])) hr, ← substEntries_count h1 hsub hl]
  unfold substitute at h
  split at h
  · simp at h; obtain ⟨rfl, rfl⟩ := h; rfl
  · split at h
    · simp at h
    · exact key vec false csss k he h

example : OneLine exProto ∧ NotDropped { prototypes := [exProto] } ⟨str% "x %%symbol%% y", true, 1⟩ := by
  refine ⟨by simp [OneLine, exProto], ?_, ?_⟩
  · intro _; simp
  · intro h
    have := (findKeyword_iff _ _).mpr h
    simp only [Pfx.applyPrefix] at this
    revert this
    decide

/-- A template of one object entry, two lines long, with only a function in the input:
    nothing is written without `-line`, but a line is counted; with `-line` a line is
    written, but for an entry of one line none is counted. -/
theorem C25_violated_dropped :
    (∃ css, substitute 9 { prototypes := [exProto] } [[⟨str% "a\n%%obj_symbol%%", true, 2⟩]] = .ok (css, 1) ∧
      nlCount (bytes css.flatten.flatten) = 0) ∧
    (∃ css, substitute 9 { prototypes := [exProto], lineDirective := true } [[⟨str% "%%obj_symbol%%", true, 1⟩]] = .ok (css, 0) ∧
      nlCount (bytes css.flatten.flatten) = 1) :=
  ⟨⟨[[[]]], by decide, by decide⟩, ⟨[[[.directive 0]]], by decide, by decide⟩⟩

/-- Data with a newline: one line is counted, two are written. -/
theorem C25_violated_newline :
    ∃ css, substitute 9 { prototypes := [{ exProto with args := str% "int\na" }] } [[⟨str% "%%args%%", true, 1⟩]] = .ok (css, 1) ∧
      nlCount (bytes css.flatten.flatten) = 2 :=
  ⟨[[[.text (str% "int\na")]]], by decide, by decide⟩

/-! ### C26 -/

theorem attributed_loop {n : Nat} {cfg : Config} (hld : cfg.lineDirective = true) {lineno : Nat} (h0 : lineno ≠ 0) {entry : Str}
    {l : List (List (Str × Str))} (hl : ∀ ps ∈ l, Quiet ps) (hne : l ≠ []) {cs : List Chunk} {k : Nat}
    (h : replaceLoop n cfg lineno entry l = .ok (cs, k)) (cur : Nat) (rest : List (Nat × Chunk))
    (hr : Attributed (lineno + nlCount entry + 1) rest) : Attributed cur (cs.map (fun c => (lineno, c)) ++ rest) := by
  induction l generalizing cs k cur with
  | nil => exact absurd rfl hne
  | cons p l ih =>
    rw [replaceLoop] at h
    cases hs : replaceSeq n p entry with
    | error x => rw [hs] at h; simp [bind, Except.bind] at h
    | ok copy =>
      rw [hs] at h
      simp only [bind, Except.bind] at h
      cases hlp : replaceLoop n cfg lineno entry l with
      | error x => rw [hlp] at h; simp at h
      | ok r =>
        obtain ⟨cs', k'⟩ := r
        rw [hlp] at h
        simp only [pure, Except.pure, Except.ok.injEq, Prod.mk.injEq, hld, if_true] at h
        obtain ⟨rfl, _⟩ := h
        have h1 := replaceSeq_lines (hl p (by simp)) n entry copy hs
        rw [show ([Chunk.directive lineno] ++ [Chunk.text copy] ++ cs').map (fun c => (lineno, c)) ++ rest =
          (lineno, Chunk.directive lineno) :: (lineno, Chunk.text copy) :: (cs'.map (fun c => (lineno, c)) ++ rest) from rfl,
          Attributed, Attributed, if_neg h0, h1]
        refine ⟨rfl, ?_⟩
        by_cases hn : l = []
        · subst hn
          simp [replaceLoop] at hlp
          rw [hlp.1]
          exact hr
        · exact ih (fun q hq => hl q (by simp [hq])) hn hlp _

/-- What C26 requires of an entry: count and flag are right, it has no NUL byte and is
    not dropped. -/
structure Sound (cfg : Config) (e : Entry) : Prop where
  consistent : Consistent e
  nul : '\x00' ∉ e.data
  kept : NotDropped cfg e

theorem takeWhile_noNul {s : Str} (h : '\x00' ∉ s) : s.takeWhile (· ≠ '\x00') = s := by
  induction s with
  | nil => rfl
  | cons c s ih =>
    simp only [List.mem_cons, not_or] at h
    have hc : (c ≠ '\x00') := fun hc => h.1 hc.symm
    rw [List.takeWhile_cons, if_pos (by simpa using hc), ih h.2]

theorem marker_oneLine {e : Entry} (hn : '\x00' ∉ e.data) (hm : markerOf e ≠ none) : nlCount e.data = 0 := by
  unfold markerOf at hm
  simp only [takeWhile_noNul hn] at hm
  split at hm
  · rename_i h; rw [h]; rfl
  · split at hm
    · rename_i h; rw [h]; rfl
    · split at hm
      · rename_i h; rw [h]; rfl
      · simp at hm

/-- The symbols and settings C26 is about. -/
structure Directives (cfg : Config) : Prop where
  line : cfg.lineDirective = true
  pfx : ¬ Pfx.BeginsWithDigit cfg.pfx
  data : ∀ p ∈ cfg.prototypes ++ cfg.objects, OneLine p
  some : cfg.prototypes ++ cfg.objects ≠ []

theorem attributed_aux {n : Nat} {cfg : Config} (hc : Directives cfg) {es : List Entry} (he : ∀ e ∈ es, Sound cfg e)
    {lineno cur : Nat} {skip : Bool} (h0 : lineno ≠ 0) (hcur : skip = false → cur = lineno) {css : List (List Chunk)} {k : Nat} {s : Bool}
    (h : substEntries n cfg lineno skip es = .ok (css, k, s)) : Attributed cur (withLines lineno es css) := by
  induction es generalizing lineno cur skip css k s with
  | nil => simp [withLines, Attributed]
  | cons e es ih =>
    rw [substEntries] at h
    cases hl : substituteLine n cfg lineno skip e with
    | error x => rw [hl] at h; simp [bind, Except.bind] at h
    | ok r =>
      obtain ⟨cs, k1, s1⟩ := r
      rw [hl] at h
      simp only [bind, Except.bind] at h
      cases hr : substEntries n cfg (lineno + e.lineCount) s1 es with
      | error x => rw [hr] at h; simp at h
      | ok r =>
        obtain ⟨css', k2, s2⟩ := r
        rw [hr] at h
        simp only [pure, Except.pure, Except.ok.injEq, Prod.mk.injEq] at h
        obtain ⟨rfl, _⟩ := h
        rw [withLines]
        have hs := he e (by simp)
        have ih' : ∀ cur', (s1 = false → cur' = lineno + e.lineCount) → Attributed cur' (withLines (lineno + e.lineCount) es css') :=
          fun cur' hcur' => ih (fun e he' => he e (by simp [he'])) (by omega) hcur' hr
        have hlc := hs.consistent.1
        rw [substituteLine_eq, markerTest hs.consistent.2] at hl
        split at hl
        · rename_i hemp
          have hemp' : e.data = [] := by simpa using hemp
          split at hl
          · rename_i hsk
            simp at hl
            obtain ⟨rfl, _, rfl⟩ := hl
            exact ih' cur (fun h => absurd hsk (by simp [h]))
          · rename_i hsk
            simp at hl
            obtain ⟨rfl, _, rfl⟩ := hl
            simp only [List.map_cons, List.map_nil, List.cons_append, List.nil_append, Attributed, if_neg h0]
            refine ⟨hcur (by simpa using hsk), ih' _ (fun hh => ?_)⟩
            rw [hlc, hemp', hcur hh]
            simp [nlCount]
        · split at hl
          · rename_i m hm
            have hnl : nlCount e.data = 0 := marker_oneLine hs.nul (by intro hh; rw [hh] at hm; simp at hm)
            split at hl
            · simp at hl
              obtain ⟨rfl, _, rfl⟩ := hl
              simp only [List.map_cons, List.map_nil, List.cons_append, List.nil_append, Attributed]
              exact ih' _ (fun _ => by rw [hlc, hnl])
            · rename_i hsk
              simp at hl
              obtain ⟨rfl, _, rfl⟩ := hl
              exact ih' cur (fun hh => by rw [hh, hc.line] at hsk; simp at hsk)
          · split at hl
            · rename_i hsk
              simp at hl
              obtain ⟨rfl, _, rfl⟩ := hl
              exact ih' cur (fun h => absurd hsk (by simp [h]))
            · rename_i hsk
              have hcl : cur = lineno := hcur (by simpa using hsk)
              unfold processLine at hl
              simp only at hl
              split at hl
              · simp at hl
              · simp at hl
                obtain ⟨rfl, _, rfl⟩ := hl
                simp only [List.map_cons, List.map_nil, List.cons_append, List.nil_append, Attributed, if_neg h0]
                refine ⟨hcl, ih' _ (fun _ => ?_)⟩
                rw [Pfx.applyPrefix_lines _ hc.pfx, hlc, hcl]
                omega
              · rename_i kind hk
                have hke := notDropped_loop hs.kept hk
                rw [hke] at hl
                simp only [Bool.false_eq_true, if_false] at hl
                split at hl
                · simp at hl
                · rename_i r hr'
                  simp at hl
                  obtain ⟨rfl, _, rfl⟩ := hl
                  refine attributed_loop hc.line h0 (loopPasses_quiet hc.data _ _) ?_ hr' cur _ ?_
                  · intro hnil
                    have := congrArg List.length hnil
                    rw [loopPasses_length] at this
                    have hsome := List.length_pos_iff.mpr hc.some
                    cases kind <;> simp [symbolCount, loopEmpty] at this hke hsome
                    · exact hke this
                    · exact hke this
                    · simp [this] at hsome
                  · apply ih'
                    intro _
                    rw [Pfx.applyPrefix_lines _ hc.pfx, hlc]
                    omega

theorem saveToLine_chars (x : Option Char) (e : Entry) :
    ∀ c ∈ (saveToLine x e).2.data, c ∈ e.data ∨ x = some c ∨ c = '\n' ∨ c = '\r' := by
  intro c hc
  unfold saveToLine at hc
  split at hc
  · left
    unfold deleteSuffix at hc
    split at hc
    · exact (List.take_sublist _ _).subset hc
    · exact hc
  · split at hc
    · split at hc
      · simp only [List.mem_append] at hc
        rcases hc with hc | hc
        · exact Or.inl ((List.dropLast_sublist _).subset hc)
        · simp at hc; simp [hc]
      · split at hc
        · simp only [List.mem_append] at hc
          rcases hc with hc | hc
          · exact Or.inl ((List.take_sublist _ _).subset hc)
          · simp at hc; rcases hc with rfl | rfl <;> simp
        · exact Or.inl hc
    · split at hc
      · simp only [List.mem_append, List.mem_singleton] at hc
        rcases hc with hc | rfl
        · exact Or.inl hc
        · simp
      · simp only [List.mem_append, List.mem_singleton] at hc
        rcases hc with hc | rfl
        · exact Or.inl hc
        · simp

theorem readFrom_chars (s : Str) (e0 : Entry) :
    ∀ e ∈ readFrom e0 s, ∀ c ∈ e.data, c ∈ e0.data ∨ c ∈ s ∨ c = '\n' ∨ c = '\r' := by
  induction s generalizing e0 with
  | nil =>
    intro e he c hc
    simp only [readFrom, List.mem_singleton] at he
    subst he
    have := saveToLine_chars none e0 c hc
    simpa using this
  | cons x s ih =>
    intro e he c hc
    rw [readFrom] at he
    have hst := saveToLine_chars (some x) e0
    split at he
    · rename_i e' h
      rw [h] at hst
      have := ih e' e he c hc
      rcases this with h1 | h1 | h1
      · have := hst c h1
        simp only [Option.some.injEq] at this
        rcases this with h | h | h
        · exact Or.inl h
        · simp [h]
        · exact Or.inr (Or.inr h)
      · simp [h1]
      · exact Or.inr (Or.inr h1)
    · rename_i e' h
      rw [h] at hst
      simp only [List.mem_cons] at he
      rcases he with rfl | he
      · have := hst c hc
        simp only [Option.some.injEq] at this
        rcases this with h | h | h
        · exact Or.inl h
        · simp [h]
        · exact Or.inr (Or.inr h)
      · have := ih freshEntry e he c hc
        simp only [freshEntry, List.not_mem_nil, false_or] at this
        rcases this with h1 | h1
        · simp [h1]
        · exact Or.inr (Or.inr h1)

theorem readEntries_chars (s : Str) (e : Entry) (he : e ∈ readEntries s) : ∀ c ∈ e.data, c ∈ s ∨ c = '\n' ∨ c = '\r' := by
  rw [readEntries_eq] at he
  intro c hc
  simpa [freshEntry] using readFrom_chars s freshEntry e he c hc

/-- A custom template: behind the line `#line 1 "file"` every
    text written has the number of the line of the template that it stems from.
    Missing: entries that are dropped, data with newlines, NUL bytes and prefixes that
    begin with a digit. -/
theorem C26_custom_partial (n : Nat) (cfg : Config) (hc : Directives cfg) (t : Str) (hn : '\x00' ∉ t)
    (he : ∀ e ∈ readEntries t, NotDropped cfg e) (css : List (List Chunk)) (k : Nat) (s : Bool)
    (h : customTemplate n cfg t = .ok (css, k, s)) : Attributed 1 (withLines 1 (readEntries t) css) := by
  unfold customTemplate at h
  rw [hc.line] at h
  exact attributed_aux hc (fun e hm => ⟨C20_entries_consistent t e hm, fun h0 => (readEntries_chars t e hm _ h0).elim hn (by decide), he e hm⟩) (by simp) (fun _ => rfl) h

/-- A built-in template: likewise, whatever stands in front of it. -/
theorem C26_builtin_partial (n : Nat) (cfg : Config) (hc : Directives cfg) (file : Str) (hf : '\n' ∉ file) (hp : '%' ∉ file)
    (es : List Entry) (he : ∀ e ∈ es, Sound cfg e) (skip : Bool) (css : List (List Chunk)) (k : Nat) (s : Bool)
    (h : substEntries n cfg 0 skip (builtinLineEntry file :: es) = .ok (css, k, s)) (cur : Nat) :
    Attributed cur (withLines 0 (builtinLineEntry file :: es) css) := by
  have hpct : '%' ∉ (builtinLineEntry file).data := by
    simp only [builtinLineEntry, List.mem_append, not_or]
    exact ⟨⟨by decide, hp⟩, by decide⟩
  have hnl : nlCount (builtinLineEntry file).data = 0 := by
    apply nl_zero
    simp only [builtinLineEntry, List.mem_append, not_or]
    exact ⟨⟨by decide, hf⟩, by decide⟩
  rw [substEntries] at h
  cases hl : substituteLine n cfg 0 skip (builtinLineEntry file) with
  | error x => rw [hl] at h; simp [bind, Except.bind] at h
  | ok r =>
    obtain ⟨cs, k1, s1⟩ := r
    rw [hl] at h
    simp only [bind, Except.bind] at h
    cases hr : substEntries n cfg (0 + (builtinLineEntry file).lineCount) s1 es with
    | error x => rw [hr] at h; simp at h
    | ok r =>
      obtain ⟨css', k2, s2⟩ := r
      rw [hr] at h
      simp only [pure, Except.pure, Except.ok.injEq, Prod.mk.injEq] at h
      obtain ⟨rfl, _⟩ := h
      rw [withLines]
      rw [substituteLine_eq, if_neg (by simp [builtinLineEntry]), if_neg (by simp [builtinLineEntry])] at hl
      simp only at hl
      split at hl
      · rename_i hsk
        simp at hl
        obtain ⟨rfl, _, rfl⟩ := hl
        exact attributed_aux hc he (by simp [builtinLineEntry]) (fun h => absurd hsk (by simp [h])) hr
      · unfold processLine at hl
        simp only at hl
        have : loopOf (builtinLineEntry file) (Pfx.applyPrefix cfg.pfx (builtinLineEntry file).data) = .ok none := by
          unfold loopOf
          rfl
        rw [this] at hl
        simp at hl
        obtain ⟨rfl, _, rfl⟩ := hl
        simp only [List.map_cons, List.map_nil, List.cons_append, List.nil_append, Attributed, if_true]
        rw [Pfx.applyPrefix_lines _ hc.pfx, hnl]
        exact attributed_aux hc he (by simp [builtinLineEntry]) (fun _ => rfl) hr

example : Directives { lineDirective := true, prototypes := [exProto, exVoid] } := by
  refine ⟨rfl, ?_, ?_, by simp⟩
  · rintro ⟨c, r, h, hc⟩
    simp at h
    rw [← h.1] at hc
    simp [isDigit] at hc
  · intro p hp
    simp at hp
    rcases hp with rfl | rfl <;> simp [OneLine, exProto, exVoid]

/-- An entry that is dropped: the directive has the number of the entry itself, not of
    the next one.  Here line 3 of the template is written as line 2. -/
theorem C26_violated_dropped :
    customTemplate 9 { prototypes := [exProto], lineDirective := true } (str% "a\n%%obj_symbol%%\nb") =
      .ok ([[.text (str% "a")], [.directive 2], [.text (str% "b")]], 2, false) ∧
    ¬ Attributed 1 (withLines 1 (readEntries (str% "a\n%%obj_symbol%%\nb")) [[.text (str% "a")], [.directive 2], [.text (str% "b")]]) := by
  refine ⟨by decide, ?_⟩
  have : readEntries (str% "a\n%%obj_symbol%%\nb") = [⟨str% "a", false, 1⟩, ⟨str% "%%obj_symbol%%", true, 1⟩, ⟨str% "b", false, 1⟩] := by decide
  rw [this]
  simp [withLines, Attributed]

/-- Every entry that is dropped because there are no functions or no objects: the directive
    has the number of the last line of the entry, one less than that of the line that
    follows. -/
theorem C26_violated_dropped_all (n : Nat) (cfg : Config) (hl : cfg.lineDirective = true) (hp : ¬ Pfx.BeginsWithDigit cfg.pfx)
    (lineno : Nat) (e : Entry) (he : Line e) (hc : e.lineCount = nlCount e.data + 1)
    (hd : let buf := Pfx.applyPrefix cfg.pfx e.data
      (HasKeyword functionKeywords buf ∧ ¬ HasKeyword objectKeywords buf ∧ ¬ HasKeyword symbolKeywords buf ∧ cfg.prototypes = []) ∨
      (HasKeyword objectKeywords buf ∧ ¬ HasKeyword functionKeywords buf ∧ ¬ HasKeyword symbolKeywords buf ∧ cfg.objects = [])) :
    ∃ k m, substituteLine n cfg lineno false e = .ok ([.directive m], k, false) ∧ m + 1 = lineno + e.lineCount := by
  have hk : ∃ kind, loopOf e (Pfx.applyPrefix cfg.pfx e.data) = .ok (some kind) ∧ loopEmpty cfg kind = true := by
    have neg : ∀ kws, ¬ HasKeyword kws (Pfx.applyPrefix cfg.pfx e.data) → findKeyword kws (Pfx.applyPrefix cfg.pfx e.data) = false := by
      intro kws h
      cases hf : findKeyword kws (Pfx.applyPrefix cfg.pfx e.data)
      · rfl
      · exact absurd ((findKeyword_iff _ _).mp hf) h
    rcases hd with ⟨h1, h2, h3, h4⟩ | ⟨h1, h2, h3, h4⟩
    · refine ⟨.functions, ?_, by simp [loopEmpty, h4]⟩
      unfold loopOf
      rw [if_pos (pct_found he.flag (by intro x hx; simp only [functionKeywords, List.mem_cons, List.not_mem_nil, or_false] at hx; rcases hx with rfl | rfl | rfl | rfl | rfl | rfl <;> exact ⟨_, rfl⟩) h1),
        (findKeyword_iff _ _).mpr h1, neg _ h2, neg _ h3]
    · refine ⟨.objects, ?_, by simp [loopEmpty, h4]⟩
      unfold loopOf
      rw [if_pos (pct_found he.flag (by intro x hx; simp only [objectKeywords, List.mem_cons, List.not_mem_nil, or_false] at hx; rcases hx with rfl | rfl | rfl <;> exact ⟨_, rfl⟩) h1),
        (findKeyword_iff _ _).mpr h1, neg _ h2, neg _ h3]
  obtain ⟨kind, h1, h2⟩ := hk
  refine ⟨countLinefeed (Pfx.applyPrefix cfg.pfx e.data), lineno + countLinefeed (Pfx.applyPrefix cfg.pfx e.data), ?_, ?_⟩
  · rw [substituteLine_line he]
    unfold processLine
    simp only [h1, h2, if_true, printLineno, hl]
  · have : countLinefeed (Pfx.applyPrefix cfg.pfx e.data) = nlCount e.data := by
      rw [countLinefeed_eq, Pfx.applyPrefix_lines _ hp]
    rw [this, hc]; omega

example : substituteLine 9 { prototypes := [exProto], lineDirective := true } 4 false ⟨str% "%%obj_symbol%%\nb", true, 2⟩ =
    .ok ([.directive 5], 1, false) := by decide

/-- The entry `#line 1 ...` in front of a built-in template is used with `-line` and left
    out without. -/
theorem C26_initial (n : Nat) (cfg : Config) (hs : cfg.prototypes ++ cfg.objects ≠ []) (file : Str)
    (es : List Entry) (he : ∀ e ∈ es, e.lineCount ≠ 0) (e0 : Entry) (h0 : e0.lineCount = 0) :
    (substitute n cfg [builtinLineEntry file :: es ++ [e0]]).map (fun r => (bytes r.1.flatten.flatten, r.2)) =
      (substEntries n cfg 0 false (if cfg.lineDirective then builtinLineEntry file :: es else es)).map fun r => (bytes r.1.flatten, r.2.1) := by
  have hlist : ∀ l : List Entry, (∀ e ∈ l, e.lineCount ≠ 0) → listEntries (l ++ [e0]) = l := by
    intro l hl
    unfold listEntries
    rw [List.takeWhile_append_of_pos (by intro e hm; simpa using hl e hm)]
    simp [h0]
  have hproc : processed cfg (builtinLineEntry file :: es ++ [e0]) = if cfg.lineDirective then builtinLineEntry file :: es else es := by
    unfold processed
    cases hld : cfg.lineDirective with
    | true =>
      simp only [List.cons_append, Bool.not_true, Bool.false_and, Bool.false_eq_true, if_false, if_true]
      exact hlist (builtinLineEntry file :: es) (by intro e hm; simp at hm; rcases hm with rfl | hm; · simp [builtinLineEntry]
                                                    · exact he e hm)
    | false =>
      have : (str% "#line").isPrefixOf (cstr (builtinLineEntry file).data) = true := by
        unfold builtinLineEntry cstr
        rfl
      simp only [List.cons_append, Bool.not_false, Bool.true_and, this, if_true, Bool.false_eq_true, if_false]
      exact hlist es he
  unfold substitute
  rw [if_neg (by simp), if_neg (by
    intro h
    simp only [Bool.and_eq_true, List.isEmpty_iff] at h
    exact hs (by rw [h.1, h.2]; rfl))]
  simp only [substLists, hproc]
  cases substEntries n cfg 0 false (if cfg.lineDirective then builtinLineEntry file :: es else es) with
  | error x => rfl
  | ok r => simp [bind, Except.bind, pure, Except.pure, Except.map]

/-- A template loaded with `-templates-path` begins with a blank line behind the `#line`
    line: all lines before the next directive have a number too high. -/
theorem C26_violated_loaded :
    substEntries 9 { prototypes := [exProto], lineDirective := true } 0 false (listEntries (loadFromFile (str% "c.h") false true (str% "a"))) =
      .ok ([[.text (str% "#line 1 \"c.h\"\n")], [.text (str% "a")]], 3, false) ∧
    ¬ Attributed 1 (withLines 0 (listEntries (loadFromFile (str% "c.h") false true (str% "a"))) [[.text (str% "#line 1 \"c.h\"\n")], [.text (str% "a")]]) := by
  refine ⟨by decide, ?_⟩
  have : listEntries (loadFromFile (str% "c.h") false true (str% "a")) = [⟨str% "#line 1 \"c.h\"\n", false, 1⟩, ⟨str% "a", false, 1⟩] := by decide
  rw [this]
  simp [withLines, Attributed, nlCount]

/-! ### C27 -/

theorem sections_aux {n : Nat} {cfg : Config} {es : List Entry} (hf : ∀ e ∈ es, Flagged e) {lineno : Nat} {m : Option Marker}
    {css : List (List Chunk)} {k : Nat} {s : Bool}
    (h : substEntries n cfg lineno (!Shown cfg.names m) es = .ok (css, k, s)) :
    css.length = es.length ∧ s = !Shown cfg.names (lastMarker m es) ∧
    ∀ i e cs, es[i]? = some e → css[i]? = some cs →
      (markerOf e ≠ none → texts cs = []) ∧
      (markerOf e = none → Shown cfg.names (lastMarker m (es.take i)) = false → cs = []) ∧
      (markerOf e = none → Shown cfg.names (lastMarker m (es.take i)) = true →
        ∃ lineno' k', substituteLine n cfg lineno' false e = .ok (cs, k', false)) := by
  induction es generalizing lineno m css k s with
  | nil =>
    simp only [substEntries, Except.ok.injEq, Prod.mk.injEq] at h
    obtain ⟨rfl, _, rfl⟩ := h
    simp [lastMarker]
  | cons e es ih =>
    rw [substEntries] at h
    cases hl : substituteLine n cfg lineno (!Shown cfg.names m) e with
    | error x => rw [hl] at h; simp [bind, Except.bind] at h
    | ok r =>
      obtain ⟨cs, k1, s1⟩ := r
      rw [hl] at h
      simp only [bind, Except.bind] at h
      cases hr : substEntries n cfg (lineno + e.lineCount) s1 es with
      | error x => rw [hr] at h; simp at h
      | ok r =>
        obtain ⟨css', k2, s2⟩ := r
        rw [hr] at h
        simp only [pure, Except.pure, Except.ok.injEq, Prod.mk.injEq] at h
        obtain ⟨rfl, _, rfl⟩ := h
        -- the state behind the line, and what was written for it
        have hline : s1 = !Shown cfg.names (nextMarker m e) ∧
            (markerOf e ≠ none → texts cs = []) ∧
            (markerOf e = none → Shown cfg.names m = false → cs = []) := by
          unfold nextMarker
          have hl' := hl
          rw [substituteLine_eq, markerTest (hf e (by simp))] at hl'
          cases hm : markerOf e with
          | none =>
            rw [hm] at hl'
            simp only [Option.map_none] at hl'
            cases hsh : Shown cfg.names m with
            | false =>
              rw [hsh] at hl'
              simp at hl'
              obtain ⟨rfl, _, rfl⟩ := hl'
              simp [texts, hsh]
            | true =>
              rw [hsh] at hl'
              simp only [Bool.not_true, Bool.false_eq_true, if_false] at hl'
              refine ⟨?_, by simp, by simp⟩
              simp only [hsh, Bool.not_true]
              split at hl'
              · simp at hl'; rw [hl'.2.2]
              · unfold processLine at hl'
                simp only at hl'
                split at hl'
                · simp at hl'
                · simp at hl'; rw [hl'.2.2]
                · split at hl'
                  · simp at hl'; rw [hl'.2.2]
                  · split at hl'
                    · simp at hl'
                    · simp at hl'; rw [hl'.2.2]
          | some x =>
            have hne : e.data.isEmpty = false := by
              have := marker_percent (e := e) (by rw [hm]; simp)
              cases hd : e.data with
              | nil => rw [hd] at this; simp at this
              | cons c r => rfl
            rw [hm, hne] at hl'
            simp only [Option.map_some, Bool.false_eq_true, if_false] at hl'
            split at hl' <;> simp at hl' <;> obtain ⟨rfl, _, h3⟩ := hl' <;> simp [texts, h3]
        obtain ⟨hs1, hmk, hhid⟩ := hline
        rw [hs1] at hr
        obtain ⟨i1, i2, i3⟩ := ih (fun e he => hf e (by simp [he])) hr
        refine ⟨by simp [i1], i2, ?_⟩
        intro i e' cs' he' hcs'
        cases i with
        | zero =>
          simp at he' hcs'
          subst he' hcs'
          refine ⟨hmk, ?_, ?_⟩
          · intro hm; simpa [lastMarker] using hhid hm
          · intro hm hsh
            simp [lastMarker] at hsh
            rw [hsh] at hl
            simp only [nextMarker, hm, hsh, Bool.not_true] at hs1
            rw [hs1] at hl
            exact ⟨lineno, k1, by simpa using hl⟩
        | succ i =>
          simp only [List.getElem?_cons_succ] at he' hcs'
          simpa [lastMarker] using i3 i e' cs' he' hcs'

/-- Sections: for a list of entries there is one output per entry.  Markers are never
    written; a line behind a marker that hides lines is not written; any other line is
    processed, and a line without percent signs is written as it is (but for the
    prefix). -/
theorem C27_sections (n : Nat) (cfg : Config) (es : List Entry) (hf : ∀ e ∈ es, Consistent e) (lineno : Nat)
    (css : List (List Chunk)) (k : Nat) (s : Bool) (h : substEntries n cfg lineno false es = .ok (css, k, s)) :
    css.length = es.length ∧
    ∀ i e cs, es[i]? = some e → css[i]? = some cs →
      (markerOf e ≠ none → texts cs = []) ∧
      (markerOf e = none → Shown cfg.names (lastMarker none (es.take i)) = false → cs = []) ∧
      (markerOf e = none → Shown cfg.names (lastMarker none (es.take i)) = true →
        (∃ lineno' k', substituteLine n cfg lineno' false e = .ok (cs, k', false)) ∧
        ('%' ∉ e.data → cs = [.text (Pfx.applyPrefix cfg.pfx e.data)])) := by
  obtain ⟨h1, _, h3⟩ := sections_aux (m := none) (fun e he => (hf e he).2) h
  refine ⟨h1, ?_⟩
  intro i e cs he hcs
  obtain ⟨a, b, c⟩ := h3 i e cs he hcs
  refine ⟨a, b, fun hm hs => ⟨c hm hs, fun hp => ?_⟩⟩
  obtain ⟨l', k', h'⟩ := c hm hs
  have hk : e.maybeKeyword = false := by
    cases hk : e.maybeKeyword with
    | false => rfl
    | true => exact absurd ((hf e (List.mem_of_getElem? he)).2.mp hk) hp
  rw [substituteLine_eq, hk] at h'
  simp only [Bool.false_eq_true, if_false] at h'
  split at h'
  · rename_i hemp
    simp at h'
    rw [show e.data = [] by simpa using hemp, ← h'.1]
    have : Pfx.applyPrefix cfg.pfx [] = [] := by
      unfold Pfx.applyPrefix
      split
      · rfl
      · rfl
    rw [this]
  · unfold processLine at h'
    simp only at h'
    have : loopOf e (Pfx.applyPrefix cfg.pfx e.data) = .ok none := by
      unfold loopOf
      rw [hk]
      rfl
    rw [this] at h'
    simp at h'
    exact h'.1.symm

/-- The same across the lists of `substitute`: a section that is open at the end of a
    template goes on in the next one. -/
theorem C27_lists (n : Nat) (cfg : Config) (l : List Entry) (ls : List (List Entry)) (m : Option Marker)
    (hf : ∀ e ∈ processed cfg l, Consistent e) (csss : List (List (List Chunk))) (k : Nat)
    (h : substLists n cfg (!Shown cfg.names m) (l :: ls) = .ok (csss, k)) :
    ∃ css csss' k1 k2, csss = css :: csss' ∧
      substEntries n cfg 0 (!Shown cfg.names m) (processed cfg l) = .ok (css, k1, !Shown cfg.names (lastMarker m (processed cfg l))) ∧
      substLists n cfg (!Shown cfg.names (lastMarker m (processed cfg l))) ls = .ok (csss', k2) := by
  rw [substLists] at h
  cases hl : substEntries n cfg 0 (!Shown cfg.names m) (processed cfg l) with
  | error x => rw [hl] at h; simp [bind, Except.bind] at h
  | ok r =>
    obtain ⟨css, k1, s1⟩ := r
    rw [hl] at h
    simp only [bind, Except.bind] at h
    cases hr : substLists n cfg s1 ls with
    | error x => rw [hr] at h; simp at h
    | ok r =>
      obtain ⟨csss', k2⟩ := r
      rw [hr] at h
      simp only [pure, Except.pure, Except.ok.injEq, Prod.mk.injEq] at h
      obtain ⟨rfl, rfl⟩ := h
      obtain ⟨_, rfl, _⟩ := sections_aux (fun e he => (hf e he).2) hl
      exact ⟨css, csss', k1, k2, rfl, rfl, hr⟩

example : substEntries 9 { names := .skip, prototypes := [exProto] } 0 false
    (readEntries (str% "a\n%PARAM_SKIP_REMOVE_BEGIN%\nb\n%PARAM_SKIP_USE_BEGIN%\nc\n%PARAM_SKIP_END%\nd")) =
    .ok ([[.text (str% "a")], [], [], [], [.text (str% "c")], [], [.text (str% "d")]], 3, false) := by decide

example : substEntries 9 { names := .read, prototypes := [exProto] } 0 false
    (readEntries (str% "a\n%PARAM_SKIP_REMOVE_BEGIN%\nb\n%PARAM_SKIP_USE_BEGIN%\nc\n%PARAM_SKIP_END%\nd")) =
    .ok ([[.text (str% "a")], [], [.text (str% "b")], [], [], [], [.text (str% "d")]], 3, false) := by decide

/-! ### C28 -/

theorem substituteLine_terminates {cfg : Config} (hp : ∀ p ∈ cfg.prototypes ++ cfg.objects, NoPairs p) (n lineno : Nat) (skip : Bool)
    (e : Entry) (hn : pairs (Pfx.applyPrefix cfg.pfx e.data) < n) : substituteLine n cfg lineno skip e ≠ .error .more := by
  rw [substituteLine_eq]
  split
  · split <;> simp
  · split
    · split <;> simp
    · split
      · simp
      · unfold processLine
        simp only
        split
        · rename_i x hx
          unfold loopOf at hx
          split at hx
          · split at hx <;> simp at hx
            subst hx
            simp
          · simp at hx
        · simp
        · rename_i kind hk
          split
          · simp
          · obtain ⟨r, hr⟩ := replaceLoop_terminates (cfg := cfg) (lineno := lineno) (loopPasses_harmless hp (Pfx.applyPrefix cfg.pfx e.data) kind) n hn
            rw [hr]
            simp

/-- A bound on the iterations that the entries of a list need. -/
def entriesBound (cfg : Config) (es : List Entry) : Nat := (es.map fun e => pairs (Pfx.applyPrefix cfg.pfx e.data)).sum + 1

theorem entriesBound_mem {cfg : Config} {es : List Entry} {e : Entry} (h : e ∈ es) : pairs (Pfx.applyPrefix cfg.pfx e.data) < entriesBound cfg es := by
  unfold entriesBound
  induction es with
  | nil => simp at h
  | cons a es ih =>
    simp only [List.map_cons, List.sum_cons]
    rcases List.mem_cons.mp h with rfl | h
    · omega
    · have := ih h; omega

theorem substEntries_terminates {cfg : Config} (hp : ∀ p ∈ cfg.prototypes ++ cfg.objects, NoPairs p) (n lineno : Nat) (skip : Bool)
    (es : List Entry) (hn : ∀ e ∈ es, pairs (Pfx.applyPrefix cfg.pfx e.data) < n) : substEntries n cfg lineno skip es ≠ .error .more := by
  induction es generalizing lineno skip with
  | nil => simp [substEntries]
  | cons e es ih =>
    rw [substEntries]
    have h1 := substituteLine_terminates hp n lineno skip e (hn e (by simp))
    cases hl : substituteLine n cfg lineno skip e with
    | error x => rw [hl] at h1; simpa [bind, Except.bind] using h1
    | ok r =>
      simp only [bind, Except.bind]
      have h2 := ih (lineno + e.lineCount) r.2.2 (fun e he => hn e (by simp [he]))
      cases hr : substEntries n cfg (lineno + e.lineCount) r.2.2 es with
      | error x => rw [hr] at h2; simpa using h2
      | ok r => simp [pure, Except.pure]

/-- Template processing terminates, if no data of a symbol have two percent signs next
    to each other: there is a number of iterations that is enough for every loop, and
    the result is the same for every larger number.  Missing: data with `%%`. -/
theorem C28_partial (cfg : Config) (hp : ∀ p ∈ cfg.prototypes ++ cfg.objects, NoPairs p) (vec : List (List Entry)) :
    ∃ n r, (∀ m, n ≤ m → substitute m cfg vec = r) ∧ r ≠ .error .more := by
  have key : ∀ vec : List (List Entry), ∃ n, ∀ skip, substLists n cfg skip vec ≠ .error .more := by
    intro vec
    induction vec with
    | nil => exact ⟨0, fun _ => by simp [substLists]⟩
    | cons l vec ih =>
      obtain ⟨n0, h0⟩ := ih
      refine ⟨max n0 (entriesBound cfg (processed cfg l)), fun skip => ?_⟩
      rw [substLists]
      have h1 := substEntries_terminates hp (max n0 (entriesBound cfg (processed cfg l))) 0 skip (processed cfg l)
        (fun e he => by have := entriesBound_mem (cfg := cfg) he; omega)
      cases hl : substEntries (max n0 (entriesBound cfg (processed cfg l))) cfg 0 skip (processed cfg l) with
      | error x => rw [hl] at h1; simpa [bind, Except.bind] using h1
      | ok r =>
        simp only [bind, Except.bind]
        have h2 : substLists (max n0 (entriesBound cfg (processed cfg l))) cfg r.2.2 vec ≠ .error .more := by
          rw [substLists_mono (n := n0) (by omega) (h0 _)]
          exact h0 _
        cases hr : substLists (max n0 (entriesBound cfg (processed cfg l))) cfg r.2.2 vec with
        | error x => rw [hr] at h2; simpa using h2
        | ok r => simp [pure, Except.pure]
  obtain ⟨n, hn⟩ := key vec
  refine ⟨n, substitute n cfg vec, fun m hm => ?_, ?_⟩
  · unfold substitute
    split
    · rfl
    · split
      · rfl
      · exact substLists_mono hm (hn false)
  · unfold substitute
    split
    · simp
    · split
      · simp
      · exact hn false

/-- The same for a template given as a file. -/
theorem C28_custom_partial (cfg : Config) (hp : ∀ p ∈ cfg.prototypes ++ cfg.objects, NoPairs p) (t : Str) :
    ∃ n r, (∀ m, n ≤ m → customTemplate m cfg t = r) ∧ r ≠ .error .more := by
  have h := substEntries_terminates hp (entriesBound cfg (readEntries t)) (if cfg.lineDirective then 1 else 0) false (readEntries t)
    (fun e he => entriesBound_mem he)
  exact ⟨entriesBound cfg (readEntries t), _, fun m hm => substEntries_mono hm h, h⟩

theorem noPairs_of_plain {p : Proto} (h : PlainData p) : NoPairs p := by
  have : ∀ s : Str, '%' ∉ s → ¬ Contains (str% "%%") s := by
    rintro s hs ⟨a, b, rfl⟩
    exact hs (by simp)
  exact ⟨this _ h.type.1, this _ h.symbol.1, this _ h.args, this _ h.names⟩

example : NoPairs exProto ∧ NoPairs { exProto with args := str% "int a[5 % 3]" } := by
  refine ⟨noPairs_of_plain (by constructor <;> simp [exProto]), ?_, ?_, ?_, ?_⟩ <;> rw [← found_iff_contains] <;> decide

theorem replace_diverges {src dst s : Str} (hd : Contains src dst) (hs : Contains src s) (n : Nat) : replaceFuel src dst n s = none := by
  induction n generalizing s with
  | zero => rfl
  | succ n ih =>
    rw [replaceFuel]
    cases h : splitFirst src s with
    | none => exact absurd hs (splitFirst_none.mp h)
    | some r =>
      obtain ⟨a, b⟩ := r
      simp only [replaceStep, h, Option.map_some]
      apply ih
      obtain ⟨x, y, rfl⟩ := hd
      exact ⟨a ++ x, y ++ b, by simp⟩

/-- Clang names a structure without a tag after the place of its declaration.  With a
    variable of such a type in a header named `%%obj_type%%.h` template processing
    never ends. -/
theorem C28_violated : ∃ lines : List Spec.ALine, (∀ l ∈ lines, l.Valid) ∧ ∃ ts st,
    Ast.astTokens (Ast.exDump lines) = some ts ∧ Ast.parseClangAst true [] [] ts = .ok st ∧
    ∀ n, substitute n { prototypes := st.protos, objects := st.objs } [[⟨str% "%%obj_type%%;", true, 1⟩]] = .error .more := by
  let ty := str% "struct (unnamed struct at ./%%obj_type%%.h:1:1)"
  let ls := [Ast.exDecl false (str% "v") ty]
  have hv : ∀ l ∈ ls, l.Valid := by
    intro l hl
    simp only [ls, List.mem_cons, List.not_mem_nil, or_false] at hl
    subst hl
    exact Ast.exDecl_valid (by decide) (by decide) (by decide)
  refine ⟨ls, hv, Ast.toks ls, ⟨[], [{ kind := .object, type := ty, symbol := str% "v" }]⟩, Ast.exDump_tokens hv, by decide, ?_⟩
  intro n
  have h1 : replaceFuel (str% "%%obj_type%%") ty n (str% "%%obj_type%%;") = none :=
    replace_diverges ((found_iff_contains _ _).mp (by decide)) ((found_iff_contains _ _).mp (by decide)) n
  have h2 : replaceSeq n (objectPasses 0 { kind := .object, type := ty, symbol := str% "v" }) (str% "%%obj_type%%;") = .error .more := by
    have : objectPasses 0 { kind := .object, type := ty, symbol := str% "v" } = [(str% "%%obj_type%%", ty), (str% "%%obj_symbol%%", str% "v")] := by decide
    rw [this, replaceSeq]
    simp only [replaceN]
    rw [h1]
    rfl
  have h3 : substituteLine n { prototypes := [], objects := [{ kind := .object, type := ty, symbol := str% "v" }] } 0 false ⟨str% "%%obj_type%%;", true, 1⟩ = .error .more := by
    rw [substituteLine_line ⟨by simp, by unfold Flagged; decide, by decide⟩]
    unfold processLine
    simp only
    have hp : Pfx.applyPrefix (str% "gdo") (str% "%%obj_type%%;") = str% "%%obj_type%%;" := by decide
    rw [hp]
    have hlo : loopOf ⟨str% "%%obj_type%%;", true, 1⟩ (str% "%%obj_type%%;") = .ok (some .objects) := by decide
    rw [hlo]
    simp only [loopEmpty, List.isEmpty_cons, Bool.false_eq_true, if_false, loopPasses, List.map_cons, List.map_nil, replaceLoop]
    have hf : found (str% "%%obj_symbol_pad%%") (str% "%%obj_type%%;") = false := by decide
    simp only [hf, Bool.false_eq_true, if_false]
    rw [h2]
    rfl
  unfold substitute
  rw [if_neg (by simp), if_neg (by simp), substLists]
  have hpr : processed { prototypes := [], objects := [{ kind := .object, type := ty, symbol := str% "v" }] } [⟨str% "%%obj_type%%;", true, 1⟩] = [⟨str% "%%obj_type%%;", true, 1⟩] := by decide
  rw [hpr, substEntries, h3]
  rfl

end Gdo.Sub
