import Verif.Lemmas.TemplateDump

/-!
Properties C20-C22: reading, dumping and embedding template files.
-/

namespace Gdo.Tpl
open Gdo

/-! ### C20 -/

/-- The line counts add up to the number of lines (the pieces between newlines). -/
theorem C20_line_counts (s : Str) : ((readEntries s).map (·.lineCount)).sum = nlCount s + 1 := by
  rw [readEntries_eq, readFrom_lines]
  simp [freshEntry]
  omega

example : readEntries (str% "a@\nb%%x%%\n\nc") =
    [⟨str% "a\nb%%x%%", true, 2⟩, ⟨[], false, 1⟩, ⟨str% "c", false, 1⟩] := by decide

/-- Line count and flag of each entry agree with its text: the count is the number
    of lines of the text, the flag tells whether there is a percent sign. -/
theorem C20_entries_consistent (s : Str) :
    ∀ e ∈ readEntries s, e.lineCount = nlCount e.data + 1 ∧ (e.maybeKeyword = true ↔ '%' ∈ e.data) := by
  rw [readEntries_eq]
  exact readFrom_consistent s freshEntry consistent_fresh

/-- Reading loses nothing, for texts in which no continuation mark stands between
    CR and LF: re-inserting the marks gives the text back, but for one mark at the
    end of the file.  Missing: the mark between CR and LF, see
    `C20_violated_mark_after_cr`. -/
theorem C20_text_partial (s : Str) (h : ∀ p q, s ≠ p ++ str% "\r@\n" ++ q) :
    (s.getLast? = some '@' → textOf (readEntries s) ++ str% "@" = s) ∧
    (s.getLast? ≠ some '@' → textOf (readEntries s) = s) := by
  have := readFrom_text s freshEntry (by
    simp only [freshEntry, marked, List.nil_append]
    exact h)
  rw [show marked freshEntry.data = [] from rfl, List.nil_append, show freshEntry.data = [] from rfl] at this
  rw [readEntries_eq]
  exact ⟨fun h => this.1 (Or.inl h), fun h => this.2 (by simpa using h)⟩

/-- Text files with LF line ends meet the condition of `C20_text_partial`. -/
theorem C20_text_lf_partial (s : Str) (h : '\r' ∉ s) (ha : s.getLast? ≠ some '@') : textOf (readEntries s) = s := by
  refine (C20_text_partial s ?_).2 ha
  rintro p q rfl
  exact h (by simp)

example : ∀ p q, str% "a@\r\nb@\nc\r\n" ≠ p ++ str% "\r@\n" ++ q := by
  intro p q h
  have : Gdo.splitFirst (str% "\r@\n") (str% "a@\r\nb@\nc\r\n") = _ := congrArg (Gdo.splitFirst (str% "\r@\n")) h
  have h2 : Gdo.splitFirst (str% "\r@\n") (p ++ str% "\r@\n" ++ q) ≠ none := by
    rw [ne_eq, Gdo.splitFirst_none, Classical.not_not]
    exact ⟨p, q, rfl⟩
  rw [← this] at h2
  exact h2 (by decide)

/-- Two different files, neither with a mark at its end, give the same entries, so
    that no way of re-inserting the marks gives both back. -/
theorem C20_violated_mark_after_cr : ∃ s t : Str, s ≠ t ∧ s.getLast? ≠ some '@' ∧ t.getLast? ≠ some '@' ∧
    readEntries s = readEntries t :=
  ⟨str% "a\r@\nb", str% "a@\r\nb", by decide, by decide, by decide, by decide⟩

/-- The number of read calls is bounded: reading a file ends. -/
theorem C20_reads (s : Str) (n : Nat) (h : s.length < n) : readEntriesN n s = readEntries s := by
  rw [readEntries_eq, readEntriesN_eq n s h]

example : (str% "a\nb").length < 4 := by decide

/-! ### C21 -/

/-- The built-in list of a template with the given entries. -/
def builtinList (file : Str) (es : List Entry) : List Entry :=
  (if file = str% "license.h" then [] else [builtinLineEntry file]) ++ es ++ [terminator]

theorem builtinLine_lineEntry (file : Str) (h1 : '\n' ∉ file) (h2 : '%' ∉ file) : LineEntry (builtinLineEntry file) := by
  refine ⟨⟨?_, ?_⟩, ?_, ?_⟩
  · have : file.count '\n' = 0 := List.count_eq_zero.mpr h1
    simp [builtinLineEntry, nlCount, this]
  · simp [builtinLineEntry, h2]
  · rw [suffix_char]; unfold builtinLineEntry; rw [List.getLast?_append]; simp
  · rintro ⟨t, ht⟩
    have := congrArg List.getLast? ht
    unfold builtinLineEntry at this
    simp only at this
    rw [List.getLast?_append, List.getLast?_append] at this
    simp at this

theorem builtin_lines (file : Str) (es : List Entry) (h1 : '\n' ∉ file) (h2 : '%' ∉ file)
    (h : ∀ e ∈ es, LineEntry e) :
    ∀ e ∈ (if file = str% "license.h" then [] else [builtinLineEntry file]) ++ es, LineEntry e := by
  intro e he
  rw [List.mem_append] at he
  rcases he with he | he
  · split at he
    · simp at he
    · simp at he; subst he; exact builtinLine_lineEntry file h1 h2
  · exact h e he

theorem lineEntry_count {e : Entry} (h : LineEntry e) : e.lineCount ≠ 0 := by
  have := h.1.1
  omega

/-- What is used of a list that was loaded from a file: all the entries of the file, and in
    front of them the `#line` line if it was asked for, unless it is the license. -/
theorem C20_loaded (file s : Str) (isStdin ld : Bool) :
    (listEntries (loadFromFile file isStdin ld s)).map (fun e => (e.data, e.maybeKeyword)) =
      (if ld = true ∧ file ≠ str% "license.h" then
        [(if isStdin then str% "#line 1 \"<STDIN>\"" else str% "#line 1 \"" ++ file ++ str% "\"\n", false)] else []) ++
      (readEntries s).map fun e => (e.data, e.maybeKeyword) := by
  have hr : ∀ e ∈ readEntries s, e.lineCount ≠ 0 := by
    intro e he
    have := (C20_entries_consistent s e he).1
    omega
  unfold loadFromFile
  rw [listEntries_append_terminator]
  · by_cases hf : file = str% "license.h"
    · simp [hf]
    · cases ld <;> cases isStdin <;> simp [hf, lineEntry]
  · intro e he
    rw [List.mem_append] at he
    rcases he with he | he
    · have : e = lineEntry file isStdin := by
        revert he
        cases ld <;> by_cases hf : file = str% "license.h" <;> simp [hf]
      subst this
      cases isStdin <;> simp [lineEntry]
    · exact hr e he

example : (listEntries (loadFromFile (str% "c.h") true true (str% "a\nb"))).length = 3 := by decide

/-- What is dumped and loaded again: the same entries, but an empty entry is added
    at the end, and with `-line` a second `#line` entry at the start. -/
theorem C21_partial (file : Str) (es : List Entry) (ld : Bool) (h1 : '\n' ∉ file) (h2 : '%' ∉ file)
    (h : ∀ e ∈ es, LineEntry e) :
    loadFromFile file false ld (saveToFile (builtinList file es)) =
      (if ld = true ∧ file ≠ str% "license.h" then [lineEntry file false] else []) ++
      (if file = str% "license.h" then [] else [builtinLineEntry file]) ++ es ++ [freshEntry] ++ [terminator] := by
  have hb := builtin_lines file es h1 h2 h
  unfold loadFromFile saveToFile builtinList
  rw [listEntries_append_terminator _ (fun e he => lineEntry_count (hb e he)), readEntries_eq]
  have := readFrom_dump _ [] hb
  rw [List.append_nil] at this
  rw [this]
  by_cases hf : file = str% "license.h"
  · simp [hf, readFrom, freshEntry, saveToLine, deleteSuffix]
  · cases ld <;> simp [hf, readFrom, freshEntry, saveToLine, deleteSuffix]

example : ∀ e ∈ ([⟨str% "int a;@\n", false, 2⟩, ⟨str% "%%return%%", true, 1⟩] : List Entry), LineEntry e := by
  simp [LineEntry, Consistent, nlCount, List.suffix_cons_iff]

/-- Dumping and loading never gives the same entries. -/
theorem C21_violated_extra_entry (file : Str) (es : List Entry) (ld : Bool) (h1 : '\n' ∉ file) (h2 : '%' ∉ file)
    (h : ∀ e ∈ es, LineEntry e) :
    loadFromFile file false ld (saveToFile (builtinList file es)) ≠ builtinList file es := by
  rw [C21_partial file es ld h1 h2 h]
  intro he
  have := congrArg List.length he
  unfold builtinList at this
  by_cases hf : file = str% "license.h"
  · simp [hf] at this
  · cases ld <;> simp [hf] at this

example : '\n' ∉ str% "c.h" ∧ '%' ∉ str% "c.h" := by decide

theorem marked_noCr (d : Str) (h : '\r' ∉ d) : marked d = dumpText d := by
  induction d with
  | nil => rfl
  | cons c d ih =>
    have h1 : c ≠ '\r' := fun e => h (by simp [e])
    have h2 := ih (fun e => h (by simp [e]))
    rw [dumpText_cons, ← h2]
    by_cases hc : c = '\n'
    · subst hc; simp [marked]
    · rw [if_neg hc, marked_cons c d hc h1]; rfl

theorem joinLines_snoc_nil (l : List Str) : joinLines (l ++ [[]]) = l.flatMap (· ++ str% "\n") := by
  induction l with
  | nil => rfl
  | cons x l ih =>
    cases l with
    | nil => simp [joinLines]
    | cons y l =>
      simp only [List.cons_append, joinLines, List.flatMap_cons] at ih ⊢
      rw [ih]

theorem readFrom_noCr (s : Str) (e : Entry) (hs : '\r' ∉ s) (he : '\r' ∉ e.data) :
    ∀ x ∈ readFrom e s, '\r' ∉ x.data := by
  induction s generalizing e with
  | nil =>
    intro x hx
    simp only [readFrom, saveToLine_eof, List.mem_singleton] at hx
    subst hx
    unfold deleteSuffix
    simp only
    split
    · exact fun h => he (List.mem_of_mem_take h)
    · exact he
  | cons c s ih =>
    have hs' : '\r' ∉ s := fun h => hs (by simp [h])
    have hc' : c ≠ '\r' := fun h => hs (by simp [h])
    rw [readFrom]
    by_cases hc : c = '\n'
    · subst hc
      rcases saveToLine_nl e with ⟨d, h1, h2⟩ | ⟨d, h1, h2⟩ | ⟨_, _, h2⟩
      · simp only [h2]
        refine ih _ hs' ?_
        rw [h1] at he
        simp at he ⊢
        exact he
      · rw [h1] at he; simp at he
      · simp only [h2]
        intro x hx
        simp only [List.mem_cons] at hx
        rcases hx with rfl | hx
        · exact he
        · exact ih _ hs' (by simp [freshEntry]) x hx
    · rw [saveToLine_char e c hc]
      simp only
      refine ih _ hs' ?_
      simp only [List.mem_append, List.mem_singleton, not_or]
      exact ⟨he, fun h => hc' h.symm⟩

/-! ### C22 -/

/-- The embedded template compiles, and its entries are those that reading the same
    file at run time gives, but for the empty entry that follows a final newline.
    Missing: texts with bytes that are written as `\x` sequences and followed by a
    hexadecimal digit, texts with NUL bytes, a continuation mark at the end of the
    file, and the entry after the final newline. -/
theorem C22_partial (s : Str) (hs : Embeddable s) (ha : s.getLast? ≠ some '@') :
    ∃ es, compiledAll (embed s) = some es ∧
      (s = [] ∨ EndsLine s → readEntries s = es ++ [freshEntry]) ∧
      (¬ (s = [] ∨ EndsLine s) → readEntries s = es) := by
  have := embed_read s.length s .init freshEntry (Nat.le_refl _) agree_init hs ha (by simp [freshEntry])
    (by simp [freshEntry]) (fun _ => rfl) (by simp [freshEntry])
  simp only [readEntries_eq]
  simpa [embed, EmbedState.init] using this

/-- Texts of printable ASCII characters, tabs and newlines, as all templates in the
    source tree are, meet the condition of `C22_partial`. -/
theorem C22_ascii_partial (s : Str) (h : ∀ c ∈ s, c = '\n' ∨ c = '\t' ∨ (32 ≤ c.toNat ∧ c.toNat ≤ 126)) : Embeddable s := by
  refine ⟨?_, ?_, ?_, ?_⟩
  · intro c hc
    rcases h c hc with rfl | rfl | h
    · decide
    · decide
    · omega
  · intro hc
    rcases h _ hc with h | h | h
    · simp at h
    · simp at h
    · simp at h
  · intro hc
    rcases h _ hc with h | h | h
    · simp at h
    · simp at h
    · simp at h
  · induction s with
    | nil => trivial
    | cons a s ih =>
      cases s with
      | nil => trivial
      | cons b s =>
        refine ⟨?_, ih (fun c hc => h c (by simp [hc]))⟩
        rintro ⟨h1, h2, h3, h4⟩
        rcases h a (by simp) with h | h | h
        · exact absurd h h2
        · exact absurd h h1
        · omega

example : Embeddable (str% "\t\"%%func%%\" \\n@\nx\n") := C22_ascii_partial _ (by decide)
example : EndsLine (str% "\t\"%%func%%\" \\n@\nx\n") := by
  simp [EndsLine, List.suffix_cons_iff]

/-- For a file that ends with a newline the entries never agree: reading the file
    at run time gives one more. -/
theorem C22_violated_final_newline (s : Str) (hs : Embeddable s) (he : EndsLine s) :
    compiledAll (embed s) ≠ some (readEntries s) := by
  have ha : s.getLast? ≠ some '@' := by
    have := he.1
    rw [suffix_char] at this
    rw [this]; decide
  obtain ⟨es, h1, h2, _⟩ := C22_partial s hs ha
  rw [h1, h2 (Or.inr he)]
  intro h
  have := congrArg (Option.map List.length) h
  simp at this

/-- A byte written as `\x` sequence and followed by a hexadecimal digit: the literal
    is not valid. -/
theorem C22_violated_hex_run : ∃ s : Str, '\r' ∉ s ∧ s.getLast? ≠ some '@' ∧ (∀ c ∈ s, c ≠ '\x00' ∧ c.toNat < 256) ∧
    ¬ EndsLine s ∧ compiledAll (embed s) = none :=
  ⟨str% "\xe4a", by decide, by decide, by decide, by simp [EndsLine, List.suffix_cons_iff], by decide⟩

/-- A continuation mark at the end of the file: the embedded entry has a line more. -/
theorem C22_violated_mark_at_end : compiledAll (embed (str% "a@")) = some [⟨str% "a\n", false, 2⟩] ∧
    readEntries (str% "a@") = [⟨str% "a", false, 1⟩] := by decide

/-- A NUL byte ends the embedded text. -/
theorem C22_violated_nul : compiledAll (embed (str% "a\x00z")) = some [⟨str% "a", false, 1⟩] ∧
    readEntries (str% "a\x00z") = [⟨str% "a\x00z", false, 1⟩] := by decide

/-- Dumping an embedded template writes the text of the file it was made of, after
    the `#line` line. -/
theorem C21_dump_is_source_partial (s : Str) (hs : Embeddable s) (he : EndsLine s) :
    ∃ es, compiledAll (embed s) = some es ∧ saveToFile (es ++ [terminator]) = s := by
  have ha : s.getLast? ≠ some '@' := by
    have := he.1
    rw [suffix_char] at this
    rw [this]; decide
  obtain ⟨es, h1, h2, h5⟩ := C22_partial s hs ha
  refine ⟨es, h1, ?_⟩
  have h3 := h2 (Or.inr he)
  have h4 := C20_text_lf_partial s hs.noCr ha
  rw [h3] at h4
  have hle : ∀ e ∈ es, LineEntry e := by
    have := readFrom_lineEntries s freshEntry consistent_fresh
    rw [← readEntries_eq, h3, List.dropLast_concat] at this
    exact this
  have hcr : ∀ e ∈ es, '\r' ∉ e.data := by
    intro e he'
    have := readFrom_noCr s freshEntry hs.noCr (by simp [freshEntry])
    rw [← readEntries_eq, h3] at this
    exact this e (by simp [he'])
  unfold saveToFile
  rw [listEntries_append_terminator _ (fun e he => lineEntry_count (hle e he))]
  rw [← h4]
  simp only [textOf, List.map_append, List.map_cons, List.map_nil]
  rw [show marked freshEntry.data = [] from rfl, joinLines_snoc_nil, List.flatMap_map]
  clear h1 h2 h3 h4 h5
  induction es with
  | nil => rfl
  | cons e es ih =>
    simp only [List.flatMap_cons]
    rw [ih (fun x hx => hle x (by simp [hx])) (fun x hx => hcr x (by simp [hx])),
      dumpEntry_eq e (hle e (by simp)).1, marked_noCr _ (hcr e (by simp))]

end Gdo.Tpl
