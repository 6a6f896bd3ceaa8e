import Verif.Spec.Template
import Verif.Lemmas.Text

/-!
Lemmas about reading, dumping and embedding templates.
-/

namespace Gdo.Tpl
open Gdo

/-! ### Reading in one pass -/

/-- All entries, reading on with a started entry. -/
def readFrom (e : Entry) : Str → List Entry
  | [] => [(saveToLine none e).2]
  | c :: s =>
    match saveToLine (some c) e with
    | (true, e') => readFrom e' s
    | (false, e') => e' :: readFrom freshEntry s

theorem getLinesLoop_spec (s : Str) (e : Entry) :
    match getLinesLoop s e with
    | (e', some s') => readFrom e s = e' :: readFrom freshEntry s' ∧ s'.length < s.length
    | (e', none) => readFrom e s = [e'] := by
  induction s generalizing e with
  | nil => simp [getLinesLoop, readFrom]
  | cons c s ih =>
    rw [getLinesLoop, readFrom]
    rcases h : saveToLine (some c) e with ⟨b, e'⟩
    cases b with
    | true =>
      have := ih e'
      simp only
      split at this
      · exact ⟨this.1, by simp; omega⟩
      · exact this
    | false => simp

theorem readEntriesN_eq (n : Nat) (s : Str) (h : s.length < n) : readEntriesN n s = readFrom freshEntry s := by
  induction n generalizing s with
  | zero => omega
  | succ n ih =>
    rw [readEntriesN]
    have := getLinesLoop_spec s freshEntry
    unfold getLines
    split at this
    · rename_i h2
      rw [h2]
      rw [this.1]
      simp only
      rw [ih _ (by omega)]
    · rename_i h2
      rw [h2]
      exact this.symm

theorem readEntries_eq (s : Str) : readEntries s = readFrom freshEntry s :=
  readEntriesN_eq _ s (by omega)

theorem readFrom_ne_nil (e : Entry) (s : Str) : readFrom e s ≠ [] := by
  induction s generalizing e with
  | nil => simp [readFrom]
  | cons c s ih =>
    rw [readFrom]
    split
    · exact ih _
    · simp

/-! ### One character -/

theorem saveToLine_eof (e : Entry) :
    saveToLine none e = (false, { e with data := deleteSuffix e.data (str% "@") }) := rfl

theorem saveToLine_char (e : Entry) (c : Char) (h : c ≠ '\n') :
    saveToLine (some c) e = (true, ⟨e.data ++ [c], e.maybeKeyword || c == '%', e.lineCount⟩) := by
  unfold saveToLine
  simp only
  rw [if_neg h]
  split
  · rename_i h2; subst h2; simp
  · rename_i h2; simp [h2]

theorem suffix_char {c : Char} {s : Str} : [c] <:+ s ↔ s.getLast? = some c := by
  constructor
  · rintro ⟨t, rfl⟩; simp
  · intro h
    have := List.eq_nil_or_concat s
    rcases this with rfl | ⟨t, d, rfl⟩
    · simp at h
    · simp at h; subst h; exact ⟨t, by simp⟩

/-- What a newline does. -/
theorem saveToLine_nl (e : Entry) :
    (∃ d, e.data = d ++ str% "@" ∧ saveToLine (some '\n') e = (true, ⟨d ++ str% "\n", e.maybeKeyword, e.lineCount + 1⟩)) ∨
    (∃ d, e.data = d ++ str% "@\r" ∧ saveToLine (some '\n') e = (true, ⟨d ++ str% "\r\n", e.maybeKeyword, e.lineCount + 1⟩)) ∨
    (¬ (str% "@") <:+ e.data ∧ ¬ (str% "@\r") <:+ e.data ∧ saveToLine (some '\n') e = (false, e)) := by
  unfold saveToLine
  simp only [if_true]
  by_cases h1 : (str% "@") <:+ e.data
  · left
    obtain ⟨d, hd⟩ := h1
    refine ⟨d, hd.symm, ?_⟩
    rw [if_pos (by rw [List.isSuffixOf_iff_suffix]; exact ⟨d, hd⟩)]
    simp [← hd]
  · right
    rw [if_neg (by rw [List.isSuffixOf_iff_suffix]; exact h1)]
    by_cases h2 : (str% "@\r") <:+ e.data
    · left
      obtain ⟨d, hd⟩ := h2
      refine ⟨d, hd.symm, ?_⟩
      rw [if_pos (by rw [List.isSuffixOf_iff_suffix]; exact ⟨d, hd⟩)]
      simp [← hd]
    · right
      rw [if_neg (by rw [List.isSuffixOf_iff_suffix]; exact h2)]
      exact ⟨h1, h2, rfl⟩

/-! ### Line counts and flags -/

theorem nlCount_append (a b : Str) : nlCount (a ++ b) = nlCount a + nlCount b := by
  simp [nlCount]

theorem consistent_fresh : Consistent freshEntry := by
  simp [Consistent, freshEntry, nlCount]

theorem consistent_eof {e : Entry} (h : Consistent e) : Consistent (saveToLine none e).2 := by
  rw [saveToLine_eof]
  unfold deleteSuffix
  simp only
  split
  · rename_i h1
    rw [List.isSuffixOf_iff_suffix] at h1
    obtain ⟨d, hd⟩ := h1
    obtain ⟨h2, h3⟩ := h
    rw [← hd] at h2 h3
    simp [nlCount] at h2 h3
    rw [← hd]
    simp [Consistent, nlCount, h2, h3]
  · exact h

theorem consistent_step {e e' : Entry} {c : Char} {b : Bool} (h : Consistent e)
    (hs : saveToLine (some c) e = (b, e')) : Consistent e' := by
  by_cases hc : c = '\n'
  · subst hc
    rcases saveToLine_nl e with ⟨d, h1, h2⟩ | ⟨d, h1, h2⟩ | ⟨_, _, h2⟩
    · rw [h2] at hs; cases hs
      obtain ⟨h3, h4⟩ := h
      rw [h1] at h3 h4
      simp [nlCount] at h3 h4
      simp [Consistent, nlCount, h3, h4]
    · rw [h2] at hs; cases hs
      obtain ⟨h3, h4⟩ := h
      rw [h1] at h3 h4
      simp [nlCount] at h3 h4
      simp [Consistent, nlCount, h3, h4]
    · rw [h2] at hs; cases hs; exact h
  · rw [saveToLine_char e c hc] at hs
    cases hs
    obtain ⟨h3, h4⟩ := h
    have : ([c] : List Char).count '\n' = 0 := by simp [hc]
    simp only [Consistent, nlCount, List.count_append, this, Nat.add_zero]
    refine ⟨h3, ?_⟩
    rw [Bool.or_eq_true, h4, List.mem_append, List.mem_singleton, beq_iff_eq]
    constructor
    · rintro (h | h)
      · exact Or.inl h
      · exact Or.inr h.symm
    · rintro (h | h)
      · exact Or.inl h
      · exact Or.inr h.symm

theorem readFrom_consistent (s : Str) (e : Entry) (he : Consistent e) : ∀ x ∈ readFrom e s, Consistent x := by
  induction s generalizing e with
  | nil =>
    intro x hx
    simp only [readFrom, List.mem_singleton] at hx
    subst hx
    exact consistent_eof he
  | cons c s ih =>
    rw [readFrom]
    split
    · rename_i e' h
      exact ih _ (consistent_step he h)
    · rename_i e' h
      intro x hx
      simp only [List.mem_cons] at hx
      rcases hx with rfl | hx
      · exact consistent_step he h
      · exact ih _ consistent_fresh x hx

theorem readFrom_lines (s : Str) (e : Entry) :
    ((readFrom e s).map (·.lineCount)).sum = e.lineCount + nlCount s := by
  induction s generalizing e with
  | nil => simp [readFrom, saveToLine_eof, nlCount]
  | cons c s ih =>
    by_cases hc : c = '\n'
    · subst hc
      have hn : nlCount ('\n' :: s) = nlCount s + 1 := by simp [nlCount]
      rw [readFrom]
      rcases saveToLine_nl e with ⟨d, h1, h2⟩ | ⟨d, h1, h2⟩ | ⟨_, _, h2⟩
      · simp only [h2]; rw [ih, hn]; simp; omega
      · simp only [h2]; rw [ih, hn]; simp; omega
      · simp only [h2]; simp only [List.map_cons, List.sum_cons]; rw [ih, hn]; simp [freshEntry]; omega
    · rw [readFrom, saveToLine_char e c hc]
      simp only
      rw [ih]
      have : nlCount (c :: s) = nlCount s := by simp [nlCount, hc]
      simp [this]

/-- All entries but the last one are ended by a newline. -/
theorem readFrom_lineEntries (s : Str) (e : Entry) (he : Consistent e) :
    ∀ x ∈ (readFrom e s).dropLast, LineEntry x := by
  induction s generalizing e with
  | nil => simp [readFrom]
  | cons c s ih =>
    rw [readFrom]
    by_cases hc : c = '\n'
    · subst hc
      rcases saveToLine_nl e with ⟨d, h1, h2⟩ | ⟨d, h1, h2⟩ | ⟨h3, h4, h2⟩
      · simp only [h2]; exact ih _ (consistent_step he h2)
      · simp only [h2]; exact ih _ (consistent_step he h2)
      · simp only [h2]
        rw [List.dropLast_cons_of_ne_nil (readFrom_ne_nil _ _)]
        intro x hx
        simp only [List.mem_cons] at hx
        rcases hx with rfl | hx
        · exact ⟨he, h3, h4⟩
        · exact ih _ consistent_fresh x hx
    · have h := saveToLine_char e c hc
      simp only [h]
      exact ih _ (consistent_step he h)

/-! ### Re-inserting the marks -/

theorem marked_cons (c : Char) (s : Str) (h1 : c ≠ '\n') (h2 : c ≠ '\r') : marked (c :: s) = c :: marked s := by
  rw [marked]
  · intro _ h; exact absurd h h2
  · exact h1

theorem marked_append (d t : Str) (h : ¬ (d.getLast? = some '\r' ∧ t.head? = some '\n')) :
    marked (d ++ t) = marked d ++ marked t := by
  fun_induction marked d with
  | case1 s ih =>
    have : ¬ (s.getLast? = some '\r' ∧ t.head? = some '\n') := by
      cases s with
      | nil => simp
      | cons a s => simpa [List.getLast?_cons_cons] using h
    simp only [List.cons_append, marked]
    rw [ih this]
    simp
  | case2 s ih =>
    have : ¬ (s.getLast? = some '\r' ∧ t.head? = some '\n') := by
      cases s with
      | nil => simp
      | cons a s => simpa [List.getLast?_cons_cons] using h
    simp only [List.cons_append, marked]
    rw [ih this]
    simp
  | case3 c s hne hne2 ih =>
    have hh : ¬ (s.getLast? = some '\r' ∧ t.head? = some '\n') := by
      cases s with
      | nil => simp
      | cons a s => simpa [List.getLast?_cons_cons] using h
    rw [List.cons_append]
    rw [marked]
    · rw [ih hh]; simp
    · rintro s' rfl hs'
      cases s with
      | nil =>
        simp at hs'
        subst hs'
        simp at h
      | cons a s =>
        simp at hs'
        exact hne s rfl (by simp [hs'.1])
    · exact hne2
  | case4 => simp [marked]

theorem marked_snoc (d : Str) (c : Char) (h : c ≠ '\n') : marked (d ++ [c]) = marked d ++ [c] := by
  rw [marked_append d [c] (by simp [h])]
  congr 1
  by_cases hc : c = '\r'
  · subst hc; decide
  · rw [marked_cons c [] h hc]; simp [marked]

/-- A text that contains neither of two forbidden texts across a boundary. -/
theorem readFrom_text (s : Str) (e : Entry) (hc : ∀ p q, marked e.data ++ s ≠ p ++ str% "\r@\n" ++ q) :
    (s.getLast? = some '@' ∨ (s = [] ∧ e.data.getLast? = some '@') → textOf (readFrom e s) ++ str% "@" = marked e.data ++ s) ∧
    (¬ (s.getLast? = some '@' ∨ (s = [] ∧ e.data.getLast? = some '@')) → textOf (readFrom e s) = marked e.data ++ s) := by
  induction s generalizing e with
  | nil =>
    simp only [readFrom, saveToLine_eof, textOf, List.map_cons, List.map_nil, joinLines, List.append_nil]
    unfold deleteSuffix
    constructor
    · intro h
      simp at h
      rw [if_pos (by rw [List.isSuffixOf_iff_suffix, suffix_char]; exact h)]
      rw [← suffix_char] at h
      obtain ⟨d, hd⟩ := h
      rw [← hd, marked_snoc _ _ (by decide)]
      simp
    · intro h
      simp at h
      rw [if_neg (by rw [List.isSuffixOf_iff_suffix, suffix_char]; exact h)]
  | cons c s ih =>
    rw [readFrom]
    by_cases hn : c = '\n'
    · subst hn
      rcases saveToLine_nl e with ⟨d, h1, h2⟩ | ⟨d, h1, h2⟩ | ⟨h3, h4, h2⟩
      · simp only [h2]
        have hd : d.getLast? ≠ some '\r' := by
          intro hd
          rw [← suffix_char] at hd
          obtain ⟨d', rfl⟩ := hd
          apply hc (marked d') s
          rw [h1, marked_snoc _ _ (by decide), marked_snoc _ _ (by decide)]
          simp
        have hm : marked (d ++ str% "\n") = marked d ++ str% "@\n" := by
          rw [marked_append _ _ (by simp [hd])]; rfl
        have hm2 : marked e.data = marked d ++ str% "@" := by rw [h1, marked_snoc _ _ (by decide)]
        have := ih ⟨d ++ str% "\n", e.maybeKeyword, e.lineCount + 1⟩ (by
          intro p q hpq
          apply hc p q
          rw [← hpq, hm, hm2]; simp)
        simp only [hm] at this
        rw [hm2]
        constructor
        · intro h
          rw [(this.1 (by cases s <;> simp_all))]
          simp
        · intro h
          rw [(this.2 (by cases s <;> simp_all))]
          simp
      · simp only [h2]
        have hm : marked (d ++ str% "\r\n") = marked d ++ str% "@\r\n" := by
          rw [marked_append _ _ (by simp)]; rfl
        have hm2 : marked e.data = marked d ++ str% "@\r" := by
          rw [h1, show d ++ str% "@\r" = (d ++ str% "@") ++ str% "\r" by simp,
            marked_snoc _ _ (by decide), marked_snoc _ _ (by decide)]; simp
        have := ih ⟨d ++ str% "\r\n", e.maybeKeyword, e.lineCount + 1⟩ (by
          intro p q hpq
          apply hc p q
          rw [← hpq, hm, hm2]; simp)
        simp only [hm] at this
        rw [hm2]
        constructor
        · intro h
          rw [(this.1 (by cases s <;> simp_all))]
          simp
        · intro h
          rw [(this.2 (by cases s <;> simp_all))]
          simp
      · simp only [h2]
        have := ih freshEntry (by
          intro p q hpq
          apply hc (marked e.data ++ '\n' :: p) q
          simp only [freshEntry, marked, List.nil_append] at hpq
          rw [hpq]; simp)
        have hne := readFrom_ne_nil freshEntry s
        obtain ⟨x, xs, hx⟩ := List.exists_cons_of_ne_nil hne
        have ht : textOf (e :: readFrom freshEntry s) = marked e.data ++ str% "\n" ++ textOf (readFrom freshEntry s) := by
          rw [hx]; simp [textOf, joinLines]
        rw [ht]
        rw [show marked freshEntry.data = [] from rfl, List.nil_append, show freshEntry.data = [] from rfl] at this
        constructor
        · intro h
          rw [List.append_assoc, this.1 (by cases s <;> simp_all)]
          simp
        · intro h
          rw [this.2 (by cases s <;> simp_all)]
          simp
    · have h := saveToLine_char e c hn
      simp only [h]
      have hm := marked_snoc e.data c hn
      have := ih ⟨e.data ++ [c], e.maybeKeyword || c == '%', e.lineCount⟩ (by
        intro p q hpq
        apply hc p q
        rw [← hpq, hm]; simp)
      simp only [hm] at this
      constructor
      · intro h
        rw [(this.1 (by cases s <;> simp_all))]
        simp
      · intro h
        rw [(this.2 (by cases s <;> simp_all))]
        simp

end Gdo.Tpl
