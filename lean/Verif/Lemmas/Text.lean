import Verif.Model.Utils

/-!
Lemmas about searching and replacing in strings (`utils::find`, `utils::replace`,
`utils::strip_spaces`).
-/

namespace Gdo

/-- The text contains the pattern. -/
def Contains (pat s : Str) : Prop := ∃ p q, s = p ++ pat ++ q

theorem splitFirst_some {pat s a b : Str} (h : splitFirst pat s = some (a, b)) :
    s = a ++ pat ++ b ∧ ∀ p q, s = p ++ pat ++ q → a.length ≤ p.length := by
  induction s generalizing a b with
  | nil =>
    unfold splitFirst at h
    split at h
    · rename_i hp
      simp at h
      obtain ⟨rfl, rfl⟩ := h
      have : pat = [] := by simpa using hp
      subst this
      exact ⟨rfl, fun p q _ => by simp⟩
    · simp at h
  | cons c cs ih =>
    unfold splitFirst at h
    split at h
    · rename_i hp
      simp only [Option.some.injEq, Prod.mk.injEq] at h
      obtain ⟨rfl, rfl⟩ := h
      refine ⟨?_, fun p q _ => by simp⟩
      rw [List.isPrefixOf_iff_prefix] at hp
      obtain ⟨t, ht⟩ := hp
      simp [← ht]
    · rename_i hp
      simp only [Option.map_eq_some_iff] at h
      obtain ⟨⟨x, y⟩, hx, he⟩ := h
      simp only [Prod.mk.injEq] at he
      obtain ⟨rfl, rfl⟩ := he
      obtain ⟨h1, h2⟩ := ih hx
      refine ⟨by simp [h1], ?_⟩
      intro p q hpq
      cases p with
      | nil =>
        exfalso
        apply hp
        rw [List.isPrefixOf_iff_prefix]
        exact ⟨q, by simpa using hpq.symm⟩
      | cons p0 ps =>
        simp only [List.cons_append, List.cons.injEq] at hpq
        have := h2 ps q (by simpa using hpq.2)
        simp; exact this

theorem splitFirst_none {pat s : Str} : splitFirst pat s = none ↔ ¬ Contains pat s := by
  induction s with
  | nil =>
    unfold splitFirst
    by_cases hp : pat = []
    · subst hp
      simp only [List.isPrefixOf, if_true]
      simp only [reduceCtorEq, false_iff, Classical.not_not]
      exact ⟨[], [], rfl⟩
    · have : pat.isPrefixOf ([] : Str) = false := by cases pat <;> simp_all
      simp only [this]
      simp only [Bool.false_eq_true, if_false, true_iff]
      rintro ⟨p, q, h⟩
      simp at h
      exact hp h.2.1
  | cons c cs ih =>
    unfold splitFirst
    by_cases hp : pat.isPrefixOf (c :: cs)
    · simp only [hp, if_true, reduceCtorEq, false_iff, Classical.not_not]
      rw [List.isPrefixOf_iff_prefix] at hp
      obtain ⟨t, ht⟩ := hp
      exact ⟨[], t, by simp [ht]⟩
    · simp only [hp, Bool.false_eq_true, if_false, Option.map_eq_none_iff, ih]
      constructor
      · rintro h ⟨p, q, hpq⟩
        cases p with
        | nil => exact hp (by rw [List.isPrefixOf_iff_prefix]; exact ⟨q, by simpa using hpq.symm⟩)
        | cons p0 ps =>
          simp only [List.cons_append, List.cons.injEq] at hpq
          exact h ⟨ps, q, hpq.2⟩
      · rintro h ⟨p, q, hpq⟩
        exact h ⟨c :: p, q, by simp [hpq]⟩

theorem findPos_some {pat s : Str} {n : Nat} (h : findPos pat s = some n) :
    ∃ a b, s = a ++ pat ++ b ∧ a.length = n ∧ ∀ p q, s = p ++ pat ++ q → n ≤ p.length := by
  simp only [findPos, Option.map_eq_some_iff] at h
  obtain ⟨⟨a, b⟩, h1, h2⟩ := h
  obtain ⟨h3, h4⟩ := splitFirst_some h1
  exact ⟨a, b, h3, h2, fun p q he => h2 ▸ h4 p q he⟩

theorem findPos_none {pat s : Str} : findPos pat s = none ↔ ¬ Contains pat s := by
  simp [findPos, splitFirst_none]

/-- The first occurrence is where no earlier one is. -/
theorem findPos_eq {pat a b : Str} (h : ∀ p q, a ++ pat ++ b = p ++ pat ++ q → a.length ≤ p.length) :
    findPos pat (a ++ pat ++ b) = some a.length := by
  cases hf : findPos pat (a ++ pat ++ b) with
  | none => exact absurd ⟨a, b, rfl⟩ (findPos_none.mp hf)
  | some n =>
    obtain ⟨x, y, h1, h2, h3⟩ := findPos_some hf
    have := h x y h1
    have := h3 a b rfl
    simp; omega

theorem splitFirst_eq {pat a b : Str} (h : ∀ p q, a ++ pat ++ b = p ++ pat ++ q → a.length ≤ p.length) :
    splitFirst pat (a ++ pat ++ b) = some (a, b) := by
  cases hf : splitFirst pat (a ++ pat ++ b) with
  | none => exact absurd ⟨a, b, rfl⟩ (splitFirst_none.mp hf)
  | some r =>
    obtain ⟨x, y⟩ := r
    obtain ⟨h1, h2⟩ := splitFirst_some hf
    have h3 := h x y h1
    have h4 := h2 a b rfl
    have : a.length = x.length := by omega
    rw [List.append_assoc, List.append_assoc] at h1
    have h5 := List.append_inj h1 this
    have h6 := List.append_inj h5.2 rfl
    rw [h5.1, h6.2]

/-! ### Deleting a blank from two characters -/

/-- `a` directly followed by `b`. -/
theorem contains_pair {a b : Char} {s : Str} :
    Contains [a, b] s ↔ ∃ p q, s = p ++ a :: b :: q := by
  constructor
  · rintro ⟨p, q, h⟩; exact ⟨p, q, by simpa using h⟩
  · rintro ⟨p, q, h⟩; exact ⟨p, q, by simpa using h⟩

/-- One blank is deleted next to the character `y`. -/
inductive DelBlank (y : Char) : Str → Str → Prop
  | after (p q : Str) : DelBlank y (p ++ y :: ' ' :: q) (p ++ y :: q)
  | before (p q : Str) : DelBlank y (p ++ ' ' :: y :: q) (p ++ y :: q)

theorem split_pair {p q u v : Str} {a b : Char} (h : p ++ q = u ++ a :: b :: v) :
    (∃ w, p = u ++ a :: b :: w ∧ v = w ++ q) ∨ (p = u ++ [a] ∧ q = b :: v) ∨
    (∃ w, u = p ++ w ∧ q = w ++ a :: b :: v) := by
  rw [List.append_eq_append_iff] at h
  rcases h with ⟨w, h1, h2⟩ | ⟨w, h1, h2⟩
  · exact Or.inr (Or.inr ⟨w, h1, h2⟩)
  · cases w with
    | nil => simp at h1 h2; exact Or.inr (Or.inr ⟨[], by simp [h1], by simp [h2]⟩)
    | cons x w =>
      simp only [List.cons_append, List.cons.injEq] at h2
      obtain ⟨rfl, h2⟩ := h2
      cases w with
      | nil =>
        simp at h2
        exact Or.inr (Or.inl ⟨h1, by simp [h2]⟩)
      | cons x w =>
        simp only [List.cons_append, List.cons.injEq] at h2
        obtain ⟨rfl, h2⟩ := h2
        exact Or.inl ⟨w, h1, h2⟩

/-- A blank pattern that was not there before is not there after deleting a blank. -/
theorem delBlank_absent {y x : Char} {s s' : Str} (hy : y ≠ ' ') (hx : x ≠ ' ') (h : DelBlank y s s') :
    (¬ Contains [x, ' '] s → ¬ Contains [x, ' '] s') ∧ (¬ Contains [' ', x] s → ¬ Contains [' ', x] s') := by
  simp only [contains_pair]
  cases h with
  | after p q =>
    constructor
    · rintro h ⟨u, v, he⟩
      apply h
      rcases split_pair he with ⟨w, h1, h2⟩ | ⟨h1, h2⟩ | ⟨w, h1, h2⟩
      · exact ⟨u, w ++ y :: ' ' :: q, by simp [h1]⟩
      · simp at h2; exact absurd h2.1 hy
      · cases w with
        | nil =>
          simp at h2
          obtain ⟨rfl, rfl⟩ := h2
          exact ⟨p, ' ' :: v, by simp⟩
        | cons z w =>
          simp at h2
          obtain ⟨rfl, rfl⟩ := h2
          exact ⟨p ++ y :: ' ' :: w, v, by simp⟩
    · rintro h ⟨u, v, he⟩
      apply h
      rcases split_pair he with ⟨w, h1, h2⟩ | ⟨h1, h2⟩ | ⟨w, h1, h2⟩
      · exact ⟨u, w ++ y :: ' ' :: q, by simp [h1]⟩
      · simp at h2
        obtain ⟨rfl, rfl⟩ := h2
        exact ⟨u, ' ' :: q, by simp [h1]⟩
      · cases w with
        | nil => simp at h2; exact absurd h2.1 hy
        | cons z w =>
          simp at h2
          obtain ⟨rfl, rfl⟩ := h2
          exact ⟨p ++ y :: ' ' :: w, v, by simp⟩
  | before p q =>
    constructor
    · rintro h ⟨u, v, he⟩
      apply h
      rcases split_pair he with ⟨w, h1, h2⟩ | ⟨h1, h2⟩ | ⟨w, h1, h2⟩
      · exact ⟨u, w ++ ' ' :: y :: q, by simp [h1]⟩
      · simp at h2; exact absurd h2.1 hy
      · cases w with
        | nil =>
          simp at h2
          obtain ⟨rfl, rfl⟩ := h2
          exact ⟨p ++ [' '], v, by simp⟩
        | cons z w =>
          simp at h2
          obtain ⟨rfl, rfl⟩ := h2
          exact ⟨p ++ ' ' :: y :: w, v, by simp⟩
    · rintro h ⟨u, v, he⟩
      apply h
      rcases split_pair he with ⟨w, h1, h2⟩ | ⟨h1, h2⟩ | ⟨w, h1, h2⟩
      · exact ⟨u, w ++ ' ' :: y :: q, by simp [h1]⟩
      · simp at h2
        obtain ⟨rfl, rfl⟩ := h2
        exact ⟨u ++ [' '], q, by simp [h1]⟩
      · cases w with
        | nil => simp at h2; exact absurd h2.1 hy
        | cons z w =>
          simp at h2
          obtain ⟨rfl, rfl⟩ := h2
          exact ⟨p ++ ' ' :: y :: w, v, by simp⟩

/-- The text does not begin or end with white space. -/
def Stripped (s : Str) : Prop :=
  (∀ c, s.head? = some c → isSpace c = false) ∧ (∀ c, s.getLast? = some c → isSpace c = false)

theorem delBlank_stripped {y : Char} {s s' : Str} (h : DelBlank y s s') (hs : Stripped s) : Stripped s' := by
  obtain ⟨h1, h2⟩ := hs
  cases h with
  | after p q =>
    constructor
    · intro c hc
      apply h1 c
      cases p <;> simpa using hc
    · intro c hc
      apply h2 c
      cases q with
      | nil => exact absurd (h2 ' ' (by simp)) (by decide)
      | cons z q => simpa [List.getLast?_append, List.getLast?_cons] using hc
  | before p q =>
    constructor
    · intro c hc
      cases p with
      | nil => exact absurd (h1 ' ' (by simp)) (by decide)
      | cons z p => exact h1 c (by simpa using hc)
    · intro c hc
      apply h2 c
      simpa [List.getLast?_append, List.getLast?_cons] using hc

theorem delBlank_kept {y : Char} {s s' : Str} (h : DelBlank y s s') :
    s'.filter (· ≠ ' ') = s.filter (· ≠ ' ') ∧ s'.Sublist s := by
  cases h with
  | after p q =>
    refine ⟨by simp [List.filter_cons], ?_⟩
    exact List.Sublist.append (List.Sublist.refl _) (List.Sublist.cons_cons _ (List.Sublist.cons _ (List.Sublist.refl _)))
  | before p q =>
    refine ⟨by simp [List.filter_cons], ?_⟩
    exact List.Sublist.append (List.Sublist.refl _) (List.Sublist.cons _ (List.Sublist.refl _))

theorem delBlank_length {y : Char} {s s' : Str} (h : DelBlank y s s') : s.length = s'.length + 1 := by
  cases h <;> simp <;> omega

/-- Several blanks deleted next to `y`. -/
inductive DelBlanks (y : Char) : Str → Str → Prop
  | refl (s : Str) : DelBlanks y s s
  | step {s t u : Str} : DelBlank y s t → DelBlanks y t u → DelBlanks y s u

/-- A pattern of a character and a blank, and what it is replaced by. -/
def BlankPattern (y : Char) (pat : Str) : Prop := pat = [y, ' '] ∨ pat = [' ', y]

theorem replaceStep_blank {y : Char} {pat s s' : Str} (hp : BlankPattern y pat)
    (h : replaceStep pat [y] s = some s') : DelBlank y s s' := by
  simp only [replaceStep, Option.map_eq_some_iff] at h
  obtain ⟨⟨a, b⟩, h1, rfl⟩ := h
  have h2 := (splitFirst_some h1).1
  subst h2
  rcases hp with rfl | rfl
  · simpa using DelBlank.after (y := y) a b
  · simpa using DelBlank.before (y := y) a b

theorem replaceStep_none {pat dst s : Str} : replaceStep pat dst s = none ↔ ¬ Contains pat s := by
  simp [replaceStep, splitFirst_none]

/-- Replacing a blank pattern terminates, deletes blanks and leaves none of the pattern. -/
theorem replaceFuel_blank {y : Char} {pat : Str} (hp : BlankPattern y pat) (n : Nat) (s : Str)
    (hn : s.length < n) :
    ∃ r, replaceFuel pat [y] n s = some r ∧ DelBlanks y s r ∧ ¬ Contains pat r := by
  induction n generalizing s with
  | zero => omega
  | succ n ih =>
    unfold replaceFuel
    cases hs : replaceStep pat [y] s with
    | none => exact ⟨s, rfl, .refl s, replaceStep_none.mp hs⟩
    | some s' =>
      have hd := replaceStep_blank hp hs
      have := delBlank_length hd
      obtain ⟨r, h1, h2, h3⟩ := ih s' (by omega)
      exact ⟨r, h1, .step hd h2, h3⟩

theorem delBlanks_absent {y x : Char} {s s' : Str} (hy : y ≠ ' ') (hx : x ≠ ' ') (h : DelBlanks y s s') :
    (¬ Contains [x, ' '] s → ¬ Contains [x, ' '] s') ∧ (¬ Contains [' ', x] s → ¬ Contains [' ', x] s') := by
  induction h with
  | refl s => exact ⟨id, id⟩
  | step h _ ih =>
    exact ⟨fun h' => ih.1 ((delBlank_absent hy hx h).1 h'), fun h' => ih.2 ((delBlank_absent hy hx h).2 h')⟩

theorem delBlanks_stripped {y : Char} {s s' : Str} (h : DelBlanks y s s') (hs : Stripped s) : Stripped s' := by
  induction h with
  | refl s => exact hs
  | step h _ ih => exact ih (delBlank_stripped h hs)

theorem delBlanks_kept {y : Char} {s s' : Str} (h : DelBlanks y s s') :
    s'.filter (· ≠ ' ') = s.filter (· ≠ ' ') ∧ s'.Sublist s := by
  induction h with
  | refl s => exact ⟨rfl, List.Sublist.refl _⟩
  | step h _ ih =>
    have := delBlank_kept h
    exact ⟨ih.1.trans this.1, ih.2.trans this.2⟩

/-! ### Removing white space at both ends -/

theorem stripFront_spec (s : Str) : ∃ p, s = p ++ stripFront s ∧ (∀ c ∈ p, isSpace c = true) ∧
    ∀ c, (stripFront s).head? = some c → isSpace c = false := by
  induction s with
  | nil => exact ⟨[], rfl, by simp, by simp [stripFront]⟩
  | cons c s ih =>
    unfold stripFront
    split
    · rename_i h
      obtain ⟨p, h1, h2, h3⟩ := ih
      exact ⟨c :: p, by rw [List.cons_append, ← h1], by simpa [h] using h2, h3⟩
    · rename_i h
      exact ⟨[], rfl, by simp, by simpa using h⟩

theorem stripBack_spec (s : Str) : ∃ p, s = stripBack s ++ p ∧ (∀ c ∈ p, isSpace c = true) ∧
    ∀ c, (stripBack s).getLast? = some c → isSpace c = false := by
  induction s with
  | nil => exact ⟨[], rfl, by simp, by simp [stripBack]⟩
  | cons c s ih =>
    obtain ⟨p, h1, h2, h3⟩ := ih
    unfold stripBack
    split
    · rename_i h
      rw [h] at h1
      split
      · rename_i hc
        exact ⟨c :: p, by simpa using h1, by simpa [hc] using h2, by simp⟩
      · rename_i hc
        exact ⟨p, by simpa using h1, h2, by simpa using hc⟩
    · rename_i d ds h
      refine ⟨p, ?_, h2, ?_⟩
      · conv => lhs; rw [h1, h]
        rfl
      · rw [h] at h3
        intro x hx
        apply h3 x
        simpa [List.getLast?_cons] using hx

theorem stripSpaces_spec (s : Str) : Stripped (stripSpaces s) ∧
    ∃ p q, s = p ++ stripSpaces s ++ q ∧ (∀ c ∈ p, isSpace c = true) ∧ (∀ c ∈ q, isSpace c = true) := by
  obtain ⟨q, h1, h2, h3⟩ := stripBack_spec s
  obtain ⟨p, h4, h5, h6⟩ := stripFront_spec (stripBack s)
  refine ⟨⟨h6, ?_⟩, p, q, ?_, h5, h2⟩
  · intro c hc
    apply h3 c
    rw [h4, List.getLast?_append]
    simp only [stripSpaces] at hc
    rw [hc]; rfl
  · show s = p ++ stripFront (stripBack s) ++ q
    rw [← h4]; exact h1

theorem stripBack_eq (s : Str) (h : ∀ c, s.getLast? = some c → isSpace c = false) : stripBack s = s := by
  obtain ⟨p, h1, h2, _⟩ := stripBack_spec s
  rcases List.eq_nil_or_concat p with rfl | ⟨p', x, rfl⟩
  · simpa using h1.symm
  · have : s.getLast? = some x := by rw [h1]; simp [List.getLast?_append]
    have h4 := h x this
    have h5 := h2 x (by simp)
    rw [h4] at h5; exact absurd h5 (by decide)

theorem stripFront_eq (s : Str) (h : ∀ c, s.head? = some c → isSpace c = false) : stripFront s = s := by
  cases s with
  | nil => rfl
  | cons c s => simp [stripFront, h c rfl]

theorem stripSpaces_eq (s : Str) (h : Stripped s) : stripSpaces s = s := by
  unfold stripSpaces
  rw [stripBack_eq s h.2, stripFront_eq s h.1]

end Gdo
