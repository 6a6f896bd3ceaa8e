import Verif.Spec.CText
import Verif.Lemmas.Text
import Verif.Lemmas.Decl

/-!
Lemmas about the C tokens of a text.
-/

namespace Gdo.Spec

theorem isWord_space {c : Char} (h : isWord c = true) : isSpace c = false := by
  cases hs : isSpace c with
  | false => rfl
  | true =>
    simp only [isSpace, Bool.or_eq_true, beq_iff_eq] at hs
    rcases hs with ((((rfl | rfl) | rfl) | rfl) | rfl) | rfl <;> revert h <;> decide

theorem ctokens_space (c : Char) (cs : Str) (h : isSpace c = true) : ctokens (c :: cs) = ctokens cs := by
  conv => lhs; unfold ctokens
  simp [h]

theorem ctokens_punct (c : Char) (cs : Str) (h : isSpace c = false) (hw : isWord c = false) :
    ctokens (c :: cs) = [c] :: ctokens cs := by
  conv => lhs; unfold ctokens
  simp [h, hw]

theorem ctokens_word_end (c : Char) (cs : Str) (hw : isWord c = true)
    (hd : ∀ d, cs.head? = some d → isWord d = false) : ctokens (c :: cs) = [c] :: ctokens cs := by
  conv => lhs; unfold ctokens
  simp only [isWord_space hw, hw, if_true, Bool.false_eq_true, if_false]
  cases cs with
  | nil => rfl
  | cons d cs => simp [hd d rfl]

theorem ctokens_word_word (c d : Char) (cs : Str) (hw : isWord c = true) (hd : isWord d = true) :
    ctokens (c :: d :: cs) = (match ctokens (d :: cs) with | [] => [[c]] | w :: ws => (c :: w) :: ws) := by
  conv => lhs; unfold ctokens
  simp [isWord_space hw, hw, hd]
  cases ctokens (d :: cs) <;> rfl

theorem ctokens_word_ne (c : Char) (cs : Str) (hw : isWord c = true) : ctokens (c :: cs) ≠ [] := by
  by_cases hd : ∀ d, cs.head? = some d → isWord d = false
  · rw [ctokens_word_end c cs hw hd]; simp
  · cases cs with
    | nil => simp at hd
    | cons d cs =>
      simp at hd
      rw [ctokens_word_word c d cs hw hd]
      split <;> simp

/-- Texts that cannot grow together are read one after the other. -/
theorem ctokens_append (a b : Str)
    (h : (∀ c, a.getLast? = some c → isWord c = false) ∨ (∀ c, b.head? = some c → isWord c = false)) :
    ctokens (a ++ b) = ctokens a ++ ctokens b := by
  induction a with
  | nil => rfl
  | cons c a ih =>
    have hc : a ≠ [] → (∀ x, a.getLast? = some x → isWord x = false) ∨ (∀ x, b.head? = some x → isWord x = false) := by
      intro hne
      rcases h with h | h
      · left
        intro x hx
        apply h x
        cases a with
        | nil => exact absurd rfl hne
        | cons y ys => simpa [List.getLast?_cons] using hx
      · exact Or.inr h
    by_cases hs : isSpace c = true
    · rw [List.cons_append, ctokens_space c _ hs, ctokens_space c _ hs]
      cases a with
      | nil => rfl
      | cons y ys => exact ih (hc (by simp))
    · have hs : isSpace c = false := by simpa using hs
      by_cases hw : isWord c = true
      · cases a with
        | nil =>
          rcases h with h | h
          · have := h c rfl; rw [hw] at this; exact absurd this (by decide)
          · rw [List.singleton_append, ctokens_word_end c b hw h, ctokens_word_end c [] hw (by simp)]
            rfl
        | cons d a =>
          have ih := ih (hc (by simp))
          by_cases hd : isWord d = true
          · rw [List.cons_append, List.cons_append, ctokens_word_word c d _ hw hd,
              ctokens_word_word c d _ hw hd, ← List.cons_append, ih]
            cases hk : ctokens (d :: a) with
            | nil => exact absurd hk (ctokens_word_ne d a hd)
            | cons w ws => rfl
          · have hd : isWord d = false := by simpa using hd
            rw [List.cons_append, ctokens_word_end c (d :: a) hw (by simpa using hd),
              ctokens_word_end c _ hw (by simpa using hd), ih]
            rfl
      · have hw : isWord c = false := by simpa using hw
        rw [List.cons_append, ctokens_punct c _ hs hw, ctokens_punct c _ hs hw]
        cases a with
        | nil => rfl
        | cons y ys => rw [ih (hc (by simp))]; rfl

theorem ctokens_spaces (p : Str) (h : ∀ c ∈ p, isSpace c = true) : ctokens p = [] := by
  induction p with
  | nil => rfl
  | cons c p ih => rw [ctokens_space c p (h c (by simp)), ih (fun x hx => h x (by simp [hx]))]

theorem isSpace_word {c : Char} (h : isSpace c = true) : isWord c = false := by
  cases hw : isWord c with
  | false => rfl
  | true => rw [isWord_space hw] at h; exact absurd h (by decide)

theorem ctokens_stripSpaces (s : Str) : ctokens (stripSpaces s) = ctokens s := by
  obtain ⟨_, p, q, h, hp, hq⟩ := stripSpaces_spec s
  conv => rhs; rw [h]
  rw [ctokens_append _ q, ctokens_append p, ctokens_spaces p hp, ctokens_spaces q hq]
  · simp
  · left; intro c hc; exact isSpace_word (hp c (List.mem_of_getLast? hc))
  · right; intro c hc; exact isSpace_word (hq c (List.mem_of_mem_head? hc))

theorem ctokens_delBlank {y : Char} {s s' : Str} (hs : isSpace y = false) (hw : isWord y = false)
    (h : DelBlank y s s') : ctokens s' = ctokens s := by
  cases h with
  | after p q =>
    rw [ctokens_append p _ (Or.inr (by simpa using hw)), ctokens_append p _ (Or.inr (by simpa using hw)),
      ctokens_punct y _ hs hw, ctokens_punct y _ hs hw, ctokens_space ' ' q rfl]
  | before p q =>
    rw [ctokens_append p _ (Or.inr (by simpa using hw)), ctokens_append p _ (Or.inr (by simp; rfl)),
      ctokens_space ' ' _ rfl]

theorem ctokens_delBlanks {y : Char} {s s' : Str} (hs : isSpace y = false) (hw : isWord y = false)
    (h : DelBlanks y s s') : ctokens s' = ctokens s := by
  induction h with
  | refl s => rfl
  | step h _ ih => exact ih.trans (ctokens_delBlank hs hw h)

theorem ctokens_spaced (T : Toks) (b : Str) : ctokens (spaced T ++ b) = T.flatMap ctokens ++ ctokens b := by
  induction T with
  | nil => rfl
  | cons t T ih =>
    have : spaced (t :: T) ++ b = t ++ (' ' :: (spaced T ++ b)) := by simp [spaced]
    rw [this, ctokens_append t _ (Or.inr (by simp; rfl)), ctokens_space ' ' _ rfl, ih]
    simp

end Gdo.Spec
