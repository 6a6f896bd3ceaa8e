import Verif.Lemmas.Parse
import Verif.Spec.Decl

namespace Gdo
open Spec

theorem appendStrings_eq (b : Str) (v : Toks) : appendStrings b v = b ++ spaced v := by
  unfold appendStrings spaced
  induction v generalizing b with
  | nil => simp
  | cons e v ih => simp [ih, List.append_assoc]

theorem spaced_append (a b : Toks) : spaced (a ++ b) = spaced a ++ spaced b := by
  simp [spaced]

theorem isIdent_front {t : Str} (h : IdentTok t) : isIdent (strFront t) = true := by
  obtain ⟨h1, h2⟩ := h
  cases t with
  | nil => exact absurd rfl h1
  | cons c cs =>
    have := h2 c (by simp)
    simpa [strFront, isIdent, isWord] using this

/-- Tokens the iterator search skips. -/
def SkipTok (t : Str) : Prop := strFront t = '*' ∨ isIdent (strFront t) = true

theorem skip_of_type {T : Toks} (h : TypeToks T) : ∀ t ∈ T, SkipTok t := by
  obtain ⟨a, r, rfl, h1, h2⟩ := h
  intro t ht
  simp at ht
  rcases ht with rfl | ht
  · exact Or.inr (isIdent_front h1)
  · rcases h2 t ht with h | rfl
    · exact Or.inr (isIdent_front h)
    · exact Or.inl rfl

theorem findFirst_append {A : Toks} (hA : ∀ t ∈ A, SkipTok t) (t : Str) (B : Toks)
    (ht : ¬ SkipTok t) : findFirstNotPointerOrIdent (A ++ t :: B) = A.length := by
  induction A with
  | nil =>
    simp [findFirstNotPointerOrIdent]
    simp [SkipTok] at ht
    simp [ht]
  | cons a A ih =>
    have ha := hA a (by simp)
    have := ih (fun t ht => hA t (by simp [ht]))
    simp only [List.cons_append, findFirstNotPointerOrIdent, this]
    split
    · rename_i h
      rcases ha with h' | h' <;> simp [h'] at h
    · simp

theorem findFirst_all {A : Toks} (hA : ∀ t ∈ A, SkipTok t) :
    findFirstNotPointerOrIdent A = A.length := by
  induction A with
  | nil => rfl
  | cons a A ih =>
    have ha := hA a (by simp)
    have := ih (fun t ht => hA t (by simp [ht]))
    simp only [findFirstNotPointerOrIdent, this]
    split
    · rename_i h
      rcases ha with h' | h' <;> simp [h'] at h
    · simp

theorem matchMiddle_append (A w : Toks) (p : Str) :
    ∀ i, matchMiddle (A ++ w) (A.length + i) p = matchMiddle w i p := by
  induction p with
  | nil => intro i; rfl
  | cons c p ih =>
    intro i
    simp only [matchMiddle]
    have : deref (A ++ w) (A.length + i) = deref w i := by
      simp [deref, List.getElem?_append_right]
    rw [this]
    have h2 := ih (i+1)
    rw [← Nat.add_assoc] at h2
    simp only [h2]

theorem derefBack_one_snoc (X : Toks) (e : Str) : derefBack (X ++ [e]) (X ++ [e]).length 1 = some e := by
  simp [derefBack]

theorem derefBack_two_snoc (X : Toks) (e f : Str) :
    derefBack (X ++ [e, f]) (X ++ [e, f]).length 2 = some e := by
  simp [derefBack]

theorem derefBack_one_snoc2 (X : Toks) (e f : Str) :
    derefBack (X ++ [e, f]) (X ++ [e, f]).length 1 = some f := by
  simp [derefBack]

/-- The last token before the iterator. -/
theorem derefBack_at (X : Toks) (e : Str) (w : Toks) :
    derefBack (X ++ e :: w) (X.length + 1) 1 = some e := by
  simp [derefBack]

theorem not_skip_paren : ¬ SkipTok ['('] := by unfold SkipTok; decide
theorem not_skip_bracket : ¬ SkipTok ['['] := by unfold SkipTok; decide

/-! ### `copy_parameters` -/

theorem segments_ne_nil (ts : Toks) : ∀ d, segments d ts ≠ [] := by
  induction ts with
  | nil => intro d; simp [segments]
  | cons t ts ih =>
    intro d
    simp only [segments]
    split
    · simp
    · cases h : segments (d + delta t) ts <;> simp [consHead]

/-- Append tokens to the front of the first segment. -/
def prependHead (pre : Toks) : List Toks → List Toks
  | [] => [pre]
  | s :: ss => (pre ++ s) :: ss

theorem prependHead_consHead (pre : Toks) (t : Str) (l : List Toks) :
    prependHead pre (consHead t l) = prependHead (pre ++ [t]) l := by
  cases l <;> simp [prependHead, consHead]

theorem strFront_eq_head? {t : Str} {c : Char} (hc : c ≠ '\x00') :
    strFront t = c ↔ t.head? = some c := by
  cases t <;> simp [strFront]; exact fun h => hc h.symm

theorem copyStep_foldl (ts : Toks) : ∀ st : CopyState,
    (let st' := ts.foldl copyStep st; st'.out ++ [st'.tokens])
      = st.out ++ prependHead st.tokens (segments st.scope ts) := by
  induction ts with
  | nil => intro st; simp [segments, prependHead]
  | cons t ts ih =>
    intro st
    simp only [List.foldl_cons]
    rw [ih]
    simp only [segments]
    by_cases h1 : strFront t = '('
    · have hh := (strFront_eq_head? (t := t) (c := '(') (by decide)).1 h1
      simp [copyStep, h1, hh, delta, prependHead_consHead]
    · have h1' : ¬ t.head? = some '(' := fun h => h1 ((strFront_eq_head? (by decide)).2 h)
      by_cases h2 : strFront t = ')'
      · have hh := (strFront_eq_head? (t := t) (c := ')') (by decide)).1 h2
        simp [copyStep, h2, hh, delta, prependHead_consHead]; rfl
      · have h2' : ¬ t.head? = some ')' := fun h => h2 ((strFront_eq_head? (by decide)).2 h)
        by_cases h3 : strFront t = ','
        · have hh := (strFront_eq_head? (t := t) (c := ',') (by decide)).1 h3
          by_cases h4 : st.scope = 0
          · simp [copyStep, h3, h4, hh]
            cases hs : segments 0 ts with
            | nil => exact absurd hs (segments_ne_nil ts 0)
            | cons s ss => simp [prependHead]
          · simp [copyStep, h3, h4, hh, delta, prependHead_consHead]
        · have h3' : ¬ t.head? = some ',' := fun h => h3 ((strFront_eq_head? (by decide)).2 h)
          simp [copyStep, h1, h2, h3, h1', h2', h3', delta, prependHead_consHead]

theorem copyParameters_eq (ts : Toks) : copyParameters ts = paramSegments ts := by
  have h := copyStep_foldl ts {}
  simp only at h
  unfold copyParameters paramSegments
  generalize hst : ts.foldl copyStep {} = st at h ⊢
  have h2 : st.out ++ [st.tokens] = segments 0 ts := by
    rw [h]
    cases hs : segments 0 ts with
    | nil => exact absurd hs (segments_ne_nil ts 0)
    | cons s ss => simp [prependHead, hs]
  rw [← h2]
  simp only [List.getLast?_append, List.getLast?_singleton]
  cases hto : st.tokens with
  | nil => simp
  | cons a b => simp

end Gdo
