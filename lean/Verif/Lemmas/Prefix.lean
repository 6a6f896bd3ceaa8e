import Verif.Model.Prefix
import Verif.Spec.Rename

/-!
Lemmas about prefix replacement.
-/

namespace Gdo.Pfx
open Gdo Rename

/-- `out` is the text with `f` applied to each word. -/
inductive Renamed (f : Str → Str) : Str → Str → Prop
  | nil : Renamed f [] []
  | other {c : Char} {s t : Str} (hc : isWord c = false) (h : Renamed f s t) : Renamed f (c :: s) (c :: t)
  | word {w s t : Str} (hne : w ≠ []) (hw : ∀ c ∈ w, isWord c = true) (hs : ∀ c, s.head? = some c → isWord c = false)
      (h : Renamed f s t) : Renamed f (w ++ s) (f w ++ t)

/-! ### Format strings -/

theorem expand_plain (g : List Str) (s : Str) (h : '$' ∉ s) : expand g s = s := by
  induction s with
  | nil => simp [expand]
  | cons c s ih =>
    have hc : c ≠ '$' := fun e => h (by simp [e])
    have hs : '$' ∉ s := fun e => h (by simp [e])
    rw [expand, ih hs]
    · intro a b s h1; exact absurd h1 hc
    · intro a h1; exact absurd h1 hc

theorem expand_ref1 (g : List Str) (p : Str) (hd : ∀ c, p.head? = some c → isDigit c = false) :
    expand g (str% "$1" ++ p) = g.getD 1 [] ++ expand g p := by
  cases p with
  | nil => simp [expand, isDigit, digitVal]
  | cons c p =>
    have : isDigit c = false := hd c rfl
    rw [show str% "$1" ++ c :: p = '$' :: '1' :: c :: p from rfl, expand]
    rw [this]
    simp [isDigit, digitVal]

theorem expand_append_plain (g : List Str) (p q : Str) (h : '$' ∉ p) : expand g (p ++ q) = p ++ expand g q := by
  induction p with
  | nil => simp
  | cons c p ih =>
    have hc : c ≠ '$' := fun e => h (by simp [e])
    have hs : '$' ∉ p := fun e => h (by simp [e])
    rw [List.cons_append, expand, ih hs]
    · rfl
    · intro a b s h1; exact absurd h1 hc
    · intro a h1; exact absurd h1 hc

theorem expand_ref3 (g : List Str) : expand g (str% "$3") = g.getD 3 [] := by
  simp [expand, isDigit, digitVal]

/-- The format string `$1P_`. -/
theorem expand_prefix (g : List Str) (p : Str) (h : '$' ∉ p) (hd : ∀ c, p.head? = some c → isDigit c = false) :
    expand g (str% "$1" ++ p ++ str% "_") = g.getD 1 [] ++ p ++ str% "_" := by
  rw [List.append_assoc, expand_ref1, expand_plain]
  · simp
  · simp [h]
  · cases p with
    | nil => simp [isDigit]
    | cons c p => simpa using hd

/-- The format string `$1p$3`. -/
theorem expand_standalone (g : List Str) (p : Str) (h : '$' ∉ p) (hd : ∀ c, p.head? = some c → isDigit c = false) :
    expand g (str% "$1" ++ p ++ str% "$3") = g.getD 1 [] ++ p ++ g.getD 3 [] := by
  rw [List.append_assoc, expand_ref1, expand_append_plain _ _ _ h, expand_ref3]
  · simp
  · cases p with
    | nil => simp [isDigit]
    | cons c p => simpa using hd

/-! ### Passing -/

theorem regexReplace_skip (m : Bool → Str → Option (List Str)) (fmt a s : Str) (bol : Bool) :
    regexReplace m fmt bol a.length (a ++ s) = regexReplace m fmt (bol && a.isEmpty) 0 s := by
  induction a generalizing bol with
  | nil => simp
  | cons c a ih =>
    rw [List.length_cons, List.cons_append]
    cases a with
    | nil => simp [regexReplace]
    | cons d a => rw [regexReplace, ih]; simp

/-- A match: the rest of the text follows. -/
theorem regexReplace_match (m : Bool → Str → Option (List Str)) (fmt x s : Str) (g : List Str) (bol : Bool)
    (hx : x ≠ []) (hm : m bol (x ++ s) = some (x :: g)) :
    regexReplace m fmt bol 0 (x ++ s) = expand (x :: g) fmt ++ regexReplace m fmt false 0 s := by
  cases x with
  | nil => exact absurd rfl hx
  | cons c x =>
    rw [List.cons_append] at hm ⊢
    rw [regexReplace, hm]
    have := regexReplace_skip m fmt x s false
    simp only [List.getD_cons_zero, List.length_cons, Nat.add_sub_cancel]
    rw [this]
    simp

theorem regexReplace_none (m : Bool → Str → Option (List Str)) (fmt s : Str) (c : Char) (bol : Bool)
    (hm : m bol (c :: s) = none) :
    regexReplace m fmt bol 0 (c :: s) = c :: regexReplace m fmt false 0 s := by
  rw [regexReplace, hm]

/-- No pattern matches inside of a word. -/
theorem regexReplace_word (m : Bool → Str → Option (List Str)) (fmt w s : Str)
    (hm : ∀ c t, isWord c = true → m false (c :: t) = none) (hw : ∀ c ∈ w, isWord c = true) :
    regexReplace m fmt false 0 (w ++ s) = w ++ regexReplace m fmt false 0 s := by
  induction w with
  | nil => simp
  | cons c w ih =>
    rw [List.cons_append, regexReplace_none _ _ _ _ _ (hm c _ (hw c (by simp))), ih (fun c hc => hw c (by simp [hc]))]
    rfl

theorem matchPrefix_word (lit : Str) (c : Char) (t : Str) (hc : isWord c = true) : matchPrefix lit false (c :: t) = none := by
  simp [matchPrefix, hc]

theorem matchStandalone_word (lit : Str) (c : Char) (t : Str) (hc : isWord c = true) :
    matchStandalone lit false (c :: t) = none := by
  simp [matchStandalone, hc]

/-! ### Words -/

/-- The rest of the text does not go on with a word character. -/
def Ended (s : Str) : Prop := ∀ c, s.head? = some c → isWord c = false

theorem word_split (s : Str) : ∃ w r, s = w ++ r ∧ (∀ c ∈ w, isWord c = true) ∧ Ended r := by
  induction s with
  | nil => exact ⟨[], [], rfl, by simp, by simp [Ended]⟩
  | cons c s ih =>
    cases hc : isWord c with
    | true =>
      obtain ⟨w, r, rfl, h1, h2⟩ := ih
      exact ⟨c :: w, r, rfl, by simpa [hc] using h1, h2⟩
    | false => exact ⟨[], c :: s, rfl, by simp, by simp [Ended, hc]⟩

/-- A literal of word characters is found at the start of a word only inside of it. -/
theorem prefix_word {lit w r : Str} (hl : ∀ c ∈ lit, isWord c = true) (hr : Ended r) :
    lit <+: w ++ r ↔ lit <+: w := by
  constructor
  · intro h
    by_cases hlen : lit.length ≤ w.length
    · exact List.prefix_of_prefix_length_le h (List.prefix_append _ _) hlen
    · exfalso
      obtain ⟨t, ht⟩ := h
      rw [List.append_eq_append_iff] at ht
      rcases ht with ⟨a, h1, _⟩ | ⟨a, h1, h2⟩
      · rw [h1] at hlen; simp at hlen
      · cases a with
        | nil => rw [h1] at hlen; simp at hlen
        | cons x a =>
          have h3 := hl x (by rw [h1]; simp)
          have h4 := hr x (by rw [h2]; rfl)
          simp [h3] at h4
  · intro h
    exact List.IsPrefix.trans h (List.prefix_append _ _)

theorem after_eq (lit w r : Str) (hl : ∀ c ∈ lit, isWord c = true) (hr : Ended r) :
    after lit (w ++ r) = if lit.isPrefixOf w then some (w.drop lit.length ++ r) else none := by
  unfold after
  have := prefix_word (w := w) hl hr
  rw [← List.isPrefixOf_iff_prefix, ← List.isPrefixOf_iff_prefix] at this
  by_cases h : lit.isPrefixOf w = true
  · rw [if_pos h, if_pos (this.mpr h)]
    rw [List.isPrefixOf_iff_prefix] at h
    obtain ⟨t, rfl⟩ := h
    simp
  · rw [if_neg h, if_neg (fun h' => h (this.mp h'))]

/-- What one of the first two passes does with a word. -/
def newPrefix (lit p w : Str) : Str :=
  if lit.isPrefixOf w then p ++ str% "_" ++ w.drop lit.length
  else if ('_' :: lit).isPrefixOf w then str% "_" ++ p ++ str% "_" ++ w.drop (lit.length + 1)
  else w

theorem cons_isPrefixOf {a : Char} {l s : Str} : (a :: l).isPrefixOf s = true ↔ ∃ t, s = a :: l ++ t := by
  rw [List.isPrefixOf_iff_prefix]
  constructor
  · rintro ⟨t, h⟩; exact ⟨t, h.symm⟩
  · rintro ⟨t, h⟩; exact ⟨t, h.symm⟩

section pass
variable (lit p : Str) (hl : ∀ c ∈ lit, isWord c = true) (hn : ∃ x l, lit = x :: l ∧ x ≠ '_')
  (hp : '$' ∉ p) (hd : ∀ c, p.head? = some c → isDigit c = false)

/-- The pass over the text. -/
def pass (bol : Bool) (s : Str) : Str := regexReplace (matchPrefix lit) (str% "$1" ++ p ++ str% "_") bol 0 s

include hl hn hp hd in
/-- A word after the characters `g` that belong to the match. -/
theorem pass_word (bol : Bool) (g w r : Str) (hw : ∀ c ∈ w, isWord c = true) (hr : Ended r) (hne : g ≠ [] ∨ w ≠ [])
    (hm : matchPrefix lit bol (g ++ (w ++ r)) = (optUnderscore lit g (w ++ r)).map fun x => x ++ [g, lit])
    (hg : matchPrefix lit bol (g ++ (w ++ r)) = none →
      pass lit p bol (g ++ (w ++ r)) = g ++ pass lit p false (w ++ r)) :
    pass lit p bol (g ++ w ++ r) = g ++ newPrefix lit p w ++ pass lit p false r := by
  obtain ⟨x, l, hx, hx2⟩ := hn
  have hl' : ∀ c ∈ '_' :: lit, isWord c = true := by
    intro c hc
    simp only [List.mem_cons] at hc
    rcases hc with rfl | hc
    · decide
    · exact hl c hc
  have hmm := hm
  unfold optUnderscore at hmm
  rw [after_eq _ w r hl' hr, after_eq lit w r hl hr] at hmm
  by_cases h1 : ('_' :: lit).isPrefixOf w = true
  · simp only [h1, if_true] at hmm
    obtain ⟨t, ht⟩ := cons_isPrefixOf.mp h1
    have h2 : lit.isPrefixOf w = false := by
      rw [ht, hx]
      simp [List.isPrefixOf, hx2]
    unfold newPrefix
    rw [h2, h1]
    simp only [Bool.false_eq_true, if_false, if_true]
    have hmt : matchPrefix lit bol ((g ++ '_' :: lit) ++ (t ++ r)) = some ((g ++ '_' :: lit) :: [g ++ str% "_", g, lit]) := by
      rw [ht] at hmm
      simp only [Option.map_some] at hmm
      rw [← List.append_assoc] at hmm
      simpa using hmm
    have := regexReplace_match (matchPrefix lit) (str% "$1" ++ p ++ str% "_") _ _ _ bol (by simp) hmt
    unfold pass
    rw [ht, show g ++ ('_' :: lit ++ t) ++ r = (g ++ '_' :: lit) ++ (t ++ r) by simp, this, expand_prefix _ _ hp hd]
    rw [regexReplace_word _ _ _ _ (matchPrefix_word lit) (fun c hc => hw c (by rw [ht]; simp [hc]))]
    simp
  · have h1 : ('_' :: lit).isPrefixOf w = false := by simpa only [Bool.not_eq_true] using h1
    rw [h1] at hmm
    simp only [Bool.false_eq_true, if_false] at hmm
    unfold newPrefix
    rw [h1]
    by_cases h2 : lit.isPrefixOf w = true
    · simp only [h2, if_true] at hmm ⊢
      rw [hx] at h2
      obtain ⟨t, ht⟩ := cons_isPrefixOf.mp h2
      rw [← hx] at ht
      have hmt : matchPrefix lit bol ((g ++ lit) ++ (t ++ r)) = some ((g ++ lit) :: [g, g, lit]) := by
        rw [ht] at hmm
        simpa using hmm
      have := regexReplace_match (matchPrefix lit) (str% "$1" ++ p ++ str% "_") _ _ _ bol (by simp [hx]) hmt
      unfold pass
      rw [ht, show g ++ (lit ++ t) ++ r = (g ++ lit) ++ (t ++ r) by simp, this, expand_prefix _ _ hp hd]
      rw [regexReplace_word _ _ _ _ (matchPrefix_word lit) (fun c hc => hw c (by rw [ht]; simp [hc]))]
      simp
    · have h2 : lit.isPrefixOf w = false := by simpa only [Bool.not_eq_true] using h2
      rw [h2] at hmm
      simp only [Bool.false_eq_true, if_false, Option.map_none] at hmm
      rw [h2]
      simp only [Bool.false_eq_true, if_false]
      rw [List.append_assoc, hg hmm]
      unfold pass
      rw [regexReplace_word _ _ _ _ (matchPrefix_word lit) hw]
      simp

include hl hn in
theorem optUnderscore_nonword (c : Char) (t : Str) (hc : isWord c = false) : optUnderscore lit [] (c :: t) = none := by
  obtain ⟨x, l, hx, hx2⟩ := hn
  have h1 : ('_' :: lit).isPrefixOf (c :: t) = false := by
    have : c ≠ '_' := by rintro rfl; simp [isWord] at hc
    simp [List.isPrefixOf, Ne.symm this]
  have h2 : lit.isPrefixOf (c :: t) = false := by
    have h3 := hl x (by simp [hx])
    have : x ≠ c := by rintro rfl; simp [h3] at hc
    rw [hx]; simp [List.isPrefixOf, this]
  simp [optUnderscore, after, h1, h2]

include hl hn hp hd in
/-- The pass renames the words. -/
theorem pass_renamed_aux (n : Nat) (s : Str) (hlen : s.length ≤ n) (hs : Ended s) :
    Renamed (newPrefix lit p) s (pass lit p false s) := by
  induction n generalizing s with
  | zero =>
    have : s = [] := List.eq_nil_of_length_eq_zero (by omega)
    subst this
    exact Renamed.nil
  | succ n ih =>
    cases s with
    | nil => exact Renamed.nil
    | cons c s =>
      have hc : isWord c = false := hs c rfl
      obtain ⟨w, r, rfl, hw, hr⟩ := word_split s
      have hm : matchPrefix lit false ([c] ++ (w ++ r)) = (optUnderscore lit [c] (w ++ r)).map fun x => x ++ [[c], lit] := by
        simp only [matchPrefix, List.cons_append, List.nil_append, hc, Bool.false_eq_true, if_false]
        cases optUnderscore lit [c] (w ++ r) <;> simp
      have := pass_word lit p hl hn hp hd false [c] w r hw hr (Or.inl (by simp)) hm (by
        intro ht
        exact regexReplace_none _ _ _ _ _ ht)
      rw [show c :: (w ++ r) = [c] ++ w ++ r by simp, this, List.append_assoc]
      have hir := ih r (by simp at hlen; omega) hr
      simp only [List.cons_append, List.nil_append]
      refine Renamed.other hc ?_
      by_cases hwe : w = []
      · subst hwe
        have : newPrefix lit p [] = [] := by
          obtain ⟨x, l, hx, _⟩ := hn
          simp [newPrefix, hx]
        rw [this]
        simpa using hir
      · exact Renamed.word hwe hw hr hir

include hl hn hp hd in
theorem pass_renamed (s : Str) : Renamed (newPrefix lit p) s (pass lit p true s) := by
  obtain ⟨w, r, rfl, hw, hr⟩ := word_split s
  by_cases hwe : w = []
  · subst hwe
    rw [List.nil_append]
    have : pass lit p true r = pass lit p false r := by
      unfold pass
      cases r with
      | nil => simp [regexReplace]
      | cons c r =>
        have hc : isWord c = false := hr c rfl
        have hm : matchPrefix lit true (c :: r) = matchPrefix lit false (c :: r) := by
          simp [matchPrefix, optUnderscore_nonword lit hl hn c r hc]
        rw [regexReplace, regexReplace, hm]
    rw [this]
    exact pass_renamed_aux lit p hl hn hp hd _ r (Nat.le_refl _) hr
  · obtain ⟨c, w', rfl⟩ := List.exists_cons_of_ne_nil hwe
    have hc : isWord c = true := hw c (by simp)
    have hcase : matchPrefix lit true ([] ++ (c :: w' ++ r)) =
        (optUnderscore lit [] (c :: w' ++ r)).map fun x => x ++ [[], lit] := by
      simp [matchPrefix, hc]
    have key := pass_word lit p hl hn hp hd true [] (c :: w') r hw hr (Or.inr (by simp)) hcase (by
      intro ht
      simp only [List.nil_append] at ht ⊢
      unfold pass
      rw [List.cons_append] at ht
      show regexReplace _ _ true 0 (c :: (w' ++ r)) = regexReplace _ _ false 0 (c :: (w' ++ r))
      rw [regexReplace_none _ _ _ _ _ ht, regexReplace_none _ _ _ _ _ (matchPrefix_word lit c _ hc)])
    rw [List.nil_append, List.nil_append] at key
    rw [key]
    exact Renamed.word hwe hw hr (pass_renamed_aux lit p hl hn hp hd _ r (Nat.le_refl _) hr)

end pass

/-! ### Pieces -/

theorem textOf_cons (p : Piece) (ps : List Piece) : textOf (p :: ps) = p.text ++ textOf ps := by simp [textOf]

theorem pieces_exist (s : Str) : ∃ ps, Valid ps ∧ textOf ps = s := by
  have : ∀ n (s : Str), s.length ≤ n → ∃ ps, Valid ps ∧ textOf ps = s ∧ (Ended s → ∀ w, ps.head? ≠ some (.word w)) := by
    intro n
    induction n with
    | zero =>
      intro s hs
      have : s = [] := List.eq_nil_of_length_eq_zero (by omega)
      subst this
      exact ⟨[], trivial, rfl, by simp⟩
    | succ n ih =>
      intro s hs
      obtain ⟨w, r, rfl, hw, hr⟩ := word_split s
      by_cases hwe : w = []
      · subst hwe
        cases r with
        | nil => exact ⟨[], trivial, rfl, by simp⟩
        | cons c r =>
          obtain ⟨ps, h1, h2, _⟩ := ih r (by simpa using hs)
          exact ⟨.other c :: ps, ⟨hr c rfl, h1⟩, by simp [textOf_cons, Piece.text, h2], by simp⟩
      · obtain ⟨ps, h1, h2, h3⟩ := ih r (by
          have := List.length_pos_iff.mpr hwe
          simp at hs; omega)
        refine ⟨.word w :: ps, ⟨hwe, hw, h3 hr, h1⟩, by simp [textOf_cons, Piece.text, h2], ?_⟩
        intro he
        obtain ⟨c, w', rfl⟩ := List.exists_cons_of_ne_nil hwe
        have := he c rfl
        rw [hw c (by simp)] at this
        simp at this
  obtain ⟨ps, h1, h2, _⟩ := this _ s (Nat.le_refl _)
  exact ⟨ps, h1, h2⟩

theorem ended_text {r : List Piece} (hv : Valid r) (h : ∀ w', r.head? ≠ some (.word w')) : Ended (textOf r) := by
  cases r with
  | nil => simp [Ended, textOf]
  | cons p r =>
    cases p with
    | word w => simp at h
    | other c =>
      intro x hx
      simp [textOf_cons, Piece.text] at hx
      subst hx
      exact hv.1

theorem split_unique {w w' s s' : Str} (h : w ++ s = w' ++ s') (hw : ∀ c ∈ w, isWord c = true)
    (hw' : ∀ c ∈ w', isWord c = true) (hs : Ended s) (hs' : Ended s') : w = w' ∧ s = s' := by
  rw [List.append_eq_append_iff] at h
  rcases h with ⟨a, h1, h2⟩ | ⟨a, h1, h2⟩
  · cases a with
    | nil => simp at h1 h2; exact ⟨h1.symm, h2⟩
    | cons x a =>
      have h3 := hw' x (by rw [h1]; simp)
      have h4 := hs x (by rw [h2]; rfl)
      simp [h3] at h4
  · cases a with
    | nil => simp at h1 h2; exact ⟨h1, h2.symm⟩
    | cons x a =>
      have h3 := hw x (by rw [h1]; simp)
      have h4 := hs' x (by rw [h2]; rfl)
      simp [h3] at h4

theorem mapWords_cons_word (f : Str → Str) (w : Str) (ps : List Piece) :
    mapWords f (.word w :: ps) = .word (f w) :: mapWords f ps := rfl
theorem mapWords_cons_other (f : Str → Str) (c : Char) (ps : List Piece) :
    mapWords f (.other c :: ps) = .other c :: mapWords f ps := rfl

theorem renamed_text {f : Str → Str} {ps : List Piece} {s out : Str} (hv : Valid ps) (hs : s = textOf ps)
    (h : Renamed f s out) : out = textOf (mapWords f ps) := by
  induction h generalizing ps with
  | nil =>
    cases ps with
    | nil => rfl
    | cons p ps =>
      cases p with
      | other c => simp [textOf_cons, Piece.text] at hs
      | word w =>
        simp [textOf_cons, Piece.text] at hs
        exact absurd hs.1 hv.1
  | @other c s t hc h ih =>
    cases ps with
    | nil => simp [textOf] at hs
    | cons p ps =>
      cases p with
      | other d =>
        simp [textOf_cons, Piece.text] at hs
        rw [mapWords_cons_other, textOf_cons, ← ih hv.2 hs.2, hs.1]
        rfl
      | word w =>
        obtain ⟨d, w', hw⟩ := List.exists_cons_of_ne_nil hv.1
        simp [textOf_cons, Piece.text, hw] at hs
        have := hv.2.1 d (by simp [hw])
        rw [← hs.1, hc] at this
        simp at this
  | @word w s t hne hw hsep h ih =>
    cases ps with
    | nil => simp [textOf] at hs; exact absurd hs.1 hne
    | cons p ps =>
      cases p with
      | other d =>
        obtain ⟨e, w', hw'⟩ := List.exists_cons_of_ne_nil hne
        simp [textOf_cons, Piece.text, hw'] at hs
        have := hw e (by simp [hw'])
        rw [hs.1, hv.1] at this
        simp at this
      | word w' =>
        simp only [textOf_cons, Piece.text] at hs
        obtain ⟨h1, h2⟩ := split_unique hs hw hv.2.1 hsep (ended_text hv.2.2.2 hv.2.2.1)
        rw [mapWords_cons_word, textOf_cons, ← ih hv.2.2.2 h2, h1]
        rfl

theorem pass_text (lit p : Str) (hl : ∀ c ∈ lit, isWord c = true) (hn : ∃ x l, lit = x :: l ∧ x ≠ '_')
    (hp : '$' ∉ p) (hd : ∀ c, p.head? = some c → isDigit c = false) (ps : List Piece) (hv : Valid ps) :
    pass lit p true (textOf ps) = textOf (mapWords (newPrefix lit p) ps) :=
  renamed_text hv rfl (pass_renamed lit p hl hn hp hd _)

theorem mapWords_valid (f : Str → Str) (ps : List Piece) (hv : Valid ps)
    (hf : ∀ w, w ≠ [] → (∀ c ∈ w, isWord c = true) → f w ≠ [] ∧ ∀ c ∈ f w, isWord c = true) : Valid (mapWords f ps) := by
  induction ps with
  | nil => trivial
  | cons p ps ih =>
    cases p with
    | other c => exact ⟨hv.1, ih hv.2⟩
    | word w =>
      obtain ⟨h1, h2, h3, h4⟩ := hv
      refine ⟨(hf w h1 h2).1, (hf w h1 h2).2, ?_, ih h4⟩
      intro w'
      cases ps with
      | nil => simp [mapWords]
      | cons q ps =>
        cases q with
        | other c => simp [mapWords]
        | word w2 => simp at h3

/-! ### The standalone word -/

section standalone
variable (p : Str) (hp : '$' ∉ p) (hd : ∀ c, p.head? = some c → isDigit c = false)

/-- The third pass over the text. -/
def passAlone (bol : Bool) (s : Str) : Str :=
  regexReplace (matchStandalone (str% "gdo")) (str% "$1" ++ p ++ str% "$3") bol 0 s

/-- What the third pass does with a word. -/
def newAlone (w : Str) : Str := if w = str% "gdo" then p else w

theorem after_gdo (w r : Str) (hr : Ended r) :
    after (str% "gdo") (w ++ r) = if (str% "gdo").isPrefixOf w then some (w.drop 3 ++ r) else none :=
  after_eq (str% "gdo") w r (by decide) hr

theorem litEnd_word (g w r : Str) (hw : ∀ c ∈ w, isWord c = true) (hr : Ended r) (hne : w ≠ str% "gdo") :
    litEnd (str% "gdo") g (w ++ r) = none := by
  unfold litEnd
  rw [after_gdo w r hr]
  by_cases h : (str% "gdo").isPrefixOf w = true
  · rw [if_pos h]
    obtain ⟨t, rfl⟩ := cons_isPrefixOf.mp h
    cases t with
    | nil => exact absurd (by simp) hne
    | cons x t =>
      simp [hw x (by simp)]
  · rw [if_neg h]

theorem litEnd_gdo_end (g : Str) : litEnd (str% "gdo") g (str% "gdo") = some [g ++ str% "gdo", g, str% "gdo", []] := by
  simp [litEnd, after]

theorem litEnd_gdo (g : Str) (d : Char) (r : Str) (hd : isWord d = false) :
    litEnd (str% "gdo") g (str% "gdo" ++ d :: r) = some [g ++ str% "gdo" ++ [d], g, str% "gdo", [d]] := by
  simp [litEnd, after, hd]

include hp hd in
theorem passAlone_gdo (bol : Bool) (g : Str) (r : List Piece) (hv : Valid r) (hr : ∀ w, r.head? ≠ some (.word w))
    (hm : ∀ t, t = str% "gdo" ++ textOf r → matchStandalone (str% "gdo") bol (g ++ t) = litEnd (str% "gdo") g t)
    (hrest : ∀ c r', r = .other c :: r' → passAlone p false (textOf r') = textOf (mapWords (newAlone p) r')) :
    passAlone p bol (g ++ str% "gdo" ++ textOf r) = g ++ p ++ textOf (mapWords (newAlone p) r) := by
  have hm := hm _ rfl
  cases r with
  | nil =>
    simp only [textOf, List.flatMap_nil, List.append_nil, mapWords, List.map_nil] at hm ⊢
    rw [litEnd_gdo_end] at hm
    have := regexReplace_match (matchStandalone (str% "gdo")) (str% "$1" ++ p ++ str% "$3") (g ++ str% "gdo") []
      _ bol (by simp) (by simpa using hm)
    rw [List.append_nil] at this
    unfold passAlone
    rw [this, expand_standalone _ _ hp hd]
    simp [regexReplace]
  | cons q r =>
    cases q with
    | word w => simp at hr
    | other d =>
      rw [textOf_cons] at hm ⊢
      simp only [Piece.text, List.cons_append, List.nil_append] at hm ⊢
      have h1 := litEnd_gdo g d (textOf r) hv.1
      simp only [List.cons_append, List.nil_append] at h1
      rw [h1] at hm
      have := regexReplace_match (matchStandalone (str% "gdo")) (str% "$1" ++ p ++ str% "$3") (g ++ str% "gdo" ++ [d])
        (textOf r) _ bol (by simp) (by simpa using hm)
      have h2 := hrest d r rfl
      unfold passAlone at h2 ⊢
      rw [show g ++ str% "gdo" ++ d :: textOf r = g ++ str% "gdo" ++ [d] ++ textOf r by simp, this,
        expand_standalone _ _ hp hd, h2, mapWords_cons_other, textOf_cons]
      simp [Piece.text]

theorem gdoPair_cons {q : Piece} {ps : List Piece} (h : GdoPair ps) : GdoPair (q :: ps) := by
  obtain ⟨a, c, b, rfl⟩ := h
  exact ⟨q :: a, c, b, by simp⟩

include hp hd in
theorem passAlone_text_aux (n : Nat) (ps : List Piece) (hlen : ps.length ≤ n) (hv : Valid ps) (hg : ¬ GdoPair ps)
    (hh : ps.head? ≠ some (.word (str% "gdo"))) :
    passAlone p false (textOf ps) = textOf (mapWords (newAlone p) ps) := by
  induction n generalizing ps with
  | zero =>
    have : ps = [] := List.eq_nil_of_length_eq_zero (by omega)
    subst this
    rfl
  | succ n ih =>
    cases ps with
    | nil => rfl
    | cons q r =>
      have hgr : ¬ GdoPair r := fun h => hg (gdoPair_cons h)
      cases q with
      | word w =>
        obtain ⟨h1, h2, h3, h4⟩ := hv
        rw [textOf_cons, mapWords_cons_word, textOf_cons]
        have hne : w ≠ str% "gdo" := by rintro rfl; simp at hh
        simp only [Piece.text, newAlone, if_neg hne]
        have := ih r (by simpa using hlen) h4 hgr (h3 _)
        unfold passAlone at this ⊢
        rw [regexReplace_word _ _ _ _ (matchStandalone_word _) h2, this]
      | other c =>
        obtain ⟨hc, hvr⟩ := hv
        rw [textOf_cons, mapWords_cons_other, textOf_cons]
        simp only [Piece.text, List.cons_append, List.nil_append]
        by_cases hgd : ∃ r', r = .word (str% "gdo") :: r'
        · obtain ⟨r', rfl⟩ := hgd
          obtain ⟨h1, h2, h3, h4⟩ := hvr
          rw [textOf_cons, mapWords_cons_word, textOf_cons]
          simp only [Piece.text, newAlone, if_true]
          have := passAlone_gdo p hp hd false [c] r' h4 h3 (by
            rintro t rfl
            simp only [matchStandalone, List.cons_append, List.nil_append, hc, Bool.false_eq_true, if_false]
            cases litEnd (str% "gdo") [c] ('g' :: 'd' :: 'o' :: textOf r') <;> rfl) (by
            rintro d r'' rfl
            refine ih r'' (by simp at hlen; omega) h4.2 (fun h => hgr (gdoPair_cons (gdoPair_cons h))) ?_
            intro hh2
            cases r'' with
            | nil => simp at hh2
            | cons q r'' =>
              simp at hh2
              subst hh2
              exact hg ⟨[.other c], d, r'', rfl⟩)
          simpa using this
        · have hm : matchStandalone (str% "gdo") false (c :: textOf r) = none := by
            have : litEnd (str% "gdo") [c] (textOf r) = none := by
              cases r with
              | nil => simp [textOf, litEnd, after]
              | cons q r =>
                cases q with
                | word w =>
                  rw [textOf_cons]
                  exact litEnd_word [c] w (textOf r) hvr.2.1 (ended_text hvr.2.2.2 hvr.2.2.1) (by
                    rintro rfl; exact hgd ⟨r, rfl⟩)
                | other d =>
                  rw [textOf_cons]
                  have := litEnd_word [c] [] ([d] ++ textOf r) (by simp) (by simp [Ended, hvr.1]) (by simp)
                  simpa [Piece.text] using this
            simp [matchStandalone, hc, this]
          have h5 := ih r (by simpa using hlen) hvr hgr (by
            intro hh2
            cases r with
            | nil => simp at hh2
            | cons q r =>
              simp at hh2
              exact hgd ⟨r, by rw [hh2]⟩)
          unfold passAlone at h5 ⊢
          rw [regexReplace_none _ _ _ _ _ hm, h5]

include hp hd in
theorem passAlone_text (ps : List Piece) (hv : Valid ps) (hg : ¬ GdoPair ps) :
    passAlone p true (textOf ps) = textOf (mapWords (newAlone p) ps) := by
  by_cases hgd : ∃ r', ps = .word (str% "gdo") :: r'
  · obtain ⟨r', rfl⟩ := hgd
    obtain ⟨h1, h2, h3, h4⟩ := hv
    rw [textOf_cons, mapWords_cons_word, textOf_cons]
    simp only [Piece.text, newAlone, if_true]
    have := passAlone_gdo p hp hd true [] r' h4 h3 (by
      rintro t rfl
      simp only [matchStandalone, List.cons_append, List.nil_append, show isWord 'g' = true by decide, if_true]) (by
      rintro d r'' rfl
      refine passAlone_text_aux p hp hd _ r'' (Nat.le_refl _) h4.2
        (fun h => hg (gdoPair_cons (gdoPair_cons h))) ?_
      intro hh2
      cases r'' with
      | nil => simp at hh2
      | cons q r'' =>
        simp at hh2
        subst hh2
        exact hg ⟨[], d, r'', rfl⟩)
    simpa using this
  · have hh : ps.head? ≠ some (.word (str% "gdo")) := by
      intro hh2
      cases ps with
      | nil => simp at hh2
      | cons q r =>
        simp at hh2
        exact hgd ⟨r, by rw [hh2]⟩
    have := passAlone_text_aux p hp hd _ ps (Nat.le_refl _) hv hg hh
    rw [← this]
    have hl : litEnd (str% "gdo") [] (textOf ps) = none := by
      cases ps with
      | nil => simp [textOf, litEnd, after]
      | cons q r =>
        cases q with
        | word w =>
          rw [textOf_cons]
          exact litEnd_word [] w (textOf r) hv.2.1 (ended_text hv.2.2.2 hv.2.2.1) (by
            rintro rfl; exact hgd ⟨r, rfl⟩)
        | other d =>
          rw [textOf_cons]
          have := litEnd_word [] [] ([d] ++ textOf r) (by simp) (by simp [Ended, hv.1]) (by simp)
          simpa [Piece.text] using this
    unfold passAlone
    cases ht : textOf ps with
    | nil => simp [regexReplace]
    | cons c t =>
      rw [ht] at hl
      have : matchStandalone (str% "gdo") true (c :: t) = matchStandalone (str% "gdo") false (c :: t) := by
        simp [matchStandalone, hl]
      rw [regexReplace, regexReplace, this]

end standalone

end Gdo.Pfx
