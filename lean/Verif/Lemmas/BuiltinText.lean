import Verif.Spec.Builtin
import Verif.Props.Prefix
import Verif.Props.Substitute

/-!
Lemmas about the parts of template lines, and a test on a line that ensures that its
keywords are replaced and its identifiers are renamed as specified.
-/

namespace Gdo.Tmpl
open Gdo Rename

/-! ### Pieces and parts -/

theorem pieces_text (s : Str) : textOf (pieces s) = s := by
  induction s with
  | nil => rfl
  | cons c s ih =>
    unfold pieces
    split
    · split
      · rename_i w r h
        rw [h] at ih
        simp only [textOf, List.flatMap_cons, Piece.text] at ih ⊢
        rw [List.cons_append, ih]
      · simp only [textOf, List.flatMap_cons, Piece.text] at ih ⊢
        rw [ih]; rfl
    · simp only [textOf, List.flatMap_cons, Piece.text] at ih ⊢
      rw [ih]; rfl

theorem pieces_valid (s : Str) : Valid (pieces s) := by
  induction s with
  | nil => trivial
  | cons c s ih =>
    unfold pieces
    split
    · rename_i hc
      split
      · rename_i w r h
        rw [h] at ih
        obtain ⟨_, h2, h3, h4⟩ := ih
        refine ⟨by simp, ?_, h3, h4⟩
        intro x hx
        rcases List.mem_cons.mp hx with rfl | hx
        · exact hc
        · exact h2 x hx
      · rename_i r hr
        refine ⟨by simp, by simpa using hc, ?_, ih⟩
        intro w' hw
        match hp : pieces s with
        | [] => rw [hp] at hw; cases hw
        | .other d :: q => rw [hp] at hw; cases hw
        | .word w :: q => exact hr w q hp
    · rename_i hc
      exact ⟨by simpa using hc, ih⟩

/-- Pieces and the parts that they make up. -/
inductive Splits : List Piece → List Part → Prop
  | nil : Splits [] []
  | word (w : Str) {ps qs} (h : Splits ps qs) : Splits (.word w :: ps) (.word w :: qs)
  | other (c : Char) {ps qs} (h : Splits ps qs) : Splits (.other c :: ps) (.other c :: qs)
  | kw (k : Str) (hk : kindOf k ≠ none) {ps qs} (h : Splits ps qs) :
      Splits (.other '%' :: .other '%' :: .word k :: .other '%' :: .other '%' :: ps) (.kw k :: qs)

theorem keywordAt_some {ps : List Piece} {k : Str} (h : keywordAt ps = some k) :
    kindOf k ≠ none ∧ ∃ r, ps = .other '%' :: .other '%' :: .word k :: .other '%' :: .other '%' :: r := by
  unfold keywordAt at h
  split at h
  · split at h
    · rename_i hc
      cases h
      simp only [Bool.and_eq_true, beq_iff_eq] at hc
      obtain ⟨⟨⟨⟨rfl, rfl⟩, rfl⟩, rfl⟩, hk⟩ := hc
      exact ⟨(by intro h; rw [h] at hk; cases hk), _, rfl⟩
    · cases h
  · cases h

theorem partsFrom_zero (p : Piece) (r : List Piece) : partsFrom 0 (p :: r) =
    match keywordAt (p :: r) with
    | some k => .kw k :: partsFrom 4 r
    | none =>
      match p with
      | .word w => .word w :: partsFrom 0 r
      | .other c => .other c :: partsFrom 0 r := by
  rw [partsFrom.eq_def]
  cases p <;> rfl

theorem splits_aux (n : Nat) : ∀ ps : List Piece, ps.length ≤ n → Splits ps (partsFrom 0 ps) := by
  induction n with
  | zero =>
    intro ps h
    have : ps = [] := List.eq_nil_of_length_eq_zero (by omega)
    subst this
    exact .nil
  | succ n ih =>
    intro ps h
    cases ps with
    | nil => exact .nil
    | cons p r =>
      rw [partsFrom_zero]
      cases hk : keywordAt (p :: r) with
      | some k =>
        obtain ⟨h1, r', h2⟩ := keywordAt_some hk
        simp only [List.cons.injEq] at h2
        obtain ⟨rfl, rfl⟩ := h2
        exact .kw k h1 (ih r' (by simp at h; omega))
      | none =>
        have := ih r (by simp at h; omega)
        cases p with
        | word w => exact .word w this
        | other c => exact .other c this

theorem splits (ps : List Piece) : Splits ps (partsFrom 0 ps) := splits_aux _ ps (Nat.le_refl _)

/-- The parts of a text make up the text. -/
theorem parts_source (s : Str) : (parts s).flatMap Part.source = s := by
  have : ∀ ps qs, Splits ps qs → qs.flatMap Part.source = textOf ps := by
    intro ps qs h
    induction h with
    | nil => rfl
    | word w _ ih => simp only [textOf, List.flatMap_cons, Part.source, Piece.text] at ih ⊢; rw [ih]
    | other c _ ih => simp only [textOf, List.flatMap_cons, Part.source, Piece.text] at ih ⊢; rw [ih]
    | kw k _ _ ih =>
      simp only [textOf, List.flatMap_cons, Part.source, Piece.text] at ih ⊢; rw [ih]
      simp
  rw [parts, this _ _ (splits _), pieces_text]

/-! ### Renaming -/

/-- The items of a line whose words have been renamed. -/
def items (f : Str → Str) : List Part → List Item
  | [] => []
  | .word w :: r => (f w).map .ch ++ items f r
  | .other c :: r => .ch c :: items f r
  | .kw k :: r => .kw k :: items f r

theorem source_chars (s : Str) : source (s.map .ch) = s := by
  induction s with
  | nil => rfl
  | cons c s ih => simp only [List.map_cons, source, List.flatMap_cons, Item.source] at ih ⊢; rw [ih]; rfl

theorem source_items {f : Str → Str} (hf : ∀ k, kindOf k ≠ none → f k = k) {ps : List Piece} {qs : List Part} (h : Splits ps qs) :
    textOf (mapWords f ps) = source (items f qs) := by
  induction h with
  | nil => rfl
  | word w _ ih =>
    rw [items, source_append, source_chars, ← ih]; rfl
  | other c _ ih =>
    rw [items]
    show [c] ++ textOf (mapWords f _) = [c] ++ source _
    rw [ih]
  | kw k hk _ ih =>
    rw [items]
    show [_] ++ ([_] ++ (f k ++ ([_] ++ ([_] ++ textOf (mapWords f _))))) = (str% "%%" ++ k ++ str% "%%") ++ source _
    rw [ih, hf k hk]
    simp

theorem kindOf_cases {k : Str} (h : kindOf k ≠ none) :
    k ∈ [str% "return", str% "type", str% "func_symbol", str% "func_symbol_pad", str% "args", str% "param_names",
      str% "obj_type", str% "obj_symbol", str% "obj_symbol_pad", str% "sym_type", str% "symbol"] := by
  unfold kindOf at h
  split at h
  · rename_i hm
    simp only [List.mem_cons, List.not_mem_nil, or_false] at hm ⊢
    rcases hm with h | h | h | h | h | h <;> simp [h]
  · split at h
    · rename_i hm
      simp only [List.mem_cons, List.not_mem_nil, or_false] at hm ⊢
      rcases hm with h | h | h <;> simp [h]
    · split at h
      · rename_i hm
        simp only [List.mem_cons, List.not_mem_nil, or_false] at hm ⊢
        rcases hm with h | h <;> simp [h]
      · exact absurd rfl h

theorem newName_keyword (u l k : Str) (h : kindOf k ≠ none) : newName u l k = k := by
  have key : ∀ k ∈ [str% "return", str% "type", str% "func_symbol", str% "func_symbol_pad", str% "args", str% "param_names",
      str% "obj_type", str% "obj_symbol", str% "obj_symbol_pad", str% "sym_type", str% "symbol"],
      (str% "GDO_").isPrefixOf k = false ∧ (str% "_GDO_").isPrefixOf k = false ∧ (str% "gdo_").isPrefixOf k = false ∧
      (str% "_gdo_").isPrefixOf k = false ∧ k ≠ str% "gdo" := by decide +kernel
  obtain ⟨h1, h2, h3, h4, h5⟩ := key k (kindOf_cases h)
  unfold newName
  rw [if_neg (by rw [h1]; simp), if_neg (by rw [h2]; simp), if_neg (by rw [h3]; simp), if_neg (by rw [h4]; simp), if_neg h5]

theorem keyword_name {k : Str} (h : kindOf k ≠ none) : k ≠ [] ∧ ∀ c ∈ k, isNameChar c = true := by
  have key : ∀ k ∈ [str% "return", str% "type", str% "func_symbol", str% "func_symbol_pad", str% "args", str% "param_names",
      str% "obj_type", str% "obj_symbol", str% "obj_symbol_pad", str% "sym_type", str% "symbol"], k ≠ [] ∧ ∀ c ∈ k, isNameChar c = true := by
    decide +kernel
  exact key k (kindOf_cases h)

/-- A new name consists of word characters and is not empty. -/
theorem newName_word {u l w : Str} (hu : ∀ c ∈ u, isWord c = true) (hl : ∀ c ∈ l, isWord c = true) (hln : l ≠ [])
    (hw : ∀ c ∈ w, isWord c = true) (hwn : w ≠ []) :
    newName u l w ≠ [] ∧ ∀ c ∈ newName u l w, isWord c = true := by
  have us : isWord '_' = true := by decide
  have hd : ∀ n, ∀ c ∈ w.drop n, isWord c = true := fun n c hc => hw c (List.drop_subset _ _ hc)
  unfold newName
  split
  · refine ⟨by simp, ?_⟩
    intro c hc
    simp only [List.mem_append, List.mem_singleton] at hc
    rcases hc with (h | rfl) | h
    · exact hu c h
    · exact us
    · exact hd _ c h
  · split
    · refine ⟨by simp, ?_⟩
      intro c hc
      simp only [List.mem_append, List.mem_singleton] at hc
      rcases hc with ((rfl | h) | rfl) | h
      · exact us
      · exact hu c h
      · exact us
      · exact hd _ c h
    · split
      · refine ⟨by simp, ?_⟩
        intro c hc
        simp only [List.mem_append, List.mem_singleton] at hc
        rcases hc with (h | rfl) | h
        · exact hl c h
        · exact us
        · exact hd _ c h
      · split
        · refine ⟨by simp, ?_⟩
          intro c hc
          simp only [List.mem_append, List.mem_singleton] at hc
          rcases hc with ((rfl | h) | rfl) | h
          · exact us
          · exact hl c h
          · exact us
          · exact hd _ c h
        · split
          · exact ⟨hln, hl⟩
          · exact ⟨hwn, hw⟩

/-- All words are made of word characters and are not empty. -/
def WordsOk (qs : List Part) : Prop := ∀ w, .word w ∈ qs → w ≠ [] ∧ ∀ c ∈ w, isWord c = true

theorem splits_words {ps : List Piece} {qs : List Part} (h : Splits ps qs) (hv : Valid ps) : WordsOk qs := by
  induction h with
  | nil => intro w hw; cases hw
  | word w _ ih =>
    obtain ⟨h1, h2, _, h4⟩ := hv
    intro w' hw
    rcases List.mem_cons.mp hw with hw | hw
    · cases hw; exact ⟨h1, h2⟩
    · exact ih h4 w' hw
  | other c _ ih =>
    intro w' hw
    rcases List.mem_cons.mp hw with hw | hw
    · cases hw
    · exact ih hv.2 w' hw
  | kw k _ _ ih =>
    intro w' hw
    rcases List.mem_cons.mp hw with hw | hw
    · cases hw
    · exact ih hv.2.2.2.2.2.2.2 w' hw

theorem splits_others {ps : List Piece} {qs : List Part} (h : Splits ps qs) (hv : Valid ps) : ∀ c, .other c ∈ qs → isWord c = false := by
  induction h with
  | nil => intro w hw; cases hw
  | word w _ ih =>
    intro c hc
    rcases List.mem_cons.mp hc with hc | hc
    · cases hc
    · exact ih hv.2.2.2 c hc
  | other d _ ih =>
    intro c hc
    rcases List.mem_cons.mp hc with hc | hc
    · cases hc; exact hv.1
    · exact ih hv.2 c hc
  | kw k _ _ ih =>
    intro c hc
    rcases List.mem_cons.mp hc with hc | hc
    · cases hc
    · exact ih hv.2.2.2.2.2.2.2 c hc

theorem word_blank {c : Char} (h : isWord c = true) : c ≠ ' ' ∧ c ≠ '%' ∧ c ≠ '\n' ∧ c ≠ '#' := by
  refine ⟨?_, ?_, ?_, ?_⟩ <;> (rintro rfl; revert h; decide)

/-- Replacing all keywords in the renamed items is filling in. -/
theorem replaceAll_items {u l : Str} (hu : ∀ c ∈ u, isWord c = true) (hl : ∀ c ∈ l, isWord c = true) (hln : l ≠ [])
    (val : Values) (qs : List Part) (hq : WordsOk qs) (eat : Bool) :
    Tmpl.replaceAll val eat (items (newName u l) qs) = fillIn u l val eat qs := by
  induction qs generalizing eat with
  | nil => simp [items, Tmpl.replaceAll, fillIn]
  | cons q qs ih =>
    have hq' : WordsOk qs := fun w hw => hq w (List.mem_cons_of_mem _ hw)
    cases q with
    | word w =>
      obtain ⟨h1, h2⟩ := hq w (by simp)
      obtain ⟨h3, h4⟩ := newName_word hu hl hln h2 h1
      have chars : ∀ (s : Str) (r : List Item), Tmpl.replaceAll val false (s.map .ch ++ r) = s ++ Tmpl.replaceAll val false r := by
        intro s r
        induction s with
        | nil => rfl
        | cons c s ih => simp only [List.map_cons, List.cons_append, Tmpl.replaceAll, Bool.false_and, Bool.false_eq_true, if_false, ih]
      rw [items, fillIn, ← ih hq']
      cases hn : newName u l w with
      | nil => exact absurd hn h3
      | cons c s =>
        have hc : (eat && c == ' ') = false := by
          have := (word_blank (h4 c (by rw [hn]; simp))).1
          simp [this]
        simp only [List.map_cons, List.cons_append, Tmpl.replaceAll, hc, Bool.false_eq_true, if_false, chars]
    | other c =>
      simp only [items, Tmpl.replaceAll, fillIn, ih hq']
    | kw k =>
      simp only [items, Tmpl.replaceAll, fillIn]
      cases val k with
      | none => simp only [ih hq', Item.source]
      | some v => simp only [ih hq']

/-- Without values nothing is replaced. -/
theorem fillIn_none {u l : Str} (hu : ∀ c ∈ u, isWord c = true) (hl : ∀ c ∈ l, isWord c = true) (hln : l ≠ [])
    (qs : List Part) (hq : WordsOk qs) : fillIn u l (fun _ => none) false qs = source (items (newName u l) qs) := by
  rw [← replaceAll_items hu hl hln _ _ hq]
  generalize items (newName u l) qs = is
  induction is with
  | nil => rfl
  | cons i is ih =>
    cases i with
    | ch c => simp only [Tmpl.replaceAll, Bool.false_and, Bool.false_eq_true, if_false, ih]; rfl
    | kw k => simp only [Tmpl.replaceAll, ih]; rfl

/-! ### The test on a line -/

/-- No two words `gdo` with one character between them. -/
def noGdoPair : List Piece → Bool
  | [] => true
  | .other _ :: r => noGdoPair r
  | .word a :: r =>
    (match r with
     | .other _ :: .word b :: _ => !(a == str% "gdo" && b == str% "gdo")
     | _ => true) && noGdoPair r

/-- The text up to the next keyword has a character that is not part of a word. -/
def separatedParts : List Part → Bool
  | [] => true
  | .other _ :: _ => true
  | .word _ :: r => separatedParts r
  | .kw _ :: _ => false

/-- All keywords have this class, they are separated, and there are no other percent
    signs. -/
def keywordsOk (x : Kind) : List Part → Bool
  | [] => true
  | .other c :: r => c != '%' && keywordsOk x r
  | .word _ :: r => keywordsOk x r
  | .kw k :: r => kindOf k == some x && separatedParts r && keywordsOk x r

/-- No two percent signs after each other. -/
def noPercentPair : List Piece → Bool
  | [] => true
  | .word _ :: r => noPercentPair r
  | .other c :: r =>
    (match r with
     | .other d :: _ => !(c == '%' && d == '%')
     | _ => true) && noPercentPair r

/-- The test on a line. -/
def lineOk (s : Str) : Bool :=
  noGdoPair (pieces s) &&
  match firstKind (parts s) with
  | some x => keywordsOk x (parts s)
  | none => noPercentPair (pieces s)

theorem noGdoPair_spec {ps : List Piece} (h : noGdoPair ps = true) : ¬ GdoPair ps := by
  rintro ⟨a, c, b, rfl⟩
  induction a with
  | nil => simp [noGdoPair] at h
  | cons p a ih =>
    apply ih
    cases p with
    | other d => simpa [noGdoPair] using h
    | word w =>
      simp only [List.cons_append, noGdoPair, Bool.and_eq_true] at h
      exact h.2

theorem nameChar_word {c : Char} (h : isWord c = false) : isNameChar c = false := by
  unfold isNameChar
  simp only [isWord, isAlnum, isAlpha, Bool.or_eq_false_iff] at h ⊢
  simp [h]

theorem separated_items {f : Str → Str} {qs : List Part} (ho : ∀ c, .other c ∈ qs → isWord c = false) (h : separatedParts qs = true) :
    Separated (items f qs) := by
  induction qs with
  | nil => trivial
  | cons q qs ih =>
    cases q with
    | other c => exact Or.inl (nameChar_word (ho c (by simp)))
    | word w =>
      have := ih (fun c hc => ho c (List.mem_cons_of_mem _ hc)) h
      rw [items]
      generalize f w = v
      induction v with
      | nil => exact this
      | cons c v ih2 => exact Or.inr ih2
    | kw k => simp [separatedParts] at h

theorem wellFormed_chars {v : Str} {is : List Item} (hv : ∀ c ∈ v, c ≠ '%') (h : WellFormed is) : WellFormed (v.map .ch ++ is) := by
  induction v with
  | nil => exact h
  | cons c v ih => exact ⟨hv c (by simp), ih fun d hd => hv d (by simp [hd])⟩

theorem wellFormed_items {f : Str → Str} {x : Kind} {qs : List Part} (hf : ∀ w, .word w ∈ qs → ∀ c ∈ f w, c ≠ '%')
    (ho : ∀ c, .other c ∈ qs → isWord c = false) (h : keywordsOk x qs = true) : WellFormed (items f qs) := by
  induction qs with
  | nil => trivial
  | cons q qs ih =>
    have hf' : ∀ w, .word w ∈ qs → ∀ c ∈ f w, c ≠ '%' := fun w hw => hf w (List.mem_cons_of_mem _ hw)
    have ho' : ∀ c, .other c ∈ qs → isWord c = false := fun c hc => ho c (List.mem_cons_of_mem _ hc)
    cases q with
    | other c =>
      simp only [keywordsOk, Bool.and_eq_true, bne_iff_ne] at h
      exact ⟨h.1, ih hf' ho' h.2⟩
    | word w => exact wellFormed_chars (hf w (by simp)) (ih hf' ho' h)
    | kw k =>
      simp only [keywordsOk, Bool.and_eq_true, beq_iff_eq] at h
      obtain ⟨h1, h2⟩ := keyword_name (k := k) (by rw [h.1.1]; simp)
      exact ⟨h1, h2, separated_items ho' h.1.2, ih hf' ho' h.2⟩

theorem mem_items {f : Str → Str} {qs : List Part} {k : Str} : .kw k ∈ items f qs ↔ .kw k ∈ qs := by
  induction qs with
  | nil => simp [items]
  | cons q qs ih => cases q <;> simp [items, ih]

theorem uses_items {f : Str → Str} {x : Kind} {qs : List Part} (h : keywordsOk x qs = true) (y : Kind) :
    Uses (items f qs) y → y = x := by
  rintro ⟨k, hk, hy⟩
  rw [mem_items] at hk
  induction qs with
  | nil => cases hk
  | cons q qs ih =>
    cases q with
    | other c =>
      simp only [keywordsOk, Bool.and_eq_true] at h
      exact ih h.2 (by simpa using hk)
    | word w => exact ih h (by simpa using hk)
    | kw k' =>
      simp only [keywordsOk, Bool.and_eq_true, beq_iff_eq] at h
      rcases List.mem_cons.mp hk with hk | hk
      · cases hk
        rw [h.1.1] at hy
        cases hy
        rfl
      · exact ih h.2 hk

theorem uses_first {f : Str → Str} {x : Kind} {qs : List Part} (h : firstKind qs = some x) : Uses (items f qs) x := by
  have : ∃ k, .kw k ∈ qs ∧ kindOf k = some x := by
    induction qs with
    | nil => cases h
    | cons q qs ih =>
      cases q with
      | other c => obtain ⟨k, hk, hx⟩ := ih h; exact ⟨k, List.mem_cons_of_mem _ hk, hx⟩
      | word w => obtain ⟨k, hk, hx⟩ := ih h; exact ⟨k, List.mem_cons_of_mem _ hk, hx⟩
      | kw k => exact ⟨k, by simp, h⟩
  obtain ⟨k, hk, hx⟩ := this
  exact ⟨k, mem_items.mpr hk, hx⟩

/-- Renaming makes no pairs of percent signs. -/
theorem renamed_noPercent {f : Str → Str} {ps : List Piece} (hf : ∀ w, .word w ∈ ps → f w ≠ [] ∧ ∀ c ∈ f w, c ≠ '%')
    (h : noPercentPair ps = true) : ¬ Contains (str% "%%") (textOf (mapWords f ps)) := by
  have consChar : ∀ (c : Char) (t : Str), ¬ Contains (str% "%%") t → (c = '%' → t.head? ≠ some '%') → ¬ Contains (str% "%%") (c :: t) := by
    rintro c t ht hc ⟨p, q, he⟩
    cases p with
    | nil =>
      simp only [List.nil_append, List.cons_append, List.cons.injEq] at he
      exact hc he.1 (by rw [he.2]; rfl)
    | cons d p =>
      simp only [List.cons_append, List.cons.injEq] at he
      exact ht ⟨p, q, he.2⟩
  have consChars : ∀ (v t : Str), (∀ c ∈ v, c ≠ '%') → ¬ Contains (str% "%%") t → ¬ Contains (str% "%%") (v ++ t) := by
    intro v t hv ht
    induction v with
    | nil => exact ht
    | cons c v ih => exact consChar c _ (ih fun d hd => hv d (by simp [hd])) (fun h => absurd h (hv c (by simp)))
  induction ps with
  | nil =>
    rintro ⟨p, q, he⟩
    simp [textOf, mapWords] at he
  | cons p ps ih =>
    have hf' : ∀ w, .word w ∈ ps → f w ≠ [] ∧ ∀ c ∈ f w, c ≠ '%' := fun w hw => hf w (List.mem_cons_of_mem _ hw)
    cases p with
    | word w => exact consChars (f w) _ (hf w (by simp)).2 (ih hf' h)
    | other c =>
      simp only [noPercentPair, Bool.and_eq_true] at h
      refine consChar c _ (ih hf' h.2) ?_
      rintro rfl hh
      cases ps with
      | nil => simp [mapWords] at hh
      | cons p' ps =>
        cases p' with
        | other d =>
          simp [mapWords, Piece.text] at hh
          subst hh
          simp at h
        | word w =>
          obtain ⟨h1, h2⟩ := hf' w (by simp)
          cases hw : f w with
          | nil => exact h1 hw
          | cons d v =>
            simp [mapWords, Piece.text, hw] at hh
            exact h2 d (by rw [hw]; simp) hh

end Gdo.Tmpl

namespace Gdo.Sub
open Gdo Tpl Tmpl Rename

/-- The prefix is not empty and does not begin with a digit. -/
def PrefixOk (pfx : Str) : Prop := pfx ≠ [] ∧ ¬ Pfx.BeginsWithDigit pfx

theorem prefix_ne {pfx : Str} (h : PrefixOk pfx) : toLower pfx ≠ [] := by
  intro hh
  have := congrArg List.length hh
  rw [(Pfx.C30_length pfx).2] at this
  exact h.1 (List.eq_nil_of_length_eq_zero this)

/-- The text of a line that passes the test, after renaming. -/
theorem applyPrefix_items {pfx s : Str} (hp : PrefixOk pfx) (h : lineOk s = true) :
    Pfx.applyPrefix pfx s = source (items (newName (toUpper pfx) (toLower pfx)) (parts s)) := by
  have hg : ¬ GdoPair (pieces s) := noGdoPair_spec (by unfold lineOk at h; rw [Bool.and_eq_true] at h; exact h.1)
  have := Pfx.C29_written_partial pfx hp.1 hp.2 (pieces s) (pieces_valid s) hg
  rw [pieces_text] at this
  rw [this]
  exact source_items (newName_keyword _ _) (splits _)

/-- What is written for a line that passes the test. -/
theorem substituteLine_written (cfg : Config) (hp : PrefixOk cfg.pfx) (hd : ∀ p ∈ cfg.prototypes ++ cfg.objects, PlainData p)
    (e : Entry) (hf : Flagged e) (hm : markerOf e = none) (ho : lineOk e.data = true) :
    ∃ N, ∀ n, N ≤ n → ∀ lineno, ∃ cs k, substituteLine n cfg lineno false e = .ok (cs, k, false) ∧
      texts cs = written (toUpper cfg.pfx) (toLower cfg.pfx) cfg.prototypes cfg.objects e.data ∧
      (firstKind (parts e.data) = none → ∃ x, cs = [.text x]) := by
  by_cases hne : e.data = []
  · refine ⟨0, fun n _ lineno => ⟨[.text []], 1, ?_, ?_, fun _ => ⟨_, rfl⟩⟩⟩
    · rw [substituteLine_eq, hne]; rfl
    · rw [hne]; rfl
  have hl : Line e := ⟨hne, hf, hm⟩
  have hu := Pfx.C30_upper cfg.pfx
  have hlo := Pfx.C30_lower cfg.pfx
  have hln := prefix_ne hp
  have hwords : WordsOk (parts e.data) := splits_words (splits _) (pieces_valid _)
  have hothers := splits_others (splits (pieces e.data)) (pieces_valid _)
  have happ := applyPrefix_items hp ho
  have hpct : ∀ w, .word w ∈ parts e.data → ∀ c ∈ newName (toUpper cfg.pfx) (toLower cfg.pfx) w, c ≠ '%' := by
    intro w hw c hc
    obtain ⟨h1, h2⟩ := hwords w hw
    exact (word_blank ((newName_word hu hlo hln h2 h1).2 c hc)).2.1
  unfold lineOk at ho
  rw [Bool.and_eq_true] at ho
  cases hk : firstKind (parts e.data) with
  | none =>
    rw [hk] at ho
    refine ⟨0, fun n _ lineno => ⟨[.text (Pfx.applyPrefix cfg.pfx e.data)],
      countLinefeed (Pfx.applyPrefix cfg.pfx e.data) + 1, ?_, ?_, fun _ => ⟨_, rfl⟩⟩⟩
    · rw [substituteLine_line hl]
      unfold processLine
      simp only
      have : loopOf e (Pfx.applyPrefix cfg.pfx e.data) = .ok none := by
        unfold loopOf
        have hnf : found (str% "%%") (Pfx.applyPrefix cfg.pfx e.data) = false := by
          rw [Bool.eq_false_iff]
          intro hh
          rw [found_iff_contains, happ, parts, ← source_items (newName_keyword _ _) (splits _)] at hh
          refine renamed_noPercent ?_ ho.2 hh
          intro w hw
          have : w ≠ [] ∧ ∀ c ∈ w, isWord c = true := by
            have : ∀ ps : List Piece, Valid ps → .word w ∈ ps → w ≠ [] ∧ ∀ c ∈ w, isWord c = true := by
              intro ps
              induction ps with
              | nil => intro _ h; cases h
              | cons p ps ih =>
                intro hv h
                cases p with
                | other d => exact ih hv.2 (by simpa using h)
                | word v =>
                  rcases List.mem_cons.mp h with h | h
                  · cases h; exact ⟨hv.1, hv.2.1⟩
                  · exact ih hv.2.2.2 h
            exact this _ (pieces_valid _) hw
          obtain ⟨h3, h4⟩ := newName_word hu hlo hln this.2 this.1
          exact ⟨h3, fun c hc => (word_blank (h4 c hc)).2.1⟩
        rw [hnf, Bool.and_false]
        rfl
      rw [this]
    · show [Pfx.applyPrefix cfg.pfx e.data] = _
      unfold written
      simp only [hk]
      rw [fillIn_none hu hlo hln _ hwords, happ]
  | some x =>
    rw [hk] at ho
    have hw := wellFormed_items hpct hothers ho.2
    have hx := uses_first (f := newName (toUpper cfg.pfx) (toLower cfg.pfx)) hk
    have hy := uses_items (f := newName (toUpper cfg.pfx) (toLower cfg.pfx)) ho.2
    have hmk : e.maybeKeyword = true := by
      apply hf.mpr
      obtain ⟨k, hk, _⟩ := hx
      rw [mem_items] at hk
      rw [← parts_source e.data, List.mem_flatMap]
      exact ⟨_, hk, by simp [Part.source]⟩
    refine ⟨(items (newName (toUpper cfg.pfx) (toLower cfg.pfx)) (parts e.data)).length + 1, fun n hn lineno => ?_⟩
    have hr : ∀ val, Tmpl.replaceAll val false (items (newName (toUpper cfg.pfx) (toLower cfg.pfx)) (parts e.data)) =
        fillIn (toUpper cfg.pfx) (toLower cfg.pfx) val false (parts e.data) := fun val => replaceAll_items hu hlo hln val _ hwords false
    unfold written
    simp only [hk]
    cases x with
    | function =>
      have := C23_functions_partial cfg lineno e hl hmk _ happ hw hx (fun h => by cases hy _ h) (fun h => by cases hy _ h)
        (fun p hp => hd p (by simp [hp])) n (by omega)
      simpa only [hr, reduceCtorEq, false_imp_iff, and_true] using this
    | object =>
      have := C23_objects_partial cfg lineno e hl hmk _ happ hw (fun h => by cases hy _ h) hx (fun h => by cases hy _ h)
        (fun p hp => hd p (by simp [hp])) n (by omega)
      simpa only [hr, reduceCtorEq, false_imp_iff, and_true] using this
    | symbol =>
      have := C23_symbols_partial cfg lineno e hl hmk _ happ hw (fun h => by cases hy _ h) (fun h => by cases hy _ h) hx
        hd n (by omega)
      simpa only [hr, reduceCtorEq, false_imp_iff, and_true] using this

end Gdo.Sub
