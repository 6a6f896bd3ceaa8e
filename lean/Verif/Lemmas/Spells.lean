import Verif.Spec.Spells
import Verif.Props.Tokenize

namespace Gdo.Spec
open Gdo Gdo.Props Gdo.Lex

theorem Spells.append {a b : Str} {ts us : List Str} (ha : Spells a ts) (hb : Spells b us)
    (h : (∀ c, a.getLast? = some c → isWord c = false) ∨ (∀ c, b.head? = some c → isWord c = false)) :
    Spells (a ++ b) (ts ++ us) := by
  induction ha with
  | nil => exact hb
  | space c s ts hc hs ih =>
    refine .space _ _ _ hc (ih ?_)
    refine h.imp_left fun h d hd => ?_
    cases s with
    | nil => simp at hd
    | cons e s => exact h d (by simpa using hd)
  | punct c s ts hc hs ih =>
    refine .punct _ _ _ hc (ih ?_)
    refine h.imp_left fun h d hd => ?_
    cases s with
    | nil => simp at hd
    | cons e s => exact h d (by simpa using hd)
  | dots s ts hs ih =>
    refine .dots _ _ (ih ?_)
    refine h.imp_left fun h d hd => ?_
    cases s with
    | nil => simp at hd
    | cons e s => exact h d (by simpa using hd)
  | word w s ts hw h1 h2 hs hsp ih =>
    rw [List.append_assoc]
    refine .word _ _ _ hw h1 h2 ?_ (ih ?_)
    · intro c hc
      cases s with
      | nil =>
        rcases h with h | h
        · exfalso
          rw [List.append_nil] at h
          have := hw.2 _ (List.getLast_mem hw.1)
          rw [h _ (List.getLast?_eq_some_getLast hw.1)] at this
          cases this
        · exact h c (by simpa using hc)
      | cons e s => exact hs c (by simpa using hc)
    · refine h.imp_left fun h d hd => h d ?_
      rw [List.getLast?_append, hd]; rfl

theorem spells_lexeme {t : Str} (h : Lexeme t) : Spells t [t] := by
  rcases h with ⟨h, h1, h2⟩ | ⟨c, hc, rfl⟩ | rfl
  · have := Spells.word t [] [] h h1 h2 (by simp) .nil
    simpa using this
  · exact .punct _ _ _ hc .nil
  · exact .dots _ _ .nil

theorem spells_blank : Spells [' '] [] := .space _ _ _ (by decide) .nil

theorem spells_spaced (T : Toks) (h : ∀ t ∈ T, Lexeme t) : Spells (spaced T) T := by
  induction T with
  | nil => exact .nil
  | cons t T ih =>
    have h1 : Spells (t ++ [' ']) ([t] ++ []) :=
      (spells_lexeme (h t (by simp))).append spells_blank (Or.inr (by simp; decide))
    have := h1.append (ih fun x hx => h x (by simp [hx])) (Or.inl (by simp; decide))
    simpa [spaced] using this

theorem word_before {w s p q : Str} {y : Char} (hw : ∀ c ∈ w, isWord c = true) (hy : isWord y = false)
    (h : w ++ s = p ++ y :: q) : ∃ p', p = w ++ p' ∧ s = p' ++ y :: q := by
  induction w generalizing p with
  | nil => exact ⟨p, rfl, h⟩
  | cons c w ih =>
    cases p with
    | nil =>
      simp at h
      have := hw c (by simp)
      rw [h.1, hy] at this; cases this
    | cons d p =>
      simp at h
      obtain ⟨p', e1, e2⟩ := ih (fun x hx => hw x (by simp [hx])) h.2
      exact ⟨p', by simp [h.1, e1], e2⟩

/-- A blank next to a punctuation character may go. -/
theorem spells_delBlank {y : Char} (hy : y ∈ ['(', ')', '[', ']', ',', '*']) {s s' : Str} {ts : List Str}
    (hs : Spells s ts) (h : DelBlank y s s') : Spells s' ts := by
  obtain ⟨n1, n2, n3⟩ := punct_ne hy
  have n4 : y ≠ '.' := by rintro rfl; simp at hy
  have n5 : y ∈ ['*', ',', '(', ')', '[', ']'] := by
    simp only [List.mem_cons, List.not_mem_nil, or_false] at hy ⊢
    rcases hy with rfl | rfl | rfl | rfl | rfl | rfl <;> simp
  have first : ∀ {q : Str} {us : List Str}, Spells (y :: q) us → ∃ vs, us = [y] :: vs ∧ Spells q vs := by
    intro q us hq
    generalize hx : y :: q = x at hq
    cases hq with
    | nil => simp at hx
    | space c s ts hc hsp => simp at hx; rw [← hx.1, n2] at hc; cases hc
    | punct c s ts hc hsp => simp at hx; obtain ⟨rfl, rfl⟩ := hx; exact ⟨_, rfl, hsp⟩
    | dots s ts hsp => simp at hx; exact absurd hx.1 n4
    | word w s ts hw h1 h2 hh hsp =>
      cases w with
      | nil => exact absurd rfl hw.1
      | cons c w => simp at hx; have := hw.2 c (by simp); rw [← hx.1, n3] at this; cases this
  have blank : ∀ {q : Str} {us : List Str}, Spells (' ' :: q) us → Spells q us := by
    intro q us hq
    generalize hx : ' ' :: q = x at hq
    cases hq with
    | nil => simp at hx
    | space c s ts hc hsp => simp at hx; rw [hx.2]; exact hsp
    | punct c s ts hc hsp => simp at hx; rw [← hx.1] at hc; exact absurd hc (by decide)
    | dots s ts hsp => simp at hx
    | word w s ts hw h1 h2 hh hsp =>
      cases w with
      | nil => exact absurd rfl hw.1
      | cons c w => simp at hx; have := hw.2 c (by simp); rw [← hx.1] at this; exact absurd this (by decide)
  cases h with
  | after p q =>
    generalize hx : p ++ y :: ' ' :: q = x at hs
    induction hs generalizing p with
    | nil => simp at hx
    | space c s ts hc hsp ih =>
      cases p with
      | nil => simp at hx; rw [← hx.1, n2] at hc; cases hc
      | cons d p => simp at hx; rw [hx.1]; exact .space _ _ _ hc (ih p hx.2)
    | punct c s ts hc hsp ih =>
      cases p with
      | nil =>
        simp at hx
        obtain ⟨rfl, rfl⟩ := hx
        exact .punct _ _ _ hc (blank hsp)
      | cons d p => simp at hx; rw [hx.1]; exact .punct _ _ _ hc (ih p hx.2)
    | dots s ts hsp ih =>
      match p, hx with
      | [], hx => simp at hx
      | [d], hx => simp at hx
      | [d, e], hx => simp at hx; exact absurd hx.2.2.1 n4
      | d :: e :: f :: p, hx =>
        simp at hx
        obtain ⟨rfl, rfl, rfl, hx⟩ := hx
        exact .dots _ _ (ih p hx)
    | word w s ts hw h1 h2 hh hsp ih =>
      obtain ⟨p', rfl, e⟩ := word_before hw.2 n3 hx.symm
      rw [List.append_assoc]
      refine .word _ _ _ hw h1 h2 ?_ (ih p' e.symm)
      intro c hc
      apply hh
      rw [e]
      cases p' with
      | nil => simpa using hc
      | cons d p' => simpa using hc
  | before p q =>
    generalize hx : p ++ ' ' :: y :: q = x at hs
    have key : ∀ us, Spells (' ' :: y :: q) us → Spells (y :: q) us := fun us h => blank h
    induction hs generalizing p with
    | nil => simp at hx
    | space c s ts hc hsp ih =>
      cases p with
      | nil => simp at hx; rw [List.nil_append, hx.2]; exact hsp
      | cons d p => simp at hx; rw [hx.1]; exact .space _ _ _ hc (ih p hx.2)
    | punct c s ts hc hsp ih =>
      cases p with
      | nil => simp at hx; rw [← hx.1] at hc; exact absurd hc (by decide)
      | cons d p => simp at hx; rw [hx.1]; exact .punct _ _ _ hc (ih p hx.2)
    | dots s ts hsp ih =>
      match p, hx with
      | [], hx => simp at hx
      | [d], hx => simp at hx
      | [d, e], hx => simp at hx
      | d :: e :: f :: p, hx =>
        simp at hx
        obtain ⟨rfl, rfl, rfl, hx⟩ := hx
        exact .dots _ _ (ih p hx)
    | word w s ts hw h1 h2 hh hsp ih =>
      obtain ⟨p', rfl, e⟩ := word_before hw.2 (y := ' ') (by decide) hx.symm
      rw [List.append_assoc]
      refine .word _ _ _ hw h1 h2 ?_ (ih p' e.symm)
      intro c hc
      cases p' with
      | nil => simp at hc; rw [← hc]; exact n3
      | cons d p' => apply hh; rw [e]; simpa using hc

theorem spells_delBlanks {y : Char} (hy : y ∈ ['(', ')', '[', ']', ',', '*']) {s s' : Str} {ts : List Str}
    (hs : Spells s ts) (h : DelBlanks y s s') : Spells s' ts := by
  induction h with
  | refl s => exact hs
  | step h _ ih => exact ih (spells_delBlank hy hs h)

/-- White space at the ends may go. -/
theorem spells_dropFront {p t : Str} {ts : List Str} (hp : ∀ c ∈ p, isSpace c = true) (hs : Spells (p ++ t) ts) :
    Spells t ts := by
  induction p with
  | nil => exact hs
  | cons c p ih =>
    apply ih (fun x hx => hp x (by simp [hx]))
    generalize hx : c :: p ++ t = x at hs
    have hc' := hp c (by simp)
    cases hs with
    | nil => simp at hx
    | space d s ts hc hsp => simp at hx; rw [hx.2]; exact hsp
    | punct d s ts hc hsp =>
      simp at hx
      rw [hx.1] at hc'
      exfalso; revert hc'
      simp only [List.mem_cons, List.not_mem_nil, or_false] at hc
      rcases hc with rfl | rfl | rfl | rfl | rfl | rfl <;> decide
    | dots s ts hsp => simp at hx; rw [hx.1] at hc'; exact absurd hc' (by decide)
    | word w s ts hw h1 h2 hh hsp =>
      cases w with
      | nil => exact absurd rfl hw.1
      | cons d w =>
        simp at hx
        have := isWord_space (hw.2 d (by simp))
        rw [← hx.1, hc'] at this; cases this

theorem spells_dropBack {q t : Str} {ts : List Str} (hq : ∀ c ∈ q, isSpace c = true) (hs : Spells (t ++ q) ts) :
    Spells t ts := by
  generalize hx : t ++ q = x at hs
  have none_left : ∀ {u : Str} {us : List Str}, Spells u us → (∀ c ∈ u, isSpace c = true) → us = [] := by
    intro u us hu h
    have := spells_dropFront (t := []) h (by simpa using hu)
    generalize hz : ([] : Str) = z at this
    cases this with
    | nil => rfl
    | space | punct | dots => cases hz
    | word w s ts hw => simp at hz; exact absurd hz.1 hw.1
  induction hs generalizing t with
  | nil => simp at hx; rw [hx.1]; exact .nil
  | space c s ts hc hsp ih =>
    cases t with
    | nil =>
      have : ts = [] := none_left (Spells.space c s ts hc hsp) (by rw [← hx]; simpa using hq)
      rw [this]; exact .nil
    | cons d t => simp at hx; rw [hx.1]; exact .space _ _ _ hc (ih hx.2)
  | punct c s ts hc hsp ih =>
    cases t with
    | nil =>
      have := none_left (Spells.punct c s ts hc hsp) (by rw [← hx]; simpa using hq)
      cases this
    | cons d t => simp at hx; rw [hx.1]; exact .punct _ _ _ hc (ih hx.2)
  | dots s ts hsp ih =>
    have hd : isSpace '.' = true → False := by decide
    match t, hx with
    | [], hx => exact (hd (hq '.' (by simp at hx; rw [hx]; simp))).elim
    | [d], hx => simp at hx; exact (hd (hq '.' (by rw [hx.2]; simp))).elim
    | [d, e], hx => simp at hx; exact (hd (hq '.' (by rw [hx.2.2]; simp))).elim
    | d :: e :: f :: t, hx =>
      simp at hx
      obtain ⟨rfl, rfl, rfl, hx⟩ := hx
      exact .dots _ _ (ih hx)
  | word w s ts hw h1 h2 hh hsp ih =>
    rw [List.append_eq_append_iff] at hx
    rcases hx with ⟨r, e1, e2⟩ | ⟨r, e1, e2⟩
    · cases r with
      | nil =>
        simp at e1 e2
        rw [← e1]
        have hts : ts = [] := none_left hsp (by rw [← e2]; exact hq)
        rw [hts]
        have := Spells.word w [] [] hw h1 h2 (by simp) .nil
        simpa using this
      | cons c r =>
        have h1 := hw.2 c (by rw [e1]; simp)
        have h2 := hq c (by rw [e2]; simp)
        rw [isSpace_word h2] at h1; cases h1
    · rw [e1]
      refine .word _ _ _ hw h1 h2 ?_ (ih e2.symm)
      intro c hc
      apply hh
      rw [e2]
      cases r with
      | nil => simp at hc
      | cons d r => simpa using hc

theorem spells_stripSpaces {s : Str} {ts : List Str} (h : Spells s ts) : Spells (stripSpaces s) ts := by
  obtain ⟨-, p, q, e, hp, hq⟩ := stripSpaces_spec s
  rw [e] at h
  have := spells_dropBack hq h
  exact spells_dropFront hp this

/-- Formatting keeps the tokens. -/
theorem spells_format {s : Str} {ts : List Str} (h : Spells s ts) : Spells (formatPrototype s) ts := by
  refine format_steps (fun t => Spells t ts) s (spells_stripSpaces h) ?_
  intro y pat t hy hp ht
  exact spells_delBlanks hy ht (replaceAll_blank hp t).2.1

/-- Neither a directive nor an option line. -/
def Piece.isInline : Piece → Bool
  | .directive _ _ | .option _ _ => false
  | _ => true

theorem placed_inline (ps : List Piece) (h : ∀ p ∈ ps, Piece.isInline p = true) (a b : Bool) : Placed a b ps := by
  induction ps generalizing a b with
  | nil => trivial
  | cons p ps ih =>
    refine ⟨?_, ih (fun x hx => h x (by simp [hx])) _ _⟩
    have := h p (by simp)
    cases p <;> simp [Piece.isInline] at this <;> trivial

/-- The token the scanner makes of a lexeme. -/
def lexTok (t : Str) : Tok := ⟨if IdentTok t then wordKind t else .other, t⟩

theorem separated_cons {p : Piece} {ps : List Piece} (h : Separated ps) (hp : ∀ w, p ≠ .word w) : Separated (p :: ps) := by
  cases p with
  | word w => exact absurd rfl (hp w)
  | _ => exact h

/-- The pieces of a text that spells tokens. -/
theorem spells_pieces {s : Str} {ts : List Str} (h : Spells s ts) :
    ∃ ps : List Piece, render ps = s ∧ (∀ p ∈ ps, p.Valid ∧ Piece.isInline p = true) ∧ Separated ps ∧
      tokens ps = ts.map lexTok := by
  induction h with
  | nil => exact ⟨[], rfl, by simp, trivial, rfl⟩
  | space c s ts hc _ ih =>
    obtain ⟨ps, h1, h2, h3, h4⟩ := ih
    refine ⟨.space c :: ps, ?_, ?_, separated_cons h3 (by simp), ?_⟩
    · simp [render, Piece.text, ← h1]
    · intro p hp
      rcases List.mem_cons.mp hp with rfl | hp
      · exact ⟨hc, rfl⟩
      · exact h2 p hp
    · rw [← h4]; rfl
  | punct c s ts hc _ ih =>
    obtain ⟨ps, h1, h2, h3, h4⟩ := ih
    refine ⟨.punct c :: ps, ?_, ?_, separated_cons h3 (by simp), ?_⟩
    · simp [render, Piece.text, ← h1]
    · intro p hp
      rcases List.mem_cons.mp hp with rfl | hp
      · refine ⟨?_, rfl⟩
        simp only [Piece.Valid]
        simp only [List.mem_cons, List.not_mem_nil, or_false] at hc ⊢
        rcases hc with rfl | rfl | rfl | rfl | rfl | rfl <;> simp
      · exact h2 p hp
    · rw [List.map_cons, ← h4]
      have : lexTok [c] = ⟨punctKind c, [c]⟩ := by
        simp only [List.mem_cons, List.not_mem_nil, or_false] at hc
        rcases hc with rfl | rfl | rfl | rfl | rfl | rfl <;> decide
      rw [this]; rfl
  | dots s ts _ ih =>
    obtain ⟨ps, h1, h2, h3, h4⟩ := ih
    refine ⟨.dots :: ps, ?_, ?_, separated_cons h3 (by simp), ?_⟩
    · simp [render, Piece.text, ← h1]
    · intro p hp
      rcases List.mem_cons.mp hp with rfl | hp
      · exact ⟨trivial, rfl⟩
      · exact h2 p hp
    · rw [List.map_cons, ← h4]
      have : lexTok ['.', '.', '.'] = ⟨.other, ['.', '.', '.']⟩ := by decide
      rw [this]; rfl
  | word w s ts hw e1 e2 hh _ ih =>
    obtain ⟨ps, h1, h2, h3, h4⟩ := ih
    refine ⟨.word w :: ps, ?_, ?_, ?_, ?_⟩
    · simp [render, Piece.text, ← h1]
    · intro p hp
      rcases List.mem_cons.mp hp with rfl | hp
      · exact ⟨⟨hw.1, hw.2, e2⟩, rfl⟩
      · exact h2 p hp
    · cases ps with
      | nil => trivial
      | cons p ps =>
        cases p with
        | word v =>
          exfalso
          obtain ⟨hv1, hv2, -⟩ := (h2 (.word v) (by simp)).1
          cases v with
          | nil => exact hv1 rfl
          | cons c v =>
            have a := hh c (by rw [← h1]; rfl)
            have b := hv2 c (by simp)
            rw [a] at b; cases b
        | _ => exact h3
    · rw [List.map_cons, ← h4]
      have : lexTok w = ⟨wordKind w, w⟩ := by unfold lexTok; rw [if_pos hw]
      rw [this]
      simp [tokens, Piece.toks, e1]

end Gdo.Spec
