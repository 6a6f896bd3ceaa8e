import Verif.Lemmas.DeclRead

/-! Inversion of `check_pattern`: what an accepted token list looks like. -/

namespace Gdo
open Spec

/-- The tokens that the scanner produces for declarations. -/
def LexTok (t : Str) : Prop :=
  IdentTok t ∨ t = ['*'] ∨ t = [','] ∨ t = ['('] ∨ t = [')'] ∨ t = ['['] ∨ t = [']'] ∨ t = ['.', '.', '.']

instance (t : Str) : Decidable (LexTok t) := by unfold LexTok; infer_instance

/-- Tokens match a pattern one by one. -/
def MatchAll : Toks → Str → Prop
  | [], [] => True
  | t :: ts, c :: cs => matching (strFront t) c = true ∧ MatchAll ts cs
  | _, _ => False

theorem matchMiddle_true_inv (p : Str) : ∀ w, matchMiddle w 0 p = some true →
    ∃ M B, w = M ++ B ∧ MatchAll M p := by
  induction p with
  | nil => intro w _; exact ⟨[], w, rfl, trivial⟩
  | cons c p ih =>
    intro w h
    cases w with
    | nil => simp [matchMiddle, deref] at h
    | cons t w =>
      rw [matchMiddle_cons] at h
      split at h
      · rename_i hm
        obtain ⟨M, B, rfl, hM⟩ := ih w h
        exact ⟨t :: M, B, rfl, hm, hM⟩
      · simp at h

theorem matchAll_length {ts : Toks} : ∀ {cs : Str}, MatchAll ts cs → ts.length = cs.length := by
  induction ts with
  | nil => intro cs h; cases cs <;> simp_all [MatchAll]
  | cons t ts ih =>
    intro cs h
    cases cs with
    | nil => simp [MatchAll] at h
    | cons c cs => simp [ih h.2]

/-- A successful check, for patterns with a one token end. -/
theorem checkPattern_inv1 {v : Toks} {it : Nat} {q : Seq} (c : Char) (hq : q.last = [c]) (hf : q.front ≠ [])
    (hit : it < v.length) (h : checkPattern v it q = some true) :
    ∃ A M B e, v = A ++ (M ++ B ++ [e]) ∧ A.length = it ∧ q.front.length ≤ it ∧ MatchAll M q.middle ∧
      matching (strFront e) c = true ∧
      (q.front = [TYPE, SYMBOL] → ∃ A' n, A = A' ++ [n] ∧ isIdent (strFront n) = true) := by
  obtain ⟨A, w, rfl, hA⟩ : ∃ A w, v = A ++ w ∧ A.length = it :=
    ⟨v.take it, v.drop it, (List.take_append_drop it v).symm, by simp; omega⟩
  subst hA
  have hw : w ≠ [] := by intro h'; subst h'; simp at hit
  have hb := (checkPattern_true_bounds h).2 (by simp only [List.length_append]; simp at hit; omega)
  have h1 : q.distFront ≤ A.length := hb.1
  have h2 : q.distEnd ≤ w.length := by simpa using hb.2
  have hend := checkPattern_true_end h
  rw [checkPattern_at hw h1 h2] at h
  cases hF : matchFront (A ++ w) A.length q with
  | none => simp [hF] at h
  | some bf =>
    cases bf with
    | false => simp [hF] at h
    | true =>
      simp [hF, hend] at h
      obtain ⟨M, B', rfl, hM⟩ := matchMiddle_true_inv _ _ h
      have hl := matchAll_length hM
      have hB : B' ≠ [] := by
        intro h'; subst h'
        simp [Seq.distEnd, hq, hl] at h2
        omega
      obtain ⟨B, e, rfl⟩ : ∃ B e, B' = B ++ [e] :=
        ⟨_, _, (List.dropLast_concat_getLast hB).symm⟩
      refine ⟨A, M, B, e, by simp, rfl, h1, hM, ?_, ?_⟩
      · have : A ++ (M ++ (B ++ [e])) = (A ++ M ++ B) ++ [e] := by simp
        rw [this, matchEnd_snoc1 _ _ _ c hq] at hend
        simpa using hend
      · intro hfr
        have hAne : A ≠ [] := by intro h'; subst h'; simp [Seq.distFront, hfr] at h1
        obtain ⟨A', n, rfl⟩ : ∃ A' n, A = A' ++ [n] :=
          ⟨_, _, (List.dropLast_concat_getLast hAne).symm⟩
        refine ⟨A', n, rfl, ?_⟩
        rw [matchFront_sym _ _ _ _ hfr] at hF
        simpa using hF

/-- A successful check, for patterns with a two token end. -/
theorem checkPattern_inv2 {v : Toks} {it : Nat} {q : Seq} (c d : Char) (hq : q.last = [c, d])
    (hd : d ≠ '\x00') (hit : it < v.length) (h : checkPattern v it q = some true) :
    ∃ A M B e f, v = A ++ (M ++ B ++ [e, f]) ∧ A.length = it ∧ q.front.length ≤ it ∧ MatchAll M q.middle ∧
      matching (strFront e) c = true ∧ matching (strFront f) d = true := by
  obtain ⟨A, w, rfl, hA⟩ : ∃ A w, v = A ++ w ∧ A.length = it :=
    ⟨v.take it, v.drop it, (List.take_append_drop it v).symm, by simp; omega⟩
  subst hA
  have hw : w ≠ [] := by intro h'; subst h'; simp at hit
  have hb := (checkPattern_true_bounds h).2 (by simp only [List.length_append]; simp at hit; omega)
  have h1 : q.distFront ≤ A.length := hb.1
  have h2 : q.distEnd ≤ w.length := by simpa using hb.2
  have hend := checkPattern_true_end h
  rw [checkPattern_at hw h1 h2] at h
  cases hF : matchFront (A ++ w) A.length q with
  | none => simp [hF] at h
  | some bf =>
    cases bf with
    | false => simp [hF] at h
    | true =>
      simp [hF, hend] at h
      obtain ⟨M, B', rfl, hM⟩ := matchMiddle_true_inv _ _ h
      have hl := matchAll_length hM
      have hB : 2 ≤ B'.length := by
        simp only [Seq.distEnd, hq, List.length_append, hl, List.length_cons, List.length_nil] at h2
        omega
      have hBne : B' ≠ [] := by intro h'; subst h'; simp at hB
      obtain ⟨B'', f, rfl⟩ : ∃ B e, B' = B ++ [e] :=
        ⟨_, _, (List.dropLast_concat_getLast hBne).symm⟩
      have hBne2 : B'' ≠ [] := by intro h'; subst h'; simp at hB
      obtain ⟨B, e, rfl⟩ : ∃ B e, B'' = B ++ [e] :=
        ⟨_, _, (List.dropLast_concat_getLast hBne2).symm⟩
      refine ⟨A, M, B, e, f, by simp, rfl, h1, hM, ?_⟩
      have : A ++ (M ++ (B ++ [e] ++ [f])) = (A ++ M ++ B) ++ [e, f] := by simp
      rw [this, matchEnd_snoc2 _ _ _ _ c d hq hd] at hend
      simpa [and_comm] using hend

/-- A scanner token that matches a punctuation character is that character. -/
theorem lex_punct {t : Str} (ht : LexTok t) {c : Char} (hc : c = '(' ∨ c = ')' ∨ c = '[' ∨ c = ']' ∨ c = '*')
    (h : matching (strFront t) c = true) : t = [c] := by
  have hs : (c == SYMBOL) = false := by rcases hc with rfl | rfl | rfl | rfl | rfl <;> decide
  have hf : strFront t = c := by simpa [matching, hs] using h
  rcases ht with ht | rfl | rfl | rfl | rfl | rfl | rfl | rfl
  · have := isIdent_front ht
    rw [hf] at this
    rcases hc with rfl | rfl | rfl | rfl | rfl <;> exact absurd this (by decide)
  all_goals (simp [strFront] at hf; subst hf; first | rfl | (exfalso; revert hc; decide))

theorem lex_sym {t : Str} (ht : LexTok t) (h : matching (strFront t) SYMBOL = true) : IdentTok t := by
  rcases ht with ht | rfl | rfl | rfl | rfl | rfl | rfl | rfl
  · exact ht
  all_goals (exact absurd h (by decide))

theorem lex_ident {t : Str} (ht : LexTok t) (h : isIdent (strFront t) = true) : IdentTok t := by
  apply lex_sym ht; simp [matching, h]

theorem lex_skip {t : Str} (ht : LexTok t) (h : SkipTok t) : IdentTok t ∨ t = ['*'] := by
  rcases h with h | h
  · right; exact lex_punct ht (by simp) (by simp [matching, h])
  · left; exact lex_ident ht h

theorem findFirst_take_skip (v : Toks) : ∀ t ∈ v.take (findFirstNotPointerOrIdent v), SkipTok t := by
  intro t ht
  obtain ⟨i, hi, rfl⟩ := List.getElem_of_mem ht
  rw [List.length_take] at hi
  obtain ⟨e, he, h⟩ := findFirst_before v i (by omega)
  have : (v.take (findFirstNotPointerOrIdent v))[i] = e := by
    rw [List.getElem?_eq_getElem (show i < v.length by omega)] at he
    simpa using he
  rw [this]; exact h

/-- The tokens before the first bracket form a type if the first one is a word. -/
theorem typeToks_of_skip {A : Toks} (hlex : ∀ t ∈ A, LexTok t) (hskip : ∀ t ∈ A, SkipTok t)
    (hne : A ≠ []) (h0 : ∀ f, A.head? = some f → f ≠ ['*']) : TypeToks A := by
  cases A with
  | nil => exact absurd rfl hne
  | cons a r =>
    refine ⟨a, r, rfl, ?_, fun t ht => lex_skip (hlex t (by simp [ht])) (hskip t (by simp [ht]))⟩
    rcases lex_skip (hlex a (by simp)) (hskip a (by simp)) with h | h
    · exact h
    · exact absurd h (h0 a rfl)

end Gdo
