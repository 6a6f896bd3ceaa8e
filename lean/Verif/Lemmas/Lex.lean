import Verif.Model.Lex

/-! Lemmas about the scanner. -/

namespace Gdo.Lex
open Gdo

/-- Matches are non-empty and inside of the input. -/
def PatOk (p : Pat) : Prop := ∀ s n, p s = some n → 1 ≤ n ∧ n ≤ s.length

theorem lit_ok (l : Str) (h : l ≠ []) : PatOk (lit l) := by
  intro s n hs
  unfold lit at hs
  split at hs
  · rename_i hp
    simp at hs; subst hs
    rw [List.isPrefixOf_iff_prefix] at hp
    exact ⟨List.length_pos_iff.mpr h, hp.length_le⟩
  · simp at hs

theorem anyChar_ok : PatOk anyChar := by
  intro s n hs
  cases s with
  | nil => simp [anyChar] at hs
  | cons c s => simp [anyChar] at hs; simp; omega

theorem spaceChar_ok : PatOk spaceChar := by
  intro s n hs
  cases s with
  | nil => simp [spaceChar] at hs
  | cons c s => simp [spaceChar] at hs; simp; omega

theorem throughLastNl_le (s : Str) : throughLastNl s ≤ s.length := by
  induction s with
  | nil => simp [throughLastNl]
  | cons c s ih =>
    simp only [throughLastNl, List.length_cons]
    split
    · split <;> omega
    · omega

theorem takeWhile_le {α : Type} (p : α → Bool) (s : List α) : (s.takeWhile p).length ≤ s.length :=
  (List.takeWhile_sublist p).length_le

theorem dropWhile_le {α : Type} (p : α → Bool) (s : List α) : (s.dropWhile p).length ≤ s.length :=
  (List.dropWhile_sublist p).length_le

theorem split_ok : PatOk split := by
  intro s n hs
  unfold split at hs
  split at hs
  · rename_i s
    have h1 := throughLastNl_le (s.takeWhile isSpace)
    have h2 := takeWhile_le isSpace s
    split at hs
    · simp at hs
    · simp at hs
      simp only [List.length_cons]
      omega
  · simp at hs

theorem takeWhile_head_drop {α : Type} (p : α → Bool) (s : List α) (b : α) (h : (s.dropWhile p).head? = some b) :
    (s.takeWhile p).length + 1 ≤ s.length := by
  have h1 := congrArg List.length (List.takeWhile_append_dropWhile (p := p) (l := s))
  rw [List.length_append] at h1
  have : 1 ≤ (s.dropWhile p).length := by
    cases hd : s.dropWhile p with
    | nil => simp [hd] at h
    | cons => simp
  omega

theorem splitBetween_ok (a b : Char) : PatOk (splitBetween a b) := by
  intro s n hs
  unfold splitBetween at hs
  split at hs
  · dsimp only at hs
    split at hs
    · rename_i h
      have := takeWhile_head_drop _ _ _ h.2.2
      simp at hs
      simp only [List.length_cons]
      omega
    · simp at hs
  · simp at hs

theorem skipBom_le (s : Str) : (skipBom s).length ≤ s.length := by
  unfold skipBom; split <;> simp

theorem skipCol_le (s : Str) : (skipCol s).length ≤ s.length := by
  unfold skipCol
  split
  · rename_i r
    have := dropWhile_le (fun c => isDigit c || c == ';') r
    split
    · rename_i r' he
      rw [he] at this
      simp only [List.length_cons] at *
      omega
    · exact Nat.le_refl _
  · exact Nat.le_refl _

theorem afterLit_lt {l s r : Str} (h : afterLit l s = some r) : r.length + l.length = s.length := by
  unfold afterLit at h
  split at h
  · rename_i hp
    simp at h
    subst h
    rw [List.isPrefixOf_iff_prefix] at hp
    have := hp.length_le
    simp
    omega
  · simp at h

theorem restOfLine_le (s : Str) : restOfLine s ≤ s.length := takeWhile_le _ _

theorem astBeginPat_ok : PatOk astBeginPat := by
  intro s n hs
  unfold astBeginPat at hs
  simp only [Option.bind_eq_bind, Option.bind_eq_some_iff, Option.pure_def] at hs
  obtain ⟨r1, h1, r2, h2, hs⟩ := hs
  simp at hs
  have a1 := afterLit_lt h1
  have a2 := afterLit_lt h2
  have a3 := skipCol_le (skipBom s)
  have a4 := skipBom_le s
  have a5 := skipCol_le (skipCol r1)
  have a6 := skipCol_le r1
  have a7 := restOfLine_le r2
  simp only [List.length_cons, List.length_nil] at a1 a2
  omega

theorem orElse_some {α : Type} {a b : Option α} {r : α} (h : (a <|> b) = some r) : a = some r ∨ b = some r := by
  cases a with
  | none => right; simpa using h
  | some x => left; simpa using h

theorem funcvarPat_ok : PatOk funcvarPat := by
  intro s n hs
  unfold funcvarPat at hs
  simp only [Option.bind_eq_bind, Option.bind_eq_some_iff, Option.pure_def] at hs
  obtain ⟨r1, h1, r2, h2, r3, h3, hs⟩ := hs
  simp at hs
  have a1 : r1.length + 2 = (skipCol s).length := by
    rcases orElse_some h1 with h | h <;> exact afterLit_lt h
  have a2 : r2.length + 7 ≤ (skipCol (skipCol r1)).length := by
    rcases orElse_some h2 with h | h <;> have := afterLit_lt h <;>
    simp only [List.length_cons, List.length_nil] at this <;> omega
  have a3 := afterLit_lt h3
  have b1 := skipCol_le s
  have b2 := skipCol_le (skipCol r1)
  have b3 := skipCol_le r1
  have b4 := skipCol_le (skipCol r2)
  have b5 := skipCol_le r2
  have b6 := restOfLine_le r3
  simp only [List.length_cons, List.length_nil] at a3
  omega

theorem parmvarPat_ok : PatOk parmvarPat := by
  intro s n hs
  unfold parmvarPat at hs
  simp only [Option.bind_eq_bind, Option.bind_eq_some_iff, Option.pure_def] at hs
  obtain ⟨r1, h1, r2, h2, r3, h3, hs⟩ := hs
  simp at hs
  have a1 : r1.length + 4 = (skipCol s).length := by
    rcases orElse_some h1 with h | h
    · exact afterLit_lt h
    rcases orElse_some h with h | h
    · exact afterLit_lt h
    rcases orElse_some h with h | h <;> exact afterLit_lt h
  have a2 := afterLit_lt h2
  have a3 := afterLit_lt h3
  have b1 := skipCol_le s
  have b2 := skipCol_le (skipCol r1)
  have b3 := skipCol_le r1
  have b4 := skipCol_le (skipCol r2)
  have b5 := skipCol_le r2
  have b6 := restOfLine_le r3
  simp only [List.length_cons, List.length_nil] at a2 a3
  omega

theorem optionPat_ok : PatOk optionPat := by
  intro s n hs
  unfold optionPat at hs
  simp only [Option.bind_eq_bind, Option.bind_eq_some_iff, Option.pure_def] at hs
  obtain ⟨r, h1, hs⟩ := hs
  have a1 := afterLit_lt h1
  have a2 := skipBom_le s
  cases r with
  | nil => simp at hs
  | cons c r =>
    simp only at hs
    split at hs
    · simp at hs
      simp only [List.length_cons, List.length_nil] at a1
      omega
    · simp at hs

theorem optstrPat_ok : PatOk optstrPat := by
  intro s n hs
  unfold optstrPat at hs
  have := takeWhile_le (fun c => !isSpace c) s
  split at hs
  · simp at hs
  · simp at hs; omega

theorem identPat_ok : PatOk identPat := by
  intro s n hs
  unfold identPat at hs
  have := takeWhile_le isWord s
  split at hs
  · simp at hs
  · simp at hs; omega

theorem preprocPat_ok : PatOk preprocPat := by
  intro s n hs
  unfold preprocPat at hs
  have a1 := dropWhile_le isSpace (skipBom s)
  have a2 := skipBom_le s
  split at hs
  · rename_i r he
    rw [he] at a1
    simp at hs
    simp only [List.length_cons] at a1
    omega
  · simp at hs

theorem otherPat_ok : PatOk otherPat := by
  intro s n hs
  unfold otherPat at hs
  split at hs
  · split at hs
    · simp at hs; simp; omega
    · simp at hs
  · simp at hs

def AllOk : List Rule → Prop
  | [] => True
  | r :: rs => PatOk r.pat ∧ AllOk rs

theorem AllOk.mem {l : List Rule} (h : AllOk l) : ∀ r ∈ l, PatOk r.pat := by
  induction l with
  | nil => simp
  | cons a l ih =>
    intro r hr
    simp at hr
    rcases hr with rfl | hr
    · exact h.1
    · exact ih h.2 r hr

theorem rules_ok (c : Cond) : ∀ r ∈ rules c, PatOk r.pat := by
  apply AllOk.mem
  cases c
  · exact ⟨astBeginPat_ok, optionPat_ok, lit_ok _ (by simp), splitBetween_ok _ _, lit_ok _ (by simp),
      splitBetween_ok _ _, preprocPat_ok, lit_ok _ (by simp [bom]), spaceChar_ok, lit_ok _ (by simp),
      lit_ok _ (by simp), lit_ok _ (by simp), lit_ok _ (by simp), lit_ok _ (by simp), identPat_ok, otherPat_ok,
      lit_ok _ (by simp), lit_ok _ (by simp), lit_ok _ (by simp), lit_ok _ (by simp), lit_ok _ (by simp), anyChar_ok, trivial⟩
  · exact ⟨funcvarPat_ok, parmvarPat_ok, lit_ok _ (by simp), anyChar_ok, trivial⟩
  · exact ⟨split_ok, optstrPat_ok, lit_ok _ (by simp), anyChar_ok, trivial⟩
  · exact ⟨split_ok, lit_ok _ (by simp), anyChar_ok, trivial⟩
  · exact ⟨lit_ok _ (by simp), splitBetween_ok _ _, lit_ok _ (by simp), anyChar_ok, trivial⟩
  · exact ⟨lit_ok _ (by simp), splitBetween_ok _ _, lit_ok _ (by simp), splitBetween_ok _ _, split_ok,
      lit_ok _ (by simp), anyChar_ok, trivial⟩
  · exact ⟨lit_ok _ (by simp), splitBetween_ok _ _, lit_ok _ (by simp), anyChar_ok, trivial⟩

theorem bestMatch_mem {bol : Bool} {s : Str} {rs : List Rule} {n : Nat} {a : Act}
    (h : bestMatch bol s rs = some (n, a)) : ∃ r ∈ rs, r.pat s = some n ∧ r.act = a ∧ (r.bol = true → bol = true) := by
  induction rs with
  | nil => simp [bestMatch] at h
  | cons r rs ih =>
    simp only [bestMatch] at h
    split at h
    · obtain ⟨r', hr', h'⟩ := ih h; exact ⟨r', by simp [hr'], h'⟩
    · rename_i m hm
      have hr : r.pat s = some m ∧ (r.bol = true → bol = true) := by
        split at hm
        · simp at hm
        · rename_i hb; exact ⟨hm, by intro h'; rw [h'] at hb; simpa using hb⟩
      split at h
      · simp at h; obtain ⟨rfl, rfl⟩ := h; exact ⟨r, by simp, hr.1, rfl, hr.2⟩
      · split at h
        · simp at h; obtain ⟨rfl, rfl⟩ := h
          rename_i he _
          obtain ⟨r', hr', h'⟩ := ih he; exact ⟨r', by simp [hr'], h'⟩
        · simp at h; obtain ⟨rfl, rfl⟩ := h; exact ⟨r, by simp, hr.1, rfl, hr.2⟩

theorem bestMatch_some {bol : Bool} {s : Str} {rs : List Rule} {r : Rule} (hr : r ∈ rs) {n : Nat}
    (hb : r.bol = true → bol = true) (hp : r.pat s = some n) : ∃ m a, bestMatch bol s rs = some (m, a) ∧ n ≤ m := by
  induction rs with
  | nil => simp at hr
  | cons r' rs ih =>
    simp only [bestMatch]
    simp at hr
    rcases hr with rfl | hr
    · have : (if (r.bol && !bol) = true then none else r.pat s) = some n := by
        rw [if_neg, hp]
        cases hrb : r.bol <;> simp_all
      rw [this]
      simp only
      split
      · exact ⟨_, _, rfl, Nat.le_refl _⟩
      · split
        · exact ⟨_, _, rfl, by omega⟩
        · exact ⟨_, _, rfl, Nat.le_refl _⟩
    · obtain ⟨m, a, hm, hle⟩ := ih hr
      split
      · exact ⟨m, a, hm, hle⟩
      · rw [hm]
        simp only
        split
        · exact ⟨_, _, rfl, hle⟩
        · exact ⟨_, _, rfl, by omega⟩

/-- Some rule always matches. -/
theorem bestMatch_total (c : Cond) (bol : Bool) (x : Char) (s : Str) :
    ∃ n a, bestMatch bol (x :: s) (rules c) = some (n, a) ∧ 1 ≤ n ∧ n ≤ (x :: s).length := by
  have key : ∀ r ∈ rules c, r.bol = false → r.pat (x :: s) = some 1 →
      ∃ n a, bestMatch bol (x :: s) (rules c) = some (n, a) ∧ 1 ≤ n ∧ n ≤ (x :: s).length := by
    intro r hr hb hp
    obtain ⟨m, a, hm, hle⟩ := bestMatch_some hr (by simp [hb]) hp
    obtain ⟨r', hr', hp', -⟩ := bestMatch_mem hm
    exact ⟨m, a, hm, rules_ok c r' hr' _ _ hp'⟩
  by_cases hx : x = '\n'
  · subst hx
    cases c
    · exact key ⟨false, spaceChar, .stay⟩ (by simp [rules]) rfl (by simp [spaceChar, isSpace])
    · exact key ⟨false, lit ['\n'], .stay⟩ (by simp [rules]) rfl (by simp [lit])
    · exact key ⟨false, lit ['\n'], .goto .initial⟩ (by simp [rules]) rfl (by simp [lit])
    · exact key ⟨false, lit ['\n'], .goto .initial⟩ (by simp [rules]) rfl (by simp [lit])
    · exact key ⟨false, lit ['\n'], .stay⟩ (by simp [rules]) rfl (by simp [lit])
    · exact key ⟨false, lit ['\n'], .goto .initial⟩ (by simp [rules]) rfl (by simp [lit])
    · exact key ⟨false, lit ['\n'], .goto .cComment⟩ (by simp [rules]) rfl (by simp [lit])
  · cases c
    · exact key ⟨false, anyChar, .illegal⟩ (by simp [rules]) rfl (by simp [anyChar, hx])
    all_goals exact key ⟨false, anyChar, .stay⟩ (by simp [rules]) rfl (by simp [anyChar, hx])

theorem step_text (st : State) (x : Char) (s : Str) :
    ∃ txt rest, (step st (x :: s)).2 = txt ∧ txt ≠ [] ∧ x :: s = txt ++ rest ∧
      (step st (x :: s)).1 ≠ .stop .echo ∧ (x :: s).drop txt.length = rest := by
  obtain ⟨n, a, h, h1, h2⟩ := bestMatch_total st.cond st.bol x s
  refine ⟨(x :: s).take n, (x :: s).drop n, ?_, ?_, (List.take_append_drop n _).symm, ?_, ?_⟩
  · unfold step; rw [h]
  · intro h'
    have := congrArg List.length h'
    rw [List.length_take] at this
    simp only [List.length_nil, List.length_cons] at this h2
    omega
  · unfold step; rw [h]
    cases a <;> simp [Act.effect]
    split <;> simp
  · rw [List.length_take]
    congr 1
    omega

theorem runFuel_enough (n : Nat) : ∀ (m : Nat) (st : State) (s : Str), s.length < n → s.length < m →
    runFuel n st s = runFuel m st s := by
  induction n with
  | zero => intro m st s h; omega
  | succ n ih =>
    intro m st s h1 h2
    cases m with
    | zero => omega
    | succ m =>
      cases s with
      | nil => rfl
      | cons x s =>
        obtain ⟨txt, rest, ht, hne, heq, -, hd⟩ := step_text st x s
        simp only [runFuel]
        have hlen : rest.length < s.length + 1 := by
          have := congrArg List.length heq
          have h3 := List.length_pos_iff.mpr hne
          simp only [List.length_append, List.length_cons] at this
          omega
        simp only [List.length_cons] at h1 h2
        cases hs : step st (x :: s) with
        | mk a b =>
          have : b = txt := by rw [hs] at ht; exact ht
          subst this
          cases a with
          | stop e => rfl
          | next st' tok =>
            have := ih m st' rest (by omega) (by omega)
            cases tok with
            | none => simp only [hd]; exact this
            | some t => simp only [hd, this]

/-- One step of the scanner. -/
theorem run_cons (st : State) (x : Char) (s : Str) :
    run st (x :: s) =
      match step st (x :: s) with
      | (.stop e, _) => ([], e)
      | (.next st' none, txt) => run st' ((x :: s).drop txt.length)
      | (.next st' (some t), txt) =>
        (t :: (run st' ((x :: s).drop txt.length)).1, (run st' ((x :: s).drop txt.length)).2) := by
  obtain ⟨txt, rest, ht, hne, heq, -, hd⟩ := step_text st x s
  have hlen : rest.length < s.length + 1 := by
    have := congrArg List.length heq
    have h3 := List.length_pos_iff.mpr hne
    simp only [List.length_append, List.length_cons] at this
    omega
  unfold run
  simp only [List.length_cons, runFuel]
  cases hs : step st (x :: s) with
  | mk a b =>
    have : b = txt := by rw [hs] at ht; exact ht
    subst this
    cases a with
    | stop e => rfl
    | next st' tok =>
      have := runFuel_enough (s.length + 1) (rest.length + 1) st' rest hlen (by omega)
      cases tok with
      | none => simp only [hd]; exact this
      | some t => simp only [hd, this]

theorem run_nil (st : State) : run st [] = ([], .eof) := rfl

theorem run_skip {st st' : State} {s txt rest : Str} (h : step st s = (.next st' none, txt)) (he : s = txt ++ rest)
    (hne : s ≠ []) : run st s = run st' rest := by
  cases s with
  | nil => exact absurd rfl hne
  | cons x s => rw [run_cons, h]; simp only; rw [he]; simp

theorem run_tok {st st' : State} {s txt rest : Str} {t : Tok} (h : step st s = (.next st' (some t), txt))
    (he : s = txt ++ rest) (hne : s ≠ []) : run st s = (t :: (run st' rest).1, (run st' rest).2) := by
  cases s with
  | nil => exact absurd rfl hne
  | cons x s => rw [run_cons, h]; simp only; rw [he]; simp

/-- The scanner never ends with the default rule (and the bound of steps is never
    reached). -/
theorem run_not_echo (st : State) (s : Str) : (run st s).2 ≠ .echo := by
  suffices h : ∀ n (st : State) (s : Str), s.length ≤ n → (run st s).2 ≠ .echo from h s.length st s (Nat.le_refl _)
  intro n
  induction n with
  | zero =>
    intro st s hs
    have := List.length_eq_zero_iff.mp (Nat.le_zero.mp hs); subst this
    simp [run_nil]
  | succ n ih =>
    intro st s hs
    cases s with
    | nil => simp [run_nil]
    | cons x s =>
      obtain ⟨txt, rest, ht, hne, heq, hecho, hd⟩ := step_text st x s
      have hlen : rest.length ≤ n := by
        have := congrArg List.length heq
        have h3 := List.length_pos_iff.mpr hne
        simp only [List.length_append, List.length_cons] at this hs
        omega
      rw [run_cons]
      cases hst : step st (x :: s) with
      | mk a b =>
        have : b = txt := by rw [hst] at ht; exact ht
        subst this
        cases a with
        | stop e => simp only; rw [hst] at hecho; intro h; subst h; exact hecho rfl
        | next st' tok =>
          cases tok with
          | none => simp only [hd]; exact ih st' rest hlen
          | some t => simp only [hd]; exact ih st' rest hlen

end Gdo.Lex
