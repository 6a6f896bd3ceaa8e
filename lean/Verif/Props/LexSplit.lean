import Verif.Props.Lex

/-!
C03: comment marks that are split by a backslash and a newline.
-/

namespace Gdo.Props
open Gdo Lex Spec

/-- Two characters with a backslash and white space that ends with a newline in between. -/
def splitMark (a b : Char) (ws : Str) : Str := a :: '\\' :: (ws ++ ['\n', b])

theorem takeWhile_mark {p : Char → Bool} {ws : Str} {b : Char} {s : Str} (h : ∀ c ∈ ws, p c = true) (hb : p b = false) :
    (ws ++ b :: s).takeWhile p = ws ∧ (ws ++ b :: s).dropWhile p = b :: s := by
  induction ws with
  | nil => simp [hb]
  | cons c ws ih =>
    have := ih fun x hx => h x (List.mem_cons_of_mem _ hx)
    simp [h c (by simp), this]

theorem splitBetween_mark {a b : Char} {ws s : Str} (h : ∀ c ∈ ws, isSpace c = true) (hb : isSpace b = false) :
    splitBetween a b (splitMark a b ws ++ s) = some (splitMark a b ws).length := by
  have h' : ∀ c ∈ ws ++ ['\n'], isSpace c = true := by
    intro c hc
    rcases List.mem_append.mp hc with hc | hc
    · exact h c hc
    · rw [List.mem_singleton.mp hc]; decide
  obtain ⟨e1, e2⟩ := takeWhile_mark (s := s) h' hb
  simp only [splitMark, List.cons_append, List.append_assoc, List.nil_append]
  simp only [List.append_assoc, List.cons_append, List.nil_append] at e1 e2
  simp [splitBetween, e1, e2]

theorem splitBetween_other {a b d : Char} {ws s : Str} (h : ∀ c ∈ ws, isSpace c = true) (hb : isSpace b = false) (hd : d ≠ b) :
    splitBetween a d (splitMark a b ws ++ s) = none := by
  have h' : ∀ c ∈ ws ++ ['\n'], isSpace c = true := by
    intro c hc
    rcases List.mem_append.mp hc with hc | hc
    · exact h c hc
    · rw [List.mem_singleton.mp hc]; decide
  obtain ⟨e1, e2⟩ := takeWhile_mark (s := s) h' hb
  simp only [splitMark, List.cons_append, List.append_assoc, List.nil_append]
  simp only [List.append_assoc, List.cons_append, List.nil_append] at e1 e2
  simp [splitBetween, e1, e2, Ne.symm hd]

theorem mark_long (a b : Char) (ws : Str) : 1 ≤ (splitMark a b ws).length := by simp [splitMark]

/-- A split mark ends a C comment, and the scanner goes on behind it. -/
theorem C03_split_end (ws rest : Str) (hw : ∀ c ∈ ws, isSpace c = true) (st : State) (hc : st.cond = .cComment) :
    run st (splitMark '*' '/' ws ++ rest) = run { cond := .initial, bol := false, line := st.line + nlCount (splitMark '*' '/' ws) } rest := by
  have hb : bestMatch st.bol (splitMark '*' '/' ws ++ rest) (rules st.cond) = some ((splitMark '*' '/' ws).length, .goto .initial) := by
    rw [hc]
    exact bestMatch_dom (A := [⟨false, lit (str% "*/"), .goto .initial⟩]) (r := ⟨false, splitBetween '*' '/', .goto .initial⟩)
      (B := [⟨false, lit ['\n'], .stay⟩, ⟨false, anyChar, .stay⟩]) ⟨val_none rfl _, trivial⟩
      (by simp [Rule.val, splitBetween_mark hw (show isSpace '/' = false by decide)])
      ⟨val_none' rfl _, val_le_bound (fun m h => Nat.le_trans (anyChar_le _ m h) (mark_long _ _ _)), trivial⟩
  rw [run_goto _ rest rfl (by simp [splitMark]) hb]
  congr 1
  simp [State.after, splitMark, List.getLast?_cons, List.getLast?_append]

/-- A split mark begins a C comment. -/
theorem C03_split_begin (ws rest : Str) (hw : ∀ c ∈ ws, isSpace c = true) (st : State) (hc : st.cond = .initial) :
    run st (splitMark '/' '*' ws ++ rest) = run { cond := .cComment, bol := false, line := st.line + nlCount (splitMark '/' '*' ws) } rest := by
  have hb : bestMatch st.bol (splitMark '/' '*' ws ++ rest) (rules st.cond) = some ((splitMark '/' '*' ws).length, .goto .cComment) := by
    rw [hc]
    exact bestMatch_dom (A := (rules .initial).take 5) (r := ⟨false, splitBetween '/' '*', .goto .cComment⟩) (B := (rules .initial).drop 6)
      ⟨val_none rfl _, val_none rfl _, val_none rfl _, val_none (splitBetween_other hw (by decide) (by decide)) _, val_none rfl _, trivial⟩
      (by simp [Rule.val, splitBetween_mark hw (show isSpace '*' = false by decide)])
      ⟨val_none' rfl _, val_none' rfl _, val_none' rfl _, val_none' rfl _, val_none' rfl _, val_none' rfl _, val_none' rfl _, val_none' rfl _, val_none' rfl _,
       val_none' rfl _, val_none' rfl _, val_none' rfl _, val_none' rfl _, val_none' rfl _, val_none' rfl _,
       val_le_bound (fun m h => Nat.le_trans (anyChar_le _ m h) (mark_long _ _ _)), trivial⟩
  rw [run_goto _ rest rfl (by simp [splitMark]) hb]
  congr 1
  simp [State.after, splitMark, List.getLast?_cons, List.getLast?_append]

/-- A split mark begins a comment that goes on to the end of the line. -/
theorem C03_split_line (ws rest : Str) (hw : ∀ c ∈ ws, isSpace c = true) (l : Logical) (hv : l.Valid) (hl : l.NoBlankEnd) (st : State) (hc : st.cond = .initial) :
    run st (splitMark '/' '/' ws ++ l.text ++ rest) = run { cond := .initial, bol := true, line := st.line + nlCount (splitMark '/' '/' ws ++ l.text) } rest := by
  have hb : bestMatch st.bol (splitMark '/' '/' ws ++ (l.text ++ rest)) (rules st.cond) = some ((splitMark '/' '/' ws).length, .goto .comment) := by
    rw [hc]
    exact bestMatch_dom (A := (rules .initial).take 3) (r := ⟨false, splitBetween '/' '/', .goto .comment⟩) (B := (rules .initial).drop 4)
      ⟨val_none rfl _, val_none rfl _, val_none rfl _, trivial⟩
      (by simp [Rule.val, splitBetween_mark hw (show isSpace '/' = false by decide)])
      ⟨val_none' rfl _, val_none' (splitBetween_other hw (by decide) (by decide)) _, val_none' rfl _, val_none' rfl _, val_none' rfl _, val_none' rfl _, val_none' rfl _, val_none' rfl _,
       val_none' rfl _, val_none' rfl _, val_none' rfl _, val_none' rfl _, val_none' rfl _, val_none' rfl _, val_none' rfl _, val_none' rfl _, val_none' rfl _,
       val_le_bound (fun m h => Nat.le_trans (anyChar_le _ m h) (mark_long _ _ _)), trivial⟩
  have h2 := run_logical l rest hv hl (st.after (splitMark '/' '/' ws) .comment) rfl
  rw [after_after _ _ _ _ _ (by simp [Logical.text])] at h2
  rw [List.append_assoc, run_goto _ (l.text ++ rest) rfl (by simp [splitMark]) hb, h2]
  congr 1
  simp [State.after, Logical.text]

/-- A whole C comment with split marks. -/
theorem C03_split_comment (ws ws' rest : Str) (hw : ∀ c ∈ ws, isSpace c = true) (hw' : ∀ c ∈ ws', isSpace c = true) (st : State) (hc : st.cond = .initial) :
    run st (splitMark '/' '*' ws ++ (splitMark '*' '/' ws' ++ rest)) =
      run { cond := .initial, bol := false, line := st.line + nlCount (splitMark '/' '*' ws) + nlCount (splitMark '*' '/' ws') } rest := by
  rw [C03_split_begin ws _ hw st hc, C03_split_end ws' rest hw' _ rfl]

example : run {} (str% "/\\ \n**\\\n/x") = ([⟨.id, ['x']⟩], .eof) ∧ str% "/\\ \n*" = splitMark '/' '*' [' '] := ⟨by rfl, rfl⟩

example : run {} (str% "/\\\n/ x\ny") = ([⟨.id, ['y']⟩], .eof) := by rfl

end Gdo.Props
