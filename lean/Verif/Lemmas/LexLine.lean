import Verif.Lemmas.LexStep

/-! Logical lines: `//` comments, preprocessor directives and option lines. -/

namespace Gdo.Lex
open Gdo Spec

/-! ### Line splits -/

/-- No newline in the white space at the front. -/
def NoNlFront (s : Str) : Prop := '\n' ∉ s.takeWhile isSpace

theorem takeWhile_stop {a : Str} {x : Char} (hx : isSpace x = false) (rest : Str) :
    (a ++ x :: rest).takeWhile isSpace = a.takeWhile isSpace := by
  induction a with
  | nil => simp [hx]
  | cons y a ih => simp only [List.cons_append, List.takeWhile_cons, ih]

theorem noNlFront_of {a : Str} {x : Char} (hx : isSpace x = false) (ha : '\n' ∉ a) (rest : Str) :
    NoNlFront (a ++ x :: rest) := by
  unfold NoNlFront
  rw [takeWhile_stop hx]
  intro h; exact ha ((List.takeWhile_sublist _).mem h)

theorem noNlFront_mem {a : Str} (hx : ∃ c ∈ a, isSpace c = false) (ha : '\n' ∉ a) (rest : Str) :
    NoNlFront (a ++ rest) := by
  unfold NoNlFront
  rw [takeWhile_append_stop hx]
  intro h; exact ha ((List.takeWhile_sublist _).mem h)

theorem split_none {x : Char} {s : Str} (h : x = '\\' → NoNlFront s) : split (x :: s) = none := by
  by_cases hx : x = '\\'
  · subst hx
    unfold split
    simp only
    rw [throughLastNl_zero.mpr (h rfl)]
  · unfold split; split
    · rename_i he; simp at he; exact absurd he.1 hx
    · rfl

theorem split_two {s : Str} (h : NoNlFront s) : split ('\\' :: '\n' :: s) = some 2 := by
  have h0 := throughLastNl_zero.mpr h
  have h1 : throughLastNl ('\n' :: s.takeWhile isSpace) = 1 := by simp [throughLastNl, h0]
  simp [split, isSpace, h1]

/-! ### Line comments -/

theorem comment_split {st : State} (hc : st.cond = .comment) {s : Str} (h : NoNlFront s) :
    run st ('\\' :: '\n' :: s) = run (st.after ['\\', '\n'] .comment) s := by
  have hb : bestMatch st.bol ('\\' :: '\n' :: s) (rules st.cond) = some (2, .stay) := by
    rw [hc]
    exact bestMatch_dom (A := []) (r := ⟨false, split, .stay⟩) (B := (rules .comment).drop 1) trivial
      (by simp [Rule.val, split_two h])
      ⟨val_none' rfl _, val_le_bound (fun m h => Nat.le_succ_of_le (anyChar_le _ m h)), trivial⟩
  have := run_stay ['\\', '\n'] s rfl (by simp) hb
  rw [hc] at this
  exact this

theorem run_contLine (l rest : Str) (hl : '\n' ∉ l) (hr : NoNlFront rest) :
    ∀ st : State, st.cond = .comment →
    run st (l ++ '\\' :: '\n' :: rest) = run (st.after (l ++ ['\\', '\n']) .comment) rest := by
  induction l with
  | nil => intro st hc; exact comment_split hc hr
  | cons x l ih =>
    intro st hc
    have hl' : '\n' ∉ l := fun h => hl (by simp [h])
    have h1 : split (x :: (l ++ '\\' :: '\n' :: rest)) = none :=
      split_none (fun _ => noNlFront_of (by decide) hl' _)
    have ih' := ih hl' (st.after [x] .comment) rfl
    rw [List.cons_append, comment_char hc (fun h => hl (by simp [h])) h1, ih', after_after _ _ _ _ _ (by simp)]
    rfl

theorem conts_front (ls : List Str) (last rest : Str) (h : ∀ x ∈ ls, '\n' ∉ x) (hl : '\n' ∉ last)
    (hb : ∃ c ∈ last, isSpace c = false) :
    NoNlFront ((ls.map (· ++ ['\\', '\n'])).flatten ++ last ++ rest) := by
  cases ls with
  | nil => exact noNlFront_mem hb hl rest
  | cons x ls =>
    have := noNlFront_of (x := '\\') (by decide) (h x (by simp))
      ('\n' :: ((ls.map (· ++ ['\\', '\n'])).flatten ++ last ++ rest))
    simpa using this

/-- A logical line in a `//` comment. -/
theorem run_logical (l : Logical) (rest : Str) (hv : l.Valid) (hb : l.NoBlankEnd) :
    ∀ st : State, st.cond = .comment →
    run st (l.text ++ rest) = run (st.after l.text .initial) rest := by
  obtain ⟨ls, last⟩ := l
  obtain ⟨hls, hlast⟩ := hv
  simp only at hls hlast
  induction ls with
  | nil =>
    intro st hc
    have := run_lastLine last rest hlast st hc
    simpa [Logical.text] using this
  | cons x ls ih =>
    intro st hc
    have hnb : ∃ c ∈ last, isSpace c = false := by
      rcases hb with hb | hb
      · simp at hb
      · exact hb
    have hr := conts_front ls last ('\n' :: rest) (fun y hy => hls y (by simp [hy])) hlast.1 hnb
    have h1 := run_contLine x _ (hls x (by simp)) hr st hc
    have h2 := ih (Or.inr hnb) (fun y hy => hls y (by simp [hy])) (st.after (x ++ ['\\', '\n']) .comment) rfl
    simp only [Logical.text, List.map_cons, List.flatten_cons, List.append_assoc, List.cons_append, List.nil_append] at h1 h2 ⊢
    rw [h1, h2, after_after _ _ _ _ _ (by simp)]
    simp

/-! ### Directives -/

theorem pre_char {st : State} (hc : st.cond = .pre) {x : Char} {s : Str} (hx : x ≠ '\n')
    (h1 : split (x :: s) = none)
    (h2 : x = '/' → ∀ d, s.head? = some d → d ≠ '/' ∧ d ≠ '*' ∧ d ≠ '\\') :
    run st (x :: s) = run (st.after [x] .pre) s := by
  have hb : bestMatch st.bol (x :: s) (rules st.cond) = some (1, .stay) := by
    rw [hc]
    have l1 : ∀ d, d = '/' ∨ d = '*' → lit ['/', d] (x :: s) = none := by
      intro d hd
      unfold lit
      rw [if_neg]
      intro hp
      rw [List.isPrefixOf_iff_prefix] at hp
      obtain ⟨t, ht⟩ := hp
      simp at ht
      have := h2 ht.1.symm d (by rw [← ht.2]; rfl)
      rcases hd with rfl | rfl <;> simp at this
    have l2 : ∀ d, splitBetween '/' d (x :: s) = none := by
      intro d
      by_cases hxs : x = '/'
      · cases s with
        | nil => rfl
        | cons y s =>
          have := (h2 hxs y rfl).2.2
          unfold splitBetween
          split
          · rename_i he; simp at he; exact absurd he.2.1 this
          · rfl
      · exact splitBetween_none hxs
    exact bestMatch_dom (A := (rules .pre).take 6) (r := ⟨false, anyChar, .stay⟩) (B := [])
      ⟨val_none (l1 _ (.inr rfl)) _, val_none (l2 _) _, val_none (l1 _ (.inl rfl)) _, val_none (l2 _) _, val_none h1 _,
        val_none (by simp [lit]; exact fun h => hx h.symm) _, trivial⟩ (by simp [Rule.val, anyChar, hx]) trivial
  have := run_stay [x] s rfl (by simp) hb
  rw [hc] at this
  exact this

theorem pre_split {st : State} (hc : st.cond = .pre) {s : Str} (h : NoNlFront s) :
    run st ('\\' :: '\n' :: s) = run (st.after ['\\', '\n'] .pre) s := by
  have hb : bestMatch st.bol ('\\' :: '\n' :: s) (rules st.cond) = some (2, .stay) := by
    rw [hc]
    exact bestMatch_dom (A := (rules .pre).take 4) (r := ⟨false, split, .stay⟩) (B := (rules .pre).drop 5)
      ⟨val_none rfl _, val_none rfl _, val_none rfl _, val_none rfl _, trivial⟩
      (by simp [Rule.val, split_two h])
      ⟨val_none' rfl _, val_le_bound (fun m h => Nat.le_succ_of_le (anyChar_le _ m h)), trivial⟩
  have := run_stay ['\\', '\n'] s rfl (by simp) hb
  rw [hc] at this
  exact this

theorem pre_nl {st : State} (hc : st.cond = .pre) {s : Str} :
    run st ('\n' :: s) = run (st.after ['\n'] .initial) s := by
  have hb : bestMatch st.bol ('\n' :: s) (rules st.cond) = some (1, .goto .initial) := by
    rw [hc]
    exact bestMatch_dom (A := (rules .pre).take 5) (r := ⟨false, lit ['\n'], .goto .initial⟩) (B := (rules .pre).drop 6)
      ⟨val_none rfl _, val_none (splitBetween_none (by decide)) _, val_none rfl _,
        val_none (splitBetween_none (by decide)) _, val_none rfl _, trivial⟩ (by simp [Rule.val, lit])
      ⟨val_none' rfl _, trivial⟩
  exact run_goto ['\n'] s rfl (by simp) hb

theorem pre_slash_star {st : State} (hc : st.cond = .pre) {s : Str} :
    run st ('/' :: '*' :: s) = run (st.after ['/', '*'] .preComment) s := by
  have hb : bestMatch st.bol ('/' :: '*' :: s) (rules st.cond) = some (2, .goto .preComment) := by
    rw [hc]
    exact bestMatch_dom (A := []) (r := ⟨false, lit (str% "/*"), .goto .preComment⟩) (B := (rules .pre).drop 1)
      trivial (by simp [Rule.val, lit])
      ⟨val_none' rfl _, val_none' rfl _, val_none' rfl _, val_none' rfl _, val_none' rfl _,
       val_le_bound (fun m h => Nat.le_succ_of_le (anyChar_le _ m h)), trivial⟩
  exact run_goto ['/', '*'] s rfl (by simp) hb

theorem pre_slash_slash {st : State} (hc : st.cond = .pre) {s : Str} :
    run st ('/' :: '/' :: s) = run (st.after ['/', '/'] .comment) s := by
  have hb : bestMatch st.bol ('/' :: '/' :: s) (rules st.cond) = some (2, .goto .comment) := by
    rw [hc]
    exact bestMatch_dom (A := (rules .pre).take 2) (r := ⟨false, lit (str% "//"), .goto .comment⟩)
      (B := (rules .pre).drop 3)
      ⟨val_none rfl _, val_none rfl _, trivial⟩ (by simp [Rule.val, lit])
      ⟨val_none' rfl _, val_none' rfl _, val_none' rfl _,
       val_le_bound (fun m h => Nat.le_succ_of_le (anyChar_le _ m h)), trivial⟩
  exact run_goto ['/', '/'] s rfl (by simp) hb

theorem preComment_char {st : State} (hc : st.cond = .preComment) {x : Char} {s : Str} (hx : x ≠ '\n')
    (h1 : lit (str% "*/") (x :: s) = none) (h2 : splitBetween '*' '/' (x :: s) = none) :
    run st (x :: s) = run (st.after [x] .preComment) s := by
  have hb : bestMatch st.bol (x :: s) (rules st.cond) = some (1, .stay) := by
    rw [hc]
    exact bestMatch_dom (A := (rules .preComment).take 3)
      (B := []) ⟨val_none h1 _, val_none h2 _, val_none (by simp [lit]; exact fun h => hx h.symm) _, trivial⟩
      (r := ⟨false, anyChar, .stay⟩) (by simp [Rule.val, anyChar, hx]) trivial
  have := run_stay [x] s rfl (by simp) hb
  rw [hc] at this
  exact this

theorem preComment_nl {st : State} (hc : st.cond = .preComment) {s : Str} :
    run st ('\n' :: s) = run (st.after ['\n'] .cComment) s := by
  have hb : bestMatch st.bol ('\n' :: s) (rules st.cond) = some (1, .goto .cComment) := by
    rw [hc]
    exact bestMatch_dom (A := (rules .preComment).take 2)
      (B := (rules .preComment).drop 3) ⟨val_none rfl _, val_none (splitBetween_none (by decide)) _, trivial⟩
      (r := ⟨false, lit ['\n'], .goto .cComment⟩) (by simp [Rule.val, lit]) ⟨val_none' rfl _, trivial⟩
  exact run_goto ['\n'] s rfl (by simp) hb

theorem preComment_end {st : State} (hc : st.cond = .preComment) {s : Str} :
    run st ('*' :: '/' :: s) = run (st.after ['*', '/'] .pre) s := by
  have hb : bestMatch st.bol ('*' :: '/' :: s) (rules st.cond) = some (2, .goto .pre) := by
    rw [hc]
    exact bestMatch_dom (A := [])
      (B := (rules .preComment).drop 1) trivial
      (r := ⟨false, lit (str% "*/"), .goto .pre⟩) (by simp [Rule.val, lit])
      ⟨val_none' rfl _, val_none' rfl _,
       val_le_bound (fun m h => Nat.le_succ_of_le (anyChar_le _ m h)), trivial⟩
  exact run_goto ['*', '/'] s rfl (by simp) hb

theorem run_preComment (b rest : Str) (hb : CommentBody b) (hn : '\n' ∉ b) : ∀ st : State, st.cond = .preComment →
    run st (b ++ ['*', '/'] ++ rest) = run (st.after (b ++ ['*', '/']) .pre) rest := by
  induction b with
  | nil => intro st hc; exact preComment_end hc
  | cons x b ih =>
    intro st hc
    have hstep := preComment_char hc (fun h => hn (by simp [h])) (body_no_end hb rest) (body_no_split hb rest)
    have ih' := ih (commentBody_tail hb) (fun h => hn (by simp [h])) (st.after [x] .preComment) rfl
    simp only [List.cons_append, List.append_assoc] at hstep ih' ⊢
    rw [hstep, ih', after_after _ _ _ _ _ (by simp)]
    rfl

theorem run_preBlock (b rest : Str) (hb : CommentBody b) (hn : '\n' ∈ b) : ∀ st : State, st.cond = .preComment →
    run st (b ++ ['*', '/'] ++ rest) = run (st.after (b ++ ['*', '/']) .initial) rest := by
  induction b with
  | nil => simp at hn
  | cons x b ih =>
    intro st hc
    by_cases hx : x = '\n'
    · subst hx
      have hstep := preComment_nl (s := b ++ ['*', '/'] ++ rest) hc
      have h2 := run_cComment b rest (commentBody_tail hb) (st.after ['\n'] .cComment) rfl
      simp only [List.cons_append, List.append_assoc] at hstep h2 ⊢
      rw [hstep, h2, after_after _ _ _ _ _ (by simp)]
      rfl
    · have hstep := preComment_char hc hx (body_no_end hb rest) (body_no_split hb rest)
      have ih' := ih (commentBody_tail hb) (by simpa [Ne.symm hx] using hn) (st.after [x] .preComment) rfl
      simp only [List.cons_append, List.append_assoc] at hstep ih' ⊢
      rw [hstep, ih', after_after _ _ _ _ _ (by simp)]
      rfl

/-- There is no newline in a directive before the first character that is not white space. -/
theorem dirText_front {ds : List DSeg} (hd : DirOk ds) (h : ∃ c ∈ dirText ds, isSpace c = false) (rest : Str) :
    NoNlFront (dirText ds ++ rest) := by
  induction ds with
  | nil => simp [dirText] at h
  | cons d ds ih =>
    cases d with
    | ch c =>
      by_cases hs : isSpace c = false
      · have := noNlFront_of (a := []) hs (by simp) (dirText ds ++ rest)
        simpa [dirText, DSeg.text] using this
      · have hs' : isSpace c = true := by simpa using hs
        have ih' := ih hd.2.2.2 (by
          obtain ⟨x, hx, hxs⟩ := h
          simp only [dirText, List.map_cons, DSeg.text, List.flatten_cons, List.cons_append, List.nil_append, List.mem_cons] at hx
          rcases hx with rfl | hx
          · exact absurd hxs hs
          · exact ⟨x, hx, hxs⟩)
        unfold NoNlFront at ih' ⊢
        simp only [dirText, List.map_cons, DSeg.text, List.flatten_cons, List.cons_append, List.nil_append, List.takeWhile_cons, hs', if_true]
        intro hm
        simp only [List.mem_cons] at hm
        rcases hm with rfl | hm
        · exact hd.1 rfl
        · exact ih' hm
    | cont =>
      have := noNlFront_of (a := []) (x := '\\') (by decide) (by simp) ('\n' :: (dirText ds ++ rest))
      simpa [dirText, DSeg.text] using this
    | comment b =>
      have := noNlFront_of (a := []) (x := '/') (by decide) (by simp) ('*' :: (b ++ ['*', '/'] ++ (dirText ds ++ rest)))
      simpa [dirText, DSeg.text] using this

/-- The end of a directive. -/
theorem run_dirEnd (e : DEnd) (rest : Str) (he : e.Valid) (st : State) (hc : st.cond = .pre) :
    run st (e.text ++ rest) = run (st.after e.text .initial) rest := by
  cases e with
  | newline => exact pre_nl hc
  | line l =>
    have h1 := pre_slash_slash (s := l.text ++ rest) hc
    have h2 := run_logical l rest he.1 he.2 (st.after ['/', '/'] .comment) rfl
    simp only [DEnd.text, List.cons_append, List.nil_append]
    rw [h1, h2, after_after _ _ _ _ _ (by simp [Logical.text])]
    rfl
  | block b =>
    have h1 := pre_slash_star (s := b ++ ['*', '/'] ++ ('\n' :: rest)) hc
    have h2 := run_preBlock b ('\n' :: rest) he.1 he.2 (st.after ['/', '*'] .preComment) rfl
    rw [after_after _ _ _ _ _ (by simp)] at h2
    have h3 := step_space (st := st.after (['/', '*'] ++ (b ++ ['*', '/'])) .initial) rfl (c := '\n') (by decide) (s := rest)
      (Or.inl (by
        have : (['/', '*'] ++ (b ++ ['*', '/'])).getLast? = some '/' := by
          rw [List.getLast?_append, List.getLast?_append]; rfl
        unfold State.after; simp only [this]; decide))
    rw [after_after _ _ _ _ _ (by simp)] at h3
    simp only [DEnd.text, List.cons_append, List.nil_append, List.append_assoc] at h1 h2 h3 ⊢
    rw [h1, h2, h3]

/-- The rest of a directive after `#`. -/
theorem run_directive (ds : List DSeg) (e : DEnd) (rest : Str) (hd : DirOk ds) (he : e.Valid) :
    ∀ st : State, st.cond = .pre →
    run st (dirText ds ++ e.text ++ rest) = run (st.after (dirText ds ++ e.text) .initial) rest := by
  have hne : ∀ ds, dirText ds ++ e.text ≠ [] := by
    intro ds h
    have : e.text = [] := by simp at h; exact h.2
    cases e <;> simp [DEnd.text, Logical.text] at this
  induction ds with
  | nil => intro st hc; exact run_dirEnd e rest he st hc
  | cons d ds ih =>
    intro st hc
    cases d with
    | ch c =>
      obtain ⟨hn, hb, hs, hd'⟩ := hd
      have ih' := ih hd' (st.after [c] .pre) rfl
      have h1 : run st (c :: (dirText ds ++ e.text ++ rest)) = run (st.after [c] .pre) (dirText ds ++ e.text ++ rest) := by
        refine pre_char hc hn (split_none ?_) ?_
        · intro h
          obtain ⟨x, ds', rfl, hx⟩ := hb h
          have := noNlFront_of (a := []) hx (by simp) (dirText ds' ++ e.text ++ rest)
          simpa [dirText, DSeg.text] using this
        · intro h y hy
          obtain ⟨x, ds', rfl, hx⟩ := hs h
          simp [dirText, DSeg.text] at hy
          rw [← hy]; exact hx
      simp only [dirText, List.map_cons, DSeg.text, List.flatten_cons, List.cons_append, List.nil_append, List.append_assoc] at h1 ih' ⊢
      rw [h1, ih', after_after _ _ _ _ _ (by have := hne ds; simpa [dirText] using this)]
      rfl
    | cont =>
      obtain ⟨hb, hd'⟩ := hd
      have ih' := ih hd' (st.after ['\\', '\n'] .pre) rfl
      have h1 := pre_split (s := dirText ds ++ e.text ++ rest) hc (by
        rw [List.append_assoc]; exact dirText_front hd' hb _)
      simp only [dirText, List.map_cons, DSeg.text, List.flatten_cons, List.cons_append, List.nil_append, List.append_assoc] at h1 ih' ⊢
      rw [h1, ih', after_after _ _ _ _ _ (by have := hne ds; simpa [dirText] using this)]
      rfl
    | comment b =>
      obtain ⟨hb, hn, hd'⟩ := hd
      have h1 := pre_slash_star (s := b ++ ['*', '/'] ++ (dirText ds ++ e.text ++ rest)) hc
      have h2 := run_preComment b (dirText ds ++ e.text ++ rest) hb hn (st.after ['/', '*'] .preComment) rfl
      rw [after_after _ _ _ _ _ (by simp)] at h2
      have ih' := ih hd' (st.after (['/', '*'] ++ (b ++ ['*', '/'])) .pre) rfl
      rw [after_after _ _ _ _ _ (hne ds)] at ih'
      simp only [dirText, List.map_cons, DSeg.text, List.flatten_cons, List.cons_append, List.nil_append, List.append_assoc] at h1 h2 ih' ⊢
      rw [h1, h2, ih']

/-- White space at the beginning of a line and `#`. -/
theorem run_hash {st : State} (hc : st.cond = .initial) (hb : st.bol = true) (ws rest : Str)
    (hws : ∀ c ∈ ws, isSpace c = true) :
    run st (ws ++ '#' :: rest) = run (st.after (ws ++ ['#']) .pre) rest := by
  have hdw : ∀ ws : Str, (∀ c ∈ ws, isSpace c = true) → (ws ++ '#' :: rest).dropWhile isSpace = '#' :: rest := by
    intro ws h
    induction ws with
    | nil => rfl
    | cons c ws ih => simp [h c (by simp), ih (fun x hx => h x (by simp [hx]))]
  have hbom : skipBom (ws ++ '#' :: rest) = ws ++ '#' :: rest := by
    cases ws with
    | nil => exact skipBom_other (by decide)
    | cons c ws =>
      refine skipBom_other ?_
      intro h
      have := hws c (by simp)
      rw [h] at this; exact absurd this (by decide)
  have hpp : preprocPat (ws ++ '#' :: rest) = some (ws ++ ['#']).length := by
    unfold preprocPat
    rw [hbom, hdw ws hws]
    simp
    omega
  have hbm : bestMatch st.bol (ws ++ '#' :: rest) (rules st.cond) = some ((ws ++ ['#']).length, .goto .pre) := by
    rw [hc]
    have h1 : ∀ m, m ≤ 1 → m ≤ (ws ++ ['#']).length := by intro m hm; simp; omega
    have hv : Rule.val ⟨true, preprocPat, .goto .pre⟩ st.bol (ws ++ '#' :: rest) = some (ws ++ ['#']).length := by
      unfold Rule.val; rw [hb]; exact hpp
    cases ws with
    | nil =>
      exact bestMatch_dom (A := (rules .initial).take 6) (r := ⟨true, preprocPat, .goto .pre⟩) (B := (rules .initial).drop 7)
        ⟨val_none rfl _, val_none rfl _, val_none rfl _, val_none (splitBetween_none (by decide)) _, val_none rfl _,
          val_none (splitBetween_none (by decide)) _, trivial⟩ hv
        ⟨val_none' rfl _, val_none' rfl _, val_none' rfl _, val_none' rfl _, val_none' rfl _, val_none' rfl _,
          val_none' rfl _, val_none' rfl _, val_none' rfl _, val_none' rfl _, val_none' rfl _, val_none' rfl _,
          val_none' rfl _, val_none' rfl _, val_le_bound (anyChar_le _), trivial⟩
    | cons c ws =>
      have hs := hws c (by simp)
      refine bestMatch_dom (A := (rules .initial).take 6) (r := ⟨true, preprocPat, .goto .pre⟩) (B := (rules .initial).drop 7)
        ?_ hv ?_
      · rcases space_cases hs with rfl | rfl | rfl | rfl | rfl | rfl <;>
        exact ⟨val_none rfl _, val_none rfl _, val_none rfl _, val_none (splitBetween_none (by decide)) _, val_none rfl _,
          val_none (splitBetween_none (by decide)) _, trivial⟩
      · rcases space_cases hs with rfl | rfl | rfl | rfl | rfl | rfl <;>
        exact ⟨val_none' rfl _, val_le_bound (fun m h => h1 m (spaceChar_le _ m h)), val_none' rfl _, val_none' rfl _, val_none' rfl _, val_none' rfl _,
          val_none' rfl _, val_none' rfl _, val_none' rfl _, val_none' rfl _, val_none' rfl _, val_none' rfl _,
          val_none' rfl _, val_none' rfl _, val_le_bound (fun m h => h1 m (anyChar_le _ m h)), trivial⟩
  exact run_goto (ws ++ ['#']) rest (by simp) (by simp) hbm

/-! ### Option lines -/

theorem option_nl {st : State} (hc : st.cond = .option) {s : Str} :
    run st ('\n' :: s) = run (st.after ['\n'] .initial) s := by
  have hb : bestMatch st.bol ('\n' :: s) (rules st.cond) = some (1, .goto .initial) := by
    rw [hc]
    exact bestMatch_dom (A := (rules .option).take 2) (r := ⟨false, lit ['\n'], .goto .initial⟩) (B := (rules .option).drop 3)
      ⟨val_none rfl _, val_none rfl _, trivial⟩ (by simp [Rule.val, lit]) ⟨val_none' rfl _, trivial⟩
  exact run_goto ['\n'] s rfl (by simp) hb

theorem option_blank {st : State} (hc : st.cond = .option) {c : Char} {s : Str} (hs : isSpace c = true) (hn : c ≠ '\n') :
    run st (c :: s) = run (st.after [c] .option) s := by
  have hb : bestMatch st.bol (c :: s) (rules st.cond) = some (1, .stay) := by
    rw [hc]
    refine bestMatch_dom (A := (rules .option).take 3) (r := ⟨false, anyChar, .stay⟩) (B := [])
      ⟨val_none (split_none ?_) _, val_none ?_ _, val_none ?_ _, trivial⟩ (by simp [Rule.val, anyChar, hn]) trivial
    · rintro rfl; exact absurd hs (by decide)
    · simp [optstrPat, hs]
    · simp [lit]; exact fun h => hn h.symm
  have := run_stay [c] s rfl (by simp) hb
  rw [hc] at this
  exact this

theorem option_split {st : State} (hc : st.cond = .option) {s : Str} (h : NoNlFront s) :
    run st ('\\' :: '\n' :: s) = run (st.after ['\\', '\n'] .option) s := by
  have hb : bestMatch st.bol ('\\' :: '\n' :: s) (rules st.cond) = some (2, .stay) := by
    rw [hc]
    exact bestMatch_dom (A := []) (r := ⟨false, split, .stay⟩) (B := (rules .option).drop 1) trivial
      (by simp [Rule.val, split_two h])
      ⟨val_le_bound (fun m h => by simp [optstrPat, isSpace] at h; omega), val_none' rfl _,
        val_le_bound (fun m h => Nat.le_succ_of_le (anyChar_le _ m h)), trivial⟩
  have := run_stay ['\\', '\n'] s rfl (by simp) hb
  rw [hc] at this
  exact this

theorem takeWhile_nonspace {w s : Str} (hw : ∀ c ∈ w, isSpace c = false) (hs : ∀ c, s.head? = some c → isSpace c = true) :
    (w ++ s).takeWhile (fun c => !isSpace c) = w := by
  induction w with
  | nil =>
    cases s with
    | nil => rfl
    | cons c s => have := hs c rfl; simp [this]
  | cons a w ih => simp [hw a (by simp), ih (fun c hc => hw c (by simp [hc]))]

theorem option_word {st : State} (hc : st.cond = .option) {w s : Str} (hne : w ≠ [])
    (hw : ∀ c ∈ w, isSpace c = false) (hh : w.head? ≠ some '\\') (hs : ∀ c, s.head? = some c → isSpace c = true) :
    run st (w ++ s) = (⟨.option, w⟩ :: (run (st.after w .option) s).1, (run (st.after w .option) s).2) := by
  have hb : bestMatch st.bol (w ++ s) (rules st.cond) = some (w.length, .ret .option) := by
    rw [hc]
    obtain ⟨a, w', rfl⟩ : ∃ a w', w = a :: w' := by
      cases w with
      | nil => exact absurd rfl hne
      | cons a w' => exact ⟨a, w', rfl⟩
    have hopt : optstrPat ((a :: w') ++ s) = some (a :: w').length := by
      unfold optstrPat
      rw [takeWhile_nonspace hw hs]
      rfl
    refine bestMatch_dom (A := (rules .option).take 1) (r := ⟨false, optstrPat, .ret .option⟩) (B := (rules .option).drop 2)
      ⟨val_none (split_none ?_) _, trivial⟩ hopt
      ⟨val_none' ?_ _, val_le_bound (fun m h => by have := anyChar_le _ m h; simp; omega), trivial⟩
    · rintro rfl; simp at hh
    · simp [lit]; rintro rfl; exact absurd (hw '\n' (by simp)) (by decide)
  have := run_ret w s rfl hne hb
  rw [hc] at this
  exact this

theorem optText_front {os : List OSeg} (ho : OptOk os) (h : ∃ c ∈ optText os, isSpace c = false) (rest : Str) :
    NoNlFront (optText os ++ rest) := by
  induction os with
  | nil => simp [optText] at h
  | cons o os ih =>
    cases o with
    | blank c =>
      obtain ⟨hs', hn, ho'⟩ := ho
      have ih' := ih ho' (by
          obtain ⟨x, hx, hxs⟩ := h
          simp only [optText, List.map_cons, OSeg.text, List.flatten_cons, List.cons_append, List.nil_append, List.mem_cons] at hx
          rcases hx with rfl | hx
          · rw [hs'] at hxs; cases hxs
          · exact ⟨x, hx, hxs⟩)
      unfold NoNlFront at ih' ⊢
      simp only [optText, List.map_cons, OSeg.text, List.flatten_cons, List.cons_append, List.nil_append, List.takeWhile_cons, hs', if_true]
      intro hm
      simp only [List.mem_cons] at hm
      rcases hm with rfl | hm
      · exact hn rfl
      · exact ih' hm
    | cont =>
      have := noNlFront_of (a := []) (x := '\\') (by decide) (by simp) ('\n' :: (optText os ++ rest))
      simpa [optText, OSeg.text] using this
    | word w =>
      obtain ⟨hne, hw, -⟩ := ho
      cases w with
      | nil => exact absurd rfl hne
      | cons a w =>
        have := noNlFront_of (a := []) (hw a (by simp)) (by simp) (w ++ (optText os ++ rest))
        simpa [optText, OSeg.text] using this

theorem run_optLine (os : List OSeg) (rest : Str) (ho : OptOk os) : ∀ st : State, st.cond = .option →
    run st (optText os ++ ['\n'] ++ rest) =
      (os.filterMap OSeg.tok ++ (run (st.after (optText os ++ ['\n']) .initial) rest).1,
       (run (st.after (optText os ++ ['\n']) .initial) rest).2) := by
  induction os with
  | nil => intro st hc; exact option_nl hc
  | cons o os ih =>
    intro st hc
    cases o with
    | blank c =>
      obtain ⟨hs, hn, ho'⟩ := ho
      have h1 := option_blank (s := optText os ++ ['\n'] ++ rest) hc hs hn
      have h2 := ih ho' (st.after [c] .option) rfl
      rw [after_after _ _ _ _ _ (by simp)] at h2
      simp only [optText, List.map_cons, OSeg.text, List.flatten_cons, List.cons_append, List.nil_append, List.append_assoc] at h1 h2 ⊢
      rw [h1, h2]
      rfl
    | cont =>
      obtain ⟨hb, ho'⟩ := ho
      have h1 := option_split (s := optText os ++ ['\n'] ++ rest) hc (by
        rw [List.append_assoc]; exact optText_front ho' hb _)
      have h2 := ih ho' (st.after ['\\', '\n'] .option) rfl
      rw [after_after _ _ _ _ _ (by simp)] at h2
      simp only [optText, List.map_cons, OSeg.text, List.flatten_cons, List.cons_append, List.nil_append, List.append_assoc] at h1 h2 ⊢
      rw [h1, h2]
      rfl
    | word w =>
      obtain ⟨hne, hw, hh, hl, hf, ho'⟩ := ho
      have h1 := option_word (s := optText os ++ ['\n'] ++ rest) hc hne hw hh (by
        intro c hcs
        rcases hf with rfl | ⟨x, os', rfl⟩
        · simp [optText] at hcs; subst hcs; decide
        · simp [optText, OSeg.text] at hcs; subst hcs; exact ho'.1)
      have h2 := ih ho' (st.after w .option) rfl
      rw [after_after _ _ _ _ _ (by simp)] at h2
      simp only [optText, List.map_cons, OSeg.text, List.flatten_cons, List.cons_append, List.nil_append, List.append_assoc] at h1 h2 ⊢
      rw [h1, h2]
      rfl

theorem step_option {st : State} (hc : st.cond = .initial) (hb : st.bol = true) {c : Char} (hs : isSpace c = true) (s : Str) :
    run st ((str% "%option") ++ [c] ++ s) = run (st.after ((str% "%option") ++ [c]) .option) s := by
  have hbm : bestMatch st.bol ((str% "%option") ++ [c] ++ s) (rules st.cond) = some (8, .goto .option) := by
    rw [hc]
    refine bestMatch_dom (A := (rules .initial).take 1) (r := ⟨true, optionPat, .goto .option⟩) (B := (rules .initial).drop 2)
        ⟨val_none rfl _, trivial⟩ ?_
        ⟨val_none' rfl _, val_none' rfl _, val_none' rfl _, val_none' rfl _, val_none' rfl _, val_none' rfl _,
          val_none' rfl _, val_none' rfl _, val_none' rfl _, val_none' rfl _, val_none' rfl _, val_none' rfl _,
          val_none' rfl _, val_none' rfl _, val_none' rfl _, val_none' rfl _, val_none' rfl _, val_none' rfl _,
          val_none' rfl _, val_le_bound (fun m h => by have := anyChar_le _ m h; omega), trivial⟩
    unfold Rule.val
    rw [hb]
    simp [optionPat, skipBom, bom, afterLit, hs]
    omega
  exact run_goto ((str% "%option") ++ [c]) s rfl (by simp) hbm

end Gdo.Lex
