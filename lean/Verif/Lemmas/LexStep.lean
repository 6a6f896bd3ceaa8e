import Verif.Lemmas.Lex
import Verif.Spec.Source

/-! What the scanner does on the pieces of a source text. -/

namespace Gdo.Lex
open Gdo Spec

/-- The value of a rule. -/
def Rule.val (r : Rule) (bol : Bool) (s : Str) : Option Nat := if r.bol && !bol then none else r.pat s

/-- All rules of a list match less than `n` characters. -/
def Below (bol : Bool) (s : Str) (n : Nat) : List Rule → Prop
  | [] => True
  | r :: rs => (∀ m, r.val bol s = some m → m < n) ∧ Below bol s n rs

/-- All rules of a list match at most `n` characters. -/
def AtMost (bol : Bool) (s : Str) (n : Nat) : List Rule → Prop
  | [] => True
  | r :: rs => (∀ m, r.val bol s = some m → m ≤ n) ∧ AtMost bol s n rs

theorem bestMatch_atMost {bol : Bool} {s : Str} {n : Nat} {rs : List Rule} (h : AtMost bol s n rs) :
    ∀ m a, bestMatch bol s rs = some (m, a) → m ≤ n := by
  induction rs with
  | nil => intro m a h; simp [bestMatch] at h
  | cons r rs ih =>
    intro m a hm
    simp only [bestMatch] at hm
    have ih := ih h.2
    split at hm
    · exact ih _ _ hm
    · rename_i k hk
      have hk' := h.1 k hk
      split at hm
      · simp at hm; omega
      · rename_i he
        have := ih _ _ he
        split at hm <;> simp at hm <;> omega

theorem bestMatch_dom {bol : Bool} {s : Str} {n : Nat} {r : Rule} {A B : List Rule}
    (hA : Below bol s n A) (hr : r.val bol s = some n) (hB : AtMost bol s n B) :
    bestMatch bol s (A ++ r :: B) = some (n, r.act) := by
  induction A with
  | nil =>
    simp only [List.nil_append, bestMatch]
    have : (if (r.bol && !bol) = true then none else r.pat s) = some n := hr
    rw [this]
    simp only
    split
    · rfl
    · rename_i m a he
      have := bestMatch_atMost hB _ _ he
      rw [if_neg (by omega)]
  | cons r' A ih =>
    simp only [List.cons_append, bestMatch]
    rw [ih hA.2]
    split
    · rfl
    · rename_i k hk
      have := hA.1 k hk
      simp only [if_pos this]

theorem val_none {r : Rule} {bol : Bool} {s : Str} (h : r.pat s = none) (n : Nat) :
    ∀ m, r.val bol s = some m → m < n := by
  intro m hm; unfold Rule.val at hm; rw [h] at hm; simp at hm

theorem val_none' {r : Rule} {bol : Bool} {s : Str} (h : r.pat s = none) (n : Nat) :
    ∀ m, r.val bol s = some m → m ≤ n := by
  intro m hm; unfold Rule.val at hm; rw [h] at hm; simp at hm

theorem val_le {p : Pat} {a : Act} {bol : Bool} {s : Str} {k n : Nat} (h : p s = some k) (hk : k ≤ n) :
    ∀ m, Rule.val ⟨false, p, a⟩ bol s = some m → m ≤ n := by
  intro m hm; unfold Rule.val at hm; simp [h] at hm; omega

theorem val_le_bound {p : Pat} {a : Act} {b bol : Bool} {s : Str} {n : Nat} (h : ∀ m, p s = some m → m ≤ n) :
    ∀ m, Rule.val ⟨b, p, a⟩ bol s = some m → m ≤ n := by
  intro m hm; unfold Rule.val at hm; split at hm
  · simp at hm
  · exact h m hm

theorem val_lt_bound {p : Pat} {a : Act} {b bol : Bool} {s : Str} {n : Nat} (h : ∀ m, p s = some m → m < n) :
    ∀ m, Rule.val ⟨b, p, a⟩ bol s = some m → m < n := by
  intro m hm; unfold Rule.val at hm; split at hm
  · simp at hm
  · exact h m hm

theorem anyChar_le (s : Str) : ∀ m, anyChar s = some m → m ≤ 1 := by
  intro m h; cases s <;> simp [anyChar] at h; omega

theorem lit_le (l s : Str) : ∀ m, lit l s = some m → m ≤ l.length := by
  intro m h; unfold lit at h; split at h <;> simp at h; omega

theorem spaceChar_le (s : Str) : ∀ m, spaceChar s = some m → m ≤ 1 := by
  intro m h; cases s <;> simp [spaceChar] at h; omega

theorem otherPat_le (s : Str) : ∀ m, otherPat s = some m → m ≤ 1 := by
  intro m h; cases s <;> simp [otherPat] at h; omega

theorem step_of_best {st : State} {s txt rest : Str} {a : Act} (he : s = txt ++ rest)
    (hb : bestMatch st.bol s (rules st.cond) = some (txt.length, a)) :
    step st s = (a.effect st txt, txt) := by
  unfold step
  rw [hb]
  have : s.take txt.length = txt := by rw [he]; simp
  simp only [this]

theorem run_goto {st : State} {s : Str} (txt rest : Str) {c : Cond} (he : s = txt ++ rest) (hne : txt ≠ [])
    (hb : bestMatch st.bol s (rules st.cond) = some (txt.length, .goto c)) :
    run st s = run (st.after txt c) rest :=
  run_skip (step_of_best he hb) he (by simp [he, hne])

theorem run_stay {st : State} {s : Str} (txt rest : Str) (he : s = txt ++ rest) (hne : txt ≠ [])
    (hb : bestMatch st.bol s (rules st.cond) = some (txt.length, .stay)) :
    run st s = run (st.after txt st.cond) rest :=
  run_skip (step_of_best he hb) he (by simp [he, hne])

theorem run_ret {st : State} {s : Str} (txt rest : Str) {k : TokKind} (he : s = txt ++ rest) (hne : txt ≠ [])
    (hb : bestMatch st.bol s (rules st.cond) = some (txt.length, .ret k)) :
    run st s = (⟨k, txt⟩ :: (run (st.after txt st.cond) rest).1, (run (st.after txt st.cond) rest).2) :=
  run_tok (step_of_best he hb) he (by simp [he, hne])

theorem mem_takeWhile_imp {α : Type} {p : α → Bool} {l : List α} {c : α} (h : c ∈ l.takeWhile p) : p c = true := by
  induction l with
  | nil => simp at h
  | cons a l ih =>
    rw [List.takeWhile_cons] at h
    split at h
    · simp at h
      rcases h with rfl | h
      · assumption
      · exact ih h
    · simp at h

/-! ### Comments -/

theorem cComment_char {st : State} (hc : st.cond = .cComment) {x : Char} {s : Str}
    (h1 : lit (str% "*/") (x :: s) = none) (h2 : splitBetween '*' '/' (x :: s) = none) :
    run st (x :: s) = run (st.after [x] .cComment) s := by
  by_cases hx : x = '\n'
  · subst hx
    have hb : bestMatch st.bol ('\n' :: s) (rules st.cond) = some (1, .stay) := by
      rw [hc]
      exact bestMatch_dom (A := [⟨false, lit (str% "*/"), .goto .initial⟩, ⟨false, splitBetween '*' '/', .goto .initial⟩])
        (B := [⟨false, anyChar, .stay⟩]) ⟨val_none h1 _, val_none h2 _, trivial⟩
        (r := ⟨false, lit ['\n'], .stay⟩) (by simp [Rule.val, lit]) ⟨val_le_bound (anyChar_le _), trivial⟩
    have := run_stay ['\n'] s rfl (by simp) hb
    rw [hc] at this
    exact this
  · have hb : bestMatch st.bol (x :: s) (rules st.cond) = some (1, .stay) := by
      rw [hc]
      exact bestMatch_dom (A := [⟨false, lit (str% "*/"), .goto .initial⟩, ⟨false, splitBetween '*' '/', .goto .initial⟩,
        ⟨false, lit ['\n'], .stay⟩])
        (B := []) ⟨val_none h1 _, val_none h2 _, val_none (by simp [lit]; exact fun h => hx h.symm) _, trivial⟩
        (r := ⟨false, anyChar, .stay⟩) (by simp [Rule.val, anyChar, hx]) trivial
    have := run_stay [x] s rfl (by simp) hb
    rw [hc] at this
    exact this

theorem cComment_end {st : State} (hc : st.cond = .cComment) {s : Str} :
    run st ('*' :: '/' :: s) = run (st.after ['*', '/'] .initial) s := by
  have hb : bestMatch st.bol ('*' :: '/' :: s) (rules st.cond) = some (2, .goto .initial) := by
    rw [hc]
    exact bestMatch_dom (A := []) (B := [⟨false, splitBetween '*' '/', .goto .initial⟩,
      ⟨false, lit ['\n'], .stay⟩, ⟨false, anyChar, .stay⟩]) trivial
      (r := ⟨false, lit (str% "*/"), .goto .initial⟩) (by simp [Rule.val, lit])
      ⟨val_none' rfl _, val_none' (by simp [lit]) _, val_le_bound (fun m h => Nat.le_succ_of_le (anyChar_le _ m h)), trivial⟩
  exact run_goto ['*', '/'] s rfl (by simp) hb

theorem commentBody_tail {x : Char} {b : Str} (h : CommentBody (x :: b)) : CommentBody b := by
  constructor
  · intro pre suf he
    exact h.1 (x :: pre) suf (by simp [he])
  · intro pre ws suf hws he
    exact h.2 (x :: pre) ws suf hws (by simp [he])

theorem nlCount_append (a b : Str) : nlCount (a ++ b) = nlCount a + nlCount b := by simp [nlCount]

theorem after_after (st : State) (a b : Str) (c d : Cond) (hb : b ≠ []) :
    (st.after a c).after b d = st.after (a ++ b) d := by
  simp only [State.after, nlCount_append]
  congr 1
  · rw [List.getLast?_append]
    cases h : b.getLast? with
    | none => exact absurd (List.getLast?_eq_none_iff.mp h) hb
    | some x => rfl
  · omega

theorem body_no_end {x : Char} {b : Str} (hb : CommentBody (x :: b)) (rest : Str) :
    lit (str% "*/") (x :: (b ++ ['*', '/'] ++ rest)) = none := by
  unfold lit
  rw [if_neg]
  intro hp
  rw [List.isPrefixOf_iff_prefix] at hp
  obtain ⟨t, ht⟩ := hp
  cases b with
  | nil => simp at ht
  | cons y b =>
    simp at ht
    obtain ⟨rfl, rfl, -⟩ := ht
    have := hb.1 [] (b ++ ['*', '/']) (by simp)
    simp at this

theorem body_no_split {x : Char} {b : Str} (hb : CommentBody (x :: b)) (rest : Str) :
    splitBetween '*' '/' (x :: (b ++ ['*', '/'] ++ rest)) = none := by
  cases b with
  | nil => rfl
  | cons y b =>
    by_cases hy : y = '\\'
    · subst hy
      unfold splitBetween
      simp only [List.cons_append]
      rw [if_neg]
      rintro ⟨rfl, hl, hd⟩
      generalize hs : b ++ ['*', '/'] ++ rest = s at *
      -- the white space run lies inside of the body
      have hrun : ∀ c ∈ s.takeWhile isSpace, isSpace c = true := by
        intro c hc; exact mem_takeWhile_imp hc
      have hsplit := List.takeWhile_append_dropWhile (p := isSpace) (l := s)
      obtain ⟨ws, hws⟩ : ∃ ws, s.takeWhile isSpace = ws ++ ['\n'] :=
        List.getLast?_eq_some_iff.mp hl
      obtain ⟨d, hd'⟩ : ∃ d, s.dropWhile isSpace = '/' :: d := by
        cases hdw : s.dropWhile isSpace with
        | nil => simp [hdw] at hd
        | cons a d => simp [hdw] at hd; subst hd; exact ⟨d, rfl⟩
      rw [hws, hd'] at hsplit
      -- compare with the body
      rw [← hs, List.append_assoc, List.append_assoc] at hsplit
      have hle : (ws ++ ['\n'] ++ ['/']).length ≤ b.length := by
        have h3 : ∀ (u : Str), (∀ c ∈ u, isSpace c = true) → ∀ (b t : Str) (d : Str),
            u ++ '/' :: d = b ++ ('*' :: t) → u.length + 1 ≤ b.length := by
          intro u
          induction u with
          | nil =>
            intro _ b t d he
            cases b with
            | nil => simp at he
            | cons a b => simp
          | cons a u ih =>
            intro hu b t d he
            cases b with
            | nil =>
              simp at he
              have := hu a (by simp)
              rw [he.1] at this
              exact absurd this (by decide)
            | cons a' b =>
              simp at he
              have := ih (fun c hc => hu c (by simp [hc])) b t d he.2
              simp; omega
        have := h3 (ws ++ ['\n']) (by rw [← hws]; exact hrun) b ('/' :: rest) d (by simpa using hsplit)
        simpa using this
      have hpre : ws ++ ['\n'] ++ ['/'] <+: b := by
        have h4 : ws ++ ['\n'] ++ ['/'] <+: b ++ (['*', '/'] ++ rest) := by
          rw [← hsplit]; exact ⟨d, by simp⟩
        exact List.prefix_of_prefix_length_le h4 (List.prefix_append _ _) hle
      obtain ⟨suf, hsuf⟩ := hpre
      refine hb.2 [] ws suf (fun c hc => hrun c (by rw [hws]; simp [hc])) ?_
      simp [← hsuf]
    · unfold splitBetween
      split
      · rename_i he; simp at he; exact absurd he.2.1 hy
      · rfl

theorem run_cComment (b rest : Str) (hb : CommentBody b) : ∀ st : State, st.cond = .cComment →
    run st (b ++ ['*', '/'] ++ rest) = run (st.after (b ++ ['*', '/']) .initial) rest := by
  induction b with
  | nil => intro st hc; exact cComment_end hc
  | cons x b ih =>
    intro st hc
    have hstep := cComment_char hc (body_no_end hb rest) (body_no_split hb rest)
    have ih' := ih (commentBody_tail hb) (st.after [x] .cComment) rfl
    simp only [List.cons_append, List.append_assoc] at hstep ih' ⊢
    rw [hstep, ih', after_after _ _ _ _ _ (by simp)]
    rfl

/-- A comment character that does not begin a line split. -/
theorem comment_char {st : State} (hc : st.cond = .comment) {x : Char} {s : Str}
    (hx : x ≠ '\n') (h1 : split (x :: s) = none) :
    run st (x :: s) = run (st.after [x] .comment) s := by
  have hb : bestMatch st.bol (x :: s) (rules st.cond) = some (1, .stay) := by
    rw [hc]
    exact bestMatch_dom (A := [⟨false, split, .stay⟩, ⟨false, lit ['\n'], .goto .initial⟩])
      (B := []) ⟨val_none h1 _, val_none (by simp [lit]; exact fun h => hx h.symm) _, trivial⟩
      (r := ⟨false, anyChar, .stay⟩) (by simp [Rule.val, anyChar, hx]) trivial
  have := run_stay [x] s rfl (by simp) hb
  rw [hc] at this
  exact this

theorem comment_nl {st : State} (hc : st.cond = .comment) {s : Str} :
    run st ('\n' :: s) = run (st.after ['\n'] .initial) s := by
  have hb : bestMatch st.bol ('\n' :: s) (rules st.cond) = some (1, .goto .initial) := by
    rw [hc]
    exact bestMatch_dom (A := [⟨false, split, .stay⟩]) (B := [⟨false, anyChar, .stay⟩])
      ⟨val_none rfl _, trivial⟩ (r := ⟨false, lit ['\n'], .goto .initial⟩) (by simp [Rule.val, lit])
      ⟨val_none' rfl _, trivial⟩
  exact run_goto ['\n'] s rfl (by simp) hb

theorem throughLastNl_zero {s : Str} : throughLastNl s = 0 ↔ '\n' ∉ s := by
  induction s with
  | nil => simp [throughLastNl]
  | cons c s ih =>
    simp only [throughLastNl, List.mem_cons, not_or]
    split
    · rename_i h
      rw [ih] at h
      split
      · rename_i hc; simp [hc]
      · rename_i hc; simp [h]; exact fun h => hc h.symm
    · rename_i n h
      have : ¬ throughLastNl s = 0 := by omega
      rw [ih] at this
      simp at this
      simp [this]

theorem takeWhile_append_stop {α : Type} {p : α → Bool} {a b : List α} (h : ∃ c ∈ a, p c = false) :
    (a ++ b).takeWhile p = a.takeWhile p := by
  induction a with
  | nil => simp at h
  | cons x a ih =>
    simp only [List.cons_append, List.takeWhile_cons]
    split
    · rename_i hx
      rw [ih]
      obtain ⟨c, hc, hp⟩ := h
      simp at hc
      rcases hc with rfl | hc
      · rw [hx] at hp; cases hp
      · exact ⟨c, hc, hp⟩
    · rfl

theorem lastLine_tail {x : Char} {b : Str} (h : LastLine (x :: b)) : LastLine b :=
  ⟨fun hm => h.1 (by simp [hm]), fun pre ws he => h.2 (x :: pre) ws (by simp [he])⟩

theorem lastLine_no_split {x : Char} {b rest : Str} (h : LastLine (x :: b)) : split (x :: (b ++ rest)) = none := by
  by_cases hx : x = '\\'
  · subst hx
    unfold split
    simp only
    rw [takeWhile_append_stop (h.2 [] b rfl)]
    have : throughLastNl (b.takeWhile isSpace) = 0 := by
      rw [throughLastNl_zero]
      intro hm
      exact h.1 (by simp [(List.takeWhile_sublist _).mem hm])
    rw [this]
  · unfold split; split
    · rename_i he; simp at he; exact absurd he.1 hx
    · rfl

theorem run_lastLine (b rest : Str) (hb : LastLine b) : ∀ st : State, st.cond = .comment →
    run st (b ++ ['\n'] ++ rest) = run (st.after (b ++ ['\n']) .initial) rest := by
  induction b with
  | nil => intro st hc; exact comment_nl hc
  | cons x b ih =>
    intro st hc
    have h1 : split (x :: (b ++ ['\n'] ++ rest)) = none := by
      have := lastLine_no_split (rest := ['\n'] ++ rest) hb
      simpa using this
    have hx : x ≠ '\n' := by intro h; exact hb.1 (by simp [h])
    have ih' := ih (lastLine_tail hb) (st.after [x] .comment) rfl
    simp only [List.cons_append, List.append_assoc] at h1 ih' ⊢
    rw [comment_char hc hx h1, ih', after_after _ _ _ _ _ (by simp)]
    rfl

/-! ### The initial state -/

theorem step_slash_slash {st : State} (hc : st.cond = .initial) (s : Str) :
    run st ('/' :: '/' :: s) = run (st.after ['/', '/'] .comment) s := by
  have hb : bestMatch st.bol ('/' :: '/' :: s) (rules st.cond) = some (2, .goto .comment) := by
    rw [hc]
    exact bestMatch_dom (A := [⟨true, astBeginPat, .astBegin⟩, ⟨true, optionPat, .goto .option⟩])
      (r := ⟨false, lit (str% "//"), .goto .comment⟩) (B := (rules .initial).drop 3)
      ⟨val_none rfl _, val_none rfl _, trivial⟩ (by simp [Rule.val, lit])
      ⟨val_none' rfl _, val_none' rfl _, val_none' rfl _, val_none' rfl _, val_none' rfl _, val_none' rfl _,
       val_none' rfl _, val_none' rfl _, val_none' rfl _, val_none' rfl _, val_none' rfl _, val_none' rfl _,
       val_none' rfl _, val_none' rfl _, val_none' rfl _, val_none' rfl _, val_none' rfl _, val_none' rfl _,
       val_le_bound (fun m h => Nat.le_succ_of_le (anyChar_le _ m h)), trivial⟩
  exact run_goto ['/', '/'] s rfl (by simp) hb

theorem step_slash_star {st : State} (hc : st.cond = .initial) (s : Str) :
    run st ('/' :: '*' :: s) = run (st.after ['/', '*'] .cComment) s := by
  have hb : bestMatch st.bol ('/' :: '*' :: s) (rules st.cond) = some (2, .goto .cComment) := by
    rw [hc]
    exact bestMatch_dom (A := (rules .initial).take 4)
      (r := ⟨false, lit (str% "/*"), .goto .cComment⟩) (B := (rules .initial).drop 5)
      ⟨val_none rfl _, val_none rfl _, val_none rfl _, val_none rfl _, trivial⟩ (by simp [Rule.val, lit])
      ⟨val_none' rfl _, val_none' rfl _, val_none' rfl _, val_none' rfl _,
       val_none' rfl _, val_none' rfl _, val_none' rfl _, val_none' rfl _, val_none' rfl _, val_none' rfl _,
       val_none' rfl _, val_none' rfl _, val_none' rfl _, val_none' rfl _, val_none' rfl _, val_none' rfl _,
       val_le_bound (fun m h => Nat.le_succ_of_le (anyChar_le _ m h)), trivial⟩
  exact run_goto ['/', '*'] s rfl (by simp) hb

theorem space_cases {c : Char} (h : isSpace c = true) :
    c = ' ' ∨ c = '\t' ∨ c = '\n' ∨ c = '\x0b' ∨ c = '\x0c' ∨ c = '\r' := by
  simpa [isSpace, or_assoc] using h

theorem splitBetween_none {a b c : Char} {s : Str} (h : c ≠ a) : splitBetween a b (c :: s) = none := by
  unfold splitBetween
  split
  · rename_i x r he
    rw [if_neg]
    rintro ⟨h', -⟩
    simp at he
    exact h (he.1.trans h')
  · rfl

theorem step_space {st : State} (hc : st.cond = .initial) {c : Char} (hs : isSpace c = true) {s : Str}
    (hp : st.bol = false ∨ preprocPat (c :: s) = none) :
    run st (c :: s) = run (st.after [c] .initial) s := by
  have hb : bestMatch st.bol (c :: s) (rules st.cond) = some (1, .stay) := by
    rw [hc]
    have e1 : spaceChar (c :: s) = some 1 := by simp [spaceChar, hs]
    have hp' : ∀ m, Rule.val ⟨true, preprocPat, .goto .pre⟩ st.bol (c :: s) = some m → m < 1 := by
      intro m hm
      unfold Rule.val at hm
      rcases hp with hp | hp <;> simp [hp] at hm
    refine bestMatch_dom (A := (rules .initial).take 8)
      (r := ⟨false, spaceChar, .stay⟩) (B := (rules .initial).drop 9) ?_ (by simp [Rule.val, e1]) ?_
    · rcases space_cases hs with rfl | rfl | rfl | rfl | rfl | rfl <;>
      exact ⟨val_none rfl _, val_none rfl _, val_none rfl _, val_none (splitBetween_none (by decide)) _, val_none rfl _, val_none (splitBetween_none (by decide)) _,
        hp', val_none rfl _, trivial⟩
    · rcases space_cases hs with rfl | rfl | rfl | rfl | rfl | rfl <;>
      exact ⟨val_none' rfl _, val_none' rfl _, val_none' rfl _, val_none' rfl _, val_none' rfl _, val_none' rfl _,
       val_none' rfl _, val_none' rfl _, val_none' rfl _, val_none' rfl _, val_none' rfl _, val_none' rfl _,
       val_le_bound (anyChar_le _), trivial⟩
  have := run_stay [c] s rfl (by simp) hb
  rw [hc] at this
  exact this

theorem step_punct {st : State} (hc : st.cond = .initial) {c : Char}
    (h : c ∈ ['*', ',', '(', ')', '[', ']', ';', '{', '}', '=']) (s : Str) :
    run st (c :: s) = (⟨punctKind c, [c]⟩ :: (run (st.after [c] .initial) s).1, (run (st.after [c] .initial) s).2) := by
  have hb : bestMatch st.bol (c :: s) (rules st.cond) = some (1, .ret (punctKind c)) := by
    rw [hc]
    simp only [List.mem_cons, List.not_mem_nil, or_false] at h
    have a16 : ∀ x ∈ ['*', ',', '(', ')', '[', ']'], bestMatch st.bol (x :: s) (rules .initial) = some (1, .ret .other) := by
      intro x hx
      simp only [List.mem_cons, List.not_mem_nil, or_false] at hx
      refine bestMatch_dom (A := (rules .initial).take 15)
        (r := ⟨false, otherPat, .ret .other⟩) (B := (rules .initial).drop 16) ?_ ?_ ?_
      · rcases hx with rfl | rfl | rfl | rfl | rfl | rfl <;>
        exact ⟨val_none rfl _, val_none rfl _, val_none rfl _, val_none (splitBetween_none (by decide)) _, val_none rfl _, val_none (splitBetween_none (by decide)) _,
          val_none rfl _, val_none rfl _, val_none rfl _, val_none rfl _, val_none rfl _, val_none rfl _,
          val_none rfl _, val_none rfl _, val_none rfl _, trivial⟩
      · rcases hx with rfl | rfl | rfl | rfl | rfl | rfl <;> rfl
      · rcases hx with rfl | rfl | rfl | rfl | rfl | rfl <;>
        exact ⟨val_none' rfl _, val_none' rfl _, val_none' rfl _, val_none' rfl _, val_none' rfl _,
          val_le_bound (anyChar_le _), trivial⟩
    rcases h with rfl | rfl | rfl | rfl | rfl | rfl | rfl | rfl | rfl | rfl
    iterate 6 exact a16 _ (by simp)
    · exact bestMatch_dom (A := (rules .initial).take 20)
        (r := ⟨false, lit (str% ";"), .ret .semicolon⟩) (B := (rules .initial).drop 21)
        ⟨val_none rfl _, val_none rfl _, val_none rfl _, val_none (splitBetween_none (by decide)) _, val_none rfl _, val_none (splitBetween_none (by decide)) _,
          val_none rfl _, val_none rfl _, val_none rfl _, val_none rfl _, val_none rfl _, val_none rfl _,
          val_none rfl _, val_none rfl _, val_none rfl _, val_none rfl _, val_none rfl _, val_none rfl _,
          val_none rfl _, val_none rfl _, trivial⟩ rfl ⟨val_le_bound (anyChar_le _), trivial⟩
    · exact bestMatch_dom (A := (rules .initial).take 17)
        (r := ⟨false, lit (str% "{"), .ret .curlyOpen⟩) (B := (rules .initial).drop 18)
        ⟨val_none rfl _, val_none rfl _, val_none rfl _, val_none (splitBetween_none (by decide)) _, val_none rfl _, val_none (splitBetween_none (by decide)) _,
          val_none rfl _, val_none rfl _, val_none rfl _, val_none rfl _, val_none rfl _, val_none rfl _,
          val_none rfl _, val_none rfl _, val_none rfl _, val_none rfl _, val_none rfl _, trivial⟩ rfl
        ⟨val_none' rfl _, val_none' rfl _, val_none' rfl _, val_le_bound (anyChar_le _), trivial⟩
    · exact bestMatch_dom (A := (rules .initial).take 18)
        (r := ⟨false, lit (str% "}"), .ret .curlyClose⟩) (B := (rules .initial).drop 19)
        ⟨val_none rfl _, val_none rfl _, val_none rfl _, val_none (splitBetween_none (by decide)) _, val_none rfl _, val_none (splitBetween_none (by decide)) _,
          val_none rfl _, val_none rfl _, val_none rfl _, val_none rfl _, val_none rfl _, val_none rfl _,
          val_none rfl _, val_none rfl _, val_none rfl _, val_none rfl _, val_none rfl _, val_none rfl _,
          trivial⟩ rfl ⟨val_none' rfl _, val_none' rfl _, val_le_bound (anyChar_le _), trivial⟩
    · exact bestMatch_dom (A := (rules .initial).take 19)
        (r := ⟨false, lit (str% "="), .ret .equal⟩) (B := (rules .initial).drop 20)
        ⟨val_none rfl _, val_none rfl _, val_none rfl _, val_none (splitBetween_none (by decide)) _, val_none rfl _, val_none (splitBetween_none (by decide)) _,
          val_none rfl _, val_none rfl _, val_none rfl _, val_none rfl _, val_none rfl _, val_none rfl _,
          val_none rfl _, val_none rfl _, val_none rfl _, val_none rfl _, val_none rfl _, val_none rfl _,
          val_none rfl _, trivial⟩ rfl ⟨val_none' rfl _, val_le_bound (anyChar_le _), trivial⟩
  have := run_ret [c] s rfl (by simp) hb
  rw [hc] at this
  exact this

theorem step_dots {st : State} (hc : st.cond = .initial) (s : Str) :
    run st ('.' :: '.' :: '.' :: s) = (⟨.other, ['.', '.', '.']⟩ :: (run (st.after ['.', '.', '.'] .initial) s).1,
      (run (st.after ['.', '.', '.'] .initial) s).2) := by
  have hb : bestMatch st.bol ('.' :: '.' :: '.' :: s) (rules st.cond) = some (3, .ret .other) := by
    rw [hc]
    exact bestMatch_dom (A := (rules .initial).take 16)
      (r := ⟨false, lit (str% "..."), .ret .other⟩) (B := (rules .initial).drop 17)
      ⟨val_none rfl _, val_none rfl _, val_none rfl _, val_none rfl _, val_none rfl _, val_none rfl _,
        val_none rfl _, val_none rfl _, val_none rfl _, val_none rfl _, val_none rfl _, val_none rfl _,
        val_none rfl _, val_none rfl _, val_none rfl _, val_none rfl _, trivial⟩ rfl
      ⟨val_none' rfl _, val_none' rfl _, val_none' rfl _, val_none' rfl _,
        val_le_bound (fun m h => by have := anyChar_le _ m h; omega), trivial⟩
  have := run_ret ['.', '.', '.'] s rfl (by simp) hb
  rw [hc] at this
  exact this

/-! ### Words -/

/-- The word ends before `s`. -/
def NoWord (s : Str) : Prop := ∀ c, s.head? = some c → isWord c = false

theorem takeWhile_word {w s : Str} (hw : ∀ c ∈ w, isWord c = true) (hs : NoWord s) :
    (w ++ s).takeWhile isWord = w := by
  induction w with
  | nil =>
    cases s with
    | nil => rfl
    | cons c s => have := hs c rfl; simp [this]
  | cons a w ih =>
    simp [hw a (by simp), ih (fun c hc => hw c (by simp [hc]))]

theorem word_ne {c : Char} (h : isWord c = true) (d : Char) (hd : isWord d = false) : c ≠ d := by
  intro he; rw [he, hd] at h; cases h

theorem lit_other_head {l : Str} {d : Char} {l' : Str} (hl : l = d :: l') {c : Char} {s : Str} (h : c ≠ d) :
    lit l (c :: s) = none := by
  subst hl
  unfold lit
  rw [if_neg]
  simp
  intro h'; exact absurd h'.symm h

theorem skipBom_other {c : Char} {s : Str} (h : c ≠ '\xef') : skipBom (c :: s) = c :: s := by
  unfold skipBom
  rw [if_neg]
  simp [bom]
  intro h'; exact absurd h'.symm h

theorem skipCol_other {c : Char} {s : Str} (h : c ≠ '\x1b') : skipCol (c :: s) = c :: s := by
  unfold skipCol
  split
  · rename_i he; simp at he; exact absurd he.1 h
  · rfl

theorem word_not_space {c : Char} (h : isWord c = true) : isSpace c = false := by
  rw [Bool.eq_false_iff]
  intro hs
  rcases space_cases hs with rfl | rfl | rfl | rfl | rfl | rfl <;> exact absurd h (by decide)

/-- A literal of word characters that matches is a prefix of the word. -/
theorem lit_word {l w s : Str} (hl : ∀ c ∈ l, isWord c = true) (hs : NoWord s) {m : Nat}
    (h : lit l (w ++ s) = some m) : m = l.length ∧ l <+: w := by
  unfold lit at h
  split at h
  · rename_i hp
    rw [List.isPrefixOf_iff_prefix] at hp
    refine ⟨by simpa using h.symm, ?_⟩
    clear h
    induction l generalizing w with
    | nil => exact List.nil_prefix
    | cons a l ih =>
      cases w with
      | nil =>
        obtain ⟨t, ht⟩ := hp
        have := hs a (by rw [← List.nil_append s, ← ht]; rfl)
        rw [hl a (by simp)] at this; cases this
      | cons b w =>
        rw [List.cons_append, List.cons_prefix_cons] at hp
        obtain ⟨rfl, hp⟩ := hp
        rw [List.cons_prefix_cons]
        exact ⟨rfl, ih (fun c hc => hl c (by simp [hc])) hp⟩
  · simp at h

theorem lit_word_lt {l w s : Str} (hl : ∀ c ∈ l, isWord c = true) (hs : NoWord s) (hne : w ≠ l) :
    ∀ m, lit l (w ++ s) = some m → m < w.length := by
  intro m h
  obtain ⟨rfl, hp⟩ := lit_word hl hs h
  have := hp.length_le
  rcases Nat.lt_or_ge l.length w.length with h | h
  · exact h
  · exact absurd (hp.eq_of_length (by omega)).symm hne

theorem lit_word_le {l w s : Str} (hl : ∀ c ∈ l, isWord c = true) (hs : NoWord s) :
    ∀ m, lit l (w ++ s) = some m → m ≤ w.length := by
  intro m h
  obtain ⟨rfl, hp⟩ := lit_word hl hs h
  exact hp.length_le

theorem astBegin_word {w s : Str} (hw : ∀ c ∈ w, isWord c = true) (hne : w ≠ []) (hs : NoWord s)
    (ht : w ≠ str% "TranslationUnitDecl") : astBeginPat (w ++ s) = none := by
  cases w with
  | nil => exact absurd rfl hne
  | cons a w =>
    have ha := hw a (by simp)
    unfold astBeginPat
    rw [List.cons_append, skipBom_other (word_ne ha _ (by decide)), skipCol_other (word_ne ha _ (by decide))]
    cases hal : afterLit (str% "TranslationUnitDecl") (a :: (w ++ s)) with
    | none => rfl
    | some r =>
      have hp : (str% "TranslationUnitDecl").isPrefixOf ((a :: w) ++ s) = true := by
        unfold afterLit at hal; split at hal
        · assumption
        · simp at hal
      have hlit : lit (str% "TranslationUnitDecl") ((a :: w) ++ s) = some 19 := by
        unfold lit; rw [if_pos hp]; rfl
      obtain ⟨-, hpre⟩ := lit_word (by decide) hs hlit
      obtain ⟨t, htt⟩ := hpre
      cases t with
      | nil => exact absurd (by simpa using htt.symm) ht
      | cons b t =>
        have hb : isWord b = true := hw b (by rw [← htt]; simp)
        have hr : r = b :: (t ++ s) := by
          unfold afterLit at hal
          rw [← List.cons_append, if_pos hp, ← htt] at hal
          simpa using hal.symm
        subst hr
        simp only [Option.bind_eq_bind, Option.bind_some]
        rw [skipCol_other (word_ne hb _ (by decide)), skipCol_other (word_ne hb _ (by decide))]
        have : afterLit (str% " 0x") (b :: (t ++ s)) = none := by
          unfold afterLit
          rw [if_neg]
          simp
          intro h'; exact absurd h'.symm (word_ne hb _ (by decide))
        rw [this]
        rfl

/-- Rules that do not match at a word. -/
theorem word_none {a : Char} {s : Str} (ha : isWord a = true) :
    optionPat (a :: s) = none ∧ lit (str% "//") (a :: s) = none ∧ splitBetween '/' '/' (a :: s) = none ∧
    lit (str% "/*") (a :: s) = none ∧ splitBetween '/' '*' (a :: s) = none ∧ preprocPat (a :: s) = none ∧
    lit bom (a :: s) = none ∧ spaceChar (a :: s) = none := by
  have hslash := word_ne ha '/' (by decide)
  have hsb : ∀ b, splitBetween '/' b (a :: s) = none := by
    intro b
    unfold splitBetween
    split
    · rename_i x r he
      simp at he
      simp only
      rw [if_neg]
      rintro ⟨h, -⟩
      rw [← he.1] at h
      exact hslash h
    · rfl
  refine ⟨?_, lit_other_head rfl hslash, hsb _, lit_other_head rfl hslash, hsb _, ?_,
    lit_other_head rfl (word_ne ha _ (by decide)), ?_⟩
  · unfold optionPat
    rw [skipBom_other (word_ne ha _ (by decide))]
    have : afterLit (str% "%option") (a :: s) = none := by
      unfold afterLit
      rw [if_neg]
      simp
      intro h'; exact absurd h'.symm (word_ne ha _ (by decide))
    rw [this]
    rfl
  · unfold preprocPat
    rw [skipBom_other (word_ne ha _ (by decide)), List.dropWhile_cons, word_not_space ha]
    simp only [Bool.false_eq_true, if_false]
    split
    · rename_i he; simp at he; exact absurd he.1 (word_ne ha _ (by decide))
    · rfl
  · simp [spaceChar, word_not_space ha]

theorem word_none' {a : Char} {s : Str} (ha : isWord a = true) :
    otherPat (a :: s) = none ∧ lit (str% "...") (a :: s) = none ∧ lit (str% "{") (a :: s) = none ∧
    lit (str% "}") (a :: s) = none ∧ lit (str% "=") (a :: s) = none ∧ lit (str% ";") (a :: s) = none := by
  refine ⟨?_, lit_other_head rfl (word_ne ha _ (by decide)), lit_other_head rfl (word_ne ha _ (by decide)),
    lit_other_head rfl (word_ne ha _ (by decide)), lit_other_head rfl (word_ne ha _ (by decide)),
    lit_other_head rfl (word_ne ha _ (by decide))⟩
  unfold otherPat
  simp only
  rw [if_neg]
  simp
  exact ⟨word_ne ha _ (by decide), word_ne ha _ (by decide), word_ne ha _ (by decide), word_ne ha _ (by decide),
    word_ne ha _ (by decide), word_ne ha _ (by decide)⟩

/-- The action for a word. -/
def wordAct (w : Str) : Act := if w = str% "extern" then .stay else .ret (wordKind w)

theorem bestMatch_word {bol : Bool} {w s : Str} (hw : ∀ c ∈ w, isWord c = true) (hne : w ≠ []) (hs : NoWord s)
    (ht : w ≠ str% "TranslationUnitDecl") :
    bestMatch bol (w ++ s) (rules .initial) = some (w.length, wordAct w) := by
  have hast := astBegin_word hw hne hs ht
  obtain ⟨a, w', rfl⟩ : ∃ a w', w = a :: w' := by
    cases w with
    | nil => exact absurd rfl hne
    | cons a w' => exact ⟨a, w', rfl⟩
  have ha := hw a (by simp)
  obtain ⟨n1, n2, n3, n4, n5, n6, n7, n8⟩ := word_none (s := w' ++ s) ha
  obtain ⟨m1, m2, m3, m4, m5, m6⟩ := word_none' (s := w' ++ s) ha
  have hid : identPat ((a :: w') ++ s) = some (a :: w').length := by
    unfold identPat
    rw [takeWhile_word hw hs]
    rfl
  have hany : ∀ m, anyChar ((a :: w') ++ s) = some m → m ≤ (a :: w').length := by
    intro m h
    have := anyChar_le _ m h
    simp only [List.length_cons]
    omega
  rw [List.cons_append] at hast
  generalize hW : a :: w' = w at *
  have hWs : a :: (w' ++ s) = w ++ s := by rw [← hW]; rfl
  rw [hWs] at hast n1 n2 n3 n4 n5 n6 n7 n8 m1 m2 m3 m4 m5 m6
  have kw : ∀ l ∈ [str% "extern", str% "struct", str% "union", str% "enum", str% "typedef"], ∀ c ∈ l, isWord c = true := by
    decide
  unfold wordAct wordKind
  by_cases h1 : w = str% "extern"
  · rw [if_pos h1]
    refine bestMatch_dom (A := (rules .initial).take 9) (r := ⟨false, lit (str% "extern"), .stay⟩)
      (B := (rules .initial).drop 10)
      ⟨val_none hast _, val_none n1 _, val_none n2 _, val_none n3 _, val_none n4 _, val_none n5 _,
        val_none n6 _, val_none n7 _, val_none n8 _, trivial⟩ (by subst h1; rfl)
      ⟨val_le_bound (lit_word_le (kw _ (by simp)) hs), val_le_bound (lit_word_le (kw _ (by simp)) hs),
        val_le_bound (lit_word_le (kw _ (by simp)) hs), val_le_bound (lit_word_le (kw _ (by simp)) hs),
        val_le hid (Nat.le_refl _), val_none' m1 _, val_none' m2 _, val_none' m3 _, val_none' m4 _,
        val_none' m5 _, val_none' m6 _, val_le_bound hany, trivial⟩
  rw [if_neg h1]
  by_cases h2 : w = str% "struct"
  · rw [if_pos h2]
    refine bestMatch_dom (A := (rules .initial).take 10) (r := ⟨false, lit (str% "struct"), .ret .struct_⟩)
      (B := (rules .initial).drop 11)
      ⟨val_none hast _, val_none n1 _, val_none n2 _, val_none n3 _, val_none n4 _, val_none n5 _,
        val_none n6 _, val_none n7 _, val_none n8 _, val_lt_bound (lit_word_lt (kw _ (by simp)) hs h1), trivial⟩
      (by subst h2; rfl)
      ⟨val_le_bound (lit_word_le (kw _ (by simp)) hs),
        val_le_bound (lit_word_le (kw _ (by simp)) hs), val_le_bound (lit_word_le (kw _ (by simp)) hs),
        val_le hid (Nat.le_refl _), val_none' m1 _, val_none' m2 _, val_none' m3 _, val_none' m4 _,
        val_none' m5 _, val_none' m6 _, val_le_bound hany, trivial⟩
  rw [if_neg h2]
  by_cases h3 : w = str% "union"
  · rw [if_pos h3]
    refine bestMatch_dom (A := (rules .initial).take 11) (r := ⟨false, lit (str% "union"), .ret .union_⟩)
      (B := (rules .initial).drop 12)
      ⟨val_none hast _, val_none n1 _, val_none n2 _, val_none n3 _, val_none n4 _, val_none n5 _,
        val_none n6 _, val_none n7 _, val_none n8 _, val_lt_bound (lit_word_lt (kw _ (by simp)) hs h1),
        val_lt_bound (lit_word_lt (kw _ (by simp)) hs h2), trivial⟩
      (by subst h3; rfl)
      ⟨val_le_bound (lit_word_le (kw _ (by simp)) hs), val_le_bound (lit_word_le (kw _ (by simp)) hs),
        val_le hid (Nat.le_refl _), val_none' m1 _, val_none' m2 _, val_none' m3 _, val_none' m4 _,
        val_none' m5 _, val_none' m6 _, val_le_bound hany, trivial⟩
  rw [if_neg h3]
  by_cases h4 : w = str% "enum"
  · rw [if_pos h4]
    refine bestMatch_dom (A := (rules .initial).take 12) (r := ⟨false, lit (str% "enum"), .ret .enum_⟩)
      (B := (rules .initial).drop 13)
      ⟨val_none hast _, val_none n1 _, val_none n2 _, val_none n3 _, val_none n4 _, val_none n5 _,
        val_none n6 _, val_none n7 _, val_none n8 _, val_lt_bound (lit_word_lt (kw _ (by simp)) hs h1),
        val_lt_bound (lit_word_lt (kw _ (by simp)) hs h2), val_lt_bound (lit_word_lt (kw _ (by simp)) hs h3), trivial⟩
      (by subst h4; rfl)
      ⟨val_le_bound (lit_word_le (kw _ (by simp)) hs),
        val_le hid (Nat.le_refl _), val_none' m1 _, val_none' m2 _, val_none' m3 _, val_none' m4 _,
        val_none' m5 _, val_none' m6 _, val_le_bound hany, trivial⟩
  rw [if_neg h4]
  by_cases h5 : w = str% "typedef"
  · rw [if_pos h5]
    refine bestMatch_dom (A := (rules .initial).take 13) (r := ⟨false, lit (str% "typedef"), .ret .typedef_⟩)
      (B := (rules .initial).drop 14)
      ⟨val_none hast _, val_none n1 _, val_none n2 _, val_none n3 _, val_none n4 _, val_none n5 _,
        val_none n6 _, val_none n7 _, val_none n8 _, val_lt_bound (lit_word_lt (kw _ (by simp)) hs h1),
        val_lt_bound (lit_word_lt (kw _ (by simp)) hs h2), val_lt_bound (lit_word_lt (kw _ (by simp)) hs h3),
        val_lt_bound (lit_word_lt (kw _ (by simp)) hs h4), trivial⟩
      (by subst h5; rfl)
      ⟨val_le hid (Nat.le_refl _), val_none' m1 _, val_none' m2 _, val_none' m3 _, val_none' m4 _,
        val_none' m5 _, val_none' m6 _, val_le_bound hany, trivial⟩
  rw [if_neg h5]
  refine bestMatch_dom (A := (rules .initial).take 14) (r := ⟨false, identPat, .ret .id⟩)
      (B := (rules .initial).drop 15)
      ⟨val_none hast _, val_none n1 _, val_none n2 _, val_none n3 _, val_none n4 _, val_none n5 _,
        val_none n6 _, val_none n7 _, val_none n8 _, val_lt_bound (lit_word_lt (kw _ (by simp)) hs h1),
        val_lt_bound (lit_word_lt (kw _ (by simp)) hs h2), val_lt_bound (lit_word_lt (kw _ (by simp)) hs h3),
        val_lt_bound (lit_word_lt (kw _ (by simp)) hs h4), val_lt_bound (lit_word_lt (kw _ (by simp)) hs h5), trivial⟩
      hid
      ⟨val_none' m1 _, val_none' m2 _, val_none' m3 _, val_none' m4 _,
        val_none' m5 _, val_none' m6 _, val_le_bound hany, trivial⟩

end Gdo.Lex
