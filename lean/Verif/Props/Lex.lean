import Verif.Lemmas.LexSource
import Verif.Lemmas.Stream

/-! Properties of the scanner and of the splitting into statements (C01-C06, C55, C56). -/

namespace Gdo.Props
open Gdo Lex Spec

/-! ### C01 -/

/-- **C01** In every state of the scanner every non-empty input has a match that consumes
    at least one byte; the default rule of flex (copying to standard output) is not used. -/
theorem C01_progress (st : State) (x : Char) (s : Str) :
    ∃ txt rest, (step st (x :: s)).2 = txt ∧ txt ≠ [] ∧ x :: s = txt ++ rest ∧ (step st (x :: s)).1 ≠ .stop .echo := by
  obtain ⟨txt, rest, h1, h2, h3, h4, -⟩ := step_text st x s
  exact ⟨txt, rest, h1, h2, h3, h4⟩

/-- **C01** Scanning any input from any state ends at the end of the input or with a
    reported error, never in the default rule. -/
theorem C01_silent (st : State) (s : Str) :
    (run st s).2 = .eof ∨ (∃ c l, (run st s).2 = .illegal c l) ∨ ∃ l, (run st s).2 = .astNotFirst l := by
  have := run_not_echo st s
  cases h : (run st s).2 with
  | eof => exact Or.inl rfl
  | illegal c l => exact Or.inr (Or.inl ⟨c, l, rfl⟩)
  | astNotFirst l => exact Or.inr (Or.inr ⟨l, rfl⟩)
  | echo => exact absurd h this

/-- **C01** The number of matches is bounded by the length of the input: more steps do
    not change the result. -/
theorem C01_steps_suffice (st : State) (s : Str) (n : Nat) (h : s.length < n) : runFuel n st s = run st s :=
  runFuel_enough n (s.length + 1) st s h (Nat.lt_succ_self _)

/-- **C01** The texts of the tokens are parts of the input, in order and without overlap. -/
theorem C01_tokens_are_input (st : State) (s : Str) : ((run st s).1.map (·.text)).flatten.Sublist s := by
  suffices h : ∀ n (st : State) (s : Str), s.length ≤ n → ((run st s).1.map (·.text)).flatten.Sublist s from
    h s.length st s (Nat.le_refl _)
  intro n
  induction n with
  | zero =>
    intro st s hs
    have := List.length_eq_zero_iff.mp (Nat.le_zero.mp hs); subst this
    exact List.Sublist.refl _
  | succ n ih =>
    intro st s hs
    cases s with
    | nil => exact List.Sublist.refl _
    | cons x s =>
      obtain ⟨txt, rest, h1, h2, h3, -, h5⟩ := step_text st x s
      rw [run_cons]
      have hlen : rest.length ≤ n := by
        have := congrArg List.length h3
        have h2' := List.length_pos_iff.mpr h2
        simp at this hs; omega
      have key : ∀ st', ((run st' rest).1.map (·.text)).flatten.Sublist rest := fun st' => ih st' rest hlen
      cases hstep : step st (x :: s) with
      | mk a t =>
        have ht : t = txt := by rw [← h1, hstep]
        subst ht
        cases a with
        | stop e => exact List.nil_sublist _
        | next st' tok =>
          cases tok with
          | none =>
            simp only [h5]
            rw [h3]
            exact (key st').trans (List.sublist_append_right _ _)
          | some tk =>
            simp only [h5]
            rw [h3]
            have : tk.text = t := by
              unfold step at hstep
              cases hb : bestMatch st.bol (x :: s) (rules st.cond) with
              | none => rw [hb] at hstep; simp at hstep
              | some r =>
                obtain ⟨k, a⟩ := r
                rw [hb] at hstep
                simp only [Prod.mk.injEq] at hstep
                obtain ⟨ha, hk⟩ := hstep
                cases a with
                | goto c => simp [Act.effect] at ha
                | stay => simp [Act.effect] at ha
                | ret kd => simp [Act.effect] at ha; rw [← ha.2, ← hk]
                | astBegin =>
                  simp only [Act.effect] at ha
                  split at ha
                  · simp at ha; rw [← ha.2, ← hk]
                  · simp at ha
                | illegal => simp [Act.effect] at ha
            simp only [List.map_cons, List.flatten_cons, this]
            exact List.Sublist.append (List.Sublist.refl _) (key st')

/-- An illegal character is reported with the tokens before it. -/
example : run {} (str% "int @") = ([⟨.id, str% "int"⟩], .illegal '@' 1) := rfl

/-! ### C02 -/

/-- **C02** The scanner reads exactly the tokens of a source text made of white space,
    comments, directives, option lines, words and punctuation. -/
theorem C02_source_read (ps : List Piece) (h : Source ps) : run {} (render ps) = (tokens ps, .eof) :=
  run_source ps.length ps (Nat.le_refl _) {} rfl h.1 h.2.1 h.2.2

theorem placed_token {s b s' b' : Bool} {q : Piece} {qs : List Piece} (hq : q.isToken = true) (h : Placed s b (q :: qs)) :
    Placed s' b' (q :: qs) := by
  cases q <;> first | (simp [Piece.isToken] at hq; done) | exact ⟨trivial, by simpa [Piece.endsLine] using h.2⟩

theorem placed_insert (ps sep : List Piece) (q : Piece) (qs : List Piece) (hsep : ∀ p ∈ sep, p.isGap = true)
    (hq : q.isToken = true) : ∀ {s b : Bool}, Placed s b (ps ++ q :: qs) → Placed s b (ps ++ sep ++ q :: qs) := by
  induction ps with
  | nil =>
    induction sep with
    | nil => intro s b h; exact h
    | cons p sep ih =>
      intro s b h
      have hp := hsep p (by simp)
      refine ⟨?_, ih (fun x hx => hsep x (by simp [hx])) (placed_token hq h)⟩
      cases p <;> first | (simp [Piece.isGap] at hp; done) | trivial
  | cons p ps ih => intro s b h; exact ⟨h.1, ih h.2⟩

theorem separated_cons {p : Piece} {ps : List Piece} (h : Separated ps) (hp : ∀ w w' ps', p = .word w → ps = .word w' :: ps' → False) :
    Separated (p :: ps) := by
  cases p <;> try exact h
  cases ps with
  | nil => trivial
  | cons q ps =>
    cases q <;> first | exact h | exact hp _ _ _ rfl rfl

theorem separated_insert (ps sep qs : List Piece) (hsep : ∀ p ∈ sep, p.isGap = true) (h : Separated (ps ++ qs)) :
    Separated (ps ++ sep ++ qs) := by
  induction ps with
  | nil =>
    induction sep with
    | nil => exact h
    | cons p sep ih =>
      refine separated_cons (ih (fun x hx => hsep x (by simp [hx]))) ?_
      intro w w' ps' he _
      have := hsep p (by simp)
      rw [he] at this; cases this
  | cons p ps ih =>
    refine separated_cons (ih (separated_tail h)) ?_
    rintro w w' ps' rfl he
    cases ps with
    | nil =>
      cases sep with
      | nil => simp at he; subst he; exact h
      | cons r sep =>
        simp at he
        have := hsep r (by simp)
        rw [he.1] at this; cases this
    | cons r ps =>
      simp at he
      obtain ⟨rfl, -⟩ := he
      exact h

/-- **C02** Inserting white space and comments in front of a token changes neither the
    declarations nor the options read from the input. -/
theorem C02_gaps_irrelevant (ps sep : List Piece) (q : Piece) (qs : List Piece)
    (h : Source (ps ++ q :: qs)) (hq : q.isToken = true)
    (hsep : ∀ p ∈ sep, p.isGap = true ∧ p.Valid) :
    Source (ps ++ sep ++ q :: qs) ∧
    ∀ ro, tokenizeStream ro (render (ps ++ sep ++ q :: qs)) = tokenizeStream ro (render (ps ++ q :: qs)) := by
  have hs : Source (ps ++ sep ++ q :: qs) := by
    refine ⟨?_, separated_insert ps sep _ (fun p hp => (hsep p hp).1) h.2.1,
      placed_insert ps sep q qs (fun p hp => (hsep p hp).1) hq h.2.2⟩
    intro p hp
    simp only [List.mem_append] at hp
    rcases hp with (hp | hp) | hp
    · exact h.1 p (by simp [hp])
    · exact (hsep p hp).2
    · exact h.1 p (by rw [List.mem_append]; exact Or.inr hp)
  refine ⟨hs, ?_⟩
  intro ro
  unfold tokenizeStream
  rw [C02_source_read _ hs, C02_source_read _ h]
  have : tokens (ps ++ sep ++ q :: qs) = tokens (ps ++ q :: qs) := by
    have hz : tokens sep = [] := by
      have hg : ∀ p ∈ sep, p.toks = [] := by
        intro p hp
        have := (hsep p hp).1
        cases p <;> first | rfl | (simp [Piece.isGap] at this; done)
      clear hs hsep h
      induction sep with
      | nil => rfl
      | cons p sep ih =>
        have e1 := hg p (by simp)
        have e2 := ih (fun x hx => hg x (by simp [hx]))
        simp only [tokens, List.map_cons, List.flatten_cons, e1, List.nil_append] at e2 ⊢
        exact e2
    simp only [tokens, List.map_append, List.flatten_append] at hz ⊢
    rw [hz]; simp
  rw [this]

/-- `int/* a ** b */x;` with a comment that ends in stars. -/
example : Source [.word (str% "int"), .space ' ', .word (str% "x"), .punct ';'] ∧
    (Piece.cComment (str% " a\n** b *")).Valid ∧ (Piece.lineComment ⟨[str% " two", str% " lines"], str% " end"⟩).Valid := by
  refine ⟨⟨?_, trivial, ?_⟩, ?_, ⟨by decide, ?_⟩, ?_⟩
  · intro p hp
    simp at hp
    rcases hp with rfl | rfl | rfl | rfl
    · exact ⟨by decide, by decide, by decide⟩
    · rfl
    · exact ⟨by decide, by decide, by decide⟩
    · show ';' ∈ _; decide
  · simp [Placed]
  · exact commentBody_of (by decide) (by decide)
  · exact lastLine_of (by decide) (by decide)
  · right; exact ⟨'e', by decide, by decide⟩

/-! ### C03 -/

/-- **C03** (partial: logical lines that do not end in a blank continuation line, see
    `C03_violated`.)  A `//` comment hides exactly its logical line; scanning goes on in the
    initial state at the beginning of the next line, whatever follows. -/
theorem C03_comment_ends_partial (l : Logical) (hv : l.Valid) (hb : l.NoBlankEnd) (rest : Str) (st : State)
    (hc : st.cond = .initial) :
    run st (['/', '/'] ++ l.text ++ rest) = run { cond := .initial, bol := true, line := st.line + nlCount l.text } rest := by
  have h1 := step_slash_slash hc (l.text ++ rest)
  have h2 := run_logical l rest hv hb (st.after ['/', '/'] .comment) rfl
  rw [after_after _ _ _ _ _ (by simp [Logical.text])] at h2
  simp only [List.cons_append, List.nil_append, List.append_assoc] at h1 h2 ⊢
  rw [h1, h2]
  congr 1
  have : ('/' :: '/' :: l.text).getLast? = some '\n' := by
    show (['/', '/'] ++ l.text).getLast? = _
    unfold Logical.text; rw [List.getLast?_append, List.getLast?_append]; rfl
  simp only [State.after, this]
  simp [nlCount]

/-- The text of a comment line with a continuation meets the hypotheses. -/
example : (Logical.mk [str% " a"] (str% " b")).Valid ∧ (Logical.mk [str% " a"] (str% " b")).NoBlankEnd := by
  exact ⟨⟨by decide, lastLine_of (by decide) (by decide)⟩, Or.inr ⟨'b', by decide, by decide⟩⟩

/-- **C03 is violated**: if the line after the continuation is blank, the comment also
    hides the line after it.  Here the declaration of `x` on the third line is not read. -/
theorem C03_violated :
    ∃ l : Logical, l.Valid ∧ ∃ rest : Str, (run {} rest).1 ≠ [] ∧ run {} (['/', '/'] ++ l.text ++ rest) = ([], .eof) := by
  exact ⟨⟨[str% " a"], []⟩, ⟨by decide, lastLine_of (by decide) (by decide)⟩, str% "int x;\n", by decide, by rfl⟩

/-! ### C04 -/

/-- **C04** (partial: `%option` followed by a blank, words that do not end in a backslash,
    no blank continuation lines, see `C04_violated`.)  The words of the logical line are
    options and scanning goes on in the initial state on the next line. -/
theorem C04_option_line_partial (c : Char) (os : List OSeg) (hv : (Piece.option c os).Valid) (rest : Str) (st : State)
    (hc : st.cond = .initial) (hb : st.bol = true) :
    ∃ line, run st ((Piece.option c os).text ++ rest) =
      (os.filterMap OSeg.tok ++ (run { cond := .initial, bol := true, line := line } rest).1,
       (run { cond := .initial, bol := true, line := line } rest).2) := by
  have h1 := step_option hc hb hv.1 (optText os ++ ['\n'] ++ rest)
  have h2 := run_optLine os rest hv.2.2 (st.after ((str% "%option") ++ [c]) .option) rfl
  rw [after_after _ _ _ _ _ (by simp)] at h2
  refine ⟨st.line + nlCount ((str% "%option") ++ [c] ++ (optText os ++ ['\n'])), ?_⟩
  simp only [Piece.text, List.append_assoc] at h1 h2 ⊢
  rw [h1, h2]
  have : st.after ((str% "%option") ++ ([c] ++ (optText os ++ ['\n']))) .initial =
      { cond := .initial, bol := true, line := st.line + nlCount ((str% "%option") ++ ([c] ++ (optText os ++ ['\n']))) } := by
    have hl : ((str% "%option") ++ ([c] ++ (optText os ++ ['\n']))).getLast? = some '\n' := by
      rw [List.getLast?_append, List.getLast?_append, List.getLast?_append]; rfl
    simp only [State.after, hl]
    rfl
  rw [this]

/-- An option line with a continuation meets the hypotheses. -/
example : (Piece.option ' ' [.word (str% "-a=b"), .blank ' ', .cont, .blank '\t', .word (str% "-c")]).Valid := by
  refine ⟨by decide, by decide, by decide, by decide, by decide, by decide, Or.inr ⟨_, _, rfl⟩, by decide, by decide,
    ⟨'-', by decide, by decide⟩, by decide, by decide, by decide, by decide, by decide, by decide, Or.inl rfl, trivial⟩

/-- **C04 is violated**: with nothing after `%option` the words of the next line are taken
    as options. -/
theorem C04_violated :
    tokenizeStream true (str% "%option\nint x;\n") = ([], [str% "int", str% "x;"], .eof) ∧
    tokenizeStream true (str% "%option \nint x;\n") = ([[str% "int", str% "x"]], [], .eof) := ⟨rfl, rfl⟩

/-- **C04 is violated**: a backslash directly after an option word becomes part of the word
    and the option line is not continued. -/
theorem C04_violated_continuation :
    tokenizeStream true (str% "%option -a\\\nb\n") = ([[str% "b"]], [str% "-a\\"], .eof) := rfl

/-! ### C05, C06, C55 -/

/-- **C05, C06** The declarations and options read from a list of statements: type
    definitions and empty statements contribute nothing, each other statement contributes its
    tokens, in order. -/
theorem C06_statements (l : List Stmt) (h : ∀ s ∈ l, s.Valid) :
    streamLoop true (stmtToks l) .eof {} = (declsOf l, optionsOf (stmtToks l), .eof) := by
  obtain ⟨c, hc⟩ := stream_stmts l [] .eof h {} rfl rfl
  rw [List.append_nil] at hc
  rw [hc]
  simp [streamLoop, streamDone]

/-- **C06** The last semicolon may be missing. -/
theorem C06_last_semicolon (l : List Stmt) (h : ∀ s ∈ l, s.Valid) (ts : List Tok) (ht : DeclToks ts) :
    streamLoop true (stmtToks l ++ ts) .eof {} = streamLoop true (stmtToks (l ++ [.decl ts])) .eof {} := by
  have hv : ∀ s ∈ l ++ [Stmt.decl ts], s.Valid := by
    intro s hs
    simp at hs
    rcases hs with hs | rfl
    · exact h s hs
    · exact ht
  rw [C06_statements _ hv]
  obtain ⟨c, hc⟩ := stream_stmts l ts .eof h {} rfl rfl
  rw [hc]
  obtain ⟨hk, t, ts', hcd, hnb⟩ := ht
  have h2 := stream_decl_tail ts [] .eof { vec := declsOf l, curly := c, options := optionsOf (stmtToks l) } rfl hk
    (Or.inr (Or.inr ⟨t, ts', hcd, hnb⟩))
  rw [List.append_nil] at h2
  simp only [List.nil_append] at h2 ⊢
  rw [h2]
  simp [streamLoop, streamDone, hcd, declsOf, stmtToks, Stmt.toks, optionsOf, semi]

/-- **C06** Behind whole statements and the tokens of an unfinished declaration, a brace or
    an equal sign is reported as an error, whatever follows. -/
theorem C06_braces_reported (l : List Stmt) (h : ∀ s ∈ l, s.Valid) (ts : List Tok) (ht : ts = [] ∨ DeclToks ts) (t : Tok)
    (hk : t.kind = .curlyOpen ∨ t.kind = .curlyClose ∨ t.kind = .equal) (rest : List Tok) (e : End) :
    (streamLoop true (stmtToks l ++ (ts ++ t :: rest)) e {}).2.2 = .error := by
  obtain ⟨c, hc⟩ := stream_stmts l (ts ++ t :: rest) e h {} rfl rfl
  rw [hc]
  have bad : ∀ st : Stream, st.block = false → (streamLoop true (t :: rest) e st).2.2 = .error := by
    intro st hb
    have : streamStep true st t = .inr .error := by
      rcases hk with hk | hk | hk <;> simp [streamStep, hb, hk]
    rw [streamLoop, this]; rfl
  rcases ht with rfl | ⟨hkd, x, xs, hcd, hnb⟩
  · exact bad _ rfl
  · rw [stream_decl_tail ts _ e _ rfl hkd (Or.inr (Or.inr ⟨x, xs, hcd, hnb⟩))]
    exact bad _ rfl

/-- `int x; int y = 1;` ends with an error. -/
example : tokenizeStream true (str% "int x; int y = 1;") = ([[str% "int", str% "x"], [str% "int", str% "y"]], [], .error) := rfl

/-- **C06** on texts: for a source text whose tokens are those of a list of statements. -/
theorem C06_text (ps : List Piece) (hp : Source ps) (l : List Stmt) (h : ∀ s ∈ l, s.Valid) (ht : tokens ps = stmtToks l) :
    tokenizeStream true (render ps) = (declsOf l, optionsOf (stmtToks l), .eof) ∧
    tokenizeStream false (render ps) = (declsOf l, [], .eof) := by
  unfold tokenizeStream
  rw [C02_source_read ps hp, ht]
  have h1 := C06_statements l h
  refine ⟨h1, ?_⟩
  have := streamLoop_noOptions (stmtToks l) .eof [] [] [] [] false 0
  simp only at h1 ⊢
  rw [this]
  have e : (⟨[], [], [], false, 0⟩ : Stream) = {} := rfl
  rw [e, h1]

/-- **C05** A type definition with balanced, arbitrarily nested body at any statement
    position can be left out without changing the declarations. -/
theorem C05_type_definitions_skipped (l l' : List Stmt) (kw : Tok) (body : List Tok)
    (h : ∀ s ∈ l, s.Valid) (h' : ∀ s ∈ l', s.Valid) (hk : TokKind.isBlock kw.kind = true) (hb : Balanced 0 body) :
    (streamLoop true (stmtToks (l ++ .typeDef kw body :: l')) .eof {}).1 =
      (streamLoop true (stmtToks (l ++ l')) .eof {}).1 := by
  rw [C06_statements, C06_statements]
  · simp [declsOf]
  · intro s hs
    simp at hs
    rcases hs with hs | hs
    · exact h s hs
    · exact h' s hs
  · intro s hs
    simp at hs
    rcases hs with hs | rfl | hs
    · exact h s hs
    · exact ⟨hk, hb⟩
    · exact h' s hs

/-- `struct { int a; union { int b; } c; } ;` has a balanced body. -/
example : Balanced 0 [⟨.curlyOpen, ['{']⟩, ⟨.id, str% "int"⟩, ⟨.id, ['a']⟩, semi, ⟨.union_, str% "union"⟩, ⟨.curlyOpen, ['{']⟩,
    ⟨.id, str% "int"⟩, ⟨.id, ['b']⟩, semi, ⟨.curlyClose, ['}']⟩, ⟨.id, ['c']⟩, semi, ⟨.curlyClose, ['}']⟩] := by
  simp [Balanced, semi]

/-- `int f(struct s *);` is a declaration. -/
example : DeclToks [⟨.id, str% "int"⟩, ⟨.id, str% "f"⟩, ⟨.other, ['(']⟩, ⟨.struct_, str% "struct"⟩, ⟨.id, str% "s"⟩, ⟨.other, ['*']⟩,
    ⟨.other, [')']⟩] := by
  refine ⟨?_, _, _, rfl, rfl⟩
  intro t ht
  simp at ht
  rcases ht with rfl | rfl | rfl | rfl | rfl | rfl | rfl <;> simp [TokKind.isBlock]

/-- **C55 is violated**: a function that returns a pointer to a structure is taken for a
    type definition and dropped without an error. -/
theorem C55_violated :
    tokenizeStream true (str% "struct foo *bar(void);\nint x;\n") = ([[str% "int", str% "x"]], [], .eof) := rfl

/-- **C55** (partial: statements that do not begin with struct, union, enum or typedef.)
    Each declaration of the input is read. -/
theorem C55_declarations_kept_partial (l : List Stmt) (h : ∀ s ∈ l, s.Valid) (ts : List Tok) (ht : .decl ts ∈ l) :
    (code ts).map (·.text) ∈ (streamLoop true (stmtToks l) .eof {}).1 := by
  rw [C06_statements l h]
  exact List.mem_filterMap.mpr ⟨.decl ts, ht, rfl⟩

/-! ### C56 -/

/-- **C56** (partial: directives whose comments are on one line or end the directive, see
    `C56_violated`.)  A preprocessor directive contributes no tokens and hides nothing of what
    follows its logical line. -/
theorem C56_directives_skipped_partial (ds : List DSeg) (e : DEnd) (hd : DirOk ds) (he : e.Valid) (ws rest : Str)
    (hws : ∀ c ∈ ws, isSpace c = true) (st : State) (hc : st.cond = .initial) (hb : st.bol = true) :
    ∃ line, run st (ws ++ ['#'] ++ dirText ds ++ e.text ++ rest) = run { cond := .initial, bol := true, line := line } rest := by
  have h1 := run_hash hc hb ws (dirText ds ++ e.text ++ rest) hws
  have h2 := run_directive ds e rest hd he (st.after (ws ++ ['#']) .pre) rfl
  have hlast := endsLine_text (p := .directive ds e) ⟨hd, he⟩
  simp only [Piece.text, Piece.endsLine, decide_eq_true_eq] at hlast
  have hne : dirText ds ++ e.text ≠ [] := by
    intro h
    have : e.text = [] := by simp at h; exact h.2
    cases e <;> simp [DEnd.text, Logical.text] at this
  rw [after_after _ _ _ _ _ hne] at h2
  refine ⟨st.line + nlCount (ws ++ ['#'] ++ (dirText ds ++ e.text)), ?_⟩
  have hst : st.after (ws ++ ['#'] ++ (dirText ds ++ e.text)) .initial =
      { cond := .initial, bol := true, line := st.line + nlCount (ws ++ ['#'] ++ (dirText ds ++ e.text)) } := by
    have hl : (ws ++ ['#'] ++ (dirText ds ++ e.text)).getLast? = some '\n' := by
      rw [List.append_assoc, List.getLast?_append, ← List.append_assoc, of_decide_eq_true hlast]
      rfl
    simp only [State.after, hl]
    rfl
  rw [hst] at h2
  simp only [List.append_assoc, List.cons_append, List.nil_append] at h1 h2 ⊢
  rw [h1, h2]

/-- `#define A(x) 'x\' /* c */ \` with a continuation line meets the hypotheses. -/
example : DirOk [.ch 'd', .ch '/', .ch 'e', .ch ' ', .comment (str% " c "), .ch ' ', .cont, .ch ' ', .ch '1'] ∧
    (DEnd.line ⟨[], str% " end"⟩).Valid := by
  refine ⟨?_, ⟨by decide, lastLine_of (by decide) (by decide)⟩, Or.inl rfl⟩
  have hc : CommentBody (str% " c ") := commentBody_of (by decide) (by decide)
  simp [DirOk, dirText, DSeg.text, isSpace, hc]

/-- **C56 is violated**: after a comment over several lines the rest of a directive is read
    as declarations; the C preprocessor replaces the comment by a blank, so `int x;` belongs
    to the macro. -/
theorem C56_violated :
    tokenizeStream true (str% "#define A /* 1\n2 */ int x;\nint y;\n") =
      ([[str% "int", str% "x"], [str% "int", str% "y"]], [], .eof) := rfl

/-- **C56 is violated**: a string literal in a directive that contains a comment mark hides
    the declarations after it. -/
theorem C56_violated_string :
    tokenizeStream true (str% "#define GLOB \"/*\"\nint y;\n") = ([], [], .eof) := rfl

/-- The rule for the beginning of an AST is anchored. -/
theorem astBegin_bol (c : Cond) : ∀ r ∈ rules c, r.act = .astBegin → r.bol = true := by
  cases c <;> decide

theorem no_ret_astBegin (c : Cond) : ∀ r ∈ rules c, r.act ≠ .ret .astBegin := by
  cases c <;> decide

/-- What precedes the match of a rule at the beginning of the first line. -/
theorem no_astBegin_later (n : Nat) : ∀ (st : State) (s : Str), s.length ≤ n → st.line > 0 → (st.line = 1 → st.bol = false) →
    ∀ t ∈ (run st s).1, t.kind ≠ .astBegin := by
  induction n with
  | zero =>
    intro st s hs _ _ t ht
    have := List.length_eq_zero_iff.mp (Nat.le_zero.mp hs); subst this
    simp [run_nil] at ht
  | succ n ih =>
    intro st s hs h0 hl t ht
    cases s with
    | nil => simp [run_nil] at ht
    | cons x s =>
      obtain ⟨txt, rest, h1, h2, h3, -, h5⟩ := step_text st x s
      have hlen : rest.length ≤ n := by
        have := congrArg List.length h3
        have h2' := List.length_pos_iff.mpr h2
        simp at this hs; omega
      have keep : ∀ c, ((st.after txt c).line = 1 → (st.after txt c).bol = false) := by
        intro c h
        simp only [State.after] at h ⊢
        have hz : nlCount txt = 0 := by omega
        by_cases hb : txt.getLast? = some '\n'
        · have hm := List.mem_of_getLast? hb
          exact absurd hm (List.count_eq_zero.mp hz)
        · simp [hb]
      have pos : ∀ c, (st.after txt c).line > 0 := by intro c; simp only [State.after]; omega
      rw [run_cons] at ht
      cases hstep : step st (x :: s) with
      | mk a b =>
        have hb : b = txt := by rw [← h1, hstep]
        subst hb
        rw [hstep] at ht
        unfold step at hstep
        cases hbm : bestMatch st.bol (x :: s) (rules st.cond) with
        | none => rw [hbm] at hstep; simp at hstep; rw [← hstep.1] at ht; simp at ht
        | some r =>
          obtain ⟨k, act⟩ := r
          rw [hbm] at hstep
          simp only [Prod.mk.injEq] at hstep
          obtain ⟨ha, hk⟩ := hstep
          rw [hk] at ha
          cases act with
          | goto c =>
            simp only [Act.effect] at ha
            subst ha
            simp only [h5] at ht
            exact ih _ rest hlen (pos _) (keep _) t ht
          | stay =>
            simp only [Act.effect] at ha
            subst ha
            simp only [h5] at ht
            exact ih _ rest hlen (pos _) (keep _) t ht
          | ret kd =>
            simp only [Act.effect] at ha
            subst ha
            simp only [h5, List.mem_cons] at ht
            rcases ht with rfl | ht
            · obtain ⟨r, hr, -, hact, -⟩ := bestMatch_mem hbm
              intro hkd
              simp only at hkd
              subst hkd
              exact absurd hact (no_ret_astBegin _ r hr)
            · exact ih _ rest hlen (pos _) (keep _) t ht
          | astBegin =>
            obtain ⟨r, hr, -, hact, hbol⟩ := bestMatch_mem hbm
            have hb1 := hbol (astBegin_bol _ r hr hact)
            have hne : (st.after b st.cond).line ≠ 1 := by
              intro h
              simp only [State.after] at h
              have := hl (by omega)
              rw [hb1] at this; cases this
            simp only [Act.effect, if_neg hne] at ha
            subst ha
            simp at ht
          | illegal =>
            simp only [Act.effect] at ha
            subst ha
            simp at ht

/-- **C57** Only a Clang AST that begins with the first byte of the input is taken for one:
    the token for the beginning of an AST is at the front of the input, and there is at most
    one such token. -/
theorem C57_only_at_the_front (s : Str) (i : Nat) (t : Tok) (ht : (run {} s).1[i]? = some t) (hk : t.kind = .astBegin) :
    i = 0 ∧ t.text <+: s := by
  cases s with
  | nil => simp [run_nil] at ht
  | cons x s =>
    obtain ⟨txt, rest, h1, h2, h3, -, h5⟩ := step_text {} x s
    have later : ∀ c, ∀ t ∈ (run (State.after {} txt c) rest).1, t.kind ≠ .astBegin := by
      intro c
      refine no_astBegin_later rest.length _ _ (Nat.le_refl _) ?_ ?_
      · simp only [State.after]; omega
      · intro h
        simp only [State.after] at h ⊢
        have hz : nlCount txt = 0 := by omega
        by_cases hb : txt.getLast? = some '\n'
        · have hm := List.mem_of_getLast? hb
          exact absurd hm (List.count_eq_zero.mp hz)
        · simp [hb]
    rw [run_cons] at ht
    cases hstep : step {} (x :: s) with
    | mk a b =>
      have hb : b = txt := by rw [← h1, hstep]
      subst hb
      rw [hstep] at ht
      unfold step at hstep
      cases hbm : bestMatch ({} : State).bol (x :: s) (rules ({} : State).cond) with
      | none => rw [hbm] at hstep; simp at hstep; rw [← hstep.1] at ht; simp at ht
      | some r =>
        obtain ⟨k, act⟩ := r
        rw [hbm] at hstep
        simp only [Prod.mk.injEq] at hstep
        obtain ⟨ha, hkk⟩ := hstep
        rw [hkk] at ha
        have skip : ∀ c, a = .next (State.after {} b c) none → False := by
          intro c hc
          subst hc
          simp only [h5] at ht
          exact later c t (List.mem_of_getElem? ht) hk
        have one : ∀ c kd, a = .next (State.after {} b c) (some ⟨kd, b⟩) → i = 0 ∧ t.text <+: x :: s := by
          intro c kd hc
          subst hc
          simp only [h5] at ht
          cases i with
          | zero =>
            simp at ht
            exact ⟨rfl, by rw [← ht, h3]; exact List.prefix_append _ _⟩
          | succ i =>
            simp at ht
            exact absurd hk (later c t (List.mem_of_getElem? ht))
        cases act with
        | goto c => exact (skip c (by rw [← ha]; rfl)).elim
        | stay => exact (skip _ (by rw [← ha]; rfl)).elim
        | ret kd => exact one _ kd (by rw [← ha]; rfl)
        | astBegin =>
          simp only [Act.effect] at ha
          split at ha
          · exact one _ _ ha.symm
          · subst ha; simp at ht
        | illegal => simp only [Act.effect] at ha; subst ha; simp at ht

/-- An AST that begins with the second line is an error. -/
example : run {} (str% "\nTranslationUnitDecl 0x1 <>\n") = ([], .astNotFirst 2) := rfl
/-- An AST that begins with the first line is read. -/
example : (run {} (str% "TranslationUnitDecl 0x1 <>\n")).1[0]? = some ⟨.astBegin, str% "TranslationUnitDecl 0x1 <>"⟩ := rfl

end Gdo.Props
