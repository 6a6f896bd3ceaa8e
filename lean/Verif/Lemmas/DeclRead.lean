import Verif.Lemmas.Decl

namespace Gdo
open Spec

theorem strAt_sym : strAt [TYPE, SYMBOL] 1 = SYMBOL := rfl

/-- `check_pattern` at an iterator behind the tokens `A`, with an arbitrary rest. -/
theorem checkPattern_at {A w : Toks} {q : Seq} (hw : w ≠ [])
    (h1 : q.distFront ≤ A.length) (h2 : q.distEnd ≤ w.length) :
    checkPattern (A ++ w) A.length q = (do
      if !(← matchFront (A ++ w) A.length q) then return false
      if !(← matchEnd (A ++ w) q) then return false
      matchMiddle w 0 q.middle) := by
  have hwl : 0 < w.length := List.length_pos_iff.mpr hw
  unfold checkPattern
  have hs : ¬ (A ++ w).length < q.minSize := by
    simp [Seq.minSize, Seq.distFront, Seq.distEnd] at *; omega
  have hb : ¬ (A.length ≠ (A ++ w).length ∧
      (A.length < q.distFront ∨ (A ++ w).length - A.length < q.distEnd)) := by
    simp; intro _; omega
  have := matchMiddle_append A w q.middle 0
  simp only [Nat.add_zero] at this
  rw [if_neg hs, if_neg hb]
  simp only [this]

theorem checkPattern_short {A w : Toks} {q : Seq} (hw : w ≠ [])
    (h : A.length < q.distFront ∨ w.length < q.distEnd) :
    checkPattern (A ++ w) A.length q = some false := by
  have hwl : 0 < w.length := List.length_pos_iff.mpr hw
  unfold checkPattern
  split
  · rfl
  · have hb : (A.length ≠ (A ++ w).length ∧
      (A.length < q.distFront ∨ (A ++ w).length - A.length < q.distEnd)) := by
      simp only [List.length_append]; omega
    rw [if_pos hb]; rfl

theorem matchEnd_snoc1 (X : Toks) (e : Str) (q : Seq) (c : Char) (hq : q.last = [c]) :
    matchEnd (X ++ [e]) q = some (matching (strFront e) c) := by
  unfold matchEnd
  rw [hq, derefBack_one_snoc]
  simp [strAt]

theorem matchEnd_snoc2 (X : Toks) (e f : Str) (q : Seq) (c d : Char) (hq : q.last = [c, d])
    (hd : d ≠ '\x00') :
    matchEnd (X ++ [e, f]) q = some (matching (strFront f) d && matching (strFront e) c) := by
  unfold matchEnd
  rw [hq, derefBack_one_snoc2, derefBack_two_snoc]
  simp [strAt, hd]
  cases matching (strFront f) d <;> rfl

theorem matchFront_type (v : Toks) (it : Nat) (q : Seq) (hq : q.front = [TYPE]) :
    matchFront v it q = some true := by
  unfold matchFront; rw [hq]; rfl

theorem matchFront_sym (X : Toks) (e : Str) (w : Toks) (q : Seq) (hq : q.front = [TYPE, SYMBOL]) :
    matchFront ((X ++ [e]) ++ w) (X ++ [e]).length q = some (isIdent (strFront e)) := by
  unfold matchFront; rw [hq]
  have : derefBack ((X ++ [e]) ++ w) (X ++ [e]).length 1 = some e := by simp [derefBack]
  rw [this]; simp [strAt_sym]

theorem matchMiddle_cons (e : Str) (w : Toks) (p : Char) (ps : Str) :
    matchMiddle (e :: w) 0 (p :: ps) =
      if matching (strFront e) p then matchMiddle w 0 ps else some false := by
  have := matchMiddle_append [e] w ps 0
  have hd : deref (e :: w) 0 = some e := rfl
  have h1 : matchMiddle (e :: w) 1 ps = matchMiddle w 0 ps := this
  rw [matchMiddle, hd]
  simp only [Option.bind_eq_bind, Option.bind_some, Nat.zero_add, h1]
  cases matching (strFront e) p <;> rfl

theorem matchMiddle_nil (v : Toks) (i : Nat) : matchMiddle v i [] = some true := rfl

theorem strFront_cons (c : Char) (cs : Str) : strFront (c :: cs) = c := rfl

theorem matching_self (c : Char) : matching c c = true := by simp [matching]

theorem matching_sym {t : Str} (h : IdentTok t) : matching (strFront t) SYMBOL = true := by
  simp [matching, isIdent_front h]

theorem slice_zero (A w : Toks) : slice (A ++ w) 0 A.length = some A := by
  simp [slice]

theorem slice_mid (A B C : Toks) (i j : Nat) (hi : i = A.length) (hj : j = A.length + B.length) :
    slice (A ++ B ++ C) i j = some B := by
  subst hi hj
  simp [slice, List.append_assoc]

theorem type_split {T : Toks} (h : TypeToks T) : ∃ X e, T = X ++ [e] := by
  obtain ⟨a, r, rfl, -, -⟩ := h
  exact ⟨(a :: r).dropLast, (a :: r).getLast (by simp), (List.dropLast_concat_getLast (by simp)).symm⟩

theorem type_head {T : Toks} (h : TypeToks T) (w : Toks) :
    ∃ f, deref (T ++ w) 0 = some f ∧ isIdent (strFront f) = true := by
  obtain ⟨a, r, rfl, h1, -⟩ := h
  exact ⟨a, rfl, isIdent_front h1⟩

theorem type_pos {T : Toks} (h : TypeToks T) : 1 ≤ T.length := by
  obtain ⟨a, r, rfl, -, -⟩ := h; simp

/-- `check_prototype` when the first token that is neither word nor star follows
    the tokens `A`. -/
theorem checkPrototype_at {A : Toks} {t : Str} {w : Toks} {f : Str} (hA : ∀ t ∈ A, SkipTok t)
    (ht : ¬ SkipTok t) (h0 : deref (A ++ t :: w) 0 = some f) (hf : isIdent (strFront f) = true)
    (hlen : 1 ≤ A.length) :
    checkPrototype (A ++ t :: w) =
      if strFront t = '(' then
        orElseCheck (checkFunction (A ++ t :: w) A.length) fun _ =>
        orElseCheck (checkFunctionPointer (A ++ t :: w) A.length) fun _ =>
        orElseCheck (checkFunctionParen (A ++ t :: w) A.length) fun _ =>
        checkFunctionParenPointer (A ++ t :: w) A.length
      else if strFront t = '[' then checkArray (A ++ t :: w) A.length
      else some none := by
  unfold checkPrototype
  rw [if_neg (by simp; omega), h0, findFirst_append hA t w ht]
  have hne : A.length ≠ (A ++ t :: w).length := by simp
  have hd : deref (A ++ t :: w) A.length = some t := by simp [deref]
  simp [hf, hd]

theorem checkFunction_ok {X : Toks} {n : Str} {ps : Toks} (hX : 1 ≤ X.length)
    (hn : isIdent (strFront n) = true) :
    checkFunction ((X ++ [n]) ++ ['('] :: (ps ++ [[')']])) (X ++ [n]).length =
      some (some { kind := .function, type := spaced X, symbol := n,
                   argsVec := paramSegments ps }) := by
  unfold checkFunction
  have hp : checkPattern ((X ++ [n]) ++ ['('] :: (ps ++ [[')']])) (X ++ [n]).length seqFunction = some true := by
    rw [checkPattern_at (by simp) (by simp [Seq.distFront, seqFunction]; omega)
      (by simp [Seq.distEnd, seqFunction])]
    rw [matchFront_sym _ _ _ _ rfl]
    have : (X ++ [n]) ++ ['('] :: (ps ++ [[')']]) = (X ++ [n] ++ ['('] :: ps) ++ [[')']] := by simp
    rw [this, matchEnd_snoc1 _ _ _ ')' rfl]
    simp [hn, seqFunction, matchMiddle_cons, strFront_cons, matching_self, matchMiddle_nil]
  rw [hp]
  have h1 : derefBack ((X ++ [n]) ++ ['('] :: (ps ++ [[')']])) (X ++ [n]).length 1 = some n := by
    simp [derefBack]
  have h2 : slice ((X ++ [n]) ++ ['('] :: (ps ++ [[')']])) 0 ((X ++ [n]).length - 1) = some X := by
    have := slice_zero X ([n] ++ ['('] :: (ps ++ [[')']]))
    simpa using this
  have h3 : endMinus ((X ++ [n]) ++ ['('] :: (ps ++ [[')']])) 1 = some (X.length + 2 + ps.length) := by
    simp [endMinus]; omega
  have h4 : slice ((X ++ [n]) ++ ['('] :: (ps ++ [[')']])) ((X ++ [n]).length + 1) (X.length + 2 + ps.length)
      = some ps := by
    have := slice_mid (X ++ [n, ['(']]) ps [[')']] (X.length + 2) (X.length + 2 + ps.length) (by simp) (by simp)
    simpa using this
  simp only [h1, h2, h3, h4, Option.bind_eq_bind, Option.bind_some, appendStrings_eq, copyParameters_eq]
  rfl

/-- If the token before the parenthesis is a word and not the first token, any
    declaration that ends in a parenthesis is taken for a function of that name. -/
theorem checkFunction_grabs {X : Toks} {n : Str} {rest : Toks} (hX : 1 ≤ X.length)
    (hn : isIdent (strFront n) = true) :
    checkFunction ((X ++ [n]) ++ ['('] :: (rest ++ [[')']])) (X ++ [n]).length =
      some (some { kind := .function, type := spaced X, symbol := n,
                   argsVec := paramSegments rest }) := checkFunction_ok hX hn

theorem checkFunction_fails {T w : Toks} (hT : TypeToks T) (h : OneWordOrPointer T) (hw : w ≠ []) :
    checkFunction (T ++ w) T.length = some none := by
  unfold checkFunction
  have hp : checkPattern (T ++ w) T.length seqFunction = some false := by
    by_cases h1 : T.length = 1
    · exact checkPattern_short hw (Or.inl (by rw [h1]; decide))
    · rcases h with h | h
      · exact absurd h h1
      · obtain ⟨X, e, rfl⟩ := type_split hT
        simp at h
        subst h
        by_cases h2 : w.length < 2
        · exact checkPattern_short hw (Or.inr h2)
        · rw [checkPattern_at hw (by simp only [List.length_append, List.length_cons, List.length_nil, Seq.distFront, seqFunction] at h1 ⊢; omega)
            (by simp only [Seq.distEnd, seqFunction, List.length_cons, List.length_nil]; omega), matchFront_sym _ _ _ _ rfl]
          rfl
  rw [hp]; rfl

theorem checkFunctionPointer_ok {T : Toks} {n : Str} {ps : Toks} (hT : 1 ≤ T.length) (hn : IdentTok n) :
    checkFunctionPointer (T ++ ['('] :: ([['*'], n, [')'], ['(']] ++ ps ++ [[')']])) T.length =
      some (some { kind := .functionPointer,
                   type := spaced T ++ ['(', '*', ')'] ++ spaced ([['(']] ++ ps ++ [[')']]),
                   symbol := n }) := by
  unfold checkFunctionPointer
  have hp : checkPattern (T ++ ['('] :: ([['*'], n, [')'], ['(']] ++ ps ++ [[')']])) T.length
      seqFunctionPointer = some true := by
    rw [checkPattern_at (by simp) (by simp [Seq.distFront, seqFunctionPointer]; omega)
      (by simp [Seq.distEnd, seqFunctionPointer])]
    rw [matchFront_type _ _ _ rfl]
    have : T ++ ['('] :: ([['*'], n, [')'], ['(']] ++ ps ++ [[')']]) =
      (T ++ ['('] :: ([['*'], n, [')'], ['(']] ++ ps)) ++ [[')']] := by simp
    rw [this, matchEnd_snoc1 _ _ _ ')' rfl]
    simp [seqFunctionPointer, matchMiddle_cons, strFront_cons, matching_self, matchMiddle_nil, matching_sym hn]
  rw [hp]
  have h1 := slice_zero T (['('] :: ([['*'], n, [')'], ['(']] ++ ps ++ [[')']]))
  have h2 : deref (T ++ ['('] :: ([['*'], n, [')'], ['(']] ++ ps ++ [[')']])) (T.length + 2) = some n := by
    simp [deref, List.getElem?_append_right]
  have h3 : slice (T ++ ['('] :: ([['*'], n, [')'], ['(']] ++ ps ++ [[')']])) (T.length + 4)
      (T ++ ['('] :: ([['*'], n, [')'], ['(']] ++ ps ++ [[')']])).length = some ([['(']] ++ ps ++ [[')']]) := by
    have := slice_mid (T ++ [['('], ['*'], n, [')']]) ([['(']] ++ ps ++ [[')']]) [] (T.length + 4)
      (T.length + (ps.length + 6)) (by simp) (by simp; omega)
    simpa using this
  simp only [h1, h2, h3, Option.bind_eq_bind, Option.bind_some, appendStrings_eq]
  rfl

theorem checkFunctionPointer_fails2 {T : Toks} {t2 : Str} {w : Toks} (hT : 1 ≤ T.length)
    (h : matching (strFront t2) '*' = false) :
    checkFunctionPointer (T ++ ['('] :: (t2 :: w ++ [[')']])) T.length = some none := by
  unfold checkFunctionPointer
  have hp : checkPattern (T ++ ['('] :: (t2 :: w ++ [[')']])) T.length
      seqFunctionPointer = some false := by
    by_cases hl : w.length + 3 < seqFunctionPointer.distEnd
    · exact checkPattern_short (by simp) (Or.inr (by simpa using hl))
    · rw [checkPattern_at (by simp) (by simp [Seq.distFront, seqFunctionPointer]; omega)
        (by simp; omega)]
      rw [matchFront_type _ _ _ rfl]
      have : T ++ ['('] :: (t2 :: w ++ [[')']]) =
        (T ++ ['('] :: (t2 :: w)) ++ [[')']] := by simp
      rw [this, matchEnd_snoc1 _ _ _ ')' rfl]
      simp [seqFunctionPointer, matchMiddle_cons, h, strFront_cons, matching_self]
  rw [hp]; rfl

theorem checkFunctionPointer_fails4 {T : Toks} {t2 t3 t4 : Str} {w : Toks} (hT : 1 ≤ T.length)
    (h : (matching (strFront t3) SYMBOL && matching (strFront t4) ')') = false) :
    checkFunctionPointer (T ++ ['('] :: (t2 :: t3 :: t4 :: w ++ [[')']])) T.length = some none := by
  unfold checkFunctionPointer
  have hp : checkPattern (T ++ ['('] :: (t2 :: t3 :: t4 :: w ++ [[')']])) T.length
      seqFunctionPointer = some false := by
    by_cases hl : w.length + 5 < seqFunctionPointer.distEnd
    · exact checkPattern_short (by simp) (Or.inr (by simpa using hl))
    · rw [checkPattern_at (by simp) (by simp [Seq.distFront, seqFunctionPointer]; omega)
        (by simp; omega)]
      rw [matchFront_type _ _ _ rfl]
      have : T ++ ['('] :: (t2 :: t3 :: t4 :: w ++ [[')']]) =
        (T ++ ['('] :: (t2 :: t3 :: t4 :: w)) ++ [[')']] := by simp
      rw [this, matchEnd_snoc1 _ _ _ ')' rfl]
      have e1 : matching (strFront [')']) ')' = true := by decide
      have e2 : matching (strFront ['(']) '(' = true := by decide
      simp only [Option.bind_eq_bind, Option.bind_some, e1, seqFunctionPointer, matchMiddle_cons, e2,
        List.cons_append, Bool.not_true, Bool.false_eq_true, if_false, if_true, Option.pure_def]
      split
      · split
        · rename_i hs3
          split
          · rename_i hs4
            rw [hs3, hs4] at h; simp at h
          · rfl
        · rfl
      · rfl
  rw [hp]; rfl

theorem checkFunctionParen_ok {T : Toks} {n : Str} {ps : Toks} (hT : 1 ≤ T.length) (hn : IdentTok n) :
    checkFunctionParen (T ++ ['('] :: ([n, [')'], ['(']] ++ ps ++ [[')']])) T.length =
      some (some { kind := .function, type := spaced T, symbol := n,
                   argsVec := paramSegments ps }) := by
  unfold checkFunctionParen
  have hp : checkPattern (T ++ ['('] :: ([n, [')'], ['(']] ++ ps ++ [[')']])) T.length
      seqFunctionParentheses = some true := by
    rw [checkPattern_at (by simp) (by simp [Seq.distFront, seqFunctionParentheses]; omega)
      (by simp [Seq.distEnd, seqFunctionParentheses])]
    rw [matchFront_type _ _ _ rfl]
    have : T ++ ['('] :: ([n, [')'], ['(']] ++ ps ++ [[')']]) =
      (T ++ ['('] :: ([n, [')'], ['(']] ++ ps)) ++ [[')']] := by simp
    rw [this, matchEnd_snoc1 _ _ _ ')' rfl]
    simp [seqFunctionParentheses, matchMiddle_cons, strFront_cons, matching_self, matchMiddle_nil, matching_sym hn]
  rw [hp]
  have h1 := slice_zero T (['('] :: ([n, [')'], ['(']] ++ ps ++ [[')']]))
  have h2 : deref (T ++ ['('] :: ([n, [')'], ['(']] ++ ps ++ [[')']])) (T.length + 1) = some n := by
    simp [deref, List.getElem?_append_right]
  have h3 : endMinus (T ++ ['('] :: ([n, [')'], ['(']] ++ ps ++ [[')']])) 1 = some (T.length + 4 + ps.length) := by
    simp [endMinus]; omega
  have h4 : slice (T ++ ['('] :: ([n, [')'], ['(']] ++ ps ++ [[')']])) (T.length + 4) (T.length + 4 + ps.length)
      = some ps := by
    have := slice_mid (T ++ [['('], n, [')'], ['(']]) ps [[')']] (T.length + 4)
      (T.length + 4 + ps.length) (by simp) (by simp)
    simpa using this
  simp only [h1, h2, h3, h4, Option.bind_eq_bind, Option.bind_some, appendStrings_eq, copyParameters_eq]
  rfl

theorem checkFunctionParen_fails {T : Toks} {t2 : Str} {w : Toks} (hT : 1 ≤ T.length)
    (h : matching (strFront t2) SYMBOL = false) :
    checkFunctionParen (T ++ ['('] :: (t2 :: w ++ [[')']])) T.length = some none := by
  unfold checkFunctionParen
  have hp : checkPattern (T ++ ['('] :: (t2 :: w ++ [[')']])) T.length
      seqFunctionParentheses = some false := by
    by_cases hl : w.length + 3 < seqFunctionParentheses.distEnd
    · exact checkPattern_short (by simp) (Or.inr (by simpa using hl))
    · rw [checkPattern_at (by simp) (by simp [Seq.distFront, seqFunctionParentheses]; omega)
        (by simp; omega)]
      rw [matchFront_type _ _ _ rfl]
      have : T ++ ['('] :: (t2 :: w ++ [[')']]) =
        (T ++ ['('] :: (t2 :: w)) ++ [[')']] := by simp
      rw [this, matchEnd_snoc1 _ _ _ ')' rfl]
      have e1 : matching (strFront [')']) ')' = true := by decide
      have e2 : matching (strFront ['(']) '(' = true := by decide
      simp only [Option.bind_eq_bind, Option.bind_some, e1, seqFunctionParentheses, matchMiddle_cons, e2,
        List.cons_append, Bool.not_true, Bool.false_eq_true, if_false, if_true, Option.pure_def, h]
  rw [hp]; rfl

theorem checkPattern_ptr1 {T : Toks} {n : Str} {ps : Toks} (hT : 1 ≤ T.length) (hn : IdentTok n) :
    checkPattern (T ++ ['('] :: ([['*'], n, ['(']] ++ ps ++ [[')'], [')']])) T.length
      seqFunctionParenPointer1 = some true := by
  rw [checkPattern_at (by simp) (by simp [Seq.distFront, seqFunctionParenPointer1]; omega)
    (by simp [Seq.distEnd, seqFunctionParenPointer1])]
  rw [matchFront_type _ _ _ rfl]
  have : T ++ ['('] :: ([['*'], n, ['(']] ++ ps ++ [[')'], [')']]) =
    (T ++ ['('] :: ([['*'], n, ['(']] ++ ps)) ++ [[')'], [')']] := by simp
  rw [this, matchEnd_snoc2 _ _ _ _ ')' ')' rfl (by decide)]
  simp [seqFunctionParenPointer1, matchMiddle_cons, strFront_cons, matching_self, matchMiddle_nil, matching_sym hn]

theorem checkPattern_ptr1_fails {T : Toks} {n : Str} {ps : Toks} (hT : 1 ≤ T.length) :
    checkPattern (T ++ ['('] :: ([['*'], ['*'], n, ['(']] ++ ps ++ [[')'], [')']])) T.length
      seqFunctionParenPointer1 = some false := by
  rw [checkPattern_at (by simp) (by simp [Seq.distFront, seqFunctionParenPointer1]; omega)
    (by simp [Seq.distEnd, seqFunctionParenPointer1])]
  rw [matchFront_type _ _ _ rfl]
  have : T ++ ['('] :: ([['*'], ['*'], n, ['(']] ++ ps ++ [[')'], [')']]) =
    (T ++ ['('] :: ([['*'], ['*'], n, ['(']] ++ ps)) ++ [[')'], [')']] := by simp
  rw [this, matchEnd_snoc2 _ _ _ _ ')' ')' rfl (by decide)]
  have e : matching '*' SYMBOL = false := by decide
  simp [seqFunctionParenPointer1, matchMiddle_cons, strFront_cons, matching_self, e]

theorem checkPattern_ptr2 {T : Toks} {n : Str} {ps : Toks} (hT : 1 ≤ T.length) (hn : IdentTok n) :
    checkPattern (T ++ ['('] :: ([['*'], ['*'], n, ['(']] ++ ps ++ [[')'], [')']])) T.length
      seqFunctionParenPointer2 = some true := by
  rw [checkPattern_at (by simp) (by simp [Seq.distFront, seqFunctionParenPointer2]; omega)
    (by simp [Seq.distEnd, seqFunctionParenPointer2])]
  rw [matchFront_type _ _ _ rfl]
  have : T ++ ['('] :: ([['*'], ['*'], n, ['(']] ++ ps ++ [[')'], [')']]) =
    (T ++ ['('] :: ([['*'], ['*'], n, ['(']] ++ ps)) ++ [[')'], [')']] := by simp
  rw [this, matchEnd_snoc2 _ _ _ _ ')' ')' rfl (by decide)]
  simp [seqFunctionParenPointer2, matchMiddle_cons, strFront_cons, matching_self, matchMiddle_nil, matching_sym hn]

theorem checkFunctionParenPointer_ok1 {T : Toks} {n : Str} {ps : Toks} (hT : 1 ≤ T.length) (hn : IdentTok n) :
    checkFunctionParenPointer (T ++ ['('] :: ([['*'], n, ['(']] ++ ps ++ [[')'], [')']])) T.length =
      some (some { kind := .function, type := spaced (T ++ [['*']]), symbol := n,
                   argsVec := paramSegments ps }) := by
  unfold checkFunctionParenPointer
  rw [checkPattern_ptr1 hT hn]
  have h1 := slice_zero T (['('] :: ([['*'], n, ['(']] ++ ps ++ [[')'], [')']]))
  have h2 : deref (T ++ ['('] :: ([['*'], n, ['(']] ++ ps ++ [[')'], [')']])) (T.length + 1 + 1) = some n := by
    rw [Nat.add_assoc]; simp [deref, List.getElem?_append_right]
  have h2' : slice (T ++ ['('] :: ([['*'], n, ['(']] ++ ps ++ [[')'], [')']])) (T.length + 1) (T.length + 1 + 1)
      = some [['*']] := by
    have := slice_mid (T ++ [['(']]) [['*']] (n :: ['('] :: (ps ++ [[')'], [')']])) (T.length + 1)
      (T.length + 1 + 1) (by simp) (by simp)
    simpa using this
  have h3 : endMinus (T ++ ['('] :: ([['*'], n, ['(']] ++ ps ++ [[')'], [')']])) 2 = some (T.length + 4 + ps.length) := by
    simp [endMinus]; omega
  have h4 : slice (T ++ ['('] :: ([['*'], n, ['(']] ++ ps ++ [[')'], [')']])) (T.length + 1 + 3) (T.length + 4 + ps.length)
      = some ps := by
    have := slice_mid (T ++ [['('], ['*'], n, ['(']]) ps [[')'], [')']] (T.length + 4)
      (T.length + 4 + ps.length) (by simp) (by simp)
    simpa using this
  simp only [h1, h2, h2', h3, h4, Option.bind_eq_bind, Option.bind_some, appendStrings_eq,
    copyParameters_eq, if_true, Option.pure_def, spaced_append, List.nil_append]

theorem checkFunctionParenPointer_ok2 {T : Toks} {n : Str} {ps : Toks} (hT : 1 ≤ T.length) (hn : IdentTok n) :
    checkFunctionParenPointer (T ++ ['('] :: ([['*'], ['*'], n, ['(']] ++ ps ++ [[')'], [')']])) T.length =
      some (some { kind := .function, type := spaced (T ++ [['*'], ['*']]), symbol := n,
                   argsVec := paramSegments ps }) := by
  unfold checkFunctionParenPointer
  rw [checkPattern_ptr1_fails hT, checkPattern_ptr2 hT hn]
  have h1 := slice_zero T (['('] :: ([['*'], ['*'], n, ['(']] ++ ps ++ [[')'], [')']]))
  have h2 : deref (T ++ ['('] :: ([['*'], ['*'], n, ['(']] ++ ps ++ [[')'], [')']])) (T.length + 1 + 2) = some n := by
    rw [Nat.add_assoc]; simp [deref, List.getElem?_append_right]
  have h2' : slice (T ++ ['('] :: ([['*'], ['*'], n, ['(']] ++ ps ++ [[')'], [')']])) (T.length + 1) (T.length + 1 + 2)
      = some [['*'], ['*']] := by
    have := slice_mid (T ++ [['(']]) [['*'], ['*']] (n :: ['('] :: (ps ++ [[')'], [')']])) (T.length + 1)
      (T.length + 1 + 2) (by simp) (by simp)
    simpa using this
  have h3 : endMinus (T ++ ['('] :: ([['*'], ['*'], n, ['(']] ++ ps ++ [[')'], [')']])) 2 = some (T.length + 5 + ps.length) := by
    simp [endMinus]; omega
  have h4 : slice (T ++ ['('] :: ([['*'], ['*'], n, ['(']] ++ ps ++ [[')'], [')']])) (T.length + 2 + 3) (T.length + 5 + ps.length)
      = some ps := by
    have := slice_mid (T ++ [['('], ['*'], ['*'], n, ['(']]) ps [[')'], [')']] (T.length + 5)
      (T.length + 5 + ps.length) (by simp) (by simp)
    simpa using this
  simp only [h1, h2, h2', h3, h4, Option.bind_eq_bind, Option.bind_some, appendStrings_eq,
    copyParameters_eq, if_true, Option.pure_def, spaced_append, List.nil_append, Bool.false_eq_true, if_false]

theorem checkArray_ok {X : Toks} {n : Str} {s : Toks} (hX : 1 ≤ X.length)
    (hn : isIdent (strFront n) = true) :
    checkArray ((X ++ [n]) ++ ['['] :: (s ++ [[']']])) (X ++ [n]).length =
      some (some { kind := .objectArray, type := spaced (X ++ [['[']] ++ s ++ [[']']]), symbol := n }) := by
  unfold checkArray
  have hp : checkPattern ((X ++ [n]) ++ ['['] :: (s ++ [[']']])) (X ++ [n]).length seqArray = some true := by
    rw [checkPattern_at (by simp) (by simp [Seq.distFront, seqArray]; omega)
      (by simp [Seq.distEnd, seqArray])]
    rw [matchFront_sym _ _ _ _ rfl]
    have : (X ++ [n]) ++ ['['] :: (s ++ [[']']]) = (X ++ [n] ++ ['['] :: s) ++ [[']']] := by simp
    rw [this, matchEnd_snoc1 _ _ _ ']' rfl]
    simp [hn, seqArray, matchMiddle_cons, strFront_cons, matching_self, matchMiddle_nil]
  rw [hp]
  have h1 : derefBack ((X ++ [n]) ++ ['['] :: (s ++ [[']']])) (X ++ [n]).length 1 = some n := by
    simp [derefBack]
  have h2 : slice ((X ++ [n]) ++ ['['] :: (s ++ [[']']])) 0 ((X ++ [n]).length - 1) = some X := by
    have := slice_zero X ([n] ++ ['['] :: (s ++ [[']']]))
    simpa using this
  have h4 : slice ((X ++ [n]) ++ ['['] :: (s ++ [[']']])) (X ++ [n]).length
      ((X ++ [n]) ++ ['['] :: (s ++ [[']']])).length = some (['['] :: (s ++ [[']']])) := by
    have := slice_mid (X ++ [n]) (['['] :: (s ++ [[']']])) [] (X.length + 1)
      (X.length + 1 + (s.length + 2)) (by simp) (by simp)
    simp at this ⊢
    rw [← this]; congr 1; omega
  simp only [h1, h2, h4, Option.bind_eq_bind, Option.bind_some, appendStrings_eq]
  have : X ++ [['[']] ++ s ++ [[']']] = X ++ (['['] :: (s ++ [[']']])) := by simp
  rw [this, spaced_append]
  rfl

theorem checkObject_ok {X : Toks} {n : Str} (hX : 1 ≤ X.length) (hn : isIdent (strFront n) = true) :
    checkObject (X ++ [n]) = some (some { kind := .object, type := spaced X, symbol := n }) := by
  unfold checkObject
  have hp : checkPattern (X ++ [n]) (X ++ [n]).length seqObject = some true := by
    unfold checkPattern
    have : ¬ (X ++ [n]).length < seqObject.minSize := by simp [Seq.minSize, seqObject]; omega
    rw [if_neg this, if_neg (by simp), matchFront_type _ _ _ rfl, matchEnd_snoc1 _ _ _ SYMBOL rfl]
    simp [matching, hn, seqObject, matchMiddle]
  rw [hp]
  have h1 : derefBack (X ++ [n]) (X ++ [n]).length 1 = some n := by simp [derefBack]
  have h3 : endMinus (X ++ [n]) 1 = some X.length := by simp [endMinus]
  have h2 := slice_zero X [n]
  simp only [h1, h2, h3, Option.bind_eq_bind, Option.bind_some, appendStrings_eq]
  rfl

end Gdo
