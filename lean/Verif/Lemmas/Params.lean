import Verif.Lemmas.DeclInv
import Verif.Spec.Params

namespace Gdo
open Spec

theorem matchAll_cons_inv {ts : Toks} {c : Char} {cs : Str} (h : MatchAll ts (c :: cs)) :
    ∃ t ts', ts = t :: ts' ∧ matching (strFront t) c = true ∧ MatchAll ts' cs := by
  cases ts with
  | nil => simp [MatchAll] at h
  | cons t ts => exact ⟨t, ts, rfl, h.1, h.2⟩

theorem matchAll_nil_inv {ts : Toks} (h : MatchAll ts []) : ts = [] := by
  cases ts with
  | nil => rfl
  | cons => simp [MatchAll] at h

theorem checkPattern_fptrNoName {T : Toks} {ps : Toks} (hT : 1 ≤ T.length) :
    checkPattern (T ++ ['('] :: ([['*'], [')'], ['(']] ++ ps ++ [[')']])) T.length
      seqFunctionPointerNoName = some true := by
  rw [checkPattern_at (by simp) (by simp [Seq.distFront, seqFunctionPointerNoName]; omega)
    (by simp [Seq.distEnd, seqFunctionPointerNoName])]
  rw [matchFront_type _ _ _ rfl]
  have : T ++ ['('] :: ([['*'], [')'], ['(']] ++ ps ++ [[')']]) =
    (T ++ ['('] :: ([['*'], [')'], ['(']] ++ ps)) ++ [[')']] := by simp
  rw [this, matchEnd_snoc1 _ _ _ ')' rfl]
  simp [seqFunctionPointerNoName, matchMiddle_cons, strFront_cons, matching_self, matchMiddle_nil]

theorem checkPattern_fptr {T : Toks} {n : Str} {ps : Toks} (hT : 1 ≤ T.length) (hn : IdentTok n) :
    checkPattern (T ++ ['('] :: ([['*'], n, [')'], ['(']] ++ ps ++ [[')']])) T.length
      seqFunctionPointer = some true := by
  rw [checkPattern_at (by simp) (by simp [Seq.distFront, seqFunctionPointer]; omega)
    (by simp [Seq.distEnd, seqFunctionPointer])]
  rw [matchFront_type _ _ _ rfl]
  have : T ++ ['('] :: ([['*'], n, [')'], ['(']] ++ ps ++ [[')']]) =
    (T ++ ['('] :: ([['*'], n, [')'], ['(']] ++ ps)) ++ [[')']] := by simp
  rw [this, matchEnd_snoc1 _ _ _ ')' rfl]
  simp [seqFunctionPointer, matchMiddle_cons, strFront_cons, matching_self, matchMiddle_nil, matching_sym hn]

theorem checkPattern_fptr_not_noName {T : Toks} {ps : Toks} (hT : 1 ≤ T.length) :
    checkPattern (T ++ ['('] :: ([['*'], [')'], ['(']] ++ ps ++ [[')']])) T.length
      seqFunctionPointer = some false := by
  by_cases hl : ps.length + 5 < seqFunctionPointer.distEnd
  · exact checkPattern_short (by simp) (Or.inr (by simpa using hl))
  · rw [checkPattern_at (by simp) (by simp [Seq.distFront, seqFunctionPointer]; omega)
      (by simp; omega)]
    rw [matchFront_type _ _ _ rfl]
    have : T ++ ['('] :: ([['*'], [')'], ['(']] ++ ps ++ [[')']]) =
      (T ++ ['('] :: ([['*'], [')'], ['(']] ++ ps)) ++ [[')']] := by simp
    rw [this, matchEnd_snoc1 _ _ _ ')' rfl]
    have e : matching ')' SYMBOL = false := by decide
    simp [seqFunctionPointer, matchMiddle_cons, strFront_cons, matching_self, e]

theorem checkPattern_bracket_not_paren {T : Toks} {w : Toks} {q : Seq} (ps : Str)
    (hq : q.middle = '(' :: ps) (hf : q.front = [TYPE]) (hT : 1 ≤ T.length) (wf : q.WF) :
    checkPattern (T ++ ['['] :: w) T.length q = some false := by
  by_cases hl : w.length + 1 < q.distEnd
  · exact checkPattern_short (by simp) (Or.inr (by simpa using hl))
  · rw [checkPattern_at (by simp) (by simp [Seq.distFront, hf]; omega) (by simp; omega)]
    rw [matchFront_type _ _ _ hf]
    obtain ⟨b, hb⟩ := matchEnd_isSome (v := T ++ ['['] :: w) wf (by
      simp only [Seq.minSize, Seq.distEnd, hf, List.length_append, List.length_cons, List.length_nil] at *; omega)
    have e : matching '[' '(' = false := by decide
    cases b <;> simp [hb, hq, matchMiddle_cons, strFront_cons, e]

theorem checkPattern_arrNoName {T : Toks} {s : Toks} (hT : 1 ≤ T.length) :
    checkPattern (T ++ ['['] :: (s ++ [[']']])) T.length seqArrayNoName = some true := by
  rw [checkPattern_at (by simp) (by simp [Seq.distFront, seqArrayNoName]; omega)
    (by simp [Seq.distEnd, seqArrayNoName])]
  rw [matchFront_type _ _ _ rfl]
  have : T ++ ['['] :: (s ++ [[']']]) = (T ++ ['['] :: s) ++ [[']']] := by simp
  rw [this, matchEnd_snoc1 _ _ _ ']' rfl]
  simp [seqArrayNoName, matchMiddle_cons, strFront_cons, matching_self, matchMiddle_nil]

theorem not_star_prefix {T : Toks} (hT : TypeToks T) (w : Toks) :
    ∃ f r, T ++ w = f :: r ∧ (str% "*").isPrefixOf f = false ∧ f ≠ str% "..." := by
  obtain ⟨a, r, rfl, h, -⟩ := hT
  refine ⟨a, r ++ w, rfl, ?_, ?_⟩
  · have := isIdent_front h
    cases a with
    | nil => rfl
    | cons c cs =>
      by_cases hc : c = '*'
      · subst hc; rw [strFront_cons] at this; exact absurd this (by decide)
      · simp [List.isPrefixOf]; exact fun h => hc h.symm
  · intro h'
    subst h'
    exact absurd h (by decide)

/-- What one iteration of the creation loop adds for a valid parameter. -/
def Spec.Param.nameOf (k : Nat) : Param → Str
  | .dots => ['.', '.', '.', ' ']
  | _ => argName k

/-- The counter after a parameter. -/
def Spec.Param.next (k : Nat) : Param → Nat
  | .dots => k
  | _ => k + 1

theorem createParameterName_ok (q : Param) (hq : q.Valid) (p : Proto) (k : Nat) :
    createParameterName q.print p k =
      some (.ok ({ p with args := p.args ++ q.named (argName k) ++ str% ", "
                          paramNames := p.paramNames ++ q.nameOf k ++ str% ", " }, q.next k)) := by
  cases q with
  | dots =>
    simp [Param.print, createParameterName, Param.named, Param.nameOf, Param.next]
  | plain T =>
    have hT : TypeToks T := hq
    obtain ⟨f, r, he, hs, hd⟩ := not_star_prefix hT []
    rw [List.append_nil] at he
    have hl := findFirst_all (skip_of_type hT)
    show createParameterName T p k = _
    subst he
    unfold createParameterName
    simp only [hs, hl, hd, and_false, if_false, Bool.false_eq_true, if_true, Option.pure_def]
    simp [appendName, appendStrings_eq, Param.named, Param.nameOf, Param.next, argName, natDigits]
  | arr T s =>
    have hT : TypeToks T := hq
    have hpos := type_pos hT
    have e : (Param.arr T s).print = T ++ ['['] :: (s ++ [[']']]) := by simp [Param.print]
    rw [e]
    obtain ⟨f, r, he, hs, hd⟩ := not_star_prefix hT (['['] :: (s ++ [[']']]))
    have hl := findFirst_append (skip_of_type hT) ['['] (s ++ [[']']]) not_skip_bracket
    have hp1 := checkPattern_bracket_not_paren (w := s ++ [[']']]) _ (q := seqFunctionPointer) rfl rfl hpos wf_seqFunctionPointer
    have hp2 := checkPattern_bracket_not_paren (w := s ++ [[']']]) _ (q := seqFunctionPointerNoName) rfl rfl hpos wf_seqFunctionPointerNoName
    have hp3 := checkPattern_arrNoName (s := s) hpos
    have h1 := slice_zero T (['['] :: (s ++ [[']']]))
    have h2 : slice (T ++ ['['] :: (s ++ [[']']])) T.length (T ++ ['['] :: (s ++ [[']']])).length
        = some (['['] :: (s ++ [[']']])) := by
      have := slice_mid T (['['] :: (s ++ [[']']])) [] T.length (T ++ ['['] :: (s ++ [[']']])).length rfl (by simp)
      simpa using this
    have hlen : ¬ T.length = (T ++ ['['] :: (s ++ [[']']])).length := by simp
    rw [he] at *
    unfold createParameterName
    simp only [hs, hl, hd, hlen, and_false, if_false, Bool.false_eq_true, Option.pure_def,
      getFunctionPointerType, getArrayType, hp1, hp2, hp3, h1, h2, Option.bind_eq_bind, Option.bind_some,
      Bool.not_true]
    simp [appendName, appendStrings_eq, Param.named, Param.nameOf, Param.next, argName, natDigits, List.append_assoc]
  | fptr T name ps =>
    obtain ⟨hT, hn⟩ : TypeToks T ∧ ∀ n ∈ name, IdentTok n := hq
    have hpos := type_pos hT
    cases name with
    | some n =>
      have hn := hn n (by simp)
      have e : (Param.fptr T (some n) ps).print = T ++ ['('] :: ([['*'], n, [')'], ['(']] ++ ps ++ [[')']]) := by
        simp [Param.print]
      rw [e]
      generalize hw : [['*'], n, [')'], ['(']] ++ ps ++ [[')']] = w at *
      obtain ⟨f, r, he, hs, hd⟩ := not_star_prefix hT (['('] :: w)
      have hl := findFirst_append (skip_of_type hT) ['('] w not_skip_paren
      have hp1 := checkPattern_fptr (ps := ps) hpos hn
      rw [hw] at hp1
      have h1 : slice (T ++ ['('] :: w) 0 (T.length + 2) = some (T ++ [['('], ['*']]) := by
        have := slice_zero (T ++ [['('], ['*']]) (n :: ([[')'], ['(']] ++ ps ++ [[')']]))
        rw [← hw]; simpa using this
      have h2 : slice (T ++ ['('] :: w) (T.length + 3) (T ++ ['('] :: w).length = some ([[')'], ['(']] ++ ps ++ [[')']]) := by
        have := slice_mid (T ++ [['('], ['*'], n]) ([[')'], ['(']] ++ ps ++ [[')']]) [] (T.length + 3)
          (T.length + (ps.length + 6)) (by simp) (by simp; omega)
        rw [← hw]; simpa using this
      have hlen : ¬ T.length = (T ++ ['('] :: w).length := by simp
      rw [he] at *
      unfold createParameterName
      simp only [hs, hl, hd, hlen, and_false, if_false, Bool.false_eq_true, Option.pure_def,
        getFunctionPointerType, hp1, h1, h2, Option.bind_eq_bind, Option.bind_some, if_true]
      simp [appendName, appendStrings_eq, Param.named, Param.nameOf, Param.next, argName, natDigits, List.append_assoc]
    | none =>
      have e : (Param.fptr T none ps).print = T ++ ['('] :: ([['*'], [')'], ['(']] ++ ps ++ [[')']]) := by
        simp [Param.print]
      rw [e]
      generalize hw : [['*'], [')'], ['(']] ++ ps ++ [[')']] = w at *
      obtain ⟨f, r, he, hs, hd⟩ := not_star_prefix hT (['('] :: w)
      have hl := findFirst_append (skip_of_type hT) ['('] w not_skip_paren
      have hp0 := checkPattern_fptr_not_noName (ps := ps) hpos
      have hp1 := checkPattern_fptrNoName (ps := ps) hpos
      rw [hw] at hp1 hp0
      have h1 : slice (T ++ ['('] :: w) 0 (T.length + 2) = some (T ++ [['('], ['*']]) := by
        have := slice_zero (T ++ [['('], ['*']]) ([[')'], ['(']] ++ ps ++ [[')']])
        rw [← hw]; simpa using this
      have h2 : slice (T ++ ['('] :: w) (T.length + 2) (T ++ ['('] :: w).length = some ([[')'], ['(']] ++ ps ++ [[')']]) := by
        have := slice_mid (T ++ [['('], ['*']]) ([[')'], ['(']] ++ ps ++ [[')']]) [] (T.length + 2)
          (T.length + (ps.length + 5)) (by simp) (by simp; omega)
        rw [← hw]; simpa using this
      have hlen : ¬ T.length = (T ++ ['('] :: w).length := by simp
      rw [he] at *
      unfold createParameterName
      simp only [hs, hl, hd, hlen, and_false, if_false, Bool.false_eq_true, Option.pure_def,
        getFunctionPointerType, hp0, hp1, h1, h2, Option.bind_eq_bind, Option.bind_some, if_true]
      simp [appendName, appendStrings_eq, Param.named, Param.nameOf, Param.next, argName, natDigits, List.append_assoc]

/-- A parameter made of scanner tokens for which a name is created is one of the
    valid shapes. -/
theorem createParameterName_inv {v : Toks} {p : Proto} {k : Nat} {r : Proto × Nat}
    (hlex : ∀ t ∈ v, LexTok t) (h : createParameterName v p k = some (.ok r)) :
    ∃ q : Param, q.Valid ∧ q.print = v := by
  cases v with
  | nil => simp [createParameterName] at h
  | cons f rest =>
    unfold createParameterName at h
    simp only [Option.pure_def, Option.bind_eq_bind] at h
    split at h
    · simp at h
    · rename_i hs
      have hstar : f ≠ ['*'] := by intro h'; subst h'; simp [List.isPrefixOf] at hs
      split at h
      · rename_i hd
        refine ⟨.dots, trivial, ?_⟩
        obtain ⟨h1, h2⟩ := hd
        cases rest with
        | nil => simp [Param.print, h2]
        | cons => simp at h1
      · generalize hv : f :: rest = v at *
        have hhead : ∀ x, (v.take (findFirstNotPointerOrIdent v)).head? = some x → x ≠ ['*'] := by
          intro x hx
          subst hv
          cases hff : findFirstNotPointerOrIdent (f :: rest) with
          | zero => simp [hff] at hx
          | succ m => simp [hff] at hx; subst hx; exact hstar
        split at h
        · rename_i hend
          have hsk := findFirst_take_skip v
          rw [hend, List.take_length] at hsk hhead
          exact ⟨.plain v, typeToks_of_skip hlex hsk (by subst hv; simp) hhead, rfl⟩
        · rename_i hend
          have hlt : findFirstNotPointerOrIdent v < v.length := by have := findFirst_le v; omega
          have hAty : ∀ A w, v = A ++ w → A.length = findFirstNotPointerOrIdent v → 1 ≤ A.length →
              TypeToks A := by
            intro A w hv' hA h1
            have : A = v.take (findFirstNotPointerOrIdent v) := by rw [hv', ← hv', ← hA, hv']; simp
            rw [← this] at hhead
            have hsk := findFirst_take_skip v
            rw [← this] at hsk
            exact typeToks_of_skip (fun t ht => hlex t (by rw [hv']; simp [ht])) hsk
              (by intro h'; subst h'; simp at h1) hhead
          obtain ⟨b1, hb1⟩ := checkPattern_isSome (v := v) wf_seqFunctionPointer (Nat.le_of_lt hlt) (fun h => absurd h hend)
          obtain ⟨b2, hb2⟩ := checkPattern_isSome (v := v) wf_seqFunctionPointerNoName (Nat.le_of_lt hlt) (fun h => absurd h hend)
          obtain ⟨b3, hb3⟩ := checkPattern_isSome (v := v) wf_seqArrayNoName (Nat.le_of_lt hlt) (fun h => absurd h hend)
          cases b1 with
          | true =>
            obtain ⟨A, M, B, e, hv', hA, h1, hM, he, -⟩ := checkPattern_inv1 ')' rfl (by decide) hlt hb1
            obtain ⟨m1, M, rfl, hm1, hM⟩ := matchAll_cons_inv hM
            obtain ⟨m2, M, rfl, hm2, hM⟩ := matchAll_cons_inv hM
            obtain ⟨m3, M, rfl, hm3, hM⟩ := matchAll_cons_inv hM
            obtain ⟨m4, M, rfl, hm4, hM⟩ := matchAll_cons_inv hM
            obtain ⟨m5, M, rfl, hm5, hM⟩ := matchAll_cons_inv hM
            have := matchAll_nil_inv hM; subst this
            have l : ∀ t ∈ [m1, m2, m3, m4, m5, e], LexTok t := by
              intro t ht; apply hlex; rw [hv']; simp at ht ⊢; grind
            simp at l
            have := lex_punct l.1 (by simp) hm1; subst this
            have := lex_punct l.2.1 (by simp) hm2; subst this
            have := lex_punct l.2.2.2.1 (by simp) hm4; subst this
            have := lex_punct l.2.2.2.2.1 (by simp) hm5; subst this
            have := lex_punct l.2.2.2.2.2 (by simp) he; subst this
            refine ⟨.fptr A (some m3) B, ⟨hAty A _ hv' hA (by rw [hA]; exact h1), ?_⟩, ?_⟩
            · intro n hn; simp at hn; subst hn; exact lex_sym l.2.2.1 hm3
            · rw [hv']; simp [Param.print]
          | false =>
            cases b2 with
            | true =>
              obtain ⟨A, M, B, e, hv', hA, h1, hM, he, -⟩ := checkPattern_inv1 ')' rfl (by decide) hlt hb2
              obtain ⟨m1, M, rfl, hm1, hM⟩ := matchAll_cons_inv hM
              obtain ⟨m2, M, rfl, hm2, hM⟩ := matchAll_cons_inv hM
              obtain ⟨m4, M, rfl, hm4, hM⟩ := matchAll_cons_inv hM
              obtain ⟨m5, M, rfl, hm5, hM⟩ := matchAll_cons_inv hM
              have := matchAll_nil_inv hM; subst this
              have l : ∀ t ∈ [m1, m2, m4, m5, e], LexTok t := by
                intro t ht; apply hlex; rw [hv']; simp at ht ⊢; grind
              simp at l
              have := lex_punct l.1 (by simp) hm1; subst this
              have := lex_punct l.2.1 (by simp) hm2; subst this
              have := lex_punct l.2.2.1 (by simp) hm4; subst this
              have := lex_punct l.2.2.2.1 (by simp) hm5; subst this
              have := lex_punct l.2.2.2.2 (by simp) he; subst this
              refine ⟨.fptr A none B, ⟨hAty A _ hv' hA (by rw [hA]; exact h1), by simp⟩, ?_⟩
              rw [hv']; simp [Param.print]
            | false =>
              cases b3 with
              | false =>
                simp [getFunctionPointerType, getArrayType, hb1, hb2, hb3] at h
              | true =>
                obtain ⟨A, M, B, e, hv', hA, h1, hM, he, -⟩ := checkPattern_inv1 ']' rfl (by decide) hlt hb3
                obtain ⟨m1, M, rfl, hm1, hM⟩ := matchAll_cons_inv hM
                have := matchAll_nil_inv hM; subst this
                have l : ∀ t ∈ [m1, e], LexTok t := by
                  intro t ht; apply hlex; rw [hv']; simp at ht ⊢; grind
                simp at l
                have := lex_punct l.1 (by simp) hm1; subst this
                have := lex_punct l.2 (by simp) he; subst this
                refine ⟨.arr A B, hAty A _ hv' hA (by rw [hA]; exact h1), ?_⟩
                rw [hv']; simp [Param.print]

/-- Counter value before each parameter. -/
def createdArgs : Nat → List Param → List Str
  | _, [] => []
  | k, q :: qs => q.named (argName k) :: createdArgs (q.next k) qs

def createdNames : Nat → List Param → List Str
  | _, [] => []
  | k, q :: qs => q.nameOf k :: createdNames (q.next k) qs

/-- Each followed by ", ". -/
def commaEnd (l : List Str) : Str := (l.map fun s => s ++ [',', ' ']).flatten

theorem createLoop_ok (qs : List Param) (hq : ∀ q ∈ qs, q.Valid) : ∀ (p : Proto) (k : Nat),
    createParameterNamesLoop (qs.map Param.print) p k =
      some (.ok { p with args := p.args ++ commaEnd (createdArgs k qs)
                         paramNames := p.paramNames ++ commaEnd (createdNames k qs) }) := by
  induction qs with
  | nil => intro p k; simp [createParameterNamesLoop, commaEnd, createdArgs, createdNames]
  | cons q qs ih =>
    intro p k
    have h1 := createParameterName_ok q (hq q (by simp)) p k
    have ih := ih (fun q hq' => hq q (by simp [hq']))
    simp only [List.map_cons, createParameterNamesLoop, h1, Option.bind_eq_bind, Option.bind_some, ih]
    simp [commaEnd, createdArgs, createdNames, List.append_assoc]

theorem createLoop_inv (vs : List Toks) (hlex : ∀ v ∈ vs, ∀ t ∈ v, LexTok t) : ∀ (p : Proto) (k : Nat) r,
    createParameterNamesLoop vs p k = some (.ok r) → ∃ qs : List Param, (∀ q ∈ qs, q.Valid) ∧ qs.map Param.print = vs := by
  induction vs with
  | nil => intro p k r _; exact ⟨[], by simp, rfl⟩
  | cons v vs ih =>
    intro p k r h
    simp only [createParameterNamesLoop] at h
    cases h1 : createParameterName v p k with
    | none => simp [h1] at h
    | some r1 =>
      cases r1 with
      | error e => simp [h1] at h
      | ok r1 =>
        simp [h1] at h
        obtain ⟨q, hq, rfl⟩ := createParameterName_inv (hlex v (by simp)) h1
        obtain ⟨qs, hqs, rfl⟩ := ih (fun v hv => hlex v (by simp [hv])) _ _ _ h
        exact ⟨q :: qs, by simpa using ⟨hq, hqs⟩, rfl⟩

theorem commaEnd_join (l : List Str) (h : l ≠ []) : commaEnd l = commaJoin l ++ [',', ' '] := by
  induction l with
  | nil => exact absurd rfl h
  | cons a l ih =>
    cases l with
    | nil => simp [commaEnd, commaJoin, List.intercalate, List.intersperse]
    | cons b l =>
      have := ih (by simp)
      simp [commaEnd, commaJoin, List.intercalate, List.intersperse] at this ⊢
      exact this

theorem deleteSuffix_append (s suf : Str) : deleteSuffix (s ++ suf) suf = s := by
  unfold deleteSuffix
  have : suf.isSuffixOf (s ++ suf) = true := by
    rw [List.isSuffixOf_iff_suffix]; exact List.suffix_append s suf
  rw [if_pos this]; simp

theorem createdNames_length (qs : List Param) : ∀ k, (createdNames k qs).length = qs.length := by
  induction qs with
  | nil => intro k; rfl
  | cons q qs ih => intro k; simp [createdNames, ih]

theorem createdArgs_length (qs : List Param) : ∀ k, (createdArgs k qs).length = qs.length := by
  induction qs with
  | nil => intro k; rfl
  | cons q qs ih => intro k; simp [createdArgs, ih]

theorem paramVoidOrEmpty_false {p : Proto} (h1 : p.argsVec ≠ []) (h2 : ¬ OnlyVoid p.argsVec) :
    paramVoidOrEmpty p = (false, p) := by
  unfold paramVoidOrEmpty
  split
  · contradiction
  · rename_i t ht
    rw [if_neg]
    intro h
    exact h2 ⟨t, ht, h⟩
  · rfl

theorem argName_inj {i j : Nat} (h : argName i = argName j) : i = j := by
  simp [argName] at h
  have h1 := Nat.ofDigitChars_toDigits (b := 10) (n := i) (by omega) (by omega)
  have h2 := Nat.ofDigitChars_toDigits (b := 10) (n := j) (by omega) (by omega)
  rw [h] at h1; omega

end Gdo
