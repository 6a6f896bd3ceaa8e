import Verif.Lemmas.Params
import Verif.Props.Parse

/-!
Property theorem C54: exactly the declarations are accepted.
-/

namespace Gdo
open Spec

/-- A declaration of valid shape is accepted, and read as some valid declaration with
    the same tokens. -/
theorem accepted_of_print (d : Decl) (hv : d.Valid) (hlex : ∀ t ∈ d.print, LexTok t) :
    ∃ d' : Decl, d'.Valid ∧ d'.print = d.print ∧ checkPrototype d.print = some (some d'.meaning) := by
  by_cases hp : d.Plain
  · exact ⟨d, hv, rfl, read_plain d hv hp⟩
  · by_cases h1 : OneWordOrPointer d.base
    · exact ⟨d, hv, rfl, read_parenthesized d hv h1 hp⟩
    · obtain ⟨X, n, hX⟩ := type_split hv.1
      have hT := hv.1
      have hn : IdentTok n := by
        obtain ⟨h, r, he, hh, hr⟩ := hT
        have hmem : n ∈ h :: r := by rw [← he, hX]; simp
        simp at hmem
        rcases hmem with rfl | hmem
        · exact hh
        · rcases hr n hmem with h' | rfl
          · exact h'
          · exact absurd (Or.inr (by rw [hX]; simp)) h1
      have hXne : X ≠ [] := by
        intro h'; subst h'; exact h1 (Or.inl (by rw [hX]; rfl))
      have hTX : TypeToks X := by
        obtain ⟨h, r, he, hh, hr⟩ := hT
        cases X with
        | nil => exact absurd rfl hXne
        | cons x X =>
          rw [hX] at he
          simp at he
          obtain ⟨rfl, rfl⟩ := he
          exact ⟨x, X, rfl, hh, fun t ht => hr t (by simp [ht])⟩
      have key : ∀ ps, d.print = (Decl.func X n ps).print →
          ∃ d' : Decl, d'.Valid ∧ d'.print = d.print ∧ checkPrototype d.print = some (some d'.meaning) := by
        intro ps he
        exact ⟨.func X n ps, ⟨hTX, hn⟩, he.symm, by rw [he]; exact read_plain _ ⟨hTX, hn⟩ trivial⟩
      cases d with
      | func | var | array => exact absurd trivial hp
      | funcParen T m ps =>
        have hX : T = X ++ [n] := hX
        exact key ([m, [')'], ['(']] ++ ps) (by simp [Decl.print, hX])
      | funcPtr1 T m ps =>
        have hX : T = X ++ [n] := hX
        exact key ([['*'], m, ['(']] ++ ps ++ [[')']]) (by simp [Decl.print, hX])
      | funcPtr2 T m ps =>
        have hX : T = X ++ [n] := hX
        exact key ([['*'], ['*'], m, ['(']] ++ ps ++ [[')']]) (by simp [Decl.print, hX])
      | funPtrVar T m ps =>
        have hX : T = X ++ [n] := hX
        exact key ([['*'], m, [')'], ['(']] ++ ps) (by simp [Decl.print, hX])

theorem orElseCheck_some {a : Ub (Option Proto)} {b : Unit → Ub (Option Proto)} {p : Proto}
    (h : orElseCheck a b = some (some p)) : a = some (some p) ∨ b () = some (some p) := by
  unfold orElseCheck at h
  cases a with
  | none => simp at h
  | some a =>
    cases a with
    | none => right; simpa using h
    | some q => left; simpa using h

theorem check_true_of {v : Toks} {it : Nat} {q : Seq} {f : Ub (Option Proto)} {p : Proto}
    (h : (do if !(← checkPattern v it q) then return none else f) = some (some p)) :
    checkPattern v it q = some true := by
  cases hc : checkPattern v it q with
  | none => simp [hc] at h
  | some b => cases b with
    | true => rfl
    | false => simp [hc] at h

/-- What is accepted has the tokens of a valid declaration. -/
theorem print_of_accepted (v : Toks) (p : Proto) (hlex : ∀ t ∈ v, LexTok t)
    (h : checkPrototype v = some (some p)) : ∃ d : Decl, d.Valid ∧ d.print = v := by
  unfold checkPrototype at h
  split at h
  · simp at h
  rename_i hlen
  obtain ⟨f, hf⟩ : ∃ f, deref v 0 = some f := ⟨_, deref_isSome (by omega)⟩
  simp only [hf, Option.bind_eq_bind, Option.bind_some, Option.pure_def] at h
  split at h
  · simp at h
  rename_i hfi
  have hfi : isIdent (strFront f) = true := by simpa using hfi
  have hhead : v.head? = some f := by simpa [deref, List.head?_eq_getElem?] using hf
  have hfstar : f ≠ ['*'] := by intro h'; subst h'; exact absurd hfi (by decide)
  have typ : ∀ A w, v = A ++ w → A ≠ [] → (∀ t ∈ A, SkipTok t) → TypeToks A := by
    intro A w he hne hs
    refine typeToks_of_skip (fun t ht => hlex t (by rw [he]; simp [ht])) hs hne ?_
    intro g hg hgs
    subst he
    rw [List.head?_append, hg] at hhead
    exact hfstar (by simpa [hgs] using hhead.symm)
  have hskip := findFirst_take_skip v
  split at h
  · rename_i hend
    have hs : ∀ t ∈ v, SkipTok t := by
      rw [hend] at hskip; simpa using hskip
    have hc := check_true_of h
    have hvne : v ≠ [] := by intro h'; subst h'; simp at hlen
    obtain ⟨A, n, rfl⟩ : ∃ A n, v = A ++ [n] := ⟨_, _, (List.dropLast_concat_getLast hvne).symm⟩
    have he := checkPattern_true_end hc
    rw [matchEnd_snoc1 _ _ _ SYMBOL rfl] at he
    have hAne : A ≠ [] := by intro h'; subst h'; simp at hlen
    exact ⟨.var A n, ⟨typ A [n] rfl hAne (fun t ht => hs t (by simp [ht])),
      lex_sym (t := n) (hlex n (by simp)) (by simpa using he)⟩, rfl⟩
  · rename_i hend
    have hit : findFirstNotPointerOrIdent v < v.length := by have := findFirst_le v; omega
    obtain ⟨e, he⟩ : ∃ e, deref v (findFirstNotPointerOrIdent v) = some e := ⟨_, deref_isSome hit⟩
    rw [he] at h
    simp only [Option.bind_some] at h
    have hA' : ∀ A w, v = A ++ w → A.length = findFirstNotPointerOrIdent v → ∀ t ∈ A, SkipTok t := by
      intro A w hv hl t ht
      apply hskip t
      rw [← hl, hv]; simpa using ht
    split at h
    · rcases orElseCheck_some h with h | h
      · obtain ⟨A, M, B, g, hv, hA, h1, hM, hg, hfr⟩ := checkPattern_inv1 ')' rfl (by decide) hit (check_true_of h)
        obtain ⟨m1, M, rfl, hm1, hM⟩ := matchAll_cons_inv hM
        have := matchAll_nil_inv hM; subst this
        obtain ⟨A, n, rfl, hn⟩ := hfr rfl
        have hm1 := lex_punct (hlex m1 (by rw [hv]; simp)) (by simp) hm1
        have hg := lex_punct (hlex g (by rw [hv]; simp)) (by simp) hg
        subst hm1 hg
        have hs := hA' _ _ hv hA
        have hAne : A ≠ [] := by
          intro h'; subst h'; rw [← hA] at h1; exact absurd h1 (by simp [seqFunction])
        exact ⟨.func A n B, ⟨typ A _ (by rw [hv, List.append_assoc]) hAne (fun t ht => hs t (by simp [ht])),
          lex_ident (hlex n (by rw [hv]; simp)) hn⟩, by rw [hv]; simp [Decl.print]⟩
      rcases orElseCheck_some h with h | h
      · obtain ⟨A, M, B, g, hv, hA, h1, hM, hg, -⟩ := checkPattern_inv1 ')' rfl (by decide) hit (check_true_of h)
        obtain ⟨m1, M, rfl, hm1, hM⟩ := matchAll_cons_inv hM
        obtain ⟨m2, M, rfl, hm2, hM⟩ := matchAll_cons_inv hM
        obtain ⟨m3, M, rfl, hm3, hM⟩ := matchAll_cons_inv hM
        obtain ⟨m4, M, rfl, hm4, hM⟩ := matchAll_cons_inv hM
        obtain ⟨m5, M, rfl, hm5, hM⟩ := matchAll_cons_inv hM
        have := matchAll_nil_inv hM; subst this
        have hm1 := lex_punct (hlex m1 (by rw [hv]; simp)) (by simp) hm1
        have hm2 := lex_punct (hlex m2 (by rw [hv]; simp)) (by simp) hm2
        have hm3 := lex_sym (hlex m3 (by rw [hv]; simp)) hm3
        have hm4 := lex_punct (hlex m4 (by rw [hv]; simp)) (by simp) hm4
        have hm5 := lex_punct (hlex m5 (by rw [hv]; simp)) (by simp) hm5
        have hg := lex_punct (hlex g (by rw [hv]; simp)) (by simp) hg
        subst hm1 hm2 hm4 hm5 hg
        have hAne : A ≠ [] := by
          intro h'; subst h'; rw [← hA] at h1; exact absurd h1 (by decide)
        exact ⟨.funPtrVar A m3 B, ⟨typ A _ hv hAne (hA' _ _ hv hA), hm3⟩, by rw [hv]; simp [Decl.print]⟩
      rcases orElseCheck_some h with h | h
      · obtain ⟨A, M, B, g, hv, hA, h1, hM, hg, -⟩ := checkPattern_inv1 ')' rfl (by decide) hit (check_true_of h)
        obtain ⟨m1, M, rfl, hm1, hM⟩ := matchAll_cons_inv hM
        obtain ⟨m2, M, rfl, hm2, hM⟩ := matchAll_cons_inv hM
        obtain ⟨m3, M, rfl, hm3, hM⟩ := matchAll_cons_inv hM
        obtain ⟨m4, M, rfl, hm4, hM⟩ := matchAll_cons_inv hM
        have := matchAll_nil_inv hM; subst this
        have hm1 := lex_punct (hlex m1 (by rw [hv]; simp)) (by simp) hm1
        have hm2 := lex_sym (hlex m2 (by rw [hv]; simp)) hm2
        have hm3 := lex_punct (hlex m3 (by rw [hv]; simp)) (by simp) hm3
        have hm4 := lex_punct (hlex m4 (by rw [hv]; simp)) (by simp) hm4
        have hg := lex_punct (hlex g (by rw [hv]; simp)) (by simp) hg
        subst hm1 hm3 hm4 hg
        have hAne : A ≠ [] := by
          intro h'; subst h'; rw [← hA] at h1; exact absurd h1 (by decide)
        exact ⟨.funcParen A m2 B, ⟨typ A _ hv hAne (hA' _ _ hv hA), hm2⟩, by rw [hv]; simp [Decl.print]⟩
      · have h12 : checkPattern v (findFirstNotPointerOrIdent v) seqFunctionParenPointer1 = some true ∨
            checkPattern v (findFirstNotPointerOrIdent v) seqFunctionParenPointer2 = some true := by
          unfold checkFunctionParenPointer at h
          cases hc1 : checkPattern v (findFirstNotPointerOrIdent v) seqFunctionParenPointer1 with
          | none => simp [hc1] at h
          | some b1 =>
            cases b1 with
            | true => left; rfl
            | false =>
              right
              cases hc2 : checkPattern v (findFirstNotPointerOrIdent v) seqFunctionParenPointer2 with
              | none => simp [hc1, hc2] at h
              | some b2 =>
                cases b2 with
                | true => rfl
                | false => simp [hc1, hc2] at h
        rcases h12 with h | h
        · obtain ⟨A, M, B, g1, g2, hv, hA, h1, hM, hg1, hg2⟩ := checkPattern_inv2 ')' ')' rfl (by decide) hit h
          obtain ⟨m1, M, rfl, hm1, hM⟩ := matchAll_cons_inv hM
          obtain ⟨m2, M, rfl, hm2, hM⟩ := matchAll_cons_inv hM
          obtain ⟨m3, M, rfl, hm3, hM⟩ := matchAll_cons_inv hM
          obtain ⟨m4, M, rfl, hm4, hM⟩ := matchAll_cons_inv hM
          have := matchAll_nil_inv hM; subst this
          have hm1 := lex_punct (hlex m1 (by rw [hv]; simp)) (by simp) hm1
          have hm2 := lex_punct (hlex m2 (by rw [hv]; simp)) (by simp) hm2
          have hm3 := lex_sym (hlex m3 (by rw [hv]; simp)) hm3
          have hm4 := lex_punct (hlex m4 (by rw [hv]; simp)) (by simp) hm4
          have hg1 := lex_punct (hlex g1 (by rw [hv]; simp)) (by simp) hg1
          have hg2 := lex_punct (hlex g2 (by rw [hv]; simp)) (by simp) hg2
          subst hm1 hm2 hm4 hg1 hg2
          have hAne : A ≠ [] := by
            intro h'; subst h'; rw [← hA] at h1; exact absurd h1 (by decide)
          exact ⟨.funcPtr1 A m3 B, ⟨typ A _ hv hAne (hA' _ _ hv hA), hm3⟩, by rw [hv]; simp [Decl.print]⟩
        · obtain ⟨A, M, B, g1, g2, hv, hA, h1, hM, hg1, hg2⟩ := checkPattern_inv2 ')' ')' rfl (by decide) hit h
          obtain ⟨m1, M, rfl, hm1, hM⟩ := matchAll_cons_inv hM
          obtain ⟨m2, M, rfl, hm2, hM⟩ := matchAll_cons_inv hM
          obtain ⟨m3, M, rfl, hm3, hM⟩ := matchAll_cons_inv hM
          obtain ⟨m4, M, rfl, hm4, hM⟩ := matchAll_cons_inv hM
          obtain ⟨m5, M, rfl, hm5, hM⟩ := matchAll_cons_inv hM
          have := matchAll_nil_inv hM; subst this
          have hm1 := lex_punct (hlex m1 (by rw [hv]; simp)) (by simp) hm1
          have hm2 := lex_punct (hlex m2 (by rw [hv]; simp)) (by simp) hm2
          have hm3 := lex_punct (hlex m3 (by rw [hv]; simp)) (by simp) hm3
          have hm4 := lex_sym (hlex m4 (by rw [hv]; simp)) hm4
          have hm5 := lex_punct (hlex m5 (by rw [hv]; simp)) (by simp) hm5
          have hg1 := lex_punct (hlex g1 (by rw [hv]; simp)) (by simp) hg1
          have hg2 := lex_punct (hlex g2 (by rw [hv]; simp)) (by simp) hg2
          subst hm1 hm2 hm3 hm5 hg1 hg2
          have hAne : A ≠ [] := by
            intro h'; subst h'; rw [← hA] at h1; exact absurd h1 (by decide)
          exact ⟨.funcPtr2 A m4 B, ⟨typ A _ hv hAne (hA' _ _ hv hA), hm4⟩, by rw [hv]; simp [Decl.print]⟩
    · split at h
      · obtain ⟨A, M, B, g, hv, hA, h1, hM, hg, hfr⟩ := checkPattern_inv1 ']' rfl (by decide) hit (check_true_of h)
        obtain ⟨m1, M, rfl, hm1, hM⟩ := matchAll_cons_inv hM
        have := matchAll_nil_inv hM; subst this
        obtain ⟨A, n, rfl, hn⟩ := hfr rfl
        have hm1 := lex_punct (hlex m1 (by rw [hv]; simp)) (by simp) hm1
        have hg := lex_punct (hlex g (by rw [hv]; simp)) (by simp) hg
        subst hm1 hg
        have hs := hA' _ _ hv hA
        have hAne : A ≠ [] := by
          intro h'; subst h'; rw [← hA] at h1; exact absurd h1 (by simp [seqArray])
        exact ⟨.array A n B, ⟨typ A _ (by rw [hv, List.append_assoc]) hAne (fun t ht => hs t (by simp [ht])),
          lex_ident (hlex n (by rw [hv]; simp)) hn⟩, by rw [hv]; simp [Decl.print]⟩
      · simp at h

/-- C54: a statement is accepted if and only if it has the tokens of a declaration of
    one of the seven shapes ... -/
theorem C54_exactly_declarations_accepted (v : Toks) (hlex : ∀ t ∈ v, LexTok t) :
    (∃ p, checkPrototype v = some (some p)) ↔ ∃ d : Decl, d.Valid ∧ d.print = v := by
  constructor
  · rintro ⟨p, h⟩; exact print_of_accepted v p hlex h
  · rintro ⟨d, hv, rfl⟩
    obtain ⟨d', -, -, h⟩ := accepted_of_print d hv hlex
    exact ⟨_, h⟩

/-- ... and what is read is the meaning of a declaration with exactly these tokens:
    no part of the type, the name or the parameters is invented or dropped. -/
theorem C54_reading_is_a_declaration (v : Toks) (p : Proto) (hlex : ∀ t ∈ v, LexTok t)
    (h : checkPrototype v = some (some p)) :
    ∃ d : Decl, d.Valid ∧ d.print = v ∧ p = d.meaning := by
  obtain ⟨d, hv, rfl⟩ := print_of_accepted v p hlex h
  obtain ⟨d', hv', he, h'⟩ := accepted_of_print d hv hlex
  rw [h] at h'
  exact ⟨d', hv', he, by simpa using h'⟩

/-- A rejected statement that is not a declaration: `int f(` -/
example : checkPrototype [str% "int", str% "f", str% "("] = some none ∧
    ∀ t ∈ [str% "int", str% "f", str% "("], LexTok t := by decide

example : ∀ t ∈ (Decl.funPtrVar [str% "int"] (str% "cb") [str% "void", str% "*"]).print, LexTok t := by decide

end Gdo
