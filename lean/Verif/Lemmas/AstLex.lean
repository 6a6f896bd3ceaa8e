import Verif.Spec.Ast
import Verif.Model.Ast
import Verif.Lemmas.LexStep

/-!
Lemmas: how the scanner splits an AST dump into lines.
-/

namespace Gdo.Lex
open Gdo Spec

theorem isColor_eq : isColor = fun c => isDigit c || c == ';' := rfl

theorem takeWhile_all {α : Type} {p : α → Bool} {a : List α} {x : α} {b : List α}
    (ha : ∀ c ∈ a, p c = true) (hx : p x = false) :
    (a ++ x :: b).takeWhile p = a ∧ (a ++ x :: b).dropWhile p = x :: b := by
  induction a with
  | nil => simp [hx]
  | cons c a ih =>
    have := ih (fun y hy => ha y (by simp [hy]))
    simp [ha c (by simp), this]

theorem skipCol_code (k s : Str) (hk : ∀ x ∈ k, isColor x = true) :
    skipCol ('\x1b' :: '[' :: (k ++ 'm' :: s)) = s := by
  unfold skipCol
  have : (k ++ 'm' :: s).dropWhile (fun c => isDigit c || c == ';') = 'm' :: s :=
    (takeWhile_all (p := isColor) hk (by decide)).2
  simp only [this]

/-- An optional colour code is skipped. -/
theorem skipCol_opt (c s : Str) (hc : IsCode c) (hs : ∀ x, s.head? = some x → x ≠ '\x1b') :
    skipCol (c ++ s) = s := by
  rcases hc with rfl | ⟨k, rfl, hk⟩
  · cases s with
    | nil => rfl
    | cons x s => exact skipCol_other (hs x rfl)
  · have := skipCol_code k s hk
    simpa using this

theorem skipCol_opt2 (c d s : Str) (hc : IsCode c) (hd : IsCode d) (hs : ∀ x, s.head? = some x → x ≠ '\x1b') :
    skipCol (skipCol (c ++ (d ++ s))) = s := by
  rcases hc with rfl | ⟨k, rfl, hk⟩
  · rw [List.nil_append, skipCol_opt d s hd hs]
    cases s with
    | nil => rfl
    | cons x s => exact skipCol_other (hs x rfl)
  · have := skipCol_code k (d ++ s) hk
    simp only [List.cons_append, List.append_assoc, List.nil_append]
    rw [this, skipCol_opt d s hd hs]

theorem afterLit_append (l s : Str) : afterLit l (l ++ s) = some s := by
  unfold afterLit
  rw [if_pos (List.isPrefixOf_iff_prefix.mpr (List.prefix_append _ _))]
  simp

theorem afterLit_some {l s r : Str} (h : afterLit l s = some r) : s = l ++ r := by
  unfold afterLit at h
  split at h
  · rename_i hp
    rw [List.isPrefixOf_iff_prefix] at hp
    obtain ⟨t, rfl⟩ := hp
    simp at h
    rw [h]
  · simp at h

theorem afterLit_none {l s : Str} (h : ¬ l <+: s) : afterLit l s = none := by
  unfold afterLit
  rw [if_neg (by rwa [List.isPrefixOf_iff_prefix])]

theorem restOfLine_nl (s rest : Str) (h : '\n' ∉ s) : restOfLine (s ++ '\n' :: rest) = s.length := by
  unfold restOfLine
  rw [(takeWhile_all (p := fun c => decide (c ≠ '\n')) (by intro c hc; simp; rintro rfl; exact h hc) (by simp)).1]

theorem code_nl {c : Str} (h : IsCode c) : '\n' ∉ c := by
  rcases h with rfl | ⟨k, rfl, hk⟩
  · simp
  · intro hm
    simp at hm
    have := hk _ hm
    revert this; decide

theorem plain_nl {s p : Str} (h : Plain s p) (hp : '\n' ∉ p) : '\n' ∉ s := by
  induction h with
  | nil => simp
  | char c s p _ _ ih =>
    simp only [List.mem_cons, not_or] at hp ⊢
    exact ⟨hp.1, ih hp.2⟩
  | code k s p hk _ ih =>
    intro hm
    simp at hm
    rcases hm with hm | hm
    · have := hk _ hm
      revert this; decide
    · exact ih hp hm

theorem decl_raw_nl {fn : Bool} {bar : Char} {c : Codes} {raw : Str} {cr : Bool} {symbol type : Str}
    (hv : (ALine.decl fn bar c raw cr symbol type).Valid) : '\n' ∉ raw := by
  obtain ⟨_, _, hs, _, hq, junk, tail, _, hj, hty, ht, hp⟩ := hv
  refine plain_nl hp ?_
  simp only [List.mem_append, List.mem_cons, not_or]
  refine ⟨hj.2, by decide, ?_, by decide, by decide, hty.2, by decide, ht.2⟩
  intro hm; have := hs _ hm; revert this; decide

theorem parm_raw_nl {pre : Str} {c : Codes} {raw : Str} {cr : Bool} {type : Str}
    (hv : (ALine.parm pre c raw cr type).Valid) : '\n' ∉ raw := by
  obtain ⟨_, _, hq, junk, tail, _, hj, hty, ht, hp⟩ := hv
  refine plain_nl hp ?_
  simp only [List.mem_append, List.mem_cons, not_or]
  exact ⟨hj.2, by decide, by decide, hty.2, by decide, ht.2⟩

theorem crText_nl (cr : Bool) : '\n' ∉ crText cr := by cases cr <;> simp [crText]

theorem line_nl {l : ALine} (hv : l.Valid) : '\n' ∉ l.text := by
  cases l with
  | decl fn bar c raw cr symbol type =>
    obtain ⟨h0, h1, h2, h3, h4⟩ := hv.2.1
    have hb : bar ≠ '\n' := by rcases hv.1 with rfl | rfl <;> decide
    have hw : '\n' ∉ declWord fn := by cases fn <;> simp [declWord]
    simp only [ALine.text, List.mem_append, List.mem_cons, not_or, List.not_mem_nil, not_false_iff, and_true]
    exact ⟨code_nl h0, ⟨hb.symm, by decide⟩, code_nl h1, code_nl h2, hw, code_nl h3, code_nl h4,
      by decide, decl_raw_nl hv, crText_nl cr⟩
  | parm pre c raw cr type =>
    obtain ⟨h0, h1, h2, h3, h4⟩ := hv.2.1
    have hb : '\n' ∉ pre := by
      have := hv.1
      simp [parmMarks] at this
      rcases this with rfl | rfl | rfl | rfl <;> decide
    simp only [ALine.text, List.mem_append, not_or]
    exact ⟨code_nl h0, hb, code_nl h1, code_nl h2, by decide, code_nl h3, code_nl h4,
      by decide, parm_raw_nl hv, crText_nl cr⟩
  | other s => exact hv.1

/-! ### Patterns on lines -/

theorem orElse_left {α : Type} (a : α) (b : Option α) : ((some a : Option α) <|> b) = some a := rfl
theorem orElse_right {α : Type} (b : Option α) : ((none : Option α) <|> b) = b := rfl

theorem funcvarPat_decl {fn : Bool} {bar : Char} {c : Codes} {raw : Str} {cr : Bool} {symbol type : Str}
    (hv : (ALine.decl fn bar c raw cr symbol type).Valid) (rest : Str) :
    funcvarPat ((ALine.decl fn bar c raw cr symbol type).text ++ '\n' :: rest)
      = some (ALine.decl fn bar c raw cr symbol type).text.length := by
  obtain ⟨h0, h1, h2, h3, h4⟩ := hv.2.1
  have hnl : '\n' ∉ raw ++ crText cr := by simp [decl_raw_nl hv, crText_nl]
  have hbar := hv.1
  simp only [ALine.text]
  generalize raw ++ crText cr = R at hnl
  simp only [List.append_assoc]
  unfold funcvarPat
  have e0 : ∀ X : Str, skipCol (c.c0 ++ ([bar, '-'] ++ X)) = bar :: '-' :: X := by
    intro X
    rw [skipCol_opt _ _ h0]
    · rfl
    · intro x hx
      simp at hx
      subst hx
      rcases hbar with rfl | rfl <;> decide
  have e1 : ∀ X : Str, (afterLit (str% "|-") (bar :: '-' :: X) <|> afterLit (str% "`-") (bar :: '-' :: X)) = some X := by
    intro X
    rcases hbar with rfl | rfl
    · rw [show ('|' :: '-' :: X) = (str% "|-") ++ X from rfl, afterLit_append]; rfl
    · rw [afterLit_none (l := str% "|-") (by simp), orElse_right,
        show ('`' :: '-' :: X) = (str% "`-") ++ X from rfl, afterLit_append]
  have e2 : ∀ X : Str, skipCol (skipCol (c.c1 ++ (c.c2 ++ (declWord fn ++ X)))) = declWord fn ++ X := by
    intro X
    apply skipCol_opt2 _ _ _ h1 h2
    intro x hx
    cases fn <;> simp [declWord] at hx <;> subst hx <;> decide
  have e3 : ∀ X : Str, (afterLit (str% "FunctionDecl") (declWord fn ++ X) <|> afterLit (str% "VarDecl") (declWord fn ++ X)) = some X := by
    intro X
    cases fn
    · rw [afterLit_none (l := str% "FunctionDecl") (by simp [declWord]), orElse_right]
      exact afterLit_append _ _
    · show (afterLit (str% "FunctionDecl") (str% "FunctionDecl" ++ X) <|> _) = _
      rw [afterLit_append]; rfl
  have e4 : ∀ X : Str, skipCol (skipCol (c.c3 ++ (c.c4 ++ (str% " 0x" ++ X)))) = str% " 0x" ++ X := by
    intro X
    apply skipCol_opt2 _ _ _ h3 h4
    intro x hx
    simp at hx
    subst hx; decide
  rw [e0]
  simp only [e1, Option.bind_eq_bind, Option.bind_some, e2, e3, e4, afterLit_append]
  rw [restOfLine_nl R rest hnl]
  simp only [pure, Option.some.injEq]
  simp only [List.length_append, List.length_cons]
  omega

theorem parmvarPat_parm {pre : Str} {c : Codes} {raw : Str} {cr : Bool} {type : Str}
    (hv : (ALine.parm pre c raw cr type).Valid) (rest : Str) :
    parmvarPat ((ALine.parm pre c raw cr type).text ++ '\n' :: rest)
      = some (ALine.parm pre c raw cr type).text.length ∧
    funcvarPat ((ALine.parm pre c raw cr type).text ++ '\n' :: rest) = none := by
  obtain ⟨h0, h1, h2, h3, h4⟩ := hv.2.1
  have hnl : '\n' ∉ raw ++ crText cr := by simp [parm_raw_nl hv, crText_nl]
  have hpre := hv.1
  simp only [parmMarks, List.mem_cons, List.not_mem_nil, or_false] at hpre
  simp only [ALine.text]
  generalize raw ++ crText cr = R at hnl
  simp only [List.append_assoc]
  have e0 : ∀ X : Str, skipCol (c.c0 ++ (pre ++ X)) = pre ++ X := by
    intro X
    rw [skipCol_opt _ _ h0]
    intro x hx
    rcases hpre with rfl | rfl | rfl | rfl <;> simp at hx <;> subst hx <;> decide
  have e1 : ∀ X : Str, (afterLit (str% "| |-") (pre ++ X) <|> afterLit (str% "| `-") (pre ++ X) <|>
      afterLit (str% "  |-") (pre ++ X) <|> afterLit (str% "  `-") (pre ++ X)) = some X := by
    intro X
    rcases hpre with rfl | rfl | rfl | rfl
    · rw [afterLit_append]; rfl
    · rw [afterLit_none (l := str% "| |-") (by simp), orElse_right, afterLit_append]; rfl
    · rw [afterLit_none (l := str% "| |-") (by simp), orElse_right, afterLit_none (l := str% "| `-") (by simp),
        orElse_right, afterLit_append]; rfl
    · rw [afterLit_none (l := str% "| |-") (by simp), orElse_right, afterLit_none (l := str% "| `-") (by simp),
        orElse_right, afterLit_none (l := str% "  |-") (by simp), orElse_right, afterLit_append]
  have e2 : ∀ X : Str, skipCol (skipCol (c.c1 ++ (c.c2 ++ (str% "ParmVarDecl" ++ X)))) = str% "ParmVarDecl" ++ X := by
    intro X
    apply skipCol_opt2 _ _ _ h1 h2
    intro x hx
    simp at hx; subst hx; decide
  have e4 : ∀ X : Str, skipCol (skipCol (c.c3 ++ (c.c4 ++ (str% " 0x" ++ X)))) = str% " 0x" ++ X := by
    intro X
    apply skipCol_opt2 _ _ _ h3 h4
    intro x hx
    simp at hx
    subst hx; decide
  have e5 : ∀ X : Str, (afterLit (str% "|-") (pre ++ X) <|> afterLit (str% "`-") (pre ++ X)) = none := by
    intro X
    rcases hpre with rfl | rfl | rfl | rfl <;>
      rw [afterLit_none (l := str% "|-") (by simp), afterLit_none (l := str% "`-") (by simp)] <;> rfl
  constructor
  · unfold parmvarPat
    rw [e0]
    simp only [e1, Option.bind_eq_bind, Option.bind_some, e2, e4, afterLit_append]
    rw [restOfLine_nl R rest hnl]
    simp only [pure, Option.some.injEq]
    simp only [List.length_append, List.length_cons]
    omega
  · unfold funcvarPat
    rw [e0]
    simp only [e5, Option.bind_eq_bind, Option.bind_none]

/-! ### Other lines -/

theorem plain_skipCol {s p : Str} (h : Plain s p) : Plain (skipCol s) p := by
  cases h with
  | nil => exact .nil
  | char c s p hc h =>
    rw [skipCol_other hc]
    exact .char c s p hc h
  | code k s p hk h =>
    rw [skipCol_code k s hk]
    exact h

theorem plain_cons {a : Char} {s p : Str} (h : Plain (a :: s) p) (ha : a ≠ '\x1b') :
    ∃ q, p = a :: q ∧ Plain s q := by
  generalize ht : a :: s = t at h
  cases h with
  | nil => simp at ht
  | char c s' q hc h =>
    simp at ht
    obtain ⟨rfl, rfl⟩ := ht
    exact ⟨q, rfl, h⟩
  | code k s' q hk h =>
    simp at ht
    exact absurd ht.1 ha

theorem plain_afterLit {l s p r : Str} (h : Plain s p) (hl : '\x1b' ∉ l) (ha : afterLit l s = some r) :
    ∃ q, p = l ++ q ∧ Plain r q := by
  have := afterLit_some ha
  subst this
  clear ha
  induction l generalizing p with
  | nil => exact ⟨p, rfl, h⟩
  | cons a l ih =>
    simp only [List.mem_cons, not_or] at hl
    obtain ⟨q, rfl, hq⟩ := plain_cons (s := l ++ r) h (fun h' => hl.1 h'.symm)
    obtain ⟨q', h1, h2⟩ := ih hl.2 hq
    exact ⟨q', by simp [h1], h2⟩

theorem dropWhile_all {α : Type} {p : α → Bool} {a : List α} (ha : ∀ c ∈ a, p c = true) : a.dropWhile p = [] := by
  induction a with
  | nil => rfl
  | cons c a ih => simp [ha c (by simp), ih (fun y hy => ha y (by simp [hy]))]

/-- Skipping a colour code and a literal do not look past the line. -/
theorem skipCol_nl (s rest : Str) : skipCol (s ++ '\n' :: rest) = skipCol s ++ '\n' :: rest := by
  match s with
  | [] => rw [List.nil_append, skipCol_other (by decide)]; rfl
  | [c] =>
    by_cases hc : c = '\x1b'
    · subst hc; simp [skipCol]
    · rw [skipCol_other (s := []) hc]
      exact skipCol_other hc
  | c :: d :: s =>
    by_cases hc : c = '\x1b'
    · subst hc
      by_cases hd : d = '['
      · subst hd
        have key : ∀ t : Str, ∃ a b, t = a ++ b ∧ (∀ x ∈ a, isColor x = true) ∧ (∀ x, b.head? = some x → isColor x = false) := by
          intro t
          refine ⟨t.takeWhile isColor, t.dropWhile isColor, (List.takeWhile_append_dropWhile).symm, ?_, ?_⟩
          · intro x hx; exact mem_takeWhile_imp hx
          · intro x hx
            have := List.head?_dropWhile_not isColor t
            rw [hx] at this
            simpa using this
        obtain ⟨a, b, rfl, ha, hb⟩ := key s
        cases b with
        | nil =>
          have e1 : (a ++ '\n' :: rest).dropWhile (fun c => isDigit c || c == ';') = '\n' :: rest :=
            (takeWhile_all (p := isColor) ha (by decide)).2
          have e2 : a.dropWhile (fun c => isDigit c || c == ';') = [] :=
            dropWhile_all (p := isColor) ha
          simp [skipCol, e1, e2]
        | cons y b =>
          have e1 : (a ++ y :: (b ++ '\n' :: rest)).dropWhile (fun c => isDigit c || c == ';') = y :: (b ++ '\n' :: rest) :=
            (takeWhile_all (p := isColor) ha (hb y rfl)).2
          have e2 : (a ++ y :: b).dropWhile (fun c => isDigit c || c == ';') = y :: b :=
            (takeWhile_all (p := isColor) ha (hb y rfl)).2
          by_cases hy : y = 'm'
          · subst hy
            simp only [skipCol, List.cons_append, List.append_assoc, e1, e2]
          · simp only [skipCol, List.cons_append, List.append_assoc, e1, e2]
            split
            · rename_i h; simp at h; exact absurd h.1 hy
            · split
              · rename_i h; simp at h; exact absurd h.1 hy
              · simp
      · simp [skipCol, hd]
    · rw [skipCol_other hc]
      exact skipCol_other hc

theorem afterLit_nl {l s rest r : Str} (hl : '\n' ∉ l) (h : afterLit l (s ++ '\n' :: rest) = some r) :
    ∃ t, afterLit l s = some t ∧ r = t ++ '\n' :: rest := by
  have he := afterLit_some h
  rw [List.append_eq_append_iff] at he
  rcases he with ⟨w, h1, h2⟩ | ⟨w, h1, h2⟩
  · cases w with
    | nil =>
      simp at h1 h2
      subst h1
      exact ⟨[], by have := afterLit_append l []; simpa using this, by simp [h2]⟩
    | cons x w =>
      simp at h2
      exact absurd (by rw [h1, ← h2.1]; simp) hl
  · subst h1
    exact ⟨w, afterLit_append _ _, h2⟩

theorem other_none {s p rest : Str} (hp : Plain s p) (hm : ∀ m ∈ declMarks, ¬ m <+: p) :
    funcvarPat (s ++ '\n' :: rest) = none ∧ parmvarPat (s ++ '\n' :: rest) = none := by
  have step : ∀ (l t q : Str), '\n' ∉ l → '\x1b' ∉ l → Plain t q →
      afterLit l (t ++ '\n' :: rest) = none ∨
      ∃ t' q', afterLit l (t ++ '\n' :: rest) = some (t' ++ '\n' :: rest) ∧ q = l ++ q' ∧ Plain t' q' := by
    intro l t q h1 h2 h3
    cases h : afterLit l (t ++ '\n' :: rest) with
    | none => exact Or.inl rfl
    | some r =>
      right
      obtain ⟨t', h4, h5⟩ := afterLit_nl h1 h
      obtain ⟨q', h6, h7⟩ := plain_afterLit h3 h2 h4
      exact ⟨t', q', by rw [h5], h6, h7⟩
  have tail : ∀ (kw t q : Str), '\n' ∉ kw → '\x1b' ∉ kw → Plain t q → ¬ (kw ++ str% " 0x") <+: q →
      ∀ g : Str → Option Nat, (afterLit kw (t ++ '\n' :: rest)).bind (fun r =>
        (afterLit (str% " 0x") (skipCol (skipCol r))).bind g) = none := by
    intro kw t q h1 h2 h3 h4 g
    rcases step kw t q h1 h2 h3 with h | ⟨t', q', h, he, hp'⟩
    · rw [h]; rfl
    · rw [h]
      simp only [Option.bind_some, skipCol_nl]
      rcases step (str% " 0x") _ q' (by decide) (by decide) (plain_skipCol (plain_skipCol hp')) with h | ⟨t'', q'', h, he', _⟩
      · rw [h]; rfl
      · exfalso
        apply h4
        rw [he, he']
        exact ⟨q'', by simp⟩
  have hs := plain_skipCol hp
  constructor
  · unfold funcvarPat
    rw [skipCol_nl]
    have both : ∀ b : Char, b = '|' ∨ b = '`' → ∀ t q, p = [b, '-'] ++ q → Plain t q → ∀ g : Str → Option Nat,
        ((afterLit (str% "FunctionDecl") (skipCol (skipCol (t ++ '\n' :: rest))) <|>
          afterLit (str% "VarDecl") (skipCol (skipCol (t ++ '\n' :: rest)))).bind (fun r =>
        (afterLit (str% " 0x") (skipCol (skipCol r))).bind g)) = none := by
      intro b hb t q hpq ht g
      have ht' := plain_skipCol (plain_skipCol ht)
      have n1 : ¬ (str% "FunctionDecl" ++ str% " 0x") <+: q := by
        rintro ⟨z, rfl⟩
        rcases hb with rfl | rfl
        · exact hm (str% "|-FunctionDecl 0x") (by simp [declMarks]) ⟨z, by rw [hpq]; rfl⟩
        · exact hm (str% "`-FunctionDecl 0x") (by simp [declMarks]) ⟨z, by rw [hpq]; rfl⟩
      have n2 : ¬ (str% "VarDecl" ++ str% " 0x") <+: q := by
        rintro ⟨z, rfl⟩
        rcases hb with rfl | rfl
        · exact hm (str% "|-VarDecl 0x") (by simp [declMarks]) ⟨z, by rw [hpq]; rfl⟩
        · exact hm (str% "`-VarDecl 0x") (by simp [declMarks]) ⟨z, by rw [hpq]; rfl⟩
      have t1 := tail (str% "FunctionDecl") _ q (by decide) (by decide) ht' n1 g
      have t2 := tail (str% "VarDecl") _ q (by decide) (by decide) ht' n2 g
      simp only [skipCol_nl]
      cases h : afterLit (str% "FunctionDecl") (skipCol (skipCol t) ++ '\n' :: rest) with
      | none => exact t2
      | some r => rw [h] at t1; exact t1
    rcases step (str% "|-") _ p (by decide) (by decide) hs with h | ⟨t, q, h, he, ht⟩
    · rcases step (str% "`-") _ p (by decide) (by decide) hs with h' | ⟨t, q, h', he, ht⟩
      · simp [h, h']
      · simp only [h, h', orElse_right, Option.bind_eq_bind, Option.bind_some]
        exact both '`' (Or.inr rfl) t q he ht _
    · simp only [h, orElse_left, Option.bind_eq_bind, Option.bind_some]
      exact both '|' (Or.inl rfl) t q he ht _
  · unfold parmvarPat
    rw [skipCol_nl]
    have fin : ∀ m ∈ parmMarks, ∀ t q, p = m ++ q → Plain t q → ∀ g : Str → Option Nat,
        ((afterLit (str% "ParmVarDecl") (skipCol (skipCol (t ++ '\n' :: rest)))).bind (fun r =>
        (afterLit (str% " 0x") (skipCol (skipCol r))).bind g)) = none := by
      intro m hmm t q hpq ht g
      have ht' := plain_skipCol (plain_skipCol ht)
      have n1 : ¬ (str% "ParmVarDecl" ++ str% " 0x") <+: q := by
        rintro ⟨z, rfl⟩
        simp only [parmMarks, List.mem_cons, List.not_mem_nil, or_false] at hmm
        rcases hmm with rfl | rfl | rfl | rfl
        · exact hm (str% "| |-ParmVarDecl 0x") (by simp [declMarks]) ⟨z, by rw [hpq]; rfl⟩
        · exact hm (str% "| `-ParmVarDecl 0x") (by simp [declMarks]) ⟨z, by rw [hpq]; rfl⟩
        · exact hm (str% "  |-ParmVarDecl 0x") (by simp [declMarks]) ⟨z, by rw [hpq]; rfl⟩
        · exact hm (str% "  `-ParmVarDecl 0x") (by simp [declMarks]) ⟨z, by rw [hpq]; rfl⟩
      simp only [skipCol_nl]
      exact tail (str% "ParmVarDecl") _ q (by decide) (by decide) ht' n1 g
    rcases step (str% "| |-") _ p (by decide) (by decide) hs with h1 | ⟨t, q, h, he, ht⟩
    · rcases step (str% "| `-") _ p (by decide) (by decide) hs with h2 | ⟨t, q, h, he, ht⟩
      · rcases step (str% "  |-") _ p (by decide) (by decide) hs with h3 | ⟨t, q, h, he, ht⟩
        · rcases step (str% "  `-") _ p (by decide) (by decide) hs with h4 | ⟨t, q, h, he, ht⟩
          · simp [h1, h2, h3, h4]
          · simp only [h1, h2, h3, h, orElse_right, Option.bind_eq_bind, Option.bind_some]
            exact fin _ (by simp [parmMarks]) t q he ht _
        · simp only [h1, h2, h, orElse_right, orElse_left, Option.bind_eq_bind, Option.bind_some]
          exact fin _ (by simp [parmMarks]) t q he ht _
      · simp only [h1, h, orElse_right, orElse_left, Option.bind_eq_bind, Option.bind_some]
        exact fin _ (by simp [parmMarks]) t q he ht _
    · simp only [h, orElse_left, Option.bind_eq_bind, Option.bind_some]
      exact fin _ (by simp [parmMarks]) t q he ht _

/-! ### Scanning lines -/

theorem ast_char {st : State} (hc : st.cond = .ast) (hb : st.bol = false) {x : Char} (s : Str) (hx : x ≠ '\n') :
    run st (x :: s) = run (st.after [x] .ast) s := by
  have hbm : bestMatch st.bol (x :: s) (rules st.cond) = some (1, .stay) := by
    rw [hc, hb]
    exact bestMatch_dom (A := [⟨true, funcvarPat, .ret .astFuncvar⟩, ⟨true, parmvarPat, .ret .astParmvar⟩, ⟨false, lit ['\n'], .stay⟩])
      (B := []) ⟨fun m hm => by simp [Rule.val] at hm, fun m hm => by simp [Rule.val] at hm,
        val_none (by simp [lit]; exact fun h => hx h.symm) _, trivial⟩
      (r := ⟨false, anyChar, .stay⟩) (by simp [Rule.val, anyChar, hx]) trivial
  have := run_stay [x] s rfl (by simp) hbm
  rw [hc] at this
  exact this

theorem nl_none (s : Str) : funcvarPat ('\n' :: s) = none ∧ parmvarPat ('\n' :: s) = none := by
  have := other_none (s := []) (p := []) (rest := s) .nil (by
    intro m hm hp
    have : m = [] := by simpa using hp
    subst this
    simp [declMarks] at hm)
  exact this

theorem ast_nl {st : State} (hc : st.cond = .ast) (s : Str) :
    run st ('\n' :: s) = run (st.after ['\n'] .ast) s := by
  have hbm : bestMatch st.bol ('\n' :: s) (rules st.cond) = some (1, .stay) := by
    rw [hc]
    exact bestMatch_dom (A := [⟨true, funcvarPat, .ret .astFuncvar⟩, ⟨true, parmvarPat, .ret .astParmvar⟩])
      (B := [⟨false, anyChar, .stay⟩]) ⟨val_none (nl_none s).1 _, val_none (nl_none s).2 _, trivial⟩
      (r := ⟨false, lit ['\n'], .stay⟩) (by simp [Rule.val, lit]) ⟨val_le_bound (anyChar_le _), trivial⟩
  have := run_stay ['\n'] s rfl (by simp) hbm
  rw [hc] at this
  exact this

/-- In the middle of a line everything up to its end is skipped. -/
theorem ast_middle (t s : Str) (ht : '\n' ∉ t) : ∀ st : State, st.cond = .ast → st.bol = false →
    ∃ st' : State, st'.cond = .ast ∧ run st (t ++ s) = run st' s := by
  induction t with
  | nil => intro st hc _; exact ⟨st, hc, rfl⟩
  | cons x t ih =>
    intro st hc hb
    simp only [List.mem_cons, not_or] at ht
    rw [List.cons_append, ast_char hc hb _ (fun h => ht.1 h.symm)]
    have hb' : (st.after [x] .ast).bol = false := by
      simp [State.after]; exact fun h => ht.1 h.symm
    exact ih ht.2 (st.after [x] .ast) rfl hb'

/-- The token of a line. -/
def lineTok : ALine → List Tok
  | l@(.decl ..) => [⟨.astFuncvar, l.text⟩]
  | l@(.parm ..) => [⟨.astParmvar, l.text⟩]
  | .other _ => []

theorem parmvar_decl {fn : Bool} {bar : Char} {c : Codes} {raw : Str} {cr : Bool} {symbol type : Str}
    (hv : (ALine.decl fn bar c raw cr symbol type).Valid) (rest : Str) :
    parmvarPat ((ALine.decl fn bar c raw cr symbol type).text ++ rest) = none := by
  obtain ⟨h0, h1, h2, h3, h4⟩ := hv.2.1
  have hbar := hv.1
  have e0 : ∀ X : Str, skipCol (c.c0 ++ ([bar, '-'] ++ X)) = bar :: '-' :: X := by
    intro X
    rw [skipCol_opt _ _ h0]
    · rfl
    · intro x hx
      simp at hx
      subst hx
      rcases hbar with rfl | rfl <;> decide
  simp only [ALine.text, List.append_assoc]
  unfold parmvarPat
  rw [e0]
  generalize c.c1 ++ _ = X
  rcases hbar with rfl | rfl <;> simp [afterLit]

theorem line_ne {l : ALine} (h : lineTok l ≠ []) : l.text ≠ [] := by
  cases l with
  | decl fn => simp [ALine.text]
  | parm => simp [ALine.text]
  | other => simp [lineTok] at h

/-- The tokens of one line. -/
theorem run_line (l : ALine) (hv : l.Valid) (rest : Str) (st : State) (hc : st.cond = .ast) (hb : st.bol = true) :
    ∃ st', st'.cond = .ast ∧ st'.bol = true ∧
      run st (l.text ++ '\n' :: rest) = (lineTok l ++ (run st' rest).1, (run st' rest).2) := by
  have hnl := line_nl hv
  have fin : ∀ st' : State, st'.cond = .ast → ∃ st'' : State, st''.cond = .ast ∧ st''.bol = true ∧
      run st' ('\n' :: rest) = run st'' rest := by
    intro st' h
    exact ⟨st'.after ['\n'] .ast, rfl, by simp [State.after], ast_nl h rest⟩
  cases l with
  | decl fn bar c raw cr symbol type =>
    have h1 := funcvarPat_decl hv rest
    have h2 := parmvar_decl hv ('\n' :: rest)
    have hbm : bestMatch st.bol ((ALine.decl fn bar c raw cr symbol type).text ++ '\n' :: rest) (rules st.cond)
        = some ((ALine.decl fn bar c raw cr symbol type).text.length, .ret .astFuncvar) := by
      rw [hc]
      refine bestMatch_dom (A := []) (r := ⟨true, funcvarPat, .ret .astFuncvar⟩)
        (B := [⟨true, parmvarPat, .ret .astParmvar⟩, ⟨false, lit ['\n'], .stay⟩, ⟨false, anyChar, .stay⟩])
        trivial (by rw [hb]; exact h1) ⟨val_none' h2 _, val_le_bound ?_, val_le_bound ?_, trivial⟩
      · intro m hm
        have := lit_le _ _ m hm
        have := List.length_pos_iff.mpr (line_ne (l := ALine.decl fn bar c raw cr symbol type) (by simp [lineTok]))
        simp at *; omega
      · intro m hm
        have := anyChar_le _ m hm
        have := List.length_pos_iff.mpr (line_ne (l := ALine.decl fn bar c raw cr symbol type) (by simp [lineTok]))
        omega
    have := run_ret _ _ rfl (line_ne (l := ALine.decl fn bar c raw cr symbol type) (by simp [lineTok])) hbm
    obtain ⟨st'', g1, g2, g3⟩ := fin (st.after (ALine.decl fn bar c raw cr symbol type).text st.cond) (by simp [State.after, hc])
    refine ⟨st'', g1, g2, ?_⟩
    rw [this, g3]
    rfl
  | parm pre c raw cr type =>
    obtain ⟨h1, h2⟩ := parmvarPat_parm hv rest
    have hbm : bestMatch st.bol ((ALine.parm pre c raw cr type).text ++ '\n' :: rest) (rules st.cond)
        = some ((ALine.parm pre c raw cr type).text.length, .ret .astParmvar) := by
      rw [hc]
      refine bestMatch_dom (A := [⟨true, funcvarPat, .ret .astFuncvar⟩]) (r := ⟨true, parmvarPat, .ret .astParmvar⟩)
        (B := [⟨false, lit ['\n'], .stay⟩, ⟨false, anyChar, .stay⟩])
        ⟨val_none h2 _, trivial⟩ (by rw [hb]; exact h1) ⟨val_le_bound ?_, val_le_bound ?_, trivial⟩
      · intro m hm
        have := lit_le _ _ m hm
        have := List.length_pos_iff.mpr (line_ne (l := ALine.parm pre c raw cr type) (by simp [lineTok]))
        simp at *; omega
      · intro m hm
        have := anyChar_le _ m hm
        have := List.length_pos_iff.mpr (line_ne (l := ALine.parm pre c raw cr type) (by simp [lineTok]))
        omega
    have := run_ret _ _ rfl (line_ne (l := ALine.parm pre c raw cr type) (by simp [lineTok])) hbm
    obtain ⟨st'', g1, g2, g3⟩ := fin (st.after (ALine.parm pre c raw cr type).text st.cond) (by simp [State.after, hc])
    refine ⟨st'', g1, g2, ?_⟩
    rw [this, g3]
    rfl
  | other s =>
    obtain ⟨_, p, hp, hm⟩ := hv
    show ∃ st' : State, _ ∧ _ ∧ run st (s ++ '\n' :: rest) = ([] ++ (run st' rest).1, (run st' rest).2)
    have hnl : '\n' ∉ s := hnl
    cases s with
    | nil =>
      obtain ⟨st'', g1, g2, g3⟩ := fin st hc
      exact ⟨st'', g1, g2, by rw [List.nil_append, g3]; rfl⟩
    | cons x s =>
      obtain ⟨h1, h2⟩ := other_none (rest := rest) hp hm
      simp only [List.mem_cons, not_or] at hnl
      have hx : x ≠ '\n' := fun h => hnl.1 h.symm
      have hbm : bestMatch st.bol ((x :: s) ++ '\n' :: rest) (rules st.cond) = some (1, .stay) := by
        rw [hc]
        exact bestMatch_dom (A := [⟨true, funcvarPat, .ret .astFuncvar⟩, ⟨true, parmvarPat, .ret .astParmvar⟩, ⟨false, lit ['\n'], .stay⟩])
          (B := []) ⟨val_none h1 _, val_none h2 _, val_none (by simp [lit]; exact fun h => hx h.symm) _, trivial⟩
          (r := ⟨false, anyChar, .stay⟩) (by simp [Rule.val, anyChar, hx]) trivial
      have h3 := run_stay [x] (s ++ '\n' :: rest) rfl (by simp) hbm
      rw [hc] at h3
      have hb' : (st.after [x] .ast).bol = false := by simp [State.after, hx]
      obtain ⟨st', f1, f2⟩ := ast_middle s ('\n' :: rest) hnl.2 (st.after [x] .ast) rfl hb'
      obtain ⟨st'', g1, g2, g3⟩ := fin st' f1
      refine ⟨st'', g1, g2, ?_⟩
      have : run st (x :: s ++ '\n' :: rest) = run st'' rest := h3.trans (f2.trans g3)
      rw [this]; rfl

theorem run_lines (ls : List ALine) (hv : ∀ l ∈ ls, l.Valid) : ∀ st : State, st.cond = .ast → st.bol = true →
    run st (ls.map fun l => l.text ++ ['\n']).flatten = ((ls.map lineTok).flatten, .eof) := by
  induction ls with
  | nil => intro st _ _; exact run_nil st
  | cons l ls ih =>
    intro st hc hb
    obtain ⟨st', h1, h2, h3⟩ := run_line l (hv l (by simp)) (ls.map fun l => l.text ++ ['\n']).flatten st hc hb
    simp only [List.map_cons, List.flatten_cons, List.append_assoc, List.singleton_append]
    rw [h3, ih (fun l hl => hv l (by simp [hl])) st' h1 h2]

/-- The first line of a dump. -/
def headText (codes : Codes) (head : Str) : Str :=
  codes.c0 ++ (str% "TranslationUnitDecl" ++ (codes.c1 ++ (codes.c2 ++ (str% " 0x" ++ head))))

theorem dumpText_eq (codes : Codes) (head : Str) (lines : List ALine) :
    dumpText codes head lines = headText codes head ++ '\n' :: (lines.map fun l => l.text ++ ['\n']).flatten := by
  simp [dumpText, headText]

theorem esc_takeWhile (s : Str) : ('\x1b' :: s).takeWhile isWord = [] := by
  rw [List.takeWhile_cons, if_neg (by decide)]

theorem head_pat (codes : Codes) (hc : codes.Valid) (head rest : Str) (hh : '\n' ∉ head) :
    astBeginPat (headText codes head ++ '\n' :: rest) = some (headText codes head).length := by
  obtain ⟨h0, h1, h2, -, -⟩ := hc
  have e0 : skipBom (headText codes head ++ '\n' :: rest) = headText codes head ++ '\n' :: rest := by
    unfold headText
    rcases h0 with h0 | ⟨k, h0, -⟩ <;> rw [h0]
    · exact skipBom_other (by decide)
    · exact skipBom_other (by decide)
  unfold astBeginPat
  rw [e0]
  simp only [headText, List.append_assoc]
  rw [skipCol_opt _ _ h0 (by simp), afterLit_append]
  simp only [Option.bind_eq_bind, Option.bind_some]
  rw [skipCol_opt2 _ _ _ h1 h2 (by simp), afterLit_append]
  simp only [Option.bind_some, Option.pure_def, restOfLine_nl _ _ hh]
  simp only [List.length_append, List.length_cons, List.length_nil]
  congr 1
  omega

theorem ident_code {c s : Str} (hc : IsCode c) (hs : ∀ x, s.head? = some x → isWord x = false) :
    (c ++ s).takeWhile isWord = [] := by
  rcases hc with rfl | ⟨k, rfl, -⟩
  · cases s with
    | nil => rfl
    | cons x s => simp [hs x rfl]
  · exact esc_takeWhile _

theorem head_ident (codes : Codes) (hc : codes.Valid) (head rest : Str) :
    ∀ m, identPat (headText codes head ++ '\n' :: rest) = some m → m ≤ (headText codes head).length := by
  obtain ⟨h0, h1, h2, -, -⟩ := hc
  intro m hm
  have hlen : ∀ t : Str, identPat t = some m → m = (t.takeWhile isWord).length := by
    intro t ht
    unfold identPat at ht
    split at ht
    · simp at ht
    · rename_i h; rw [h]; simpa using ht.symm
  have := hlen _ hm
  rcases h0 with h0 | ⟨k, h0, -⟩
  · have hz : (codes.c1 ++ (codes.c2 ++ (str% " 0x" ++ (head ++ '\n' :: rest)))).takeWhile isWord = [] := by
      rcases h1 with h1 | ⟨k, h1, -⟩ <;> rw [h1]
      · rw [List.nil_append]
        exact ident_code h2 (by intro x hx; simp at hx; subst hx; decide)
      · exact esc_takeWhile _
    have : headText codes head ++ '\n' :: rest =
        str% "TranslationUnitDecl" ++ (codes.c1 ++ (codes.c2 ++ (str% " 0x" ++ (head ++ '\n' :: rest)))) := by
      unfold headText; rw [h0]; simp only [List.append_assoc, List.nil_append]
    rw [this] at hm
    have := hlen _ hm
    rw [List.takeWhile_append_of_pos (by decide), hz] at this
    unfold headText
    rw [h0]
    simp only [List.length_append, List.length_cons, List.length_nil] at this ⊢
    omega
  · have : headText codes head ++ '\n' :: rest = '\x1b' :: ('[' :: (k ++ ['m']) ++
        (str% "TranslationUnitDecl" ++ (codes.c1 ++ (codes.c2 ++ (str% " 0x" ++ (head ++ '\n' :: rest)))))) := by
      unfold headText; rw [h0]; simp
    rw [this] at hm
    have := hlen _ hm
    rw [esc_takeWhile] at this
    simp at this
    omega

theorem head_front {x : Char} (hx : x = '\x1b' ∨ x = 'T') (s : Str) (n : Nat) (hn : 1 ≤ n)
    (hi : ∀ m, identPat (x :: s) = some m → m ≤ n) :
    AtMost true (x :: s) n ((rules .initial).drop 1) := by
  have hbom : skipBom (x :: s) = x :: s := skipBom_other (by rcases hx with rfl | rfl <;> decide)
  have hl : ∀ (a : Char) (l : Str), a ≠ '\x1b' → a ≠ 'T' → lit (a :: l) (x :: s) = none := by
    intro a l h1 h2
    unfold lit
    rw [if_neg]
    intro hp
    simp at hp
    rcases hx with rfl | rfl
    · exact h1 hp.1
    · exact h2 hp.1
  have hsp : ∀ b, splitBetween '/' b (x :: s) = none := by
    intro b
    unfold splitBetween
    split
    · rename_i heq
      simp at heq
      rw [if_neg]
      rintro ⟨h, -⟩
      rcases hx with rfl | rfl <;> simp [← heq.1] at h
    · rfl
  refine ⟨val_none' ?_ _, val_none' (hl _ _ (by decide) (by decide)) _, val_none' (hsp _) _,
    val_none' (hl _ _ (by decide) (by decide)) _, val_none' (hsp _) _, val_none' ?_ _,
    val_none' (hl _ _ (by decide) (by decide)) _, val_none' ?_ _,
    val_none' (hl _ _ (by decide) (by decide)) _, val_none' (hl _ _ (by decide) (by decide)) _,
    val_none' (hl _ _ (by decide) (by decide)) _, val_none' (hl _ _ (by decide) (by decide)) _,
    val_none' (hl _ _ (by decide) (by decide)) _, val_le_bound hi, val_none' ?_ _,
    val_none' (hl _ _ (by decide) (by decide)) _, val_none' (hl _ _ (by decide) (by decide)) _,
    val_none' (hl _ _ (by decide) (by decide)) _, val_none' (hl _ _ (by decide) (by decide)) _,
    val_none' (hl _ _ (by decide) (by decide)) _,
    val_le_bound (fun m h => Nat.le_trans (anyChar_le _ m h) hn), trivial⟩
  · show optionPat (x :: s) = none
    unfold optionPat
    rw [hbom]
    rcases hx with rfl | rfl <;> simp [afterLit]
  · show preprocPat (x :: s) = none
    unfold preprocPat
    rw [hbom]
    rcases hx with rfl | rfl <;> simp [isSpace]
  · rcases hx with rfl | rfl <;> simp [spaceChar, isSpace]
  · rcases hx with rfl | rfl <;> simp [otherPat]

/-- The tokens of a whole dump. -/
theorem run_dump (codes : Codes) (hc : codes.Valid) (head : Str) (hh : '\n' ∉ head) (ls : List ALine)
    (hv : ∀ l ∈ ls, l.Valid) :
    run {} (dumpText codes head ls) = (⟨.astBegin, headText codes head⟩ :: (ls.map lineTok).flatten, .eof) := by
  rw [dumpText_eq]
  generalize hrest : (ls.map fun l => l.text ++ ['\n']).flatten = rest
  have hnl : '\n' ∉ headText codes head := by
    obtain ⟨h0, h1, h2, -, -⟩ := hc
    have := code_nl h0
    have := code_nl h1
    have := code_nl h2
    simp [headText, *]
  have hpos : 1 ≤ (headText codes head).length := by
    simp only [headText, List.length_append, List.length_cons, List.length_nil]; omega
  have hbm : bestMatch true (headText codes head ++ '\n' :: rest) (rules .initial)
      = some ((headText codes head).length, .astBegin) := by
    refine bestMatch_dom (A := []) (r := ⟨true, astBeginPat, .astBegin⟩) (B := (rules .initial).drop 1)
      trivial (head_pat codes hc head rest hh) ?_
    have hi := head_ident codes hc head rest
    obtain ⟨x, s, hx, he⟩ : ∃ x s, (x = '\x1b' ∨ x = 'T') ∧ headText codes head ++ '\n' :: rest = x :: s := by
      obtain ⟨h0, -⟩ := hc
      unfold headText
      rcases h0 with h0 | ⟨k, h0, -⟩ <;> rw [h0]
      · exact ⟨_, _, Or.inr rfl, rfl⟩
      · exact ⟨_, _, Or.inl rfl, rfl⟩
    rw [he] at hi ⊢
    exact head_front hx s _ hpos hi
  have hst := step_of_best (st := {}) rfl hbm
  have hline : nlCount (headText codes head) = 0 := by
    simp only [nlCount, List.count_eq_zero]; exact hnl
  have heff : Act.effect {} (headText codes head) .astBegin
      = .next (State.after {} (headText codes head) .ast) (some ⟨.astBegin, headText codes head⟩) := by
    simp [Act.effect, State.after, hline]
  rw [heff] at hst
  rw [run_tok hst rfl (by simp), ast_nl rfl, ← hrest, run_lines ls hv _ rfl (by simp [State.after])]

end Gdo.Lex
