import Verif.Lemmas.DeclRead

/-!
Property theorems C07 - C11: the declaration parser.
-/

namespace Gdo
open Spec

/-! ## C07: no access outside of the token list -/

/-- C07.  For every list of statements, every parameter mode and all filters the
    parser returns (with a result or an error): undefined behaviour is not reached. -/
theorem C07_parser_memory_safe (vecTokens : List Toks) (mode : ParamNames)
    (prefixes symbols : List Str) :
    gendlopenParse vecTokens mode prefixes symbols ≠ none := by
  obtain ⟨r, hr⟩ := gendlopenParse_isSome vecTokens mode prefixes symbols
  rw [hr]; simp

/-- The model does have undefined behaviour: the pattern check with the end iterator
    on a list that ends in a parenthesis runs out of the list. -/
example : checkPattern [str% "a", str% "b", str% ")"] 3 ⟨[TYPE], ['('], [')']⟩ = none := by decide

/-- A result is reachable. -/
example : gendlopenParse [[str% "int", str% "f", str% "(", str% "int", str% "x", str% ")"]] .read [] []
    = some (.ok ⟨[{ kind := .function, type := str% "int ", symbol := str% "f", args := str% "int x",
                    argsVec := [[str% "int", str% "x"]], paramNames := str% "x" }], []⟩) := by decide

/-! ## C08, C09, C10: declarations are read back -/

/-- The shapes `T name(..)`, `T name` and `T name[..]`. -/
def Spec.Decl.Plain : Decl → Prop
  | .func .. | .var .. | .array .. => True
  | _ => False

/-- Declarations of the plain shapes are read as what they mean, for all types,
    names, parameter tokens and array suffixes. -/
theorem read_plain (d : Decl) (hv : d.Valid) (hp : d.Plain) :
    checkPrototype d.print = some (some d.meaning) := by
  obtain ⟨hT, hn⟩ := hv
  cases d with
  | func T n ps =>
    have hT : TypeToks T := hT
    have hn : IdentTok n := hn
    have e : (Decl.func T n ps).print = (T ++ [n]) ++ ['('] :: (ps ++ [[')']]) := by simp [Decl.print]
    obtain ⟨f, hf, hfi⟩ := type_head hT ([n] ++ ['('] :: (ps ++ [[')']]))
    rw [← List.append_assoc] at hf
    rw [e, checkPrototype_at (A := T ++ [n]) (f := f) ?_ not_skip_paren hf hfi (by simp)]
    · rw [if_pos (show strFront ['('] = '(' from rfl), checkFunction_ok (type_pos hT) (isIdent_front hn)]
      rfl
    · intro t ht
      simp at ht
      rcases ht with ht | rfl
      · exact skip_of_type hT t ht
      · exact Or.inr (isIdent_front hn)
  | var T n =>
    have hT : TypeToks T := hT
    have hn : IdentTok n := hn
    have hs : ∀ t ∈ T ++ [n], SkipTok t := by
      intro t ht
      simp at ht
      rcases ht with ht | rfl
      · exact skip_of_type hT t ht
      · exact Or.inr (isIdent_front hn)
    obtain ⟨f, hf, hfi⟩ := type_head hT [n]
    show checkPrototype (T ++ [n]) = _
    unfold checkPrototype
    have hl : ¬ (T ++ [n]).length < 2 := by have := type_pos hT; simp; omega
    rw [if_neg hl, hf]
    simp only [Option.bind_eq_bind, Option.bind_some, hfi, findFirst_all hs,
      checkObject_ok (type_pos hT) (isIdent_front hn)]
    rfl
  | array T n s =>
    have hT : TypeToks T := hT
    have hn : IdentTok n := hn
    have e : (Decl.array T n s).print = (T ++ [n]) ++ ['['] :: (s ++ [[']']]) := by simp [Decl.print]
    obtain ⟨f, hf, hfi⟩ := type_head hT ([n] ++ ['['] :: (s ++ [[']']]))
    rw [← List.append_assoc] at hf
    rw [e, checkPrototype_at (A := T ++ [n]) (f := f) ?_ not_skip_bracket hf hfi (by simp)]
    · rw [if_neg (by decide), if_pos (show strFront ['['] = '[' from rfl), checkArray_ok (type_pos hT) (isIdent_front hn)]
      rfl
    · intro t ht
      simp at ht
      rcases ht with ht | rfl
      · exact skip_of_type hT t ht
      · exact Or.inr (isIdent_front hn)
  | funcParen => exact hp.elim
  | funcPtr1 => exact hp.elim
  | funcPtr2 => exact hp.elim
  | funPtrVar => exact hp.elim

/-- Declarations of the other shapes are read as what they mean if the type is one
    word or ends in a star. -/
theorem read_parenthesized (d : Decl) (hv : d.Valid) (h1 : OneWordOrPointer d.base) :
    ¬ d.Plain → checkPrototype d.print = some (some d.meaning) := by
  obtain ⟨hT, hn⟩ := hv
  intro hp
  have key : ∀ (T : Toks) (w : Toks), TypeToks T → OneWordOrPointer T →
      checkPrototype (T ++ ['('] :: w) =
        orElseCheck (checkFunctionPointer (T ++ ['('] :: w) T.length) fun _ =>
        orElseCheck (checkFunctionParen (T ++ ['('] :: w) T.length) fun _ =>
        checkFunctionParenPointer (T ++ ['('] :: w) T.length := by
    intro T w hT h1
    obtain ⟨f, hf, hfi⟩ := type_head hT (['('] :: w)
    rw [checkPrototype_at (skip_of_type hT) not_skip_paren hf hfi (type_pos hT), if_pos (show strFront ['('] = '(' from rfl),
      checkFunction_fails hT h1 (by simp)]
    rfl
  cases d with
  | func => exact absurd trivial hp
  | var => exact absurd trivial hp
  | array => exact absurd trivial hp
  | funPtrVar T n ps =>
    replace hn : IdentTok n := hn
    replace hT : TypeToks T := hT
    replace h1 : OneWordOrPointer T := h1
    have e : (Decl.funPtrVar T n ps).print = T ++ ['('] :: ([['*'], n, [')'], ['(']] ++ ps ++ [[')']]) := by
      simp [Decl.print]
    rw [e, key T _ hT h1, checkFunctionPointer_ok (type_pos hT) hn]
    rfl
  | funcParen T n ps =>
    replace hn : IdentTok n := hn
    replace hT : TypeToks T := hT
    replace h1 : OneWordOrPointer T := h1
    have e : (Decl.funcParen T n ps).print = T ++ ['('] :: (n :: ([[')'], ['(']] ++ ps) ++ [[')']]) := by
      simp [Decl.print]
    have hstar : matching (strFront n) '*' = false := by
      have h := isIdent_front hn
      have h2 : strFront n ≠ '*' := by intro h'; rw [h'] at h; revert h; decide
      have h3 : ('*' == SYMBOL) = false := by decide
      simp only [matching, h3, Bool.false_and, Bool.or_false]
      simpa using h2
    rw [e, key T _ hT h1, checkFunctionPointer_fails2 (type_pos hT) hstar]
    have := checkFunctionParen_ok (ps := ps) (type_pos hT) hn
    simp only [List.cons_append, List.nil_append, List.append_assoc] at this ⊢
    rw [this]
    rfl
  | funcPtr1 T n ps =>
    replace hn : IdentTok n := hn
    replace hT : TypeToks T := hT
    replace h1 : OneWordOrPointer T := h1
    have e : (Decl.funcPtr1 T n ps).print =
        T ++ ['('] :: (['*'] :: n :: ['('] :: (ps ++ [[')']]) ++ [[')']]) := by
      simp [Decl.print]
    rw [e, key T _ hT h1, checkFunctionPointer_fails4 (t3 := n) (t4 := ['(']) (type_pos hT) (by
      have : matching (strFront ['(']) ')' = false := by decide
      simp [this])]
    have h2 := checkFunctionParen_fails (T := T) (t2 := ['*']) (w := n :: ['('] :: (ps ++ [[')']]))
      (type_pos hT) (by decide)
    have h3 := checkFunctionParenPointer_ok1 (ps := ps) (type_pos hT) hn
    simp only [List.cons_append, List.nil_append, List.append_assoc] at h2 h3 ⊢
    rw [h2, h3]
    rfl
  | funcPtr2 T n ps =>
    replace hn : IdentTok n := hn
    replace hT : TypeToks T := hT
    replace h1 : OneWordOrPointer T := h1
    have e : (Decl.funcPtr2 T n ps).print =
        T ++ ['('] :: (['*'] :: ['*'] :: n :: (['('] :: (ps ++ [[')']])) ++ [[')']]) := by
      simp [Decl.print]
    rw [e, key T _ hT h1, checkFunctionPointer_fails4 (t3 := ['*']) (t4 := n) (type_pos hT) (by
      have : matching (strFront ['*']) SYMBOL = false := by decide
      simp [this])]
    have h2 := checkFunctionParen_fails (T := T) (t2 := ['*']) (w := ['*'] :: n :: ['('] :: (ps ++ [[')']]))
      (type_pos hT) (by decide)
    have h3 := checkFunctionParenPointer_ok2 (ps := ps) (type_pos hT) hn
    simp only [List.cons_append, List.nil_append, List.append_assoc] at h2 h3 ⊢
    rw [h2, h3]
    rfl

/-- If the type has two or more tokens and ends in a word, every declaration with
    the name in parentheses is taken for a function whose name is the last word of
    the type. -/
theorem misread_parenthesized (d : Decl) (hp : ¬ d.Plain) (X : Toks) (n : Str)
    (hb : d.base = X ++ [n]) (hX : X ≠ []) (hT : TypeToks d.base) (hn : IdentTok n) :
    ∃ args, checkPrototype d.print =
      some (some { kind := .function, type := spaced X, symbol := n, argsVec := args }) := by
  have key : ∀ rest, ∃ args, checkPrototype ((X ++ [n]) ++ ['('] :: (rest ++ [[')']])) =
      some (some { kind := .function, type := spaced X, symbol := n, argsVec := args }) := by
    intro rest
    rw [hb] at hT
    obtain ⟨f, hf, hfi⟩ := type_head hT (['('] :: (rest ++ [[')']]))
    rw [checkPrototype_at (skip_of_type hT) not_skip_paren hf hfi (by simp), if_pos (show strFront ['('] = '(' from rfl),
      checkFunction_grabs (by cases X with | nil => exact absurd rfl hX | cons => simp) (isIdent_front hn)]
    exact ⟨_, rfl⟩
  cases d with
  | func => exact absurd trivial hp
  | var => exact absurd trivial hp
  | array => exact absurd trivial hp
  | funPtrVar T m ps =>
    have hb : T = X ++ [n] := hb
    obtain ⟨a, h⟩ := key ([['*'], m, [')'], ['(']] ++ ps)
    refine ⟨a, ?_⟩
    rw [← h, hb.symm]; simp [Decl.print]
  | funcParen T m ps =>
    have hb : T = X ++ [n] := hb
    obtain ⟨a, h⟩ := key ([m, [')'], ['(']] ++ ps)
    refine ⟨a, ?_⟩
    rw [← h, hb.symm]; simp [Decl.print]
  | funcPtr1 T m ps =>
    have hb : T = X ++ [n] := hb
    obtain ⟨a, h⟩ := key ([['*'], m, ['(']] ++ ps ++ [[')']])
    refine ⟨a, ?_⟩
    rw [← h, hb.symm]; simp [Decl.print]
  | funcPtr2 T m ps =>
    have hb : T = X ++ [n] := hb
    obtain ⟨a, h⟩ := key ([['*'], ['*'], m, ['(']] ++ ps ++ [[')']])
    refine ⟨a, ?_⟩
    rw [← h, hb.symm]; simp [Decl.print]

/-- C08, the plain shape `TYPE name(params)`: read back for all types, names and
    parameter tokens. -/
theorem C08_function_read_back (T : Toks) (n : Str) (ps : Toks) (hT : TypeToks T) (hn : IdentTok n) :
    checkPrototype (T ++ [n, ['(']] ++ ps ++ [[')']]) =
      some (some { kind := .function, type := spaced T, symbol := n, argsVec := paramSegments ps }) :=
  read_plain (.func T n ps) ⟨hT, hn⟩ trivial

/-- C08 for all shapes of function declarations.  Missing: types of two or more
    tokens that end in a word, see `C08_violated`. -/
theorem C08_function_shapes_partial (d : Decl) (hv : d.Valid) (hk : d.kind = .function)
    (h1 : d.Plain ∨ OneWordOrPointer d.base) :
    ∃ p, checkPrototype d.print = some (some p) ∧ p.kind = .function ∧
      p.type = d.typeText ∧ p.symbol = d.name ∧ p.argsVec = d.paramList := by
  by_cases hp : d.Plain
  · exact ⟨_, read_plain d hv hp, hk, rfl, rfl, rfl⟩
  · exact ⟨_, read_parenthesized d hv (h1.resolve_left hp) hp, hk, rfl, rfl, rfl⟩

/-- C08 is violated: `unsigned int (foo)(void)` is read as a function called `int`. -/
theorem C08_violated : ∃ d : Decl, d.Valid ∧ d.kind = .function ∧
    ∃ p, checkPrototype d.print = some (some p) ∧ p.symbol ≠ d.name := by
  refine ⟨.funcParen [str% "unsigned", str% "int"] (str% "foo") [str% "void"], ⟨⟨_, _, rfl, ?_, ?_⟩, ?_⟩, rfl, _, rfl, ?_⟩
  · decide
  · intro t ht; simp at ht; subst ht; left; decide
  · decide
  · decide

/-- ... and the wrong reading passes the parameter check without any error. -/
theorem C08_violated_silently :
    ∃ st, gendlopenParse [(Decl.funcParen [str% "unsigned", str% "int"] (str% "foo") [str% "void"]).print]
      .read [] [] = some (.ok st) ∧ st.protos.map Proto.symbol = [str% "int"] ∧ st.objs = [] :=
  ⟨_, rfl, rfl, rfl⟩

example : (Decl.funcPtr2 [str% "char", str% "*"] (str% "foo") [str% "int", str% "x"]).Valid ∧
    OneWordOrPointer [str% "char", str% "*"] :=
  ⟨⟨⟨str% "char", [str% "*"], rfl, by decide, by simp⟩, by decide⟩, Or.inr rfl⟩

/-- C09 for types of one word and types that end in a star.  Missing: other types of
    two or more tokens, see `C09_violated`. -/
theorem C09_function_pointer_variable_partial (T : Toks) (n : Str) (ps : Toks)
    (hT : TypeToks T) (hn : IdentTok n) (h1 : OneWordOrPointer T) :
    ∃ p, checkPrototype (T ++ [['('], ['*'], n, [')'], ['(']] ++ ps ++ [[')']]) = some (some p) ∧
      p.kind = .functionPointer ∧ p.symbol = n ∧
      p.type = spaced T ++ ['(', '*', ')'] ++ spaced ([['(']] ++ ps ++ [[')']]) :=
  ⟨_, read_parenthesized (.funPtrVar T n ps) ⟨hT, hn⟩ h1 (by simp [Spec.Decl.Plain]), rfl, rfl, rfl⟩

/-- C09 is violated for every type of two or more tokens that ends in a word: the
    variable is read as a function called like the last word of its type. -/
theorem C09_violated (X : Toks) (w n : Str) (ps : Toks) (hX : X ≠ [])
    (hT : TypeToks (X ++ [w])) (hw : IdentTok w) :
    ∃ p, checkPrototype ((X ++ [w]) ++ [['('], ['*'], n, [')'], ['(']] ++ ps ++ [[')']]) = some (some p) ∧
      p.kind = .function ∧ p.symbol = w := by
  obtain ⟨a, h⟩ := misread_parenthesized (.funPtrVar (X ++ [w]) n ps) (by simp [Spec.Decl.Plain]) X w rfl hX hT hw
  exact ⟨_, h, rfl, rfl⟩

example : TypeToks ([str% "unsigned"] ++ [str% "int"]) :=
  ⟨str% "unsigned", [str% "int"], rfl, by decide, by intro t ht; simp at ht; subst ht; left; decide⟩

/-- ... with -param=skip without any error: `unsigned int (*cb)(int);` -/
theorem C09_violated_silently :
    ∃ st, gendlopenParse [(Decl.funPtrVar [str% "unsigned", str% "int"] (str% "cb") [str% "int"]).print]
      .skip [] [] = some (.ok st) ∧ st.protos.map Proto.symbol = [str% "int"] ∧ st.objs = [] :=
  ⟨_, rfl, rfl, rfl⟩

/-- C10: variables and arrays are read back for all types, names and suffixes. -/
theorem C10_objects_read_back (T : Toks) (n : Str) (s : Toks) (hT : TypeToks T) (hn : IdentTok n) :
    (checkPrototype (T ++ [n]) =
      some (some { kind := .object, type := spaced T, symbol := n })) ∧
    (checkPrototype (T ++ [n, ['[']] ++ s ++ [[']']]) =
      some (some { kind := .objectArray, type := spaced (T ++ [['[']] ++ s ++ [[']']]), symbol := n })) :=
  ⟨read_plain (.var T n) ⟨hT, hn⟩ trivial, read_plain (.array T n s) ⟨hT, hn⟩ trivial⟩

example : TypeToks [str% "const", str% "char", str% "*"] ∧ IdentTok (str% "foo") :=
  ⟨⟨str% "const", _, rfl, by decide, by
    intro t ht; simp at ht; rcases ht with rfl | rfl
    · left; decide
    · right; rfl⟩, by decide⟩

/-! ## C11: splitting of parameter lists -/

/-- Nesting depth at the end of a token list. -/
def Spec.depth (ts : Toks) : Int := (ts.map delta).sum

/-- The comma as a token. -/
def Spec.comma : Str := [',']

theorem segments_join (ts : Toks) (hc : ∀ t ∈ ts, t.head? = some ',' → t = comma) :
    ∀ d, List.intercalate [comma] (segments d ts) = ts := by
  induction ts with
  | nil => intro d; simp [segments, List.intercalate]
  | cons t ts ih =>
    intro d
    have ih := ih (fun t ht => hc t (by simp [ht]))
    simp only [segments]
    split
    · rename_i h
      have := hc t (by simp) h.1
      subst this
      have h0 := ih 0
      cases hs : segments 0 ts with
      | nil => exact absurd hs (segments_ne_nil ts 0)
      | cons s ss =>
        rw [hs] at h0
        simp [List.intercalate, List.intersperse] at h0 ⊢
        cases ss <;> simp_all [List.intersperse]
    · have h0 := ih (d + delta t)
      cases hs : segments (d + delta t) ts with
      | nil => exact absurd hs (segments_ne_nil ts _)
      | cons s ss =>
        rw [hs] at h0
        cases ss <;> simp_all [List.intercalate, List.intersperse, consHead]

/-- Positions of commas in a segment that starts at depth `d`. -/
def NoComma (d : Int) (seg : Toks) : Prop :=
  ∀ pre t suf, seg = pre ++ t :: suf → t.head? = some ',' → d + depth pre ≠ 0

theorem noComma_cons {d : Int} {t : Str} {s : Toks} (h : NoComma (d + delta t) s)
    (ht : ¬ (t.head? = some ',' ∧ d = 0)) : NoComma d (t :: s) := by
  intro pre u suf he hu
  cases pre with
  | nil =>
    simp at he
    obtain ⟨rfl, rfl⟩ := he
    simp [depth]
    exact fun h0 => ht ⟨hu, h0⟩
  | cons a pre =>
    simp at he
    obtain ⟨rfl, he⟩ := he
    have := h pre u suf he hu
    simp [depth] at this ⊢
    omega

theorem segments_noComma (ts : Toks) : ∀ d,
    (∀ s, (segments d ts).head? = some s → NoComma d s) ∧
    (∀ s ∈ (segments d ts).tail, NoComma 0 s) := by
  induction ts with
  | nil =>
    intro d
    simp [segments, NoComma]
  | cons t ts ih =>
    intro d
    simp only [segments]
    split
    · rename_i h
      obtain ⟨h1, h2⟩ := ih 0
      constructor
      · intro s hs; simp at hs; subst hs; intro pre t suf he; simp at he
      · intro s hs
        simp at hs
        cases hh : segments 0 ts with
        | nil => exact absurd hh (segments_ne_nil ts 0)
        | cons a b =>
          rw [hh] at hs h1 h2
          simp at hs
          rcases hs with rfl | hs
          · exact h1 s rfl
          · exact h2 s (by simpa using hs)
    · rename_i h
      obtain ⟨h1, h2⟩ := ih (d + delta t)
      cases hh : segments (d + delta t) ts with
      | nil => exact absurd hh (segments_ne_nil ts _)
      | cons a b =>
        rw [hh] at h1 h2
        constructor
        · intro s hs
          simp [consHead] at hs
          subst hs
          exact noComma_cons (h1 a rfl) h
        · intro s hs
          simp [consHead] at hs
          exact h2 s (by simpa using hs)

theorem segments_depth (ts : Toks) : ∀ d,
    (∀ s, (segments d ts).dropLast.head? = some s → d + depth s = 0) ∧
    (∀ s ∈ (segments d ts).dropLast.tail, depth s = 0) := by
  induction ts with
  | nil => intro d; simp [segments]
  | cons t ts ih =>
    intro d
    simp only [segments]
    split
    · rename_i h
      obtain ⟨h1, h2⟩ := ih 0
      cases hh : segments 0 ts with
      | nil => exact absurd hh (segments_ne_nil ts 0)
      | cons a b =>
        rw [hh] at h1 h2
        constructor
        · intro s hs; simp at hs; subst hs; simp [depth, h.2]
        · intro s hs
          simp at hs
          cases b with
          | nil => simp at hs
          | cons b1 b2 =>
            simp at hs h1 h2
            rcases hs with rfl | hs
            · exact h1
            · exact h2 s hs
    · rename_i h
      obtain ⟨h1, h2⟩ := ih (d + delta t)
      cases hh : segments (d + delta t) ts with
      | nil => exact absurd hh (segments_ne_nil ts _)
      | cons a b =>
        rw [hh] at h1 h2
        cases b with
        | nil => simp [consHead]
        | cons b1 b2 =>
          simp at h1 h2
          constructor
          · intro s hs
            simp [consHead] at hs
            subst hs
            simp [depth] at h1 ⊢
            omega
          · intro s hs
            simp [consHead] at hs
            exact h2 s hs

/-- C11.  The parameters are the segments of the list between the commas at nesting
    depth 0: joined by commas they give the list back (up to one trailing comma),
    they have no comma at depth 0, and before each separating comma the depth is 0. -/
theorem C11_split_at_top_level_commas (ts : Toks)
    (hc : ∀ t ∈ ts, t.head? = some ',' → t = comma) :
    (List.intercalate [comma] (copyParameters ts) = ts ∨
      List.intercalate [comma] (copyParameters ts) ++ [comma] = ts) ∧
    (∀ seg ∈ copyParameters ts, ∀ pre suf, seg = pre ++ comma :: suf → depth pre ≠ 0) ∧
    (∀ seg ∈ (copyParameters ts).dropLast, depth seg = 0) := by
  rw [copyParameters_eq]
  unfold paramSegments
  have hj := segments_join ts hc 0
  obtain ⟨hn1, hn2⟩ := segments_noComma ts 0
  obtain ⟨hd1, hd2⟩ := segments_depth ts 0
  have hno : ∀ seg ∈ segments 0 ts, ∀ pre suf, seg = pre ++ comma :: suf → depth pre ≠ 0 := by
    intro seg hs pre suf he
    have : NoComma 0 seg := by
      cases hh : segments 0 ts with
      | nil => rw [hh] at hs; simp at hs
      | cons a b =>
        rw [hh] at hs hn1 hn2
        simp at hs
        rcases hs with rfl | hs
        · exact hn1 _ rfl
        · exact hn2 seg (by simpa using hs)
    have := this pre comma suf he rfl
    simpa using this
  have hde : ∀ seg ∈ (segments 0 ts).dropLast, depth seg = 0 := by
    intro seg hs
    cases hh : (segments 0 ts).dropLast with
    | nil => rw [hh] at hs; simp at hs
    | cons a b =>
      rw [hh] at hs hd1 hd2
      simp at hs
      rcases hs with rfl | hs
      · have := hd1 seg rfl; omega
      · exact hd2 seg (by simpa using hs)
  split
  · rename_i hlast
    refine ⟨?_, fun seg hs => hno seg (List.dropLast_subset _ hs),
      fun seg hs => hde seg (List.dropLast_subset _ hs)⟩
    have hsplit : segments 0 ts = (segments 0 ts).dropLast ++ [[]] := by
      have hne := segments_ne_nil ts 0
      rw [List.getLast?_eq_some_getLast hne] at hlast
      have := List.dropLast_concat_getLast hne
      simp at hlast
      rw [hlast] at this
      exact this.symm
    generalize hD : (segments 0 ts).dropLast = D at *
    rw [hsplit] at hj
    cases D with
    | nil => left; simpa using hj
    | cons a b =>
      right
      rw [← hj]
      have : ∀ (l : List Toks) (x : Toks), List.intercalate [comma] ((x :: l) ++ [[]])
          = List.intercalate [comma] (x :: l) ++ [comma] := by
        intro l
        induction l with
        | nil => intro x; simp [List.intercalate, List.intersperse]
        | cons y l ih =>
          intro x
          have := ih y
          simp [List.intercalate, List.intersperse] at this ⊢
          exact this
      exact (this b a).symm
  · exact ⟨Or.inl hj, hno, hde⟩

example : copyParameters [str% "int", str% "a", comma, str% "void", str% "(", str% "*", str% "f",
      str% ")", str% "(", str% "int", comma, str% "int", str% ")"] =
    [[str% "int", str% "a"], [str% "void", str% "(", str% "*", str% "f", str% ")", str% "(",
      str% "int", comma, str% "int", str% ")"]] := by decide

end Gdo
