import Verif.Lemmas.Params

/-!
Property theorems C12, C13: names of parameters.
-/

namespace Gdo
open Spec

/-! ## C12: created names -/

/-- A prototype as the parser leaves it: a function with parameters that are not
    just `void`, nothing filled in yet. -/
structure Fresh (p : Proto) : Prop where
  kind : p.kind = .function
  args : p.args = []
  names : p.paramNames = []
  some : p.argsVec ≠ []
  notVoid : ¬ OnlyVoid p.argsVec

/-- What `-param=create` should do: the parameters `q1..qn` get the names `a1..an`. -/
def Spec.createdArgList (k : Nat) : List Param → List Str
  | [] => []
  | q :: qs => q.named (argName k) :: createdArgList (k + 1) qs

theorem createdArgs_noDots (qs : List Param) (h : ∀ q ∈ qs, q ≠ .dots) : ∀ k,
    createdArgs k qs = createdArgList k qs := by
  induction qs with
  | nil => intro k; rfl
  | cons q qs ih =>
    intro k
    have hq := h q (by simp)
    have : q.next k = k + 1 := by cases q <;> simp_all [Param.next]
    simp [createdArgs, createdArgList, this, ih (fun q hq => h q (by simp [hq]))]

theorem createdNames_noDots (qs : List Param) (h : ∀ q ∈ qs, q ≠ .dots) : ∀ k,
    createdNames k qs = (List.range' k qs.length).map argName := by
  induction qs with
  | nil => intro k; rfl
  | cons q qs ih =>
    intro k
    have hq := h q (by simp)
    have h1 : q.next k = k + 1 := by cases q <;> simp_all [Param.next]
    have h2 : q.nameOf k = argName k := by cases q <;> simp_all [Param.nameOf]
    simp [createdNames, h1, h2, ih (fun q hq => h q (by simp [hq])), List.range'_succ]

theorem create_fresh (p : Proto) (hp : Fresh p) (qs : List Param) (hq : ∀ q ∈ qs, q.Valid)
    (ha : p.argsVec = qs.map Param.print) :
    createParameterNames p =
      some (.ok { p with args := commaJoin (createdArgs 1 qs)
                         paramNames := commaJoin (createdNames 1 qs) }) := by
  have hne : qs ≠ [] := by intro h; subst h; exact hp.some (by simpa using ha)
  unfold createParameterNames
  rw [if_neg (by simp [hp.kind]), paramVoidOrEmpty_false hp.some hp.notVoid]
  simp only [ha, createLoop_ok qs hq, Option.bind_eq_bind, Option.bind_some, Option.pure_def, hp.args,
    hp.names, List.nil_append]
  have h1 : createdArgs 1 qs ≠ [] := by
    intro h; have := createdArgs_length qs 1; rw [h] at this; simp at this; exact hne (List.length_eq_zero_iff.mp this.symm)
  have h2 : createdNames 1 qs ≠ [] := by
    intro h; have := createdNames_length qs 1; rw [h] at this; simp at this; exact hne (List.length_eq_zero_iff.mp this.symm)
  rw [commaEnd_join _ h1, commaEnd_join _ h2, deleteSuffix_append, deleteSuffix_append]

/-- C12 for parameter lists without `...`: whenever creating the names succeeds, the
    parameters are of the valid shapes, the argument list is the parameters with the
    names `a1..an` and the call list is `a1, ..., an`, pairwise distinct.
    Missing: `...`, see `C12_violated`. -/
theorem C12_created_names_partial (p p' : Proto) (hp : Fresh p)
    (hlex : ∀ v ∈ p.argsVec, ∀ t ∈ v, LexTok t)
    (hd : [['.', '.', '.']] ∉ p.argsVec)
    (h : createParameterNames p = some (.ok p')) :
    ∃ qs : List Param, (∀ q ∈ qs, q.Valid) ∧ qs.map Param.print = p.argsVec ∧
      p'.args = commaJoin (createdArgList 1 qs) ∧
      p'.paramNames = commaJoin ((List.range' 1 p.argsVec.length).map argName) ∧
      ((List.range' 1 p.argsVec.length).map argName).Nodup ∧
      p' = { p with args := p'.args, paramNames := p'.paramNames } := by
  have h0 := h
  unfold createParameterNames at h
  rw [if_neg (by simp [hp.kind]), paramVoidOrEmpty_false hp.some hp.notVoid] at h
  cases hl : createParameterNamesLoop p.argsVec p 1 with
  | none => simp [hl] at h
  | some r =>
    cases r with
    | error e => simp [hl] at h
    | ok r =>
      obtain ⟨qs, hq, ha⟩ := createLoop_inv p.argsVec hlex p 1 r hl
      have := create_fresh p hp qs hq ha.symm
      rw [this] at h0
      simp at h0
      subst h0
      have hnd : ∀ q ∈ qs, q ≠ .dots := by
        intro q hq' h'
        subst h'
        apply hd
        rw [← ha]
        exact List.mem_map.mpr ⟨_, hq', rfl⟩
      have hlen : p.argsVec.length = qs.length := by rw [← ha]; simp
      refine ⟨qs, hq, ha, ?_, ?_, ?_, rfl⟩
      · simp [createdArgs_noDots qs hnd]
      · simp [createdNames_noDots qs hnd, hlen]
      · rw [List.nodup_iff_pairwise_ne, List.pairwise_map]
        exact (List.nodup_range' (s := 1) (n := p.argsVec.length)).imp (fun hne h => hne (argName_inj h))

/-- Names are created for all lists of valid parameters (no spurious errors). -/
theorem C12_creation_succeeds (p : Proto) (hp : Fresh p) (qs : List Param) (hq : ∀ q ∈ qs, q.Valid)
    (ha : p.argsVec = qs.map Param.print) : ∃ p', createParameterNames p = some (.ok p') :=
  ⟨_, create_fresh p hp qs hq ha⟩

/-- A variadic function: the `...` stays last and unnamed in the argument list.
    (The blank after it is removed when the prototype is formatted.) -/
theorem C12_variadic_args (p : Proto) (hp : Fresh p) (qs : List Param) (hq : ∀ q ∈ qs, q.Valid)
    (hd : ∀ q ∈ qs, q ≠ .dots) (ha : p.argsVec = (qs ++ [Param.dots]).map Param.print) :
    ∃ p', createParameterNames p = some (.ok p') ∧
      p'.args = commaJoin (createdArgList 1 qs ++ [['.', '.', '.', ' ']]) ∧
      p'.paramNames = commaJoin ((List.range' 1 qs.length).map argName ++ [['.', '.', '.', ' ']]) := by
  have h := create_fresh p hp (qs ++ [Param.dots]) (by
    intro q hq'; simp at hq'; rcases hq' with h | rfl
    · exact hq q h
    · trivial) ha
  have happ : ∀ (qs : List Param), (∀ q ∈ qs, q ≠ .dots) → ∀ k,
      createdArgs k (qs ++ [Param.dots]) = createdArgList k qs ++ [['.', '.', '.', ' ']] ∧
      createdNames k (qs ++ [Param.dots]) = (List.range' k qs.length).map argName ++ [['.', '.', '.', ' ']] := by
    intro qs hd
    induction qs with
    | nil => intro k; exact ⟨rfl, rfl⟩
    | cons q qs ih =>
      intro k
      have hq := hd q (by simp)
      have h1 : q.next k = k + 1 := by cases q <;> simp_all [Param.next]
      have h2 : q.nameOf k = argName k := by cases q <;> simp_all [Param.nameOf]
      have := ih (fun q hq => hd q (by simp [hq])) (k+1)
      simp [createdArgs, createdNames, createdArgList, h1, h2, this, List.range'_succ]
  refine ⟨_, h, ?_, ?_⟩
  · simp [(happ qs hd 1).1]
  · simp [(happ qs hd 1).2]

/-- C12 is violated for every variadic function: the call list does not consist of
    names only, `... ` is part of it. -/
theorem C12_violated (p : Proto) (hp : Fresh p) (qs : List Param) (hq : ∀ q ∈ qs, q.Valid)
    (hd : ∀ q ∈ qs, q ≠ .dots) (ha : p.argsVec = (qs ++ [Param.dots]).map Param.print) :
    ∃ p', createParameterNames p = some (.ok p') ∧ '.' ∈ p'.paramNames := by
  obtain ⟨p', h, -, hn⟩ := C12_variadic_args p hp qs hq hd ha
  refine ⟨p', h, ?_⟩
  rw [hn]
  have : ∀ (l : List Str) (x : Str), '.' ∈ x → '.' ∈ commaJoin (l ++ [x]) := by
    intro l x hx
    induction l with
    | nil => simpa [commaJoin, List.intercalate, List.intersperse] using hx
    | cons a l ih =>
      cases l with
      | nil => simp [commaJoin, List.intercalate, List.intersperse] at ih ⊢; right; exact hx
      | cons b l =>
        simp [commaJoin, List.intercalate, List.intersperse] at ih ⊢
        exact Or.inr ih
  exact this _ _ (by decide)

/-- A function without parameters keeps what is written between the parentheses, nothing or
    `void`, and gets no names, with each setting of `-param`. -/
theorem C12_no_parameters (p : Proto) (mode : ParamNames) (hk : p.kind = .function) (ha : p.args = []) :
    (p.argsVec = [] → createParameterNames p = some (.ok p) ∧ getParameterNames p mode = some (.ok p)) ∧
    (∀ t, p.argsVec = [[t]] → eqCase t (str% "void") = true →
      createParameterNames p = some (.ok { p with args := t }) ∧
      getParameterNames p mode = some (.ok { p with args := t })) := by
  constructor
  · intro h
    simp [createParameterNames, getParameterNames, paramVoidOrEmpty, hk, h]
  · intro t h hv
    simp [createParameterNames, getParameterNames, paramVoidOrEmpty, hk, h, hv]

example : createParameterNames { kind := .function, argsVec := [[str% "void"]] } =
    some (.ok { kind := .function, argsVec := [[str% "void"]], args := str% "void" }) := by decide

/-- `int printf(const char *, ...)` -/
example : ∃ p : Proto, Fresh p ∧ p.argsVec =
    ([Param.plain [str% "const", str% "char", str% "*"]] ++ [Param.dots]).map Param.print ∧
    (Param.plain [str% "const", str% "char", str% "*"]).Valid :=
  ⟨{ kind := .function, argsVec := [[str% "const", str% "char", str% "*"], [str% "..."]] },
    ⟨rfl, rfl, rfl, by simp, by rintro ⟨t, ht, -⟩; simp at ht⟩, rfl,
    ⟨_, _, rfl, by decide, by
      intro t ht; simp at ht; rcases ht with rfl | rfl
      · left; decide
      · right; rfl⟩⟩

/-- `void f(int, void (*)(int), char [4])` -/
example :
    let v : List Toks :=
      [[str% "int"], [str% "void", str% "(", str% "*", str% ")", str% "(", str% "int", str% ")"],
       [str% "char", str% "[", str% "4", str% "]"]]
    (match createParameterNames { kind := .function, argsVec := v } with
     | some (.ok p) => some (p.args, p.paramNames)
     | _ => none) =
    some (str% "int a1, void ( * a2 ) ( int ) , char a3 [ 4 ] ", str% "a1, a2, a3") := by
  decide

/-! ## C13: names read from the declaration -/

theorem notStar_of_ident {n : Str} (hn : IdentTok n) : (str% "*").isSuffixOf n = false := by
  rw [Bool.eq_false_iff]
  intro h
  rw [List.isSuffixOf_iff_suffix] at h
  obtain ⟨t, ht⟩ := h
  have : '*' ∈ n := by rw [← ht]; simp
  exact absurd (hn.2 '*' this) (by decide)

theorem readParameterName_ge2 (sym : Str) (v : Toks) (hlen : 2 ≤ v.length) :
    readParameterName sym v = (do
      let f ← deref v 0
      let b ← derefBack v v.length 1
      if (str% "*").isPrefixOf f then return .error (.beginsWithPointer sym)
      if (str% "*").isSuffixOf b then return .error (.missingName sym)
      let it := findFirstNotPointerOrIdent v
      if ← checkPattern v it seqObject then return .ok (some b)
      if ← checkPattern v it seqFunctionPointer then
        let n ← deref v (it + 2)
        return .ok (some n)
      if ← checkPattern v it seqArray then
        let n ← derefBack v it 1
        return .ok (some n)
      return .error (.badParam sym)) := by
  match v, hlen with
  | _ :: _ :: _, _ => rfl

theorem checkPattern_object_snoc (A : Toks) (w : Toks) (e : Str) (hA : 1 ≤ A.length) :
    checkPattern (A ++ (w ++ [e])) A.length seqObject = some (matching (strFront e) SYMBOL) := by
  rw [checkPattern_at (by simp) (by simp [Seq.distFront, seqObject]; omega) (by simp [Seq.distEnd, seqObject])]
  rw [matchFront_type _ _ _ rfl, ← List.append_assoc, matchEnd_snoc1 _ _ _ SYMBOL rfl]
  cases h : matching (strFront e) SYMBOL <;> simp [matchMiddle, seqObject]

/-- A parameter with a name is read with that name. -/
theorem readParameterName_named {sym : Str} {v : Toks} {n : Str} (h : NamedParam v n) :
    readParameterName sym v = some (.ok (some n)) := by
  cases h with
  | plain T _ hT hn =>
    have hpos := type_pos hT
    have hsk : ∀ t ∈ T ++ [n], SkipTok t := by
      intro t ht; simp at ht; rcases ht with ht | rfl
      · exact skip_of_type hT t ht
      · exact Or.inr (isIdent_front hn)
    rw [readParameterName_ge2 _ _ (by simp; omega)]
    obtain ⟨f, r, he, hs, -⟩ := not_star_prefix hT [n]
    have h0 : deref (T ++ [n]) 0 = some f := by rw [he]; rfl
    have hb : derefBack (T ++ [n]) (T ++ [n]).length 1 = some n := by simp [derefBack]
    have hp : checkPattern (T ++ [n]) (T ++ [n]).length seqObject = some true := by
      unfold checkPattern
      have : ¬ (T ++ [n]).length < seqObject.minSize := by simp [Seq.minSize, seqObject]; omega
      rw [if_neg this, if_neg (by simp), matchFront_type _ _ _ rfl, matchEnd_snoc1 _ _ _ SYMBOL rfl]
      simp [matching_sym hn, seqObject, matchMiddle]
    simp only [h0, hb, findFirst_all hsk, hp, hs, notStar_of_ident hn, Option.bind_eq_bind, Option.bind_some]
    rfl
  | fptr T _ ps hT hn =>
    have hpos := type_pos hT
    have e : T ++ [['('], ['*'], n, [')'], ['(']] ++ ps ++ [[')']] = T ++ ['('] :: ([['*'], n, [')'], ['(']] ++ ps ++ [[')']]) := by simp
    rw [e, readParameterName_ge2 _ _ (by simp; omega)]
    have hp1 := checkPattern_object_snoc T (['('] :: ([['*'], n, [')'], ['(']] ++ ps)) [')'] hpos
    have hp2 := checkPattern_fptr (ps := ps) hpos hn
    simp only [List.cons_append, List.append_assoc, List.nil_append] at hp1 hp2 ⊢
    generalize hw : ['*'] :: n :: [')'] :: ['('] :: (ps ++ [[')']]) = w at *
    obtain ⟨f, r, he, hs, -⟩ := not_star_prefix hT (['('] :: w)
    have h0 : deref (T ++ ['('] :: w) 0 = some f := by rw [he]; rfl
    have hb : derefBack (T ++ ['('] :: w) (T ++ ['('] :: w).length 1 = some [')'] := by
      have : T ++ ['('] :: w = (T ++ ['('] :: ['*'] :: n :: [')'] :: ['('] :: ps) ++ [[')']] := by rw [← hw]; simp
      rw [this]; simp [derefBack]
    have hl := findFirst_append (skip_of_type hT) ['('] w not_skip_paren
    have hd : deref (T ++ ['('] :: w) (T.length + 2) = some n := by
      rw [← hw]; simp [deref, List.getElem?_append_right]
    have e1 : matching (strFront [')']) SYMBOL = false := by decide
    rw [e1] at hp1
    simp only [h0, hb, hl, hp1, hp2, hs, hd, Option.bind_eq_bind, Option.bind_some]
    rfl
  | arr T _ s hT hn =>
    have hpos := type_pos hT
    have e : T ++ [n, ['[']] ++ s ++ [[']']] = (T ++ [n]) ++ ['['] :: (s ++ [[']']]) := by simp
    rw [e, readParameterName_ge2 _ _ (by simp; omega)]
    have hsk : ∀ t ∈ T ++ [n], SkipTok t := by
      intro t ht; simp at ht; rcases ht with ht | rfl
      · exact skip_of_type hT t ht
      · exact Or.inr (isIdent_front hn)
    obtain ⟨f, r, he, hs, -⟩ := not_star_prefix hT ([n] ++ ['['] :: (s ++ [[']']]))
    rw [← List.append_assoc] at he
    have h0 : deref ((T ++ [n]) ++ ['['] :: (s ++ [[']']])) 0 = some f := by rw [he]; rfl
    have hb : derefBack ((T ++ [n]) ++ ['['] :: (s ++ [[']']])) ((T ++ [n]) ++ ['['] :: (s ++ [[']']])).length 1 = some [']'] := by
      have : (T ++ [n]) ++ ['['] :: (s ++ [[']']]) = ((T ++ [n]) ++ ['['] :: s) ++ [[']']] := by simp
      rw [this]; exact derefBack_one_snoc _ _
    have hl := findFirst_append hsk ['['] (s ++ [[']']]) not_skip_bracket
    have hp1 := checkPattern_object_snoc (T ++ [n]) (['['] :: s) [']'] (by simp)
    have e1 : matching (strFront [']']) SYMBOL = false := by decide
    rw [e1] at hp1
    have hp2 := checkPattern_bracket_not_paren (T := T ++ [n]) (w := s ++ [[']']]) _ (q := seqFunctionPointer) rfl rfl (by simp) wf_seqFunctionPointer
    have hp3 : checkPattern ((T ++ [n]) ++ ['['] :: (s ++ [[']']])) (T ++ [n]).length seqArray = some true := by
      rw [checkPattern_at (by simp) (by simp [Seq.distFront, seqArray]; omega)
        (by simp [Seq.distEnd, seqArray])]
      rw [matchFront_sym _ _ _ _ rfl]
      have : (T ++ [n]) ++ ['['] :: (s ++ [[']']]) = (T ++ [n] ++ ['['] :: s) ++ [[']']] := by simp
      rw [this, matchEnd_snoc1 _ _ _ ']' rfl]
      simp [isIdent_front hn, seqArray, matchMiddle_cons, strFront_cons, matching_self, matchMiddle_nil]
    have hd : derefBack ((T ++ [n]) ++ ['['] :: (s ++ [[']']])) (T ++ [n]).length 1 = some n := by
      simp [derefBack]
    have hsuf : (str% "*").isSuffixOf [']'] = false := by decide
    simp only [List.cons_append] at hp1
    simp only [h0, hb, hl, hp1, hp2, hp3, hs, hd, hsuf, Option.bind_eq_bind, Option.bind_some]
    rfl

/-- The parameters of a function: named ones, possibly `...` at some place. -/
inductive ReadParams : List Toks → List Str → Prop
  | nil : ReadParams [] []
  | named {v n vs ns} : NamedParam v n → ReadParams vs ns → ReadParams (v :: vs) (n :: ns)
  | dots {vs ns} : ReadParams vs ns → ReadParams ([['.', '.', '.']] :: vs) ns

theorem readLoop_named {sym : Str} {vs : List Toks} {ns : List Str} (h : ReadParams vs ns) :
    ∀ acc, readParameterNamesLoop sym vs acc = some (.ok (acc ++ commaEnd ns)) := by
  induction h with
  | nil => intro acc; simp [readParameterNamesLoop, commaEnd]
  | named hn _ ih =>
    intro acc
    simp [readParameterNamesLoop, readParameterName_named hn, ih, commaEnd]
  | dots _ ih =>
    intro acc
    simp [readParameterNamesLoop, readParameterName, ih]

/-- C13 for named parameters: the call list consists of the names of the declaration
    in order, a `...` is left out.  Missing: rejection of every nameless parameter,
    see `C13_violated`. -/
theorem C13_names_in_order_partial (p : Proto) (hp : Fresh p) (ns : List Str)
    (h : ReadParams p.argsVec ns) :
    ∃ p', getParameterNames p .read = some (.ok p') ∧ p'.paramNames = commaJoin ns ∧
      p' = { p with args := p'.args, paramNames := p'.paramNames } := by
  unfold getParameterNames
  rw [if_neg (by simp [hp.kind]), paramVoidOrEmpty_false hp.some hp.notVoid]
  simp only [reduceCtorEq, if_false]
  unfold readParameterNames
  have : (copyArgs p).argsVec = p.argsVec := rfl
  have h2 : (copyArgs p).paramNames = [] := hp.names
  rw [this, h2, readLoop_named h]
  refine ⟨_, rfl, ?_, rfl⟩
  simp only [List.nil_append]
  by_cases hne : ns = []
  · subst hne; decide
  · rw [commaEnd_join _ hne, deleteSuffix_append]

/-- Nothing is invented or dropped: if reading succeeds there is exactly one name per
    parameter other than `...`, and it is a token of that parameter. -/
theorem C13_names_are_tokens (p p' : Proto) (hp : Fresh p)
    (hlex : ∀ v ∈ p.argsVec, ∀ t ∈ v, LexTok t)
    (h : getParameterNames p .read = some (.ok p')) :
    ∃ ns : List Str, p'.paramNames = commaJoin ns ∧
      ns.length = (p.argsVec.filter (fun v => v ≠ [['.', '.', '.']])).length ∧
      ∀ vn ∈ (p.argsVec.filter (fun v => v ≠ [['.', '.', '.']])).zip ns, IdentTok vn.2 ∧ vn.2 ∈ vn.1 := by
  unfold getParameterNames at h
  rw [if_neg (by simp [hp.kind]), paramVoidOrEmpty_false hp.some hp.notVoid] at h
  simp only [reduceCtorEq, if_false] at h
  unfold readParameterNames at h
  have e1 : (copyArgs p).argsVec = p.argsVec := rfl
  have e2 : (copyArgs p).paramNames = [] := hp.names
  have e3 : (copyArgs p).symbol = p.symbol := rfl
  rw [e1, e2, e3] at h
  have one : ∀ v n, (∀ t ∈ v, LexTok t) → readParameterName p.symbol v = some (.ok (some n)) →
      IdentTok n ∧ n ∈ v ∧ v ≠ [['.', '.', '.']] := by
    intro v n hl hr
    match v, hl, hr with
    | [], _, hr => simp [readParameterName] at hr
    | [t], _, hr => simp only [readParameterName] at hr; split at hr <;> simp at hr
    | a :: b :: v', hl, hr =>
      generalize hv : a :: b :: v' = v at *
      have hlen : 2 ≤ v.length := by subst hv; simp
      have hdd : v ≠ [['.', '.', '.']] := by intro h'; rw [h'] at hlen; simp at hlen
      rw [readParameterName_ge2 _ _ hlen] at hr
      obtain ⟨e, he, he'⟩ := derefBack_isSome (v := v) (i := v.length) (k := 1) (by omega) (by omega) (by omega)
      simp only [deref_isSome (v := v) (i := 0) (by omega), he, Option.bind_eq_bind, Option.bind_some, Option.pure_def] at hr
      split at hr
      · simp at hr
      · split at hr
        · simp at hr
        · have hle := findFirst_le v
          obtain ⟨b1, hb1⟩ := checkPattern_isSome (v := v) wf_seqObject hle (fun _ => Or.inl rfl)
          obtain ⟨b2, hb2⟩ := checkPattern_isSome (v := v) wf_seqFunctionPointer hle
            (fun h => Or.inr (Or.inl (matchEnd_false_of_findFirst_end h (by omega) rfl (Or.inl rfl))))
          obtain ⟨b3, hb3⟩ := checkPattern_isSome (v := v) wf_seqArray hle
            (fun h => Or.inr (Or.inl (matchEnd_false_of_findFirst_end h (by omega) rfl (Or.inr rfl))))
          simp only [hb1, hb2, hb3, Option.bind_some] at hr
          cases b1 with
          | true =>
            simp at hr; subst hr
            have hme := checkPattern_true_end hb1
            have hmem : e ∈ v := List.mem_of_getElem? he'
            refine ⟨?_, hmem, hdd⟩
            apply lex_sym (hl e hmem)
            unfold matchEnd at hme
            simp [he, seqObject, strAt] at hme
            exact hme
          | false =>
            have hne : b2 = true ∨ b3 = true → findFirstNotPointerOrIdent v < v.length := by
              intro hb
              by_cases hEnd : findFirstNotPointerOrIdent v = v.length
              · exfalso
                rcases hb with rfl | rfl
                · have := matchEnd_false_of_findFirst_end hEnd (by omega) (q := seqFunctionPointer) rfl (Or.inl rfl)
                  rw [checkPattern_true_end hb2] at this; cases this
                · have := matchEnd_false_of_findFirst_end hEnd (by omega) (q := seqArray) rfl (Or.inr rfl)
                  rw [checkPattern_true_end hb3] at this; cases this
              · omega
            cases b2 with
            | true =>
              obtain ⟨A, M, B, f, hv', hA, h1, hM, -, -⟩ := checkPattern_inv1 ')' rfl (by decide) (hne (Or.inl rfl)) hb2
              obtain ⟨m1, M, rfl, hm1, hM⟩ := matchAll_cons_inv hM
              obtain ⟨m2, M, rfl, hm2, hM⟩ := matchAll_cons_inv hM
              obtain ⟨m3, M, rfl, hm3, hM⟩ := matchAll_cons_inv hM
              have hd : deref v (findFirstNotPointerOrIdent v + 2) = some m3 := by
                rw [← hA, hv']; simp [deref, List.getElem?_append_right]
              simp [hd] at hr
              subst hr
              have hmem : m3 ∈ v := by rw [hv']; simp
              exact ⟨lex_sym (hl _ hmem) hm3, hmem, hdd⟩
            | false =>
              cases b3 with
              | false => simp at hr
              | true =>
                obtain ⟨A, M, B, f, hv', hA, h1, hM, -, hfr⟩ := checkPattern_inv1 ']' rfl (by decide) (hne (Or.inr rfl)) hb3
                obtain ⟨A', m, rfl, hm⟩ := hfr rfl
                have hd : derefBack v (findFirstNotPointerOrIdent v) 1 = some m := by
                  rw [← hA, hv']; simp [derefBack]
                simp [hd] at hr
                subst hr
                have hmem : m ∈ v := by rw [hv']; simp
                exact ⟨lex_ident (hl _ hmem) hm, hmem, hdd⟩
  have dots : ∀ v, readParameterName p.symbol v = some (.ok none) → v = [['.', '.', '.']] := by
    intro v hr
    match v, hr with
    | [], hr => simp [readParameterName] at hr
    | [t], hr =>
      simp only [readParameterName] at hr; split at hr
      · rename_i ht; rw [ht]
      · simp at hr
    | a :: b :: v', hr =>
      rw [readParameterName_ge2 _ _ (by simp)] at hr
      revert hr
      simp only [Option.bind_eq_bind, Option.pure_def]
      intro hr
      simp only [Option.bind_eq_some_iff] at hr
      obtain ⟨_, _, _, _, hr⟩ := hr
      split at hr
      · simp at hr
      · split at hr
        · simp at hr
        · simp only [Option.bind_eq_some_iff] at hr
          obtain ⟨_, _, hr⟩ := hr
          split at hr
          · simp at hr
          · simp only [Option.bind_eq_some_iff] at hr
            obtain ⟨_, _, hr⟩ := hr
            split at hr
            · simp only [Option.bind_eq_some_iff] at hr
              obtain ⟨_, _, hr⟩ := hr
              simp at hr
            · simp only [Option.bind_eq_some_iff] at hr
              obtain ⟨_, _, hr⟩ := hr
              split at hr
              · simp only [Option.bind_eq_some_iff] at hr
                obtain ⟨_, _, hr⟩ := hr
                simp at hr
              · simp at hr
  have loop : ∀ (vs : List Toks), (∀ v ∈ vs, ∀ t ∈ v, LexTok t) → ∀ acc r,
      readParameterNamesLoop p.symbol vs acc = some (.ok r) →
      ∃ ns : List Str, r = acc ++ commaEnd ns ∧
        ns.length = (vs.filter (fun v => v ≠ [['.', '.', '.']])).length ∧
        ∀ vn ∈ (vs.filter (fun v => v ≠ [['.', '.', '.']])).zip ns, IdentTok vn.2 ∧ vn.2 ∈ vn.1 := by
    intro vs
    induction vs with
    | nil => intro _ acc r hr; simp [readParameterNamesLoop] at hr; exact ⟨[], by simp [hr, commaEnd], rfl, by simp⟩
    | cons v vs ih =>
      intro hl acc r hr
      simp only [readParameterNamesLoop] at hr
      cases hv : readParameterName p.symbol v with
      | none => simp [hv] at hr
      | some x =>
        match x, hv with
        | .error e, hv => simp [hv] at hr
        | .ok none, hv =>
          simp [hv] at hr
          have := dots v hv
          subst this
          obtain ⟨ns, h1, h2, h3⟩ := ih (fun v hv => hl v (by simp [hv])) _ _ hr
          exact ⟨ns, h1, by simpa using h2, by simpa using h3⟩
        | .ok (some n), hv =>
          simp [hv] at hr
          obtain ⟨hn, hmem, hdd⟩ := one v n (hl v (by simp)) hv
          obtain ⟨ns, h1, h2, h3⟩ := ih (fun v hv => hl v (by simp [hv])) _ _ hr
          refine ⟨n :: ns, ?_, ?_, ?_⟩
          · rw [h1]; simp [commaEnd]
          · rw [List.filter_cons_of_pos (by simpa using hdd)]; simpa using h2
          · rw [List.filter_cons_of_pos (by simpa using hdd)]
            intro vn hvn
            simp only [List.zip_cons_cons, List.mem_cons] at hvn
            rcases hvn with rfl | hvn
            · exact ⟨hn, hmem⟩
            · exact h3 vn hvn
  cases hl : readParameterNamesLoop p.symbol p.argsVec [] with
  | none => simp [hl] at h
  | some x =>
    cases x with
    | error e => simp [hl] at h
    | ok r =>
      simp [hl] at h
      subst h
      obtain ⟨ns, h1, h2, h3⟩ := loop p.argsVec hlex [] r hl
      refine ⟨ns, ?_, h2, h3⟩
      simp at h1
      subst h1
      by_cases hne : ns = []
      · subst hne; rfl
      · rw [commaEnd_join _ hne]; exact deleteSuffix_append _ _

/-- Parameters that consist of one word, or that end in a star, or function pointers
    without a name, are reported. -/
theorem C13_nameless_reported_partial (sym : Str) (v : Toks)
    (h : (∃ t, v = [t] ∧ t ≠ ['.', '.', '.']) ∨
         (∃ A, A ≠ [] ∧ v = A ++ [['*']]) ∨
         (∃ T ps, TypeToks T ∧ v = T ++ [['('], ['*'], [')'], ['(']] ++ ps ++ [[')']])) :
    ∃ e, readParameterName sym v = some (.error e) := by
  rcases h with ⟨t, rfl, ht⟩ | ⟨A, hA, rfl⟩ | ⟨T, ps, hT, rfl⟩
  · exact ⟨.typenameOnly sym, by simp [readParameterName, ht]⟩
  · have hAl : 1 ≤ A.length := List.length_pos_iff.mpr hA
    rw [readParameterName_ge2 _ _ (by simp; omega), derefBack_one_snoc,
      deref_isSome (v := A ++ [['*']]) (i := 0) (by simp)]
    simp only [Option.bind_eq_bind, Option.bind_some]
    split
    · exact ⟨_, rfl⟩
    · rw [if_pos (by decide)]; exact ⟨_, rfl⟩
  · have hpos := type_pos hT
    have e : T ++ [['('], ['*'], [')'], ['(']] ++ ps ++ [[')']] = T ++ ['('] :: ([['*'], [')'], ['(']] ++ ps ++ [[')']]) := by simp
    rw [e, readParameterName_ge2 _ _ (by simp; omega)]
    have hp1 := checkPattern_object_snoc T (['('] :: ([['*'], [')'], ['(']] ++ ps)) [')'] hpos
    have hp2 := checkPattern_fptr_not_noName (ps := ps) hpos
    simp only [List.cons_append, List.append_assoc, List.nil_append] at hp1 hp2 ⊢
    generalize hw : ['*'] :: [')'] :: ['('] :: (ps ++ [[')']]) = w at *
    obtain ⟨f, r, he, hs, -⟩ := not_star_prefix hT (['('] :: w)
    have h0 : deref (T ++ ['('] :: w) 0 = some f := by rw [he]; rfl
    have hb : derefBack (T ++ ['('] :: w) (T ++ ['('] :: w).length 1 = some [')'] := by
      have : T ++ ['('] :: w = (T ++ ['('] :: ['*'] :: [')'] :: ['('] :: ps) ++ [[')']] := by rw [← hw]; simp
      rw [this]; simp [derefBack]
    have hl := findFirst_append (skip_of_type hT) ['('] w not_skip_paren
    have e1 : matching (strFront [')']) SYMBOL = false := by decide
    rw [e1] at hp1
    obtain ⟨b3, hb3⟩ := checkPattern_isSome (v := T ++ ['('] :: w) (it := T.length) wf_seqArray (by simp) (by simp)
    have hb3' : b3 = false := by
      cases b3 with
      | false => rfl
      | true =>
        have hme := checkPattern_true_end hb3
        unfold matchEnd at hme
        have h1 : (strAt seqArray.last 1 == '\x00') = true := by decide
        simp only [h1, if_true, hb, Option.bind_eq_bind, Option.bind_some] at hme
        exact absurd hme (by decide)
    subst hb3'
    have hsuf : (str% "*").isSuffixOf [')'] = false := by decide
    simp only [h0, hb, hl, hp1, hp2, hb3, hs, hsuf, Option.bind_eq_bind, Option.bind_some]
    exact ⟨_, rfl⟩

/-- C13 is violated: the nameless parameter of `void f(unsigned int)` is not
    reported, its type word `int` is taken as the name. -/
theorem C13_violated :
    ∃ st, gendlopenParse [(Decl.func [str% "void"] (str% "f") [str% "unsigned", str% "int"]).print]
      .read [] [] = some (.ok st) ∧ st.protos.map Proto.paramNames = [str% "int"] :=
  ⟨_, rfl, rfl⟩

example : ∃ p : Proto, Fresh p ∧ ReadParams p.argsVec [str% "x", str% "cb"] :=
  ⟨{ kind := .function, argsVec := [[str% "int", str% "x"],
      [str% "void"] ++ [['('], ['*'], str% "cb", [')'], ['(']] ++ [str% "int"] ++ [[')']], [str% "..."]] },
    ⟨rfl, rfl, rfl, by simp, by rintro ⟨t, ht, -⟩; simp at ht⟩,
    .named (.plain [str% "int"] (str% "x") ⟨_, [], rfl, by decide, by simp⟩ (by decide))
      (.named (.fptr [str% "void"] (str% "cb") [str% "int"] ⟨_, [], rfl, by decide, by simp⟩ (by decide))
        (.dots .nil))⟩

end Gdo
