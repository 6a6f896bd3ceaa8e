import Verif.Model.Parse

/-! Helper lemmas about the declaration parser. -/

namespace Gdo

theorem findFirst_le (v : Toks) : findFirstNotPointerOrIdent v ≤ v.length := by
  induction v with
  | nil => simp [findFirstNotPointerOrIdent]
  | cons e v ih =>
    simp only [findFirstNotPointerOrIdent]
    split
    · simp
    · simp; omega

theorem findFirst_before (v : Toks) :
    ∀ i, i < findFirstNotPointerOrIdent v → ∃ e, v[i]? = some e ∧
      (strFront e = '*' ∨ isIdent (strFront e) = true) := by
  induction v with
  | nil => simp [findFirstNotPointerOrIdent]
  | cons e v ih =>
    intro i hi
    simp only [findFirstNotPointerOrIdent] at hi
    split at hi
    · omega
    · rename_i h
      cases i with
      | zero =>
        refine ⟨e, by simp, ?_⟩
        simp at h
        by_cases he : strFront e = '*'
        · exact Or.inl he
        · exact Or.inr (h he)
      | succ i =>
        obtain ⟨x, hx, hx'⟩ := ih i (by omega)
        exact ⟨x, by simpa using hx, hx'⟩

theorem derefBack_isSome {v : Toks} {i k : Nat} (hk : 1 ≤ k) (hi : k ≤ i) (hv : i ≤ v.length) :
    ∃ e, derefBack v i k = some e ∧ v[i - k]? = some e := by
  have : i - k < v.length := by omega
  exact ⟨v[i-k], by simp [derefBack, hi, this], by simp [this]⟩

theorem deref_isSome {v : Toks} {i : Nat} (h : i < v.length) :
    deref v i = some v[i] := by simp [deref, h]

theorem slice_isSome {v : Toks} {i j : Nat} (hij : i ≤ j) (hj : j ≤ v.length) :
    slice v i j = some ((v.drop i).take (j - i)) := by simp [slice, hij, hj]

theorem endMinus_isSome {v : Toks} {k : Nat} (h : k ≤ v.length) :
    endMinus v k = some (v.length - k) := by simp [endMinus, h]

/-- Patterns whose parts have the sizes that `MKFUNC` asserts. -/
structure Seq.WF (q : Seq) : Prop where
  front : 1 ≤ q.front.length
  last : 1 ≤ q.last.length
  last2 : strAt q.last 1 ≠ '\x00' → 2 ≤ q.last.length

theorem matchMiddle_isSome (v : Toks) (p : Str) :
    ∀ i, i + p.length ≤ v.length → ∃ b, matchMiddle v i p = some b := by
  induction p with
  | nil => intro i _; exact ⟨true, rfl⟩
  | cons c p ih =>
    intro i h
    simp at h
    simp only [matchMiddle, deref_isSome (show i < v.length by omega), Option.bind_eq_bind, Option.bind_some]
    split
    · exact ⟨false, rfl⟩
    · exact ih (i+1) (by omega)

theorem matchEnd_isSome {v : Toks} {q : Seq} (wf : q.WF) (h : q.minSize ≤ v.length) :
    ∃ b, matchEnd v q = some b := by
  unfold Seq.minSize at h
  have h1 := wf.front
  have h2 := wf.last
  obtain ⟨e1, he1, -⟩ := derefBack_isSome (v := v) (i := v.length) (k := 1) (by omega) (by omega) (by omega)
  unfold matchEnd
  simp only [he1, Option.bind_eq_bind, Option.bind_some]
  split
  · exact ⟨_, rfl⟩
  · split
    · exact ⟨_, rfl⟩
    · rename_i hne _
      have := wf.last2 (by simpa using hne)
      obtain ⟨e2, he2, -⟩ := derefBack_isSome (v := v) (i := v.length) (k := 2) (by omega) (by omega) (by omega)
      simp only [he2, Option.bind_some]
      exact ⟨_, rfl⟩

/-- `check_pattern` is defined if the iterator points to an element, or if it is
    the end iterator and the check cannot get past the test of the last tokens. -/
theorem checkPattern_isSome {v : Toks} {it : Nat} {q : Seq} (wf : q.WF) (hit : it ≤ v.length)
    (hend : it = v.length → q.middle = [] ∨ matchEnd v q = some false ∨ v.length < q.minSize) :
    ∃ b, checkPattern v it q = some b := by
  unfold checkPattern
  split
  · exact ⟨_, rfl⟩
  · split
    · exact ⟨_, rfl⟩
    · rename_i hsz hb
      simp only [Option.bind_eq_bind, Option.bind_some, Option.pure_def]
      have hsz' : q.minSize ≤ v.length := by omega
      have hf := wf.front
      have hl := wf.last
      unfold Seq.minSize at hsz'
      have hit1 : 1 ≤ it := by
        by_cases h : it = v.length
        · omega
        · have : ¬ it < q.distFront := fun hh => hb ⟨h, Or.inl hh⟩
          unfold Seq.distFront at this; omega
      have hfront : ∃ b, matchFront v it q = some b := by
        unfold matchFront
        split
        · obtain ⟨e, he, -⟩ := derefBack_isSome (v := v) (i := it) (k := 1) (by omega) hit1 hit
          simp [he]
        · exact ⟨_, rfl⟩
      obtain ⟨bf, hbf⟩ := hfront
      obtain ⟨be, hbe⟩ := matchEnd_isSome (v := v) wf (by unfold Seq.minSize; omega)
      simp only [hbf, hbe, Option.bind_some]
      split
      · exact ⟨_, rfl⟩
      · split
        · exact ⟨_, rfl⟩
        · rename_i hbet
          by_cases h : it = v.length
          · rcases hend h with hm | hm | hm
            · rw [hm]; exact ⟨true, rfl⟩
            · rw [hm] at hbe; simp at hbe; subst hbe; simp at hbet
            · omega
          · apply matchMiddle_isSome
            have : ¬ v.length - it < q.distEnd := fun hh => hb ⟨h, Or.inr hh⟩
            unfold Seq.distEnd at this; omega

theorem wf_seqFunction : seqFunction.WF := by constructor <;> decide
theorem wf_seqFunctionParentheses : seqFunctionParentheses.WF := by constructor <;> decide
theorem wf_seqFunctionParenPointer1 : seqFunctionParenPointer1.WF := by constructor <;> decide
theorem wf_seqFunctionParenPointer2 : seqFunctionParenPointer2.WF := by constructor <;> decide
theorem wf_seqFunctionPointer : seqFunctionPointer.WF := by constructor <;> decide
theorem wf_seqFunctionPointerNoName : seqFunctionPointerNoName.WF := by constructor <;> decide
theorem wf_seqObject : seqObject.WF := by constructor <;> decide
theorem wf_seqArray : seqArray.WF := by constructor <;> decide
theorem wf_seqArrayNoName : seqArrayNoName.WF := by constructor <;> decide

/-- What a successful `check_pattern` says about the position of an iterator that
    is not the end. -/
theorem checkPattern_true_bounds {v : Toks} {it : Nat} {q : Seq}
    (h : checkPattern v it q = some true) :
    q.minSize ≤ v.length ∧ (it ≠ v.length → q.distFront ≤ it ∧ q.distEnd ≤ v.length - it) := by
  unfold checkPattern at h
  split at h
  · simp at h
  · split at h
    · simp at h
    · rename_i h1 h2
      refine ⟨by omega, fun hne => ?_⟩
      constructor
      · exact Nat.not_lt.mp fun hh => h2 ⟨hne, Or.inl hh⟩
      · exact Nat.not_lt.mp fun hh => h2 ⟨hne, Or.inr hh⟩

theorem checkPattern_true_end {v : Toks} {it : Nat} {q : Seq}
    (h : checkPattern v it q = some true) : matchEnd v q = some true := by
  unfold checkPattern at h
  split at h
  · simp at h
  · split at h
    · simp at h
    · simp only [Option.bind_eq_bind, Option.pure_def, Option.bind_some] at h
      cases hf : matchFront v it q with
      | none => simp [hf] at h
      | some bf =>
        cases he : matchEnd v q with
        | none => cases bf <;> simp [hf, he] at h
        | some be => cases bf <;> cases be <;> simp [hf, he] at h ⊢

theorem checkObject_isSome (v : Toks) : ∃ r, checkObject v = some r := by
  unfold checkObject
  obtain ⟨b, hb⟩ := checkPattern_isSome (v := v) (it := v.length) wf_seqObject (by omega) (fun _ => Or.inl rfl)
  cases b with
  | false => simp [hb]
  | true =>
    have := (checkPattern_true_bounds hb).1
    have h2 : 2 ≤ v.length := this
    obtain ⟨e, he, -⟩ := derefBack_isSome (v := v) (i := v.length) (k := 1) (by omega) (by omega) (by omega)
    simp [hb, endMinus_isSome (v := v) (k := 1) (by omega), slice_isSome (v := v) (i := 0) (j := v.length - 1) (by omega) (by omega), he]

theorem checkArray_isSome (v : Toks) (it : Nat) (h : it < v.length) : ∃ r, checkArray v it = some r := by
  unfold checkArray
  obtain ⟨b, hb⟩ := checkPattern_isSome (v := v) (it := it) wf_seqArray (by omega) (by omega)
  cases b with
  | false => simp [hb]
  | true =>
    obtain ⟨h1, h2⟩ := checkPattern_true_bounds hb
    have h2 := h2 (by omega)
    have h3 : 2 ≤ it := h2.1
    obtain ⟨e, he, -⟩ := derefBack_isSome (v := v) (i := it) (k := 1) (by omega) (by omega) (by omega)
    simp [hb, he, slice_isSome (v := v) (i := 0) (j := it - 1) (by omega) (by omega),
      slice_isSome (v := v) (i := it) (j := v.length) (by omega) (by omega)]

theorem checkFunctionPointer_isSome (v : Toks) (it : Nat) (h : it < v.length) :
    ∃ r, checkFunctionPointer v it = some r := by
  unfold checkFunctionPointer
  obtain ⟨b, hb⟩ := checkPattern_isSome (v := v) (it := it) wf_seqFunctionPointer (by omega) (by omega)
  cases b with
  | false => simp [hb]
  | true =>
    obtain ⟨h1, h2⟩ := checkPattern_true_bounds hb
    have h2 := h2 (by omega)
    have h3 : 6 ≤ v.length - it := h2.2
    simp [hb, slice_isSome (v := v) (i := 0) (j := it) (by omega) (by omega),
      slice_isSome (v := v) (i := it+4) (j := v.length) (by omega) (by omega),
      deref_isSome (v := v) (i := it + 2) (by omega)]

theorem checkFunctionParen_isSome (v : Toks) (it : Nat) (h : it < v.length) :
    ∃ r, checkFunctionParen v it = some r := by
  unfold checkFunctionParen
  obtain ⟨b, hb⟩ := checkPattern_isSome (v := v) (it := it) wf_seqFunctionParentheses (by omega) (by omega)
  cases b with
  | false => simp [hb]
  | true =>
    obtain ⟨h1, h2⟩ := checkPattern_true_bounds hb
    have h2 := h2 (by omega)
    have h3 : 5 ≤ v.length - it := h2.2
    simp [hb, slice_isSome (v := v) (i := 0) (j := it) (by omega) (by omega),
      endMinus_isSome (v := v) (k := 1) (by omega),
      slice_isSome (v := v) (i := it+4) (j := v.length-1) (by omega) (by omega),
      deref_isSome (v := v) (i := it + 1) (by omega)]

theorem checkFunctionParenPointer_isSome (v : Toks) (it : Nat) (h : it < v.length) :
    ∃ r, checkFunctionParenPointer v it = some r := by
  unfold checkFunctionParenPointer
  obtain ⟨b1, hb1⟩ := checkPattern_isSome (v := v) (it := it) wf_seqFunctionParenPointer1 (by omega) (by omega)
  obtain ⟨b2, hb2⟩ := checkPattern_isSome (v := v) (it := it) wf_seqFunctionParenPointer2 (by omega) (by omega)
  cases b1 with
  | true =>
    obtain ⟨h1, h2⟩ := checkPattern_true_bounds hb1
    have h2 := h2 (by omega)
    have h3 : 6 ≤ v.length - it := h2.2
    simp [hb1, slice_isSome (v := v) (i := 0) (j := it) (by omega) (by omega),
      endMinus_isSome (v := v) (k := 2) (by omega),
      slice_isSome (v := v) (i := it+1) (j := it+1+1) (by omega) (by omega),
      slice_isSome (v := v) (i := it+1+3) (j := v.length-2) (by omega) (by omega),
      deref_isSome (v := v) (i := it + 1 + 1) (by omega)]
  | false =>
    cases b2 with
    | false => simp [hb1, hb2]
    | true =>
      obtain ⟨h1, h2⟩ := checkPattern_true_bounds hb2
      have h2 := h2 (by omega)
      have h3 : 7 ≤ v.length - it := h2.2
      simp [hb1, hb2, slice_isSome (v := v) (i := 0) (j := it) (by omega) (by omega),
        endMinus_isSome (v := v) (k := 2) (by omega),
        slice_isSome (v := v) (i := it+1) (j := it+1+2) (by omega) (by omega),
        slice_isSome (v := v) (i := it+2+3) (j := v.length-2) (by omega) (by omega),
        deref_isSome (v := v) (i := it + 1 + 2) (by omega)]

theorem checkFunction_isSome (v : Toks) (it : Nat) (h : it < v.length) :
    ∃ r, checkFunction v it = some r := by
  unfold checkFunction
  obtain ⟨b, hb⟩ := checkPattern_isSome (v := v) (it := it) wf_seqFunction (by omega) (by omega)
  cases b with
  | false => simp [hb]
  | true =>
    obtain ⟨h1, h2⟩ := checkPattern_true_bounds hb
    have h2 := h2 (by omega)
    have h3 : 2 ≤ it := h2.1
    have h4 : 2 ≤ v.length - it := h2.2
    obtain ⟨e, he, -⟩ := derefBack_isSome (v := v) (i := it) (k := 1) (by omega) (by omega) (by omega)
    simp [hb, he, slice_isSome (v := v) (i := 0) (j := it - 1) (by omega) (by omega),
      endMinus_isSome (v := v) (k := 1) (by omega),
      slice_isSome (v := v) (i := it+1) (j := v.length-1) (by omega) (by omega)]

theorem checkPrototype_isSome (v : Toks) : ∃ r, checkPrototype v = some r := by
  unfold checkPrototype
  split
  · exact ⟨_, rfl⟩
  · simp only [Option.bind_eq_bind, Option.bind_some, Option.pure_def,
      deref_isSome (v := v) (i := 0) (by omega)]
    split
    · exact ⟨_, rfl⟩
    · split
      · exact checkObject_isSome v
      · have hlt : findFirstNotPointerOrIdent v < v.length := by
          have := findFirst_le v; omega
        simp only [deref_isSome hlt, Option.bind_some]
        split
        · obtain ⟨r1, h1⟩ := checkFunction_isSome v _ hlt
          obtain ⟨r2, h2⟩ := checkFunctionPointer_isSome v _ hlt
          obtain ⟨r3, h3⟩ := checkFunctionParen_isSome v _ hlt
          obtain ⟨r4, h4⟩ := checkFunctionParenPointer_isSome v _ hlt
          simp only [orElseCheck, h1, h2, h3, h4]
          cases r1 <;> cases r2 <;> cases r3 <;> simp
        · split
          · exact checkArray_isSome v _ hlt
          · exact ⟨_, rfl⟩

theorem parseTokens_isSome (vs : List Toks) : ∃ r, parseTokens vs = some r := by
  induction vs with
  | nil => exact ⟨_, rfl⟩
  | cons v vs ih =>
    obtain ⟨r, hr⟩ := checkPrototype_isSome v
    obtain ⟨rs, hrs⟩ := ih
    cases r <;> cases rs <;> simp [parseTokens, hr, hrs]

/-- With the iterator at the end no token is a bracket, so the patterns that end
    in a bracket fail before they look at the iterator. -/
theorem matchEnd_false_of_findFirst_end {v : Toks} (h : findFirstNotPointerOrIdent v = v.length)
    (hv : 1 ≤ v.length) {q : Seq} {c : Char} (hq : q.last = [c]) (hc : c = ')' ∨ c = ']') :
    matchEnd v q = some false := by
  obtain ⟨e, he, he'⟩ := derefBack_isSome (v := v) (i := v.length) (k := 1) (by omega) (by omega) (by omega)
  obtain ⟨x, hx, hx'⟩ := findFirst_before v (v.length - 1) (by omega)
  rw [he'] at hx
  cases hx
  have hcs : strAt [c] 1 = '\x00' := by simp [strAt]
  have hc0 : strAt [c] 0 = c := by simp [strAt]
  unfold matchEnd
  simp only [hq, hcs, hc0, he, Option.bind_eq_bind, Option.bind_some, Option.pure_def]
  have hm : matching (strFront e) c = false := by
    rcases hc with rfl | rfl
    · rcases hx' with h | h
      · rw [h]; decide
      · have : strFront e ≠ ')' := by intro hh; rw [hh] at h; revert h; decide
        simp [matching, this, SYMBOL]
    · rcases hx' with h | h
      · rw [h]; decide
      · have : strFront e ≠ ']' := by intro hh; rw [hh] at h; revert h; decide
        simp [matching, this, SYMBOL]
  simp [hm]

theorem readParameterName_isSome (sym : Str) (v : Toks) : ∃ r, readParameterName sym v = some r := by
  match v with
  | [] => exact ⟨_, rfl⟩
  | [t] => unfold readParameterName; dsimp only; split <;> exact ⟨_, rfl⟩
  | a :: b :: v' =>
    generalize hv : a :: b :: v' = v
    have hlen : 2 ≤ v.length := by subst hv; simp
    have : readParameterName sym v = (do
      let f ← deref v 0
      let b ← derefBack v v.length 1
      if (str% "*").isPrefixOf f then return .error (.beginsWithPointer sym)
      if (str% "*").isSuffixOf b then return .error (.missingName sym)
      let it := findFirstNotPointerOrIdent v
      if ← checkPattern v it seqObject then return .ok (some b)
      if ← checkPattern v it seqFunctionPointer then
        let n ← deref v (it + 2)
        return .ok (some n)
      if ← checkPattern v it seqArray then
        let n ← derefBack v it 1
        return .ok (some n)
      return .error (.badParam sym)) := by subst hv; rfl
    rw [this]
    obtain ⟨e, he, -⟩ := derefBack_isSome (v := v) (i := v.length) (k := 1) (by omega) (by omega) (by omega)
    simp only [deref_isSome (v := v) (i := 0) (by omega), he, Option.bind_eq_bind, Option.bind_some, Option.pure_def]
    split
    · exact ⟨_, rfl⟩
    · split
      · exact ⟨_, rfl⟩
      · have hle := findFirst_le v
        obtain ⟨b1, hb1⟩ := checkPattern_isSome (v := v) wf_seqObject hle (fun _ => Or.inl rfl)
        obtain ⟨b2, hb2⟩ := checkPattern_isSome (v := v) wf_seqFunctionPointer hle
          (fun h => Or.inr (Or.inl (matchEnd_false_of_findFirst_end h (by omega) rfl (Or.inl rfl))))
        obtain ⟨b3, hb3⟩ := checkPattern_isSome (v := v) wf_seqArray hle
          (fun h => Or.inr (Or.inl (matchEnd_false_of_findFirst_end h (by omega) rfl (Or.inr rfl))))
        simp only [hb1, Option.bind_some, hb2, hb3]
        split
        · exact ⟨_, rfl⟩
        · cases b2 with
          | true =>
            have hne : findFirstNotPointerOrIdent v ≠ v.length := by
              intro h
              have := matchEnd_false_of_findFirst_end h (by omega) (q := seqFunctionPointer) rfl (Or.inl rfl)
              rw [checkPattern_true_end hb2] at this; cases this
            have h2 := (checkPattern_true_bounds hb2).2 hne
            have h3 : 6 ≤ v.length - findFirstNotPointerOrIdent v := h2.2
            simp [deref_isSome (v := v) (i := findFirstNotPointerOrIdent v + 2) (by omega)]
          | false =>
            cases b3 with
            | false => simp
            | true =>
              have hne : findFirstNotPointerOrIdent v ≠ v.length := by
                intro h
                have := matchEnd_false_of_findFirst_end h (by omega) (q := seqArray) rfl (Or.inr rfl)
                rw [checkPattern_true_end hb3] at this; cases this
              have h2 := (checkPattern_true_bounds hb3).2 hne
              have h3 : 2 ≤ findFirstNotPointerOrIdent v := h2.1
              obtain ⟨e2, he2, -⟩ := derefBack_isSome (v := v) (i := findFirstNotPointerOrIdent v) (k := 1) (by omega) (by omega) hle
              simp [he2]

theorem readParameterNamesLoop_isSome (sym : Str) (vs : List Toks) :
    ∀ names, ∃ r, readParameterNamesLoop sym vs names = some r := by
  induction vs with
  | nil => intro names; exact ⟨_, rfl⟩
  | cons v vs ih =>
    intro names
    obtain ⟨r, hr⟩ := readParameterName_isSome sym v
    simp only [readParameterNamesLoop, hr, Option.bind_eq_bind, Option.bind_some]
    match r with
    | .error e => exact ⟨_, rfl⟩
    | .ok none => exact ih names
    | .ok (some n) => exact ih _

theorem readParameterNames_isSome (p : Proto) : ∃ r, readParameterNames p = some r := by
  obtain ⟨r, hr⟩ := readParameterNamesLoop_isSome p.symbol p.argsVec p.paramNames
  unfold readParameterNames
  simp only [hr, Option.bind_eq_bind, Option.bind_some]
  cases r <;> exact ⟨_, rfl⟩

theorem getParameterNames_isSome (p : Proto) (mode : ParamNames) :
    ∃ r, getParameterNames p mode = some r := by
  unfold getParameterNames
  split
  · exact ⟨_, rfl⟩
  · split
    · exact ⟨_, rfl⟩
    · split
      · exact ⟨_, rfl⟩
      · exact readParameterNames_isSome _

theorem getFunctionPointerType_isSome (v : Toks) (it : Nat) (p : Proto) (n : Nat)
    (h : it < v.length) : ∃ r, getFunctionPointerType v it p n = some r := by
  unfold getFunctionPointerType
  obtain ⟨b1, hb1⟩ := checkPattern_isSome (v := v) (it := it) wf_seqFunctionPointer (by omega) (by omega)
  obtain ⟨b2, hb2⟩ := checkPattern_isSome (v := v) (it := it) wf_seqFunctionPointerNoName (by omega) (by omega)
  cases b1 with
  | true =>
    have h2 := (checkPattern_true_bounds hb1).2 (by omega)
    have h3 : 6 ≤ v.length - it := h2.2
    simp [hb1, slice_isSome (v := v) (i := 0) (j := it+2) (by omega) (by omega),
      slice_isSome (v := v) (i := it+3) (j := v.length) (by omega) (by omega)]
  | false =>
    cases b2 with
    | false => simp [hb1, hb2]
    | true =>
      have h2 := (checkPattern_true_bounds hb2).2 (by omega)
      have h3 : 5 ≤ v.length - it := h2.2
      simp [hb1, hb2, slice_isSome (v := v) (i := 0) (j := it+2) (by omega) (by omega),
        slice_isSome (v := v) (i := it+2) (j := v.length) (by omega) (by omega)]

theorem getArrayType_isSome (v : Toks) (it : Nat) (p : Proto) (n : Nat)
    (h : it < v.length) : ∃ r, getArrayType v it p n = some r := by
  unfold getArrayType
  obtain ⟨b1, hb1⟩ := checkPattern_isSome (v := v) (it := it) wf_seqArrayNoName (by omega) (by omega)
  cases b1 with
  | false => simp [hb1]
  | true =>
    simp [hb1, slice_isSome (v := v) (i := 0) (j := it) (by omega) (by omega),
      slice_isSome (v := v) (i := it) (j := v.length) (by omega) (by omega)]

theorem createParameterName_isSome (v : Toks) (p : Proto) (n : Nat) :
    ∃ r, createParameterName v p n = some r := by
  cases v with
  | nil => exact ⟨_, rfl⟩
  | cons f rest =>
    unfold createParameterName
    simp only [Option.bind_eq_bind, Option.bind_some, Option.pure_def]
    split
    · exact ⟨_, rfl⟩
    · split
      · exact ⟨_, rfl⟩
      · split
        · exact ⟨_, rfl⟩
        · have hlt : findFirstNotPointerOrIdent (f :: rest) < (f :: rest).length := by
            have := findFirst_le (f :: rest); omega
          obtain ⟨r1, h1⟩ := getFunctionPointerType_isSome (f :: rest) _ p n hlt
          obtain ⟨r2, h2⟩ := getArrayType_isSome (f :: rest) _ p n hlt
          simp only [h1, h2, Option.bind_some]
          cases r1 <;> cases r2 <;> exact ⟨_, rfl⟩

theorem createParameterNamesLoop_isSome (vs : List Toks) :
    ∀ p n, ∃ r, createParameterNamesLoop vs p n = some r := by
  induction vs with
  | nil => intro p n; exact ⟨_, rfl⟩
  | cons v vs ih =>
    intro p n
    obtain ⟨r, hr⟩ := createParameterName_isSome v p n
    simp only [createParameterNamesLoop, hr, Option.bind_eq_bind, Option.bind_some]
    match r with
    | .error e => exact ⟨_, rfl⟩
    | .ok (p', n') => exact ih p' n'

theorem createParameterNames_isSome (p : Proto) : ∃ r, createParameterNames p = some r := by
  unfold createParameterNames
  split
  · exact ⟨_, rfl⟩
  · split
    · exact ⟨_, rfl⟩
    · rename_i q _
      obtain ⟨r, hr⟩ := createParameterNamesLoop_isSome q.argsVec q 1
      simp only [hr, Option.bind_eq_bind, Option.bind_some]
      cases r <;> exact ⟨_, rfl⟩

theorem doParameters_isSome (mode : ParamNames) (ps : List Proto) :
    ∃ r, doParameters mode ps = some r := by
  induction ps with
  | nil => exact ⟨_, rfl⟩
  | cons p ps ih =>
    have : ∃ r, (if mode = .create then createParameterNames p else getParameterNames p mode) = some r := by
      split
      · exact createParameterNames_isSome p
      · exact getParameterNames_isSome p mode
    obtain ⟨r, hr⟩ := this
    obtain ⟨rs, hrs⟩ := ih
    simp only [doParameters, hr, hrs, Option.bind_eq_bind, Option.bind_some]
    cases r <;> cases rs <;> exact ⟨_, rfl⟩

theorem gendlopenParse_isSome (vt : List Toks) (mode : ParamNames) (pl sl : List Str) :
    ∃ r, gendlopenParse vt mode pl sl = some r := by
  unfold gendlopenParse
  obtain ⟨r, hr⟩ := parseTokens_isSome vt
  simp only [hr, Option.bind_eq_bind, Option.bind_some]
  cases r with
  | none => exact ⟨_, rfl⟩
  | some v =>
    dsimp only
    split
    · exact ⟨_, rfl⟩
    · split
      · exact ⟨_, rfl⟩
      · obtain ⟨rs, hrs⟩ := doParameters_isSome mode v
        simp only [hrs, Option.bind_some]
        cases rs <;> exact ⟨_, rfl⟩

end Gdo
