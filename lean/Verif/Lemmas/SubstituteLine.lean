import Verif.Lemmas.Substitute
import Verif.Spec.TemplateLines
import Verif.Spec.Template

/-!
Lemmas about `substitute_line`: all the ways it can end, the number of lines, and
termination of the replacement loops.
-/

namespace Gdo.Sub
open Gdo Tpl Tmpl

/-! ### Markers -/

theorem drop_prefix_iff (a b p : Str) : (a.isPrefixOf p = true ∧ p.drop a.length = b) ↔ p = a ++ b := by
  constructor
  · rintro ⟨h1, h2⟩
    rw [List.isPrefixOf_iff_prefix] at h1
    obtain ⟨t, rfl⟩ := h1
    simp at h2
    rw [h2]
  · rintro rfl
    simp

theorem checkSkip_marker (e : Entry) (names : ParamNames) :
    checkSkip e.data names = (markerOf e).map fun m => !Shown names (some m) := by
  unfold checkSkip markerOf cstr
  simp only
  have h1 := drop_prefix_iff (str% "%PARAM_SKIP_") (str% "REMOVE_BEGIN%") (e.data.takeWhile (· ≠ '\x00'))
  have h2 := drop_prefix_iff (str% "%PARAM_SKIP_") (str% "USE_BEGIN%") (e.data.takeWhile (· ≠ '\x00'))
  have h3 := drop_prefix_iff (str% "%PARAM_SKIP_") (str% "END%") (e.data.takeWhile (· ≠ '\x00'))
  simp only [List.cons_append, List.nil_append, List.length_cons, List.length_nil] at h1 h2 h3
  generalize e.data.takeWhile (· ≠ '\x00') = p at *
  by_cases hp : (str% "%PARAM_SKIP_").isPrefixOf p = true
  · rw [if_pos hp]
    simp only [hp, true_and] at h1 h2 h3
    by_cases g1 : p.drop 12 = str% "REMOVE_BEGIN%"
    · rw [if_pos g1, if_pos (h1.mp g1)]
      cases names <;> rfl
    · rw [if_neg g1, if_neg (fun h => g1 (h1.mpr h))]
      by_cases g2 : p.drop 12 = str% "USE_BEGIN%"
      · rw [if_pos g2, if_pos (h2.mp g2)]
        cases names <;> rfl
      · rw [if_neg g2, if_neg (fun h => g2 (h2.mpr h))]
        by_cases g3 : p.drop 12 = str% "END%"
        · rw [if_pos g3, if_pos (h3.mp g3)]
          cases names <;> rfl
        · rw [if_neg g3, if_neg (fun h => g3 (h3.mpr h))]
          rfl
  · rw [if_neg hp]
    rw [if_neg (fun h => hp (h1.mpr h).1), if_neg (fun h => hp (h2.mpr h).1), if_neg (fun h => hp (h3.mpr h).1)]
    rfl

/-- Markers have percent signs. -/
theorem marker_percent {e : Entry} (h : markerOf e ≠ none) : '%' ∈ e.data := by
  have hsub : ∀ l : Str, e.data.takeWhile (· ≠ '\x00') = l → '%' ∈ l → '%' ∈ e.data := by
    intro l hl hm
    rw [← hl] at hm
    exact (List.takeWhile_sublist _).subset hm
  unfold markerOf at h
  simp only at h
  split at h
  · rename_i h1; exact hsub _ h1 (by simp)
  · split at h
    · rename_i h1; exact hsub _ h1 (by simp)
    · split at h
      · rename_i h1; exact hsub _ h1 (by simp)
      · simp at h

/-- The flag of an entry says whether it has a percent sign. -/
def Flagged (e : Entry) : Prop := e.maybeKeyword = true ↔ '%' ∈ e.data

theorem markerTest {e : Entry} (h : Flagged e) (names : ParamNames) :
    (if e.maybeKeyword then checkSkip e.data names else none) = (markerOf e).map fun m => !Shown names (some m) := by
  split
  · exact checkSkip_marker e names
  · rename_i hk
    have : markerOf e = none := by
      cases hm : markerOf e with
      | none => rfl
      | some m => exact absurd (h.mpr (marker_percent (by simp [hm]))) hk
    rw [this]
    rfl

/-! ### The outcomes of `substitute_line` -/

/-- The loops over functions, objects and symbols. -/
inductive LoopKind
  | functions | objects | symbols
  deriving DecidableEq

/-- The replacements of a loop, for each symbol. -/
def loopPasses (cfg : Config) (buf : Str) : LoopKind → List (List (Str × Str))
  | .functions => cfg.prototypes.map
      (functionPasses (if found (str% "%%func_symbol_pad%%") buf then longestSymbol cfg.prototypes else 0))
  | .objects => cfg.objects.map
      (objectPasses (if found (str% "%%obj_symbol_pad%%") buf then longestSymbol cfg.objects else 0))
  | .symbols => (cfg.prototypes.map fun p => symbolPasses (functionSymType p) p.symbol) ++
      (cfg.objects.map fun p => symbolPasses (objectSymType p) p.symbol)

/-- Which loop an entry needs: `none` if it has no keywords, an error if it mixes
    them. -/
def loopOf (e : Entry) (buf : Str) : Except SubErr (Option LoopKind) :=
  if e.maybeKeyword && found (str% "%%") buf then
    match findKeyword functionKeywords buf, findKeyword objectKeywords buf, findKeyword symbolKeywords buf with
    | false, false, false => .ok none
    | true, false, false => .ok (some .functions)
    | false, true, false => .ok (some .objects)
    | false, false, true => .ok (some .symbols)
    | _, _, _ => .error (.mixed e.data)
  else .ok none

/-- There is nothing to loop over. -/
def loopEmpty (cfg : Config) : LoopKind → Bool
  | .functions => cfg.prototypes.isEmpty
  | .objects => cfg.objects.isEmpty
  | .symbols => false

/-- `substitute_line` for a line that is neither empty nor a marker nor skipped. -/
def processLine (n : Nat) (cfg : Config) (lineno : Nat) (e : Entry) : Except SubErr (List Chunk × Nat × Bool) :=
  let buf := Pfx.applyPrefix cfg.pfx e.data
  match loopOf e buf with
  | .error x => .error x
  | .ok none => .ok ([.text buf], countLinefeed buf + 1, false)
  | .ok (some k) =>
    if loopEmpty cfg k then .ok ((printLineno cfg lineno buf).1, (printLineno cfg lineno buf).2, false)
    else match replaceLoop n cfg lineno buf (loopPasses cfg buf k) with
      | .error x => .error x
      | .ok r => .ok (r.1, r.2, false)

theorem substituteLine_eq (n : Nat) (cfg : Config) (lineno : Nat) (skip : Bool) (e : Entry) :
    substituteLine n cfg lineno skip e =
      if e.data.isEmpty then
        if skip then .ok ([], 0, skip) else .ok ([.text []], 1, skip)
      else
        match (if e.maybeKeyword then checkSkip e.data cfg.names else none) with
        | some skip' =>
          if !skip' && cfg.lineDirective then .ok ([.directive (lineno + 1)], 1, skip')
          else .ok ([], 0, skip')
        | none => if skip then .ok ([], 0, skip) else processLine n cfg lineno e := by
  unfold substituteLine processLine loopOf
  split
  · rfl
  · generalize (if e.maybeKeyword then checkSkip e.data cfg.names else none) = mk
    cases mk with
    | some s => rfl
    | none =>
      cases skip with
      | true => rfl
      | false =>
        simp only [Bool.false_eq_true, if_false]
        split
        · cases findKeyword functionKeywords (Pfx.applyPrefix cfg.pfx e.data) <;>
          cases findKeyword objectKeywords (Pfx.applyPrefix cfg.pfx e.data) <;>
          cases findKeyword symbolKeywords (Pfx.applyPrefix cfg.pfx e.data) <;> try rfl
          · -- symbols
            simp only [loopEmpty, loopPasses, Bool.false_eq_true, if_false]
            unfold replaceSymbols
            cases replaceLoop n cfg lineno (Pfx.applyPrefix cfg.pfx e.data)
              ((cfg.prototypes.map fun p => symbolPasses (functionSymType p) p.symbol) ++
               (cfg.objects.map fun p => symbolPasses (objectSymType p) p.symbol)) <;> rfl
          · -- objects
            simp only [loopPasses]
            by_cases hemp : cfg.objects.isEmpty = true
            · have hl : loopEmpty cfg .objects = true := hemp
              rw [if_pos hemp, if_pos hl]
            · have hl : ¬ loopEmpty cfg .objects = true := hemp
              rw [if_neg hemp, if_neg hl]
              unfold replaceObjects
              simp only
              cases replaceLoop n cfg lineno (Pfx.applyPrefix cfg.pfx e.data) (cfg.objects.map
                (objectPasses (if found (str% "%%obj_symbol_pad%%") (Pfx.applyPrefix cfg.pfx e.data) then longestSymbol cfg.objects else 0))) <;> rfl
          · -- functions
            simp only [loopPasses]
            by_cases hemp : cfg.prototypes.isEmpty = true
            · have hl : loopEmpty cfg .functions = true := hemp
              rw [if_pos hemp, if_pos hl]
            · have hl : ¬ loopEmpty cfg .functions = true := hemp
              rw [if_neg hemp, if_neg hl]
              unfold replaceFunctions
              simp only
              cases replaceLoop n cfg lineno (Pfx.applyPrefix cfg.pfx e.data) (cfg.prototypes.map
                (functionPasses (if found (str% "%%func_symbol_pad%%") (Pfx.applyPrefix cfg.pfx e.data) then longestSymbol cfg.prototypes else 0))) <;> rfl
        · rfl

/-! ### Replacement loops -/

theorem replaceSeq_mono {n m : Nat} (hnm : n ≤ m) {ps : List (Str × Str)} {s : Str} (h : replaceSeq n ps s ≠ .error .more) :
    replaceSeq m ps s = replaceSeq n ps s := by
  have hfuel : ∀ (src dst : Str) (n m : Nat) (s r : Str), n ≤ m → replaceFuel src dst n s = some r → replaceFuel src dst m s = some r := by
    intro src dst n
    induction n with
    | zero => intro m s r _ h; simp [replaceFuel] at h
    | succ n ih =>
      intro m s r hm h
      obtain ⟨m, rfl⟩ : ∃ m', m = m' + 1 := ⟨m - 1, by omega⟩
      rw [replaceFuel] at h ⊢
      cases hs : replaceStep src dst s with
      | none => rw [hs] at h; exact h
      | some t => rw [hs] at h; exact ih m t r (by omega) h
  induction ps generalizing s with
  | nil => rfl
  | cons p ps ih =>
    obtain ⟨src, dst⟩ := p
    rw [replaceSeq] at h ⊢
    rw [replaceSeq]
    unfold replaceN at *
    cases hr : replaceFuel src dst n s with
    | none => rw [hr] at h; exact absurd rfl h
    | some t =>
      rw [hr] at h
      rw [hfuel src dst n m s t hnm hr]
      exact ih h

theorem replaceLoop_mono {n m : Nat} (hnm : n ≤ m) {cfg : Config} {lineno : Nat} {entry : Str} {l : List (List (Str × Str))}
    (h : replaceLoop n cfg lineno entry l ≠ .error .more) :
    replaceLoop m cfg lineno entry l = replaceLoop n cfg lineno entry l := by
  induction l with
  | nil => rfl
  | cons p l ih =>
    rw [replaceLoop] at h ⊢
    rw [replaceLoop]
    have h1 : replaceSeq n p entry ≠ .error .more := by
      intro h1; rw [h1] at h; exact h rfl
    rw [replaceSeq_mono hnm h1]
    cases hs : replaceSeq n p entry with
    | error x => rfl
    | ok copy =>
      rw [hs] at h
      have h2 : replaceLoop n cfg lineno entry l ≠ .error .more := by
        intro h2
        simp only [bind, Except.bind] at h
        rw [h2] at h
        exact h rfl
      rw [ih h2]

theorem substituteLine_mono {n m : Nat} (hnm : n ≤ m) {cfg : Config} {lineno : Nat} {skip : Bool} {e : Entry}
    (h : substituteLine n cfg lineno skip e ≠ .error .more) :
    substituteLine m cfg lineno skip e = substituteLine n cfg lineno skip e := by
  rw [substituteLine_eq] at h ⊢
  rw [substituteLine_eq]
  split
  · rfl
  · rename_i h1
    rw [if_neg h1] at h
    split
    · rfl
    · rename_i h2
      rw [h2] at h
      simp only at h
      split
      · rfl
      · rename_i h3
        rw [if_neg h3] at h
        unfold processLine at h ⊢
        simp only at h ⊢
        split
        · rfl
        · rfl
        · rename_i k hk
          rw [hk] at h
          simp only at h
          split
          · rfl
          · rename_i h4
            rw [if_neg h4] at h
            have h5 : replaceLoop n cfg lineno (Pfx.applyPrefix cfg.pfx e.data) (loopPasses cfg (Pfx.applyPrefix cfg.pfx e.data) k) ≠ .error .more := by
              intro h5; rw [h5] at h; exact h rfl
            rw [replaceLoop_mono hnm h5]

theorem substEntries_mono {n m : Nat} (hnm : n ≤ m) {cfg : Config} {es : List Entry} {lineno : Nat} {skip : Bool}
    (h : substEntries n cfg lineno skip es ≠ .error .more) :
    substEntries m cfg lineno skip es = substEntries n cfg lineno skip es := by
  induction es generalizing lineno skip with
  | nil => rfl
  | cons e es ih =>
    rw [substEntries] at h ⊢
    rw [substEntries]
    have h1 : substituteLine n cfg lineno skip e ≠ .error .more := by
      intro h1; rw [h1] at h; exact h rfl
    rw [substituteLine_mono hnm h1]
    cases hs : substituteLine n cfg lineno skip e with
    | error x => rfl
    | ok r =>
      obtain ⟨cs, k, s'⟩ := r
      rw [hs] at h
      have h2 : substEntries n cfg (lineno + e.lineCount) s' es ≠ .error .more := by
        intro h2
        simp only [bind, Except.bind] at h
        rw [h2] at h
        exact h rfl
      simp only [bind, Except.bind]
      rw [ih h2]

theorem substLists_mono {n m : Nat} (hnm : n ≤ m) {cfg : Config} {vec : List (List Entry)} {skip : Bool}
    (h : substLists n cfg skip vec ≠ .error .more) : substLists m cfg skip vec = substLists n cfg skip vec := by
  induction vec generalizing skip with
  | nil => rfl
  | cons l vec ih =>
    rw [substLists] at h ⊢
    rw [substLists]
    have h1 : substEntries n cfg 0 skip (processed cfg l) ≠ .error .more := by
      intro h1; rw [h1] at h; exact h rfl
    rw [substEntries_mono hnm h1]
    cases hs : substEntries n cfg 0 skip (processed cfg l) with
    | error x => rfl
    | ok r =>
      obtain ⟨cs, k, s'⟩ := r
      rw [hs] at h
      have h2 : substLists n cfg s' vec ≠ .error .more := by
        intro h2
        simp only [bind, Except.bind] at h
        rw [h2] at h
        exact h rfl
      simp only [bind, Except.bind]
      rw [ih h2]

/-! ### Termination -/

/-- Number of places where two percent signs are next to each other. -/
def pairs : Str → Nat
  | [] => 0
  | [_] => 0
  | a :: b :: s => (if a = '%' ∧ b = '%' then 1 else 0) + pairs (b :: s)

/-- The text ends with a percent sign. -/
def endsP (s : Str) : Nat := if s.getLast? = some '%' then 1 else 0
/-- The text begins with a percent sign. -/
def beginsP (s : Str) : Nat := if s.head? = some '%' then 1 else 0

theorem pairs_append (a b : Str) : pairs (a ++ b) = pairs a + pairs b + endsP a * beginsP b := by
  induction a with
  | nil => simp [pairs, endsP]
  | cons x a ih =>
    cases a with
    | nil =>
      cases b with
      | nil => simp [pairs, endsP, beginsP]
      | cons y b =>
        simp only [List.cons_append, List.nil_append, pairs]
        by_cases hx : x = '%' <;> by_cases hy : y = '%' <;> simp [endsP, beginsP, hx, hy]
        omega
    | cons y a =>
      have : endsP (x :: y :: a) = endsP (y :: a) := by simp [endsP, List.getLast?_cons_cons]
      rw [this]
      simp only [List.cons_append] at ih ⊢
      simp only [pairs]
      rw [ih]
      omega

theorem pairs_le_of_no {v : Str} (h : ¬ Contains (str% "%%") v) : pairs v = 0 := by
  induction v with
  | nil => rfl
  | cons a v ih =>
    cases v with
    | nil => rfl
    | cons b v =>
      rw [pairs, ih]
      · split
        · rename_i hab
          exact absurd ⟨[], v, by simp [hab.1, hab.2]⟩ h
        · rfl
      · rintro ⟨p, q, hpq⟩
        exact h ⟨a :: p, q, by simp [hpq]⟩

/-- A pattern of the form `%%name%%` or `%%name%% `. -/
def IsPattern (src : Str) : Prop := ∃ k t, src = str% "%%" ++ k ++ str% "%%" ++ t ∧ k ≠ [] ∧ (t = [] ∨ t = str% " ")

theorem pairs_step {src v a b : Str} (hsrc : IsPattern src) (hv : ¬ Contains (str% "%%") v) :
    pairs (a ++ v ++ b) < pairs (a ++ src ++ b) := by
  obtain ⟨k, t, rfl, hk, _⟩ := hsrc
  have hv0 := pairs_le_of_no hv
  have e1 : ∀ s, endsP s ≤ 1 := by intro s; unfold endsP; split <;> omega
  have b1 : ∀ s, beginsP s ≤ 1 := by intro s; unfold beginsP; split <;> omega
  have hlow : pairs a + endsP a + 2 + pairs b ≤ pairs (a ++ (str% "%%" ++ k ++ str% "%%" ++ t) ++ b) := by
    have hpat : 2 ≤ pairs (str% "%%" ++ k ++ str% "%%" ++ t) := by
      have h1 := pairs_append (str% "%%" ++ k ++ str% "%%") t
      have h2 := pairs_append (str% "%%" ++ k) (str% "%%")
      have h3 := pairs_append (str% "%%") k
      have h4 : pairs (str% "%%") = 1 := by decide
      omega
    have hb : beginsP (str% "%%" ++ k ++ str% "%%" ++ t) = 1 := by simp [beginsP]
    rw [pairs_append, pairs_append, hb]
    have := Nat.mul_one (endsP a)
    omega
  have hup : pairs (a ++ v ++ b) ≤ pairs a + endsP a + pairs b + beginsP b := by
    rw [pairs_append, pairs_append, hv0]
    cases v with
    | nil =>
      have h0 : endsP (a ++ []) = endsP a := by simp
      have h1 : beginsP ([] : Str) = 0 := by simp [beginsP]
      rw [h0, h1]
      have h2 := e1 a
      have h3 := b1 b
      have : endsP a * beginsP b ≤ endsP a := by
        calc endsP a * beginsP b ≤ endsP a * 1 := Nat.mul_le_mul_left _ h3
          _ = endsP a := Nat.mul_one _
      omega
    | cons c v =>
      have h2 : endsP a * beginsP (c :: v) ≤ endsP a := by
        calc endsP a * beginsP (c :: v) ≤ endsP a * 1 := Nat.mul_le_mul_left _ (b1 _)
          _ = endsP a := Nat.mul_one _
      have h3 : endsP (a ++ c :: v) * beginsP b ≤ beginsP b := by
        calc endsP (a ++ c :: v) * beginsP b ≤ 1 * beginsP b := Nat.mul_le_mul_right _ (e1 _)
          _ = beginsP b := Nat.one_mul _
      omega
  have := b1 b
  omega

theorem replaceFuel_terminates {src v : Str} (hsrc : IsPattern src) (hv : ¬ Contains (str% "%%") v) (n : Nat) (s : Str)
    (h : pairs s < n) : ∃ r, replaceFuel src v n s = some r ∧ pairs r ≤ pairs s := by
  induction n generalizing s with
  | zero => omega
  | succ n ih =>
    rw [replaceFuel]
    unfold replaceStep
    cases hs : splitFirst src s with
    | none => exact ⟨s, rfl, Nat.le_refl _⟩
    | some r =>
      obtain ⟨a, b⟩ := r
      obtain ⟨h1, _⟩ := splitFirst_some hs
      have := pairs_step (a := a) (b := b) hsrc hv
      rw [← h1] at this
      obtain ⟨r, h2, h3⟩ := ih (a ++ v ++ b) (by omega)
      exact ⟨r, h2, by omega⟩

/-- The replacements have keyword patterns and values without `%%`. -/
def Harmless (ps : List (Str × Str)) : Prop := ∀ q ∈ ps, IsPattern q.1 ∧ ¬ Contains (str% "%%") q.2

theorem replaceSeq_terminates {ps : List (Str × Str)} (hp : Harmless ps) (n : Nat) (s : Str) (h : pairs s < n) :
    ∃ r, replaceSeq n ps s = .ok r := by
  induction ps generalizing s with
  | nil => exact ⟨s, rfl⟩
  | cons q ps ih =>
    obtain ⟨src, dst⟩ := q
    obtain ⟨r, h1, h2⟩ := replaceFuel_terminates (hp (src, dst) (by simp)).1 (hp (src, dst) (by simp)).2 n s h
    rw [replaceSeq]
    unfold replaceN
    rw [h1]
    exact ih (fun q hq => hp q (by simp [hq])) r (by omega)

theorem replaceLoop_terminates {cfg : Config} {lineno : Nat} {entry : Str} {l : List (List (Str × Str))}
    (hl : ∀ ps ∈ l, Harmless ps) (n : Nat) (h : pairs entry < n) : ∃ r, replaceLoop n cfg lineno entry l = .ok r := by
  induction l with
  | nil => exact ⟨_, rfl⟩
  | cons p l ih =>
    obtain ⟨r, h1⟩ := replaceSeq_terminates (hl p (by simp)) n entry h
    obtain ⟨r2, h2⟩ := ih (fun q hq => hl q (by simp [hq]))
    rw [replaceLoop, h1]
    simp only [bind, Except.bind]
    rw [h2]
    exact ⟨_, rfl⟩

/-! ### Lines -/

theorem countLinefeed_eq (s : Str) : countLinefeed s = nlCount s := by
  induction s with
  | nil => rfl
  | cons c s ih =>
    rw [countLinefeed, ih]
    unfold nlCount
    rw [List.count_cons]
    by_cases h : c = '\n' <;> simp [h] <;> omega

/-- The replacements have no newlines. -/
def Quiet (ps : List (Str × Str)) : Prop := ∀ q ∈ ps, nlCount q.1 = 0 ∧ nlCount q.2 = 0

theorem replaceFuel_lines {src v : Str} (h1 : nlCount src = 0) (h2 : nlCount v = 0) (n : Nat) (s r : Str)
    (h : replaceFuel src v n s = some r) : nlCount r = nlCount s := by
  induction n generalizing s with
  | zero => simp [replaceFuel] at h
  | succ n ih =>
    rw [replaceFuel] at h
    unfold replaceStep at h
    cases hs : splitFirst src s with
    | none => rw [hs] at h; simp at h; rw [h]
    | some x =>
      obtain ⟨a, b⟩ := x
      obtain ⟨h3, _⟩ := splitFirst_some hs
      rw [hs] at h
      simp only [Option.map_some] at h
      rw [ih _ h, h3]
      simp only [nlCount, List.count_append] at h1 h2 ⊢
      omega

theorem replaceSeq_lines {ps : List (Str × Str)} (hp : Quiet ps) (n : Nat) (s r : Str) (h : replaceSeq n ps s = .ok r) :
    nlCount r = nlCount s := by
  induction ps generalizing s with
  | nil => simp [replaceSeq] at h; rw [h]
  | cons q ps ih =>
    obtain ⟨src, dst⟩ := q
    rw [replaceSeq] at h
    unfold replaceN at h
    cases hr : replaceFuel src dst n s with
    | none => rw [hr] at h; simp [bind, Except.bind] at h
    | some t =>
      rw [hr] at h
      rw [ih (fun q hq => hp q (by simp [hq])) t h]
      exact replaceFuel_lines (hp (src, dst) (by simp)).1 (hp (src, dst) (by simp)).2 n s t hr

theorem directive_lines (n : Nat) : nlCount (Chunk.bytes (.directive n)) = 1 := by
  have : nlCount (Nat.toDigits 10 n) = 0 := by
    unfold nlCount
    rw [List.count_eq_zero]
    intro h
    have := Nat.isDigit_of_mem_toDigits (by omega) (by omega) h
    simp [Char.isDigit] at this
  simp only [Chunk.bytes, nlCount, List.count_append] at this ⊢
  rw [this]
  rfl

theorem text_lines (s : Str) : nlCount (Chunk.bytes (.text s)) = nlCount s + 1 := by
  simp [Chunk.bytes, nlCount]

theorem bytes_append (a b : List Chunk) : bytes (a ++ b) = bytes a ++ bytes b := by simp [bytes]

theorem nl_append (a b : Str) : nlCount (a ++ b) = nlCount a + nlCount b := by simp [nlCount]

theorem replaceLoop_lines {cfg : Config} {lineno : Nat} {entry : Str} {l : List (List (Str × Str))}
    (hl : ∀ ps ∈ l, Quiet ps) (n : Nat) {cs : List Chunk} {k : Nat} (h : replaceLoop n cfg lineno entry l = .ok (cs, k)) :
    k = nlCount (bytes cs) := by
  induction l generalizing cs k with
  | nil => simp [replaceLoop] at h; rw [h.1, ← h.2]; rfl
  | cons p l ih =>
    rw [replaceLoop] at h
    cases hs : replaceSeq n p entry with
    | error x => rw [hs] at h; simp [bind, Except.bind] at h
    | ok copy =>
      rw [hs] at h
      simp only [bind, Except.bind] at h
      cases hr : replaceLoop n cfg lineno entry l with
      | error x => rw [hr] at h; simp at h
      | ok r =>
        obtain ⟨cs', k'⟩ := r
        rw [hr] at h
        simp only [pure, Except.pure, Except.ok.injEq, Prod.mk.injEq] at h
        obtain ⟨rfl, rfl⟩ := h
        have h1 := replaceSeq_lines (hl p (by simp)) n entry copy hs
        have h2 := ih (fun q hq => hl q (by simp [hq])) hr
        rw [bytes_append, nl_append, bytes_append, nl_append, ← h2, countLinefeed_eq]
        have h3 : nlCount (bytes [Chunk.text copy]) = nlCount entry + 1 := by
          rw [← h1, ← text_lines]; simp [bytes]
        rw [h3]
        have h4 : nlCount (bytes (if cfg.lineDirective then [Chunk.directive lineno] else [])) = if cfg.lineDirective then 1 else 0 := by
          split
          · rw [← directive_lines lineno]; simp [bytes]
          · rfl
        rw [h4]

end Gdo.Sub
