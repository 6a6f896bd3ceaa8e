import Verif.Spec.CForm
import Verif.Lemmas.BuiltinOut

/-!
Lemmas about the scanner of C text, and a test on template lines that does not depend on
the prefix and the symbols.
-/

namespace Gdo.CForm
open Gdo Tpl Tmpl Sub Rename

theorem run_append (s : St) (a b : Str) : run s (a ++ b) = (run s a).bind fun s' => run s' b := by
  induction a generalizing s with
  | nil => rfl
  | cons c a ih =>
    simp only [List.cons_append, run]
    cases step s c with
    | none => rfl
    | some s' => exact ih s'

/-! ### More below the open frames -/

/-- The same with more open. -/
def St.on (s : St) (base : List Frame) : St := { s with stack := s.stack ++ base }

theorem directive_on {w : Str} {st st' : List Frame} (h : directive w st = some st') (base : List Frame) :
    directive w (st ++ base) = some (st' ++ base) := by
  unfold directive at h ⊢
  split
  · rename_i hc
    rw [if_pos hc] at h
    cases h; rfl
  · rename_i h1
    rw [if_neg h1] at h
    split
    · rename_i hc
      rw [if_pos hc] at h
      split at h
      · cases h; rfl
      · cases h
    · rename_i h2
      rw [if_neg h2] at h
      split
      · rename_i hc
        rw [if_pos hc] at h
        split at h
        · cases h; rfl
        · cases h
      · rename_i h3
        rw [if_neg h3] at h
        split
        · rename_i hc
          rw [if_pos hc] at h
          split at h
          · cases h; rfl
          · cases h
        · rename_i h4
          rw [if_neg h4] at h
          cases h; rfl

theorem finish_on {p : Pos} {st st' : List Frame} (h : finish p st = some st') (base : List Frame) :
    finish p (st ++ base) = some (st' ++ base) := by
  unfold finish at h ⊢
  split
  · exact directive_on h base
  · rename_i hn
    split at h
    · exact absurd rfl (hn _)
    · cases h; rfl

theorem close_on {f : Frame} {st st' : List Frame} (h : close f st = some st') (base : List Frame) :
    close f (st ++ base) = some (st' ++ base) := by
  unfold close at h
  split at h
  · split at h
    · rename_i hfg
      cases h
      show (if f = _ then _ else none) = _
      rw [if_pos hfg]
      rfl
    · cases h
  · cases h

theorem codeStep_on {s s' : St} {st : List Frame} {c : Char} (h : codeStep s st c = some s') (base : List Frame) :
    codeStep (s.on base) (st ++ base) c = some (s'.on base) := by
  have hcl : ∀ f, (close f st).map (fun r => (⟨.code, .rest, false, r⟩ : St)) = some s' →
      (close f (st ++ base)).map (fun r => (⟨.code, .rest, false, r⟩ : St)) = some (s'.on base) := by
    intro f h
    rw [Option.map_eq_some_iff] at h
    obtain ⟨r, h1, h2⟩ := h
    rw [close_on h1 base, ← h2]
    rfl
  unfold codeStep at h ⊢
  by_cases h1 : c = ' ' ∨ c = '\t'
  · rw [if_pos h1] at h ⊢; cases h; rfl
  rw [if_neg h1] at h ⊢
  by_cases h2 : c = '\n'
  · rw [if_pos h2] at h ⊢; cases h; rfl
  rw [if_neg h2] at h ⊢
  by_cases h3 : c = '('
  · rw [if_pos h3] at h ⊢; cases h; rfl
  rw [if_neg h3] at h ⊢
  by_cases h4 : c = ')'
  · rw [if_pos h4] at h ⊢; exact hcl _ h
  rw [if_neg h4] at h ⊢
  by_cases h5 : c = '{'
  · rw [if_pos h5] at h ⊢; cases h; rfl
  rw [if_neg h5] at h ⊢
  by_cases h6 : c = '}'
  · rw [if_pos h6] at h ⊢; exact hcl _ h
  rw [if_neg h6] at h ⊢
  by_cases h7 : c = '['
  · rw [if_pos h7] at h ⊢; cases h; rfl
  rw [if_neg h7] at h ⊢
  by_cases h8 : c = ']'
  · rw [if_pos h8] at h ⊢; exact hcl _ h
  rw [if_neg h8] at h ⊢
  by_cases h9 : c = '#'
  · rw [if_pos h9] at h ⊢; cases h; rfl
  rw [if_neg h9] at h ⊢
  by_cases h10 : c = '/'
  · rw [if_pos h10] at h ⊢; cases h; rfl
  rw [if_neg h10] at h ⊢
  by_cases h11 : c = '"'
  · rw [if_pos h11] at h ⊢; cases h; rfl
  rw [if_neg h11] at h ⊢
  by_cases h12 : c = '\''
  · rw [if_pos h12] at h ⊢; cases h; rfl
  rw [if_neg h12] at h ⊢
  by_cases h13 : c = '\\'
  · rw [if_pos h13] at h ⊢; cases h; rfl
  rw [if_neg h13] at h ⊢
  cases h; rfl

theorem step_on {s s' : St} {c : Char} (h : step s c = some s') (base : List Frame) : step (s.on base) c = some (s'.on base) := by
  unfold step at h ⊢
  obtain ⟨m, p, b, st⟩ := s
  cases m with
  | code =>
    dsimp only [St.on] at h ⊢
    split
    · rename_i hw
      rw [if_pos hw] at h
      cases h; rfl
    · rename_i hw
      rw [if_neg hw] at h
      cases hf : finish p st with
      | none => rw [hf] at h; cases h
      | some st' =>
        rw [hf] at h
        rw [finish_on hf base]
        exact codeStep_on (s := ⟨.code, p, b, st⟩) h base
  | slash =>
    dsimp only [St.on] at h ⊢
    split
    · rename_i hc; rw [if_pos hc] at h; cases h; rfl
    · rename_i hc
      rw [if_neg hc] at h
      split
      · rename_i hc; rw [if_pos hc] at h; cases h; rfl
      · rename_i hc
        rw [if_neg hc] at h
        split
        · rename_i hc; rw [if_pos hc] at h; cases h; rfl
        · rename_i hc
          rw [if_neg hc] at h
          exact codeStep_on (s := ⟨.slash, .rest, b, st⟩) h base
  | str =>
    dsimp only [St.on] at h ⊢
    split
    · rename_i hc; rw [if_pos hc] at h; cases h; rfl
    · rename_i hc
      rw [if_neg hc] at h
      split
      · rename_i hc; rw [if_pos hc] at h; cases h; rfl
      · rename_i hc
        rw [if_neg hc] at h
        split
        · rename_i hc; rw [if_pos hc] at h; cases h
        · rename_i hc; rw [if_neg hc] at h; cases h; rfl
  | strEsc => cases h; rfl
  | chr =>
    dsimp only [St.on] at h ⊢
    split
    · rename_i hc; rw [if_pos hc] at h; cases h; rfl
    · rename_i hc
      rw [if_neg hc] at h
      split
      · rename_i hc; rw [if_pos hc] at h; cases h; rfl
      · rename_i hc
        rw [if_neg hc] at h
        split
        · rename_i hc; rw [if_pos hc] at h; cases h
        · rename_i hc; rw [if_neg hc] at h; cases h; rfl
  | chrEsc => cases h; rfl
  | line =>
    dsimp only [St.on] at h ⊢
    split
    · rename_i hc
      rw [if_pos hc] at h
      cases b <;> (cases h; rfl)
    · rename_i hc; rw [if_neg hc] at h; cases h; rfl
  | block => cases h; rfl
  | star => cases h; rfl

theorem run_on {s s' : St} {t : Str} (h : run s t = some s') (base : List Frame) : run (s.on base) t = some (s'.on base) := by
  induction t generalizing s with
  | nil => cases h; rfl
  | cons c t ih =>
    rw [run] at h ⊢
    cases hs : step s c with
    | none => rw [hs] at h; cases h
    | some s1 =>
      rw [hs] at h
      rw [step_on hs base]
      exact ih h

theorem fresh_on (st base : List Frame) : (fresh st).on base = fresh (st ++ base) := rfl

/-- It is enough to look at the text with nothing open. -/
theorem wellFormed_of {t : Str} (h : run (fresh []) t = some (fresh [])) : WellFormed t := fun stack => by
  have := run_on h stack
  simpa [fresh_on] using this

theorem inline_of {t : Str} (h : run ⟨.code, .rest, false, []⟩ t = some ⟨.code, .rest, false, []⟩) : Inline t := fun stack => by
  have := run_on h stack
  simpa [St.on] using this

theorem WellFormed.nil : WellFormed [] := fun _ => rfl

theorem WellFormed.append {a b : Str} (ha : WellFormed a) (hb : WellFormed b) : WellFormed (a ++ b) := fun stack => by
  rw [run_append, ha stack]
  exact hb stack

theorem Inline.append {a b : Str} (ha : Inline a) (hb : Inline b) : Inline (a ++ b) := fun stack => by
  rw [run_append, ha stack]
  exact hb stack

theorem WellFormed.flatMap {α : Type} {l : List α} {f : α → Str} (h : ∀ x ∈ l, WellFormed (f x)) : WellFormed (l.flatMap f) := by
  induction l with
  | nil => exact WellFormed.nil
  | cons x l ih =>
    rw [List.flatMap_cons]
    exact (h x (by simp)).append (ih fun y hy => h y (by simp [hy]))

/-! ### Words -/

/-- The state behind a word that may be renamed. -/
def wordStep (s : St) (w : Str) : Option St :=
  match s.mode with
  | .code =>
    match s.pos with
    | .hash =>
      if w ∈ [str% "if", str% "ifdef", str% "ifndef", str% "elif", str% "else", str% "endif", str% "define", str% "undef", str% "include",
        str% "pragma", str% "error", str% "warning", str% "line"] then some ⟨.code, .name w, false, s.stack⟩ else none
    | .name _ => none
    | _ => some ⟨.code, .rest, false, s.stack⟩
  | .slash => some ⟨.code, .rest, false, s.stack⟩
  | .strEsc => some { s with mode := .str }
  | .chrEsc => some { s with mode := .chr }
  | .line => some { s with bs := false }
  | .star => some { s with mode := .block }
  | _ => some s

theorem newName_directive {u l w : Str} (h : w ∈ [str% "if", str% "ifdef", str% "ifndef", str% "elif", str% "else", str% "endif", str% "define",
    str% "undef", str% "include", str% "pragma", str% "error", str% "warning", str% "line"]) : newName u l w = w := by
  have key : ∀ k ∈ [str% "if", str% "ifdef", str% "ifndef", str% "elif", str% "else", str% "endif", str% "define",
      str% "undef", str% "include", str% "pragma", str% "error", str% "warning", str% "line"],
      (str% "GDO_").isPrefixOf k = false ∧ (str% "_GDO_").isPrefixOf k = false ∧ (str% "gdo_").isPrefixOf k = false ∧
      (str% "_gdo_").isPrefixOf k = false ∧ k ≠ str% "gdo" := by decide +kernel
  obtain ⟨h1, h2, h3, h4, h5⟩ := key w h
  unfold newName
  rw [if_neg (by simp [h1]), if_neg (by simp [h2]), if_neg (by simp [h3]), if_neg (by simp [h4]), if_neg h5]

theorem word_ne {c : Char} (h : isWord c = true) : c ≠ '*' ∧ c ≠ '/' ∧ c ≠ '"' ∧ c ≠ '\\' ∧ c ≠ '\n' ∧ c ≠ '\'' := by
  refine ⟨?_, ?_, ?_, ?_, ?_, ?_⟩ <;> (rintro rfl; revert h; decide)

theorem name_run {st : List Frame} {w : Str} (hw : ∀ c ∈ w, isWord c = true) (a : Str) :
    run ⟨.code, .name a, false, st⟩ w = some ⟨.code, .name (a ++ w), false, st⟩ := by
  induction w generalizing a with
  | nil => simp [run]
  | cons c w ih =>
    rw [run]
    have : step ⟨.code, .name a, false, st⟩ c = some ⟨.code, .name (a ++ [c]), false, st⟩ := by
      show (if isWord c then _ else _) = _
      rw [if_pos (hw c (by simp))]
      rfl
    rw [this]
    show run ⟨.code, .name (a ++ [c]), false, st⟩ w = _
    rw [ih fun x hx => hw x (by simp [hx])]
    simp

/-- A text that keeps the state. -/
theorem same_run {s : St} {t : Str} (h : ∀ c ∈ t, step s c = some s) : run s t = some s := by
  induction t with
  | nil => rfl
  | cons c t ih =>
    rw [run, h c (by simp)]
    exact ih fun x hx => h x (by simp [hx])

theorem step_word {s : St} {c : Char} (h : isWord c = true) : step s c = some (match s.mode with
    | .code => ⟨.code, wordChar s.pos c, false, s.stack⟩
    | .slash => ⟨.code, .rest, false, s.stack⟩
    | .strEsc => { s with mode := .str }
    | .chrEsc => { s with mode := .chr }
    | .line => { s with bs := false }
    | .star => { s with mode := .block }
    | _ => s) := by
  obtain ⟨h1, h2, h3, h4, h5, h6⟩ := word_ne h
  obtain ⟨m, p, b, st⟩ := s
  unfold step
  cases m <;> simp [h, h1, h2, h3, h4, h5, h6]

theorem rest_word {st : List Frame} {w : Str} (hw : ∀ c ∈ w, isWord c = true) : run ⟨.code, .rest, false, st⟩ w = some ⟨.code, .rest, false, st⟩ :=
  same_run fun c hc => by rw [step_word (hw c hc)]; rfl

theorem word_run {u l w : Str} (hu : ∀ c ∈ u, isWord c = true) (hl : ∀ c ∈ l, isWord c = true) (hln : l ≠ [])
    (hw : ∀ c ∈ w, isWord c = true) (hwn : w ≠ []) {s s' : St} (h : wordStep s w = some s') : run s (newName u l w) = some s' := by
  obtain ⟨h1, h2⟩ := newName_word hu hl hln hw hwn
  obtain ⟨m, p, b, st⟩ := s
  -- one step, then the state does not change
  have key : ∀ s s1 : St, (∀ c, isWord c = true → step s c = some s1) → (∀ c, isWord c = true → step s1 c = some s1) →
      run s (newName u l w) = some s1 := by
    intro s s1 k1 k2
    cases hn : newName u l w with
    | nil => exact absurd hn h1
    | cons c r =>
      rw [hn] at h2
      rw [run, k1 c (h2 c (by simp))]
      exact same_run fun x hx => k2 x (h2 x (by simp [hx]))
  unfold wordStep at h
  cases m with
  | code =>
    cases p with
    | start => cases h; exact key _ _ (fun c hc => by rw [step_word hc]; rfl) (fun c hc => by rw [step_word hc]; rfl)
    | rest => cases h; exact key _ _ (fun c hc => by rw [step_word hc]; rfl) (fun c hc => by rw [step_word hc]; rfl)
    | name a => cases h
    | hash =>
      dsimp only at h
      split at h
      · rename_i hm
        cases h
        rw [newName_directive hm]
        cases w with
        | nil => exact absurd rfl hwn
        | cons c w =>
          rw [run, step_word (hw c (by simp))]
          exact name_run (fun x hx => hw x (by simp [hx])) [c]
      · cases h
  | slash => cases h; exact key _ _ (fun c hc => by rw [step_word hc]) (fun c hc => by rw [step_word hc]; rfl)
  | str => cases h; exact key _ _ (fun c hc => by rw [step_word hc]) (fun c hc => by rw [step_word hc])
  | strEsc => cases h; exact key _ _ (fun c hc => by rw [step_word hc]) (fun c hc => by rw [step_word hc])
  | chr => cases h; exact key _ _ (fun c hc => by rw [step_word hc]) (fun c hc => by rw [step_word hc])
  | chrEsc => cases h; exact key _ _ (fun c hc => by rw [step_word hc]) (fun c hc => by rw [step_word hc])
  | line => cases h; exact key _ _ (fun c hc => by rw [step_word hc]) (fun c hc => by rw [step_word hc])
  | block => cases h; exact key _ _ (fun c hc => by rw [step_word hc]) (fun c hc => by rw [step_word hc])
  | star => cases h; exact key _ _ (fun c hc => by rw [step_word hc]) (fun c hc => by rw [step_word hc])

/-! ### Values -/

/-- A text that can replace a keyword: no characters that begin or end a literal, a
    comment, a directive or a line, and all brackets closed. -/
structure Value (v : Str) : Prop where
  chars : ∀ c ∈ v, c ∉ ['/', '"', '\'', '\\', '\n', '#']
  inline : Inline v

/-- The states that are possible behind a value. -/
def valueStep (s : St) : Option (List St) :=
  match s.mode, s.pos, s.bs with
  | .code, .rest, false => some [s]
  | .code, .start, false => some [s, { s with pos := .rest }]
  | .str, _, _ => some [s]
  | .chr, _, _ => some [s]
  | .line, _, false => some [s]
  | .block, _, _ => some [s, { s with mode := .star }]
  | .star, _, _ => some [s, { s with mode := .block }]
  | _, _, _ => none

theorem value_start {st : List Frame} {v : Str} (hc : ∀ c ∈ v, c ∉ ['/', '"', '\'', '\\', '\n', '#']) {s' : St}
    (h : run ⟨.code, .rest, false, st⟩ v = some s') :
    run ⟨.code, .start, false, st⟩ v = some s' ∨ (run ⟨.code, .start, false, st⟩ v = some ⟨.code, .start, false, st⟩ ∧ s' = ⟨.code, .rest, false, st⟩) := by
  induction v with
  | nil => cases h; exact Or.inr ⟨rfl, rfl⟩
  | cons c v ih =>
    have hcc := hc c (by simp)
    simp only [List.mem_cons, List.not_mem_nil, or_false, not_or] at hcc
    obtain ⟨h1, h2, h3, h4, h5, h6⟩ := hcc
    rw [run] at h ⊢
    by_cases hb : c = ' ' ∨ c = '\t'
    · have hnw : isWord c = false := by rcases hb with rfl | rfl <;> decide
      have e1 : step ⟨.code, .rest, false, st⟩ c = some ⟨.code, .rest, false, st⟩ := by
        simp [step, hnw, finish, codeStep, hb]
      have e2 : step ⟨.code, .start, false, st⟩ c = some ⟨.code, .start, false, st⟩ := by
        simp [step, hnw, finish, codeStep, hb]
      rw [e1] at h
      rw [e2]
      exact ih (fun x hx => hc x (by simp [hx])) h
    · left
      have : step ⟨.code, .start, false, st⟩ c = step ⟨.code, .rest, false, st⟩ c := by
        cases hw : isWord c with
        | true => rw [step_word hw, step_word hw]; rfl
        | false => simp [step, hw, finish, codeStep, hb, h1, h6, h5]
      rw [this]
      exact h

theorem block_value {p : Pos} {b : Bool} {st : List Frame} {v : Str} (hc : ∀ c ∈ v, c ∉ ['/', '"', '\'', '\\', '\n', '#']) (m : Mode)
    (hm : m = .block ∨ m = .star) : run ⟨m, p, b, st⟩ v = some ⟨.block, p, b, st⟩ ∨ run ⟨m, p, b, st⟩ v = some ⟨.star, p, b, st⟩ := by
  induction v generalizing m with
  | nil => rcases hm with rfl | rfl <;> simp [run]
  | cons c v ih =>
    have hcc := hc c (by simp)
    have h1 : c ≠ '/' := fun h => hcc (by simp [h])
    have ih := ih fun x hx => hc x (by simp [hx])
    have : step ⟨m, p, b, st⟩ c = some ⟨if c = '*' then .star else .block, p, b, st⟩ := by
      rcases hm with rfl | rfl <;> simp [step, h1]
    rw [run, this]
    exact ih _ (by split <;> simp)

theorem value_run {v : Str} (hv : Value v) {s : St} {S : List St} (h : valueStep s = some S) (base : List Frame) :
    ∃ s' ∈ S, run (s.on base) v = some (s'.on base) := by
  obtain ⟨m, p, b, st⟩ := s
  have hcs := hv.chars
  have hne : ∀ c ∈ v, c ≠ '"' ∧ c ≠ '\\' ∧ c ≠ '\n' ∧ c ≠ '\'' := by
    intro c hc
    have := hcs c hc
    simp only [List.mem_cons, List.not_mem_nil, or_false, not_or] at this
    exact ⟨this.2.1, this.2.2.2.1, this.2.2.2.2.1, this.2.2.1⟩
  unfold valueStep at h
  split at h
  · rename_i hm hp hb
    cases h
    dsimp only at hm hp hb
    subst hm; subst hp; subst hb
    exact ⟨⟨.code, .rest, false, st⟩, by simp, hv.inline _⟩
  · rename_i hm hp hb
    cases h
    dsimp only at hm hp hb
    subst hm; subst hp; subst hb
    rcases value_start hcs (hv.inline (st ++ base)) with hx | ⟨hx, _⟩
    · exact ⟨⟨.code, .rest, false, st⟩, by simp, hx⟩
    · exact ⟨⟨.code, .start, false, st⟩, by simp, hx⟩
  · rename_i hm
    cases h
    dsimp only at hm
    subst hm
    refine ⟨_, by simp, same_run fun c hc => ?_⟩
    obtain ⟨h1, h2, h3, h4⟩ := hne c hc
    simp [step, St.on, h1, h2, h3]
  · rename_i hm
    cases h
    dsimp only at hm
    subst hm
    refine ⟨_, by simp, same_run fun c hc => ?_⟩
    obtain ⟨h1, h2, h3, h4⟩ := hne c hc
    simp [step, St.on, h2, h3, h4]
  · rename_i hm hb
    cases h
    dsimp only at hm hb
    subst hm; subst hb
    refine ⟨_, by simp, same_run fun c hc => ?_⟩
    obtain ⟨h1, h2, h3, h4⟩ := hne c hc
    simp [step, St.on, h2, h3]
  · rename_i hm
    cases h
    dsimp only at hm
    subst hm
    rcases block_value (p := p) (b := b) (st := st ++ base) hcs .block (Or.inl rfl) with hx | hx
    · exact ⟨⟨.block, p, b, st⟩, by simp, hx⟩
    · exact ⟨⟨.star, p, b, st⟩, by simp, hx⟩
  · rename_i hm
    cases h
    dsimp only at hm
    subst hm
    rcases block_value (p := p) (b := b) (st := st ++ base) hcs .star (Or.inr rfl) with hx | hx
    · exact ⟨⟨.block, p, b, st⟩, by simp, hx⟩
    · exact ⟨⟨.star, p, b, st⟩, by simp, hx⟩
  · cases h

/-! ### Lines of a template -/

/-- A function on all the elements; `none` if it fails for one of them. -/
def allOf (f : St → Option St) : List St → Option (List St)
  | [] => some []
  | s :: r => (f s).bind fun x => (allOf f r).map (x :: ·)

theorem allOf_mem {f : St → Option St} {S S' : List St} (h : allOf f S = some S') : ∀ s ∈ S, ∃ s' ∈ S', f s = some s' := by
  induction S generalizing S' with
  | nil => intro s hs; cases hs
  | cons x S ih =>
    rw [allOf] at h
    cases hx : f x with
    | none => rw [hx] at h; cases h
    | some y =>
      rw [hx] at h
      cases hr : allOf f S with
      | none => rw [hr] at h; cases h
      | some r =>
        rw [hr] at h
        cases h
        intro s hs
        rcases List.mem_cons.mp hs with rfl | hs
        · exact ⟨y, by simp, hx⟩
        · obtain ⟨s', h1, h2⟩ := ih hr s hs
          exact ⟨s', by simp [h1], h2⟩

def allValues : List St → Option (List St)
  | [] => some []
  | s :: r => (valueStep s).bind fun x => (allValues r).map (x ++ ·)

theorem allValues_mem {S S' : List St} (h : allValues S = some S') : ∀ s ∈ S, ∃ X, valueStep s = some X ∧ ∀ x ∈ X, x ∈ S' := by
  induction S generalizing S' with
  | nil => intro s hs; cases hs
  | cons x S ih =>
    rw [allValues] at h
    cases hx : valueStep x with
    | none => rw [hx] at h; cases h
    | some y =>
      rw [hx] at h
      cases hr : allValues S with
      | none => rw [hr] at h; cases h
      | some r =>
        rw [hr] at h
        cases h
        intro s hs
        rcases List.mem_cons.mp hs with rfl | hs
        · exact ⟨y, hx, fun x hx => by simp [hx]⟩
        · obtain ⟨X, h1, h2⟩ := ih hr s hs
          exact ⟨X, h1, fun x hx => by simp [h2 x hx]⟩

/-- Every state once. -/
def uniq : List St → List St
  | [] => []
  | s :: r => if s ∈ uniq r then uniq r else s :: uniq r

theorem mem_uniq {S : List St} {s : St} (h : s ∈ S) : s ∈ uniq S := by
  induction S with
  | nil => cases h
  | cons x S ih =>
    rw [uniq]
    rcases List.mem_cons.mp h with rfl | h
    · split
      · assumption
      · simp
    · split
      · exact ih h
      · simp [ih h]

/-- The states that are possible behind a line of a template, whatever the prefix and the
    values of keywords are; `eat`: a blank may be left out. -/
def partsRun : Bool → List St → List Part → Option (List St)
  | _, S, [] => some S
  | _, S, .word w :: r => (allOf (wordStep · w) S).bind fun S' => partsRun false S' r
  | eat, S, .other c :: r => (allOf (step · c) S).bind fun S' => partsRun false (if eat && c == ' ' then uniq (S' ++ S) else S') r
  | _, S, .kw _ :: r => (allValues S).bind fun S' => partsRun true (uniq S') r

theorem wordStep_on {s s' : St} {w : Str} (h : wordStep s w = some s') (base : List Frame) : wordStep (s.on base) w = some (s'.on base) := by
  obtain ⟨m, p, b, st⟩ := s
  unfold wordStep at h ⊢
  cases m with
  | code =>
    cases p with
    | hash =>
      dsimp only [St.on] at h ⊢
      split
      · rename_i hw; rw [if_pos hw] at h; cases h; rfl
      · rename_i hw; rw [if_neg hw] at h; cases h
    | name a => cases h
    | start => cases h; rfl
    | rest => cases h; rfl
  | _ => cases h; rfl

theorem partsRun_sound {u l : Str} (hu : ∀ c ∈ u, isWord c = true) (hl : ∀ c ∈ l, isWord c = true) (hln : l ≠ []) {val : Values}
    {ps : List Part} (hw : ∀ w, .word w ∈ ps → w ≠ [] ∧ ∀ c ∈ w, isWord c = true)
    (hk : ∀ k, .kw k ∈ ps → ∃ v e, val k = some (v, e) ∧ Value v) {eat eat' : Bool} (he : eat' = true → eat = true) {S S' : List St}
    (h : partsRun eat S ps = some S') (base : List Frame) :
    ∀ s ∈ S, ∃ s' ∈ S', run (s.on base) (fillIn u l val eat' ps) = some (s'.on base) := by
  induction ps generalizing eat eat' S with
  | nil =>
    cases h
    intro s hs
    exact ⟨s, hs, rfl⟩
  | cons q ps ih =>
    have ih := fun {eat eat' S} => ih (eat := eat) (eat' := eat') (S := S) (fun w h => hw w (by simp [h])) (fun k h => hk k (by simp [h]))
    intro s hs
    cases q with
    | word w =>
      rw [partsRun] at h
      cases hx : allOf (wordStep · w) S with
      | none => rw [hx] at h; cases h
      | some X =>
        rw [hx] at h
        obtain ⟨s1, h1, h2⟩ := allOf_mem hx s hs
        obtain ⟨w1, w2⟩ := hw w (by simp)
        obtain ⟨s', h3, h4⟩ := ih (fun h => h) h s1 h1
        refine ⟨s', h3, ?_⟩
        rw [fillIn, run_append, word_run hu hl hln w2 w1 (wordStep_on h2 base)]
        exact h4
    | other c =>
      rw [partsRun] at h
      cases hx : allOf (step · c) S with
      | none => rw [hx] at h; cases h
      | some X =>
        rw [hx] at h
        rw [Option.bind_some] at h
        rw [fillIn]
        split
        · rename_i hec
          rw [Bool.and_eq_true, beq_iff_eq] at hec
          rw [he hec.1, hec.2] at h
          simp only [BEq.rfl, Bool.and_self, if_true] at h
          obtain ⟨s', h3, h4⟩ := ih (fun h => h) h s (mem_uniq (by simp [hs]))
          exact ⟨s', h3, h4⟩
        · obtain ⟨s1, h1, h2⟩ := allOf_mem hx s hs
          obtain ⟨s', h3, h4⟩ := ih (fun h => h) h s1 (by split; exact mem_uniq (by simp [h1]); exact h1)
          refine ⟨s', h3, ?_⟩
          rw [run, step_on h2 base]
          exact h4
    | kw k =>
      rw [partsRun] at h
      cases hx : allValues S with
      | none => rw [hx] at h; cases h
      | some X =>
        rw [hx] at h
        obtain ⟨Y, h1, h2⟩ := allValues_mem hx s hs
        obtain ⟨v, e, hv, hv2⟩ := hk k (by simp)
        obtain ⟨s1, h3, h4⟩ := value_run hv2 h1 base
        obtain ⟨s', h5, h6⟩ := ih (eat' := e) (fun _ => rfl) h s1 (mem_uniq (h2 s1 h3))
        refine ⟨s', h5, ?_⟩
        rw [fillIn, hv]
        dsimp only
        rw [run_append, h4]
        exact h6

theorem fillIn_nl (u l : Str) (val : Values) (eat : Bool) (ps : List Part) :
    fillIn u l val eat (ps ++ [.other '\n']) = fillIn u l val eat ps ++ str% "\n" := by
  induction ps generalizing eat with
  | nil =>
    simp [fillIn]
  | cons q ps ih =>
    cases q with
    | word w => simp only [List.cons_append, fillIn, ih, List.append_assoc]
    | other c =>
      simp only [List.cons_append, fillIn, ih]
      split <;> rfl
    | kw k =>
      simp only [List.cons_append, fillIn, ih]
      cases val k with
      | none => simp
      | some v => simp

/-- The state behind all the texts that a line of a template stands for. -/
def lineStep (s : St) (d : Str) : Option St :=
  match firstKind (parts d) with
  | none =>
    if (parts d).all (fun q => match q with | .kw _ => false | _ => true) then
      match partsRun false [s] (parts d ++ [.other '\n']) with
      | some [s'] => some s'
      | _ => none
    else none
  | some _ =>
    if s.mode = .code ∧ s.pos = .start ∧ s.bs = false then
      match partsRun false [fresh []] (parts d ++ [.other '\n']) with
      | some S => if S.all (· = fresh []) then some s else none
      | none => none
    else none

/-- The state behind the lines of a template; `m` is the last marker. -/
def linesRun (names : ParamNames) : Option Marker → St → List Str → Option St
  | _, s, [] => some s
  | m, s, d :: ds =>
    match markerLine d with
    | some x => if s.mode = .code ∧ s.pos = .start ∧ s.bs = false then linesRun names (some x) s ds else none
    | none => if Shown names m then (lineStep s d).bind fun s' => linesRun names m s' ds else linesRun names m s ds

/-- The test on a template. -/
def wellFormedLines (names : ParamNames) (ls : List Str) : Bool :=
  linesRun names none (fresh []) ((blocks ls).map joinLines) = some (fresh [])

/-! ### Data that is harmless -/

/-- The data of a symbol has no unclosed brackets, no quotes, slashes, backslashes, hash
    characters and line ends. -/
structure Clean (p : Proto) : Prop where
  type : Value p.type
  symbol : Value p.symbol
  args : Value p.args
  names : Value p.paramNames

theorem Value.append {a b : Str} (ha : Value a) (hb : Value b) : Value (a ++ b) :=
  ⟨fun c hc => (List.mem_append.mp hc).elim (ha.chars c) (hb.chars c), ha.inline.append hb.inline⟩

theorem Value.nil : Value [] := ⟨by simp, fun _ => rfl⟩

theorem rest_blank (st : List Frame) : step ⟨.code, .rest, false, st⟩ ' ' = some ⟨.code, .rest, false, st⟩ := rfl

theorem Value.blanks (n : Nat) : Value (List.replicate n ' ') := by
  refine ⟨fun c hc => ?_, fun stack => same_run fun c hc => ?_⟩
  · rw [List.eq_of_mem_replicate hc]; decide
  · rw [List.eq_of_mem_replicate hc]; rfl

theorem Value.of {v : Str} (h : v.all (fun c => c ∉ ['/', '"', '\'', '\\', '\n', '#']) = true)
    (hr : run ⟨.code, .rest, false, []⟩ v = some ⟨.code, .rest, false, []⟩) : Value v :=
  ⟨fun c hc => by simpa using List.all_eq_true.mp h c hc, inline_of hr⟩

theorem Value.parens {v : Str} (h : Value v) : Value (str% "(" ++ v ++ str% ")") := by
  refine ⟨?_, ?_⟩
  · intro c hc
    simp only [List.mem_append, List.mem_singleton] at hc
    rcases hc with (rfl | hc) | rfl
    · decide
    · exact h.chars c hc
    · decide
  · intro stack
    have e1 : run ⟨.code, .rest, false, stack⟩ (str% "(") = some ⟨.code, .rest, false, .paren :: stack⟩ := rfl
    have e2 : run ⟨.code, .rest, false, .paren :: stack⟩ (str% ")") = some ⟨.code, .rest, false, stack⟩ := rfl
    rw [run_append, run_append, e1, Option.bind_some, h.inline (.paren :: stack), Option.bind_some, e2]

theorem Value.sep (b : Bool) : Value (if b then [] else str% " ") := by
  cases b
  · exact Value.blanks 1
  · exact Value.nil

theorem functionPointer_value {p : Proto} (h : Clean p) : Value (functionPointer p) := by
  have : functionPointer p = p.type ++ (if isPointer p.type then [] else str% " ") ++ str% "(*)" ++ (str% "(" ++ p.args ++ str% ")") := by
    simp [functionPointer]
  rw [this]
  exact ((h.type.append (Value.sep _)).append (Value.of (by decide) (by decide))).append h.args.parens

theorem objectPointer_value {p : Proto} (h : Clean p) : Value (objectPointer p) :=
  (h.type.append (Value.sep _)).append (Value.of (by decide) (by decide))

theorem fill_value {w : Nat} {v : Str} (h : Value v) : Value (fill w v) := h.append (Value.blanks _)

theorem functionValues_value {w : Nat} {p : Proto} (h : Clean p) {k : Str} (hk : kindOf k = some .function) :
    ∃ v e, functionValues w p k = some (v, e) ∧ Value v := by
  unfold kindOf at hk
  split at hk
  · rename_i hm
    simp only [List.mem_cons, List.not_mem_nil, or_false] at hm
    rcases hm with rfl | rfl | rfl | rfl | rfl | rfl
    · by_cases hv : isVoid p.type
      · exact ⟨[], true, by rw [functionValues, if_pos rfl, if_pos hv], Value.nil⟩
      · exact ⟨str% "return", false, by rw [functionValues, if_pos rfl, if_neg hv], Value.of (by decide) (by decide)⟩
    · exact ⟨_, _, rfl, h.type⟩
    · exact ⟨_, _, rfl, h.symbol⟩
    · exact ⟨_, _, rfl, fill_value h.symbol⟩
    · exact ⟨_, _, rfl, h.args⟩
    · exact ⟨_, _, rfl, h.names⟩
  · split at hk
    · cases hk
    · split at hk <;> cases hk

theorem objectValues_value {w : Nat} {p : Proto} (h : Clean p) {k : Str} (hk : kindOf k = some .object) :
    ∃ v e, objectValues w p k = some (v, e) ∧ Value v := by
  unfold kindOf at hk
  split at hk
  · cases hk
  · split at hk
    · rename_i hm
      simp only [List.mem_cons, List.not_mem_nil, or_false] at hm
      rcases hm with rfl | rfl | rfl
      · exact ⟨_, _, rfl, h.type⟩
      · exact ⟨_, _, rfl, h.symbol⟩
      · exact ⟨_, _, rfl, fill_value h.symbol⟩
    · split at hk <;> cases hk

theorem symbolValues_value {type symbol : Str} (h1 : Value type) (h2 : Value symbol) {k : Str} (hk : kindOf k = some .symbol) :
    ∃ v e, symbolValues type symbol k = some (v, e) ∧ Value v := by
  unfold kindOf at hk
  split at hk
  · cases hk
  · split at hk
    · cases hk
    · split at hk
      · rename_i hm
        simp only [List.mem_cons, List.not_mem_nil, or_false] at hm
        rcases hm with rfl | rfl
        · exact ⟨_, _, rfl, h1⟩
        · exact ⟨_, _, rfl, h2⟩
      · cases hk

/-! ### The whole template -/

open Builtin

theorem unlines_cons (x : Str) (xs : List Str) : unlines (x :: xs) = x ++ str% "\n" ++ unlines xs := rfl

theorem unlines_append (xs ys : List Str) : unlines (xs ++ ys) = unlines xs ++ unlines ys := by
  unfold unlines
  rw [List.flatMap_append]

theorem wellFormed_unlines {xs : List Str} (h : ∀ x ∈ xs, WellFormed (x ++ str% "\n")) : WellFormed (unlines xs) :=
  WellFormed.flatMap h

theorem fresh_eq {s : St} (h : s.mode = .code ∧ s.pos = .start ∧ s.bs = false) : s = fresh s.stack := by
  obtain ⟨m, p, b, st⟩ := s
  obtain ⟨h1, h2, h3⟩ := h
  dsimp only at h1 h2 h3
  subst h1; subst h2; subst h3
  rfl

/-- A line without keywords. -/
theorem lineStep_plain {u l : Str} (hu : ∀ c ∈ u, isWord c = true) (hl : ∀ c ∈ l, isWord c = true) (hln : l ≠ []) {protos objs : List Proto}
    {d : Str} (hk : firstKind (parts d) = none) {s s' : St} (h : lineStep s d = some s') (base : List Frame) :
    ∃ x, written u l protos objs d = [x] ∧ run (s.on base) (x ++ str% "\n") = some (s'.on base) := by
  have hwords : WordsOk (parts d) := splits_words (splits _) (pieces_valid _)
  have hwords' : ∀ w, .word w ∈ parts d ++ [.other '\n'] → w ≠ [] ∧ ∀ c ∈ w, isWord c = true := by
    intro w hw
    exact hwords w (by simpa using hw)
  refine ⟨fillIn u l (fun _ => none) false (parts d), by unfold written; simp only [hk], ?_⟩
  unfold lineStep at h
  rw [hk] at h
  dsimp only at h
  split at h
  · rename_i hno
    cases hp : partsRun false [s] (parts d ++ [.other '\n']) with
    | none => rw [hp] at h; cases h
    | some S =>
      rw [hp] at h
      have := partsRun_sound hu hl hln (val := fun _ => none) hwords' (fun k hk => by
        have := List.all_eq_true.mp hno (.kw k) (by simpa using hk)
        cases this) (eat' := false) (fun h => h) hp base s (by simp)
      rw [fillIn_nl] at this
      split at h
      · cases h
        rename_i hS
        cases hS
        obtain ⟨x, hx, hr⟩ := this
        cases List.mem_singleton.mp hx
        exact hr
      · cases h
  · cases h

/-- A line with keywords. -/
theorem lineStep_keyword {u l : Str} (hu : ∀ c ∈ u, isWord c = true) (hl : ∀ c ∈ l, isWord c = true) (hln : l ≠ []) {protos objs : List Proto}
    (hd : ∀ p ∈ protos ++ objs, Clean p) {d : Str} (ho : lineOk d = true) {x : Kind} (hk : firstKind (parts d) = some x) {s s' : St}
    (h : lineStep s d = some s') : s = fresh s.stack ∧ s' = s ∧ ∀ y ∈ written u l protos objs d, WellFormed (y ++ str% "\n") := by
  have hwords : WordsOk (parts d) := splits_words (splits _) (pieces_valid _)
  have hwords' : ∀ w, .word w ∈ parts d ++ [.other '\n'] → w ≠ [] ∧ ∀ c ∈ w, isWord c = true := by
    intro w hw
    exact hwords w (by simpa using hw)
  unfold lineStep at h
  unfold lineOk at ho
  rw [Bool.and_eq_true, hk] at ho
  rw [hk] at h
  dsimp only at h ho
  obtain ⟨hks, _⟩ := keywordsOk_mem ho.2
  split at h
  · rename_i hf
    cases hp : partsRun false [fresh []] (parts d ++ [.other '\n']) with
    | none => rw [hp] at h; cases h
    | some S =>
      rw [hp] at h
      dsimp only at h
      split at h
      · rename_i hS
        cases h
        refine ⟨fresh_eq hf, rfl, ?_⟩
        have key : ∀ val : Values, (∀ k, .kw k ∈ parts d → ∃ v e, val k = some (v, e) ∧ Value v) →
            WellFormed (fillIn u l val false (parts d) ++ str% "\n") := by
          intro val hv
          intro stack
          obtain ⟨y, hy, hr⟩ := partsRun_sound hu hl hln (val := val) hwords' (fun k hk => hv k (by simpa using hk)) (eat' := false)
            (fun h => h) hp stack (fresh []) (by simp)
          have := List.all_eq_true.mp hS y hy
          rw [decide_eq_true_eq] at this
          rw [fillIn_nl, this] at hr
          exact hr
        intro y hy
        unfold written at hy
        dsimp only at hy
        rw [hk] at hy
        cases x with
        | function =>
          simp only [List.mem_map] at hy
          obtain ⟨p, hp', rfl⟩ := hy
          exact key _ fun k hk => functionValues_value (hd p (by simp [hp'])) (hks k hk)
        | object =>
          simp only [List.mem_map] at hy
          obtain ⟨p, hp', rfl⟩ := hy
          exact key _ fun k hk => objectValues_value (hd p (by simp [hp'])) (hks k hk)
        | symbol =>
          simp only [List.mem_append, List.mem_map] at hy
          rcases hy with ⟨p, hp', rfl⟩ | ⟨p, hp', rfl⟩
          · have hc := hd p (by simp [hp'])
            exact key _ fun k hk => symbolValues_value (functionPointer_value hc) hc.symbol (hks k hk)
          · have hc := hd p (by simp [hp'])
            exact key _ fun k hk => symbolValues_value (objectPointer_value hc) hc.symbol (hks k hk)
      · cases h
  · cases h

/-- Lines that pass the test or are markers. -/
theorem linesOk_cons {d : Str} {ds : List Str} (h : linesOk (d :: ds) = true) : (markerLine d = none → lineOk d = true) ∧ linesOk ds = true := by
  simp only [linesOk, List.all_cons, Bool.and_eq_true] at h
  exact ⟨fun hm => by simpa [hm] using h.1, h.2⟩

/-- The texts of a template. -/
theorem linesRun_texts {u l : Str} (hu : ∀ c ∈ u, isWord c = true) (hl : ∀ c ∈ l, isWord c = true) (hln : l ≠ []) {protos objs : List Proto}
    (hd : ∀ p ∈ protos ++ objs, Clean p) {names : ParamNames} {m : Option Marker} {ds : List Str} (ho : linesOk ds = true) {s s' : St}
    (h : linesRun names m s ds = some s') (base : List Frame) :
    run (s.on base) (unlines ((shown names m ds).flatMap (written u l protos objs))) = some (s'.on base) := by
  induction ds generalizing s m with
  | nil => cases h; rfl
  | cons d ds ih =>
    obtain ⟨ho1, ho2⟩ := linesOk_cons ho
    rw [linesRun] at h
    rw [shown]
    cases hm : markerLine d with
    | some x =>
      rw [hm] at h
      dsimp only at h ⊢
      split at h
      · exact ih ho2 h
      · cases h
    | none =>
      rw [hm] at h
      dsimp only at h ⊢
      split
      · rename_i hs
        rw [if_pos hs] at h
        cases hx : lineStep s d with
        | none => rw [hx] at h; cases h
        | some s1 =>
          rw [hx] at h
          rw [List.flatMap_cons, unlines_append, run_append]
          have : run (s.on base) (unlines (written u l protos objs d)) = some (s1.on base) := by
            cases hk : firstKind (parts d) with
            | none =>
              obtain ⟨y, h1, h2⟩ := lineStep_plain hu hl hln (protos := protos) (objs := objs) hk hx base
              rw [h1, unlines_cons]
              show run _ (_ ++ []) = _
              rw [List.append_nil]
              exact h2
            | some x =>
              obtain ⟨h1, h2, h3⟩ := lineStep_keyword hu hl hln hd (ho1 hm) hk hx
              rw [h2, h1]
              exact wellFormed_unlines h3 _
          rw [this]
          exact ih ho2 h
      · rename_i hs
        rw [if_neg hs] at h
        exact ih ho2 h

theorem digits_run (n : Nat) (st : List Frame) : run ⟨.code, .rest, false, st⟩ (Nat.toDigits 10 n) = some ⟨.code, .rest, false, st⟩ :=
  rest_word fun c hc => by
    have := Nat.isDigit_of_mem_toDigits (b := 10) (by omega) (by omega) hc
    have h2 : isDigit c = true := by
      simp only [Char.isDigit, Bool.and_eq_true, decide_eq_true_eq] at this
      simp only [isDigit, Bool.and_eq_true, decide_eq_true_eq]
      exact this
    simp [isWord, isAlnum, h2]

/-- A `#line` directive. -/
theorem directive_wf (n : Nat) : WellFormed (Chunk.directive n).bytes := by
  intro stack
  show run _ (str% "#line " ++ Nat.toDigits 10 n ++ str% "\n") = _
  have e1 : run (fresh stack) (str% "#line ") = some ⟨.code, .rest, false, stack⟩ := rfl
  rw [run_append, run_append, e1, Option.bind_some, digits_run]
  rfl

theorem chunks_wf {cs : List Chunk} (h : ∀ x ∈ Tmpl.texts cs, WellFormed (x ++ str% "\n")) : WellFormed (bytes cs) := by
  refine WellFormed.flatMap fun c hc => ?_
  cases c with
  | directive n => exact directive_wf n
  | text x =>
    refine h x ?_
    unfold Tmpl.texts
    rw [List.mem_filterMap]
    exact ⟨_, hc, rfl⟩

theorem bytes_append (a b : List Chunk) : bytes (a ++ b) = bytes a ++ bytes b := by
  unfold bytes
  rw [List.flatMap_append]

/-- The same with the `#line` directives. -/
theorem linesRun_chunks {cfg : Config} (hp : PrefixOk cfg.pfx) (hd : ∀ p ∈ cfg.prototypes ++ cfg.objects, Clean p) {m : Option Marker}
    {ds : List Str} {css : List (List Chunk)} (ha : Aligned cfg m ds css) (ho : linesOk ds = true) {s s' : St}
    (h : linesRun cfg.names m s ds = some s') (base : List Frame) : run (s.on base) (bytes css.flatten) = some (s'.on base) := by
  have hu := Pfx.C30_upper cfg.pfx
  have hlo := Pfx.C30_lower cfg.pfx
  have hln := prefix_ne hp
  induction ds generalizing s m css with
  | nil => cases ha; cases h; rfl
  | cons d ds ih =>
    obtain ⟨ho1, ho2⟩ := linesOk_cons ho
    cases css with
    | nil => cases ha
    | cons cs css =>
      rw [Aligned] at ha
      rw [linesRun] at h
      rw [List.flatten_cons, bytes_append, run_append]
      cases hm : markerLine d with
      | some x =>
        rw [hm] at h ha
        dsimp only at h ha
        split at h
        · rename_i hf
          have : run (s.on base) (bytes cs) = some (s.on base) := by
            rw [fresh_eq hf]
            exact chunks_wf (by rw [ha.1]; intro x hx; cases hx) _
          rw [this]
          exact ih ha.2 ho2 h
        · cases h
      | none =>
        rw [hm] at h ha
        dsimp only at h ha
        by_cases hs : Shown cfg.names m = true
        · rw [if_pos hs] at h ha
          cases hx : lineStep s d with
          | none => rw [hx] at h; cases h
          | some s1 =>
            rw [hx] at h
            obtain ⟨⟨ha1, ha2⟩, ha3⟩ := ha
            have : run (s.on base) (bytes cs) = some (s1.on base) := by
              cases hk : firstKind (parts d) with
              | none =>
                obtain ⟨y, h1, h2⟩ := lineStep_plain hu hlo hln (protos := cfg.prototypes) (objs := cfg.objects) hk hx base
                obtain ⟨z, rfl⟩ := ha2 hk
                rw [h1] at ha1
                cases ha1
                show run _ (_ ++ []) = _
                rw [List.append_nil]
                exact h2
              | some x =>
                obtain ⟨h1, h2, h3⟩ := lineStep_keyword hu hlo hln hd (ho1 hm) hk hx
                rw [h2, h1]
                exact chunks_wf (by rw [ha1]; exact h3) _
            rw [this]
            exact ih ha3 ho2 h
        · rw [if_neg hs] at h ha
          obtain ⟨rfl, ha3⟩ := ha
          exact ih ha3 ho2 h

theorem texts_linesOk (t : Gen.TName) : linesOk (Builtin.texts t) = true := by
  have hf := ok_all t
  simp only [fileOk, Bool.and_eq_true] at hf
  exact hf.1.1.2

theorem template_texts {u l : Str} (hu : ∀ c ∈ u, isWord c = true) (hl : ∀ c ∈ l, isWord c = true) (hln : l ≠ []) {protos objs : List Proto}
    (hd : ∀ p ∈ protos ++ objs, Clean p) {names : ParamNames} {t : Gen.TName} (h : wellFormedLines names (lines t) = true) :
    WellFormed (unlines (instantiate u l names protos objs (lines t))) := by
  unfold wellFormedLines at h
  rw [decide_eq_true_eq] at h
  intro stack
  exact linesRun_texts hu hl hln hd (texts_linesOk t) h stack

theorem lineText_wf (t : Gen.TName) : WellFormed (lineText t ++ str% "\n") := by
  cases t <;> exact wellFormed_of (by decide +kernel)

theorem template_chunks {cfg : Config} (hp : PrefixOk cfg.pfx) (hd : ∀ p ∈ cfg.prototypes ++ cfg.objects, Clean p) {t : Gen.TName}
    {css : List (List Chunk)} (ha : Aligned cfg none (processedTexts cfg.lineDirective t) css)
    (h : wellFormedLines cfg.names (lines t) = true) : WellFormed (bytes css.flatten) := by
  unfold wellFormedLines at h
  rw [decide_eq_true_eq] at h
  intro stack
  have key : ∀ css, Aligned cfg none (Builtin.texts t) css → run (fresh stack) (bytes css.flatten) = some (fresh stack) := fun css ha =>
    linesRun_chunks hp hd ha (texts_linesOk t) h stack
  unfold processedTexts at ha
  split at ha
  · cases css with
    | nil => cases ha
    | cons cs css =>
      have ha : Aligned cfg none (lineText t :: Builtin.texts t) (cs :: css) := ha
      rw [Aligned, (lineText_ok t).2.1] at ha
      dsimp only at ha
      rw [if_pos (show Shown cfg.names none = true from rfl), lineText_written] at ha
      rw [List.flatten_cons, bytes_append, run_append, chunks_wf (by rw [ha.1.1]; intro x hx; cases List.mem_singleton.mp hx; exact lineText_wf t) stack]
      exact key css ha.2
  · exact key css ha

theorem templates_chunks {cfg : Config} (hp : PrefixOk cfg.pfx) (hd : ∀ p ∈ cfg.prototypes ++ cfg.objects, Clean p) {ts : List Gen.TName}
    {csss : List (List (List Chunk))} (ha : AlignedAll cfg ts csss)
    (h : ∀ t ∈ ts, wellFormedLines cfg.names (lines t) = true) : WellFormed (bytes csss.flatten.flatten) := by
  induction ts generalizing csss with
  | nil => cases ha; exact WellFormed.nil
  | cons t ts ih =>
    cases csss with
    | nil => cases ha
    | cons css csss =>
      obtain ⟨h1, h2⟩ := ha
      rw [List.flatten_cons, List.flatten_append, bytes_append]
      exact (template_chunks hp hd h1 (h t (by simp))).append (ih h2 fun x hx => h x (by simp [hx]))

end Gdo.CForm
