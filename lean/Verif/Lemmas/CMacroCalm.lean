import Verif.Lemmas.CMacroText

/-!
Lemmas: text without directives, whatever it is made of, has no effect on macros.
-/

set_option maxRecDepth 20000

namespace Gdo.Cpp
open Gdo Rename Tmpl Builtin

/-! ### What is being read, as far as directives matter -/

inductive Ab
  | code | slash | str | strEsc | chr | chrEsc | line | block | star
  deriving DecidableEq, Repr

def codeStep (c : Char) : Option Ab :=
  if c = '#' ∨ c = '\\' then none
  else if c = '"' then some .str
  else if c = '\'' then some .chr
  else if c = '/' then some .slash
  else some .code

/-- A character that is not part of words; neither `#` nor a backslash may be outside of
    literals and comments. -/
def absOther : Ab → Char → Option Ab
  | .code, c => codeStep c
  | .slash, c => if c = '*' then some .block else if c = '/' then some .line else codeStep c
  | .str, c => if c = '"' then some .code else if c = '\\' then some .strEsc else if c = '\n' then none else some .str
  | .strEsc, c => if c = '\n' then none else some .str
  | .chr, c => if c = '\'' then some .code else if c = '\\' then some .chrEsc else if c = '\n' then none else some .chr
  | .chrEsc, c => if c = '\n' then none else some .chr
  | .line, c => if c = '\n' then some .code else if c = '\\' then none else some .line
  | .block, c => if c = '*' then some .star else some .block
  | .star, c => if c = '/' then some .code else if c = '*' then some .star else some .block

def absWord : Ab → Ab
  | .code => .code
  | .slash => .code
  | .str => .str
  | .strEsc => .str
  | .chr => .chr
  | .chrEsc => .chr
  | .line => .line
  | .block => .block
  | .star => .block

def absChar (a : Ab) (c : Char) : Option Ab := if isWord c then some (absWord a) else absOther a c

def absRun : Ab → Str → Option Ab
  | a, [] => some a
  | a, c :: r => (absChar a c).bind fun a' => absRun a' r

theorem absRun_append (a : Ab) (s t : Str) : absRun a (s ++ t) = (absRun a s).bind fun a' => absRun a' t := by
  induction s generalizing a with
  | nil => rfl
  | cons c s ih =>
    rw [List.cons_append, absRun, absRun]
    cases absChar a c with
    | none => rfl
    | some a' => exact ih a'

def absPieces : Ab → List Piece → Option Ab
  | a, [] => some a
  | a, .word _ :: r => absPieces (absWord a) r
  | a, .other c :: r => (absOther a c).bind fun a' => absPieces a' r

theorem absWord_idem (a : Ab) : absWord (absWord a) = absWord a := by cases a <;> rfl

theorem absPieces_pieces (a : Ab) (t : Str) : absPieces a (pieces t) = absRun a t := by
  induction t generalizing a with
  | nil => rfl
  | cons c t ih =>
    rw [pieces, absRun, absChar]
    by_cases hc : isWord c = true
    · rw [if_pos hc, if_pos hc, Option.bind_some, ← ih]
      cases h : pieces t with
      | nil => rfl
      | cons p r =>
        cases p with
        | word w => simp only [absPieces, absWord_idem]
        | other d => rfl
    · rw [if_neg hc, if_neg hc, absPieces]
      cases absOther a c with
      | none => rfl
      | some a' => exact ih a'

theorem absRun_word {w : Str} (hw : ∀ c ∈ w, isWord c = true) (hne : w ≠ []) (a : Ab) : absRun a w = some (absWord a) := by
  induction w generalizing a with
  | nil => exact absurd rfl hne
  | cons c w ih =>
    rw [absRun, absChar, if_pos (hw c (by simp)), Option.bind_some]
    cases w with
    | nil => rfl
    | cons d w => rw [ih (fun c hc => hw c (List.mem_cons_of_mem _ hc)) (by simp), absWord_idem]

/-! ### Tokens -/

/-- The states of the tokenizer. -/
def Rep : Ab → Lex → Prop
  | .code, .gap _ => True
  | .code, .word _ _ => True
  | .code, .num _ _ => True
  | .code, .punct _ p => p ≠ ['/'] ∧ p ≠ ['#']
  | .slash, .punct _ p => p = ['/']
  | .str, .str .. => True
  | .strEsc, .strEsc .. => True
  | .chr, .chr .. => True
  | .chrEsc, .chrEsc .. => True
  | .line, .line => True
  | .block, .block => True
  | .star, .star => True
  | _, _ => False

/-- No token is `#`. -/
def NoHash (ts : List T) : Prop := ∀ t ∈ ts, t.tok ≠ .punct (str% "#")

theorem noHash_append {a b : List T} (h1 : NoHash a) (h2 : NoHash b) : NoHash (a ++ b) :=
  fun t ht => (List.mem_append.mp ht).elim (h1 t) (h2 t)

theorem begin_word (sp : Bool) (w : Str) : Rep .code (begin sp (.word w)).1 ∧ NoHash (begin sp (.word w)).2 := by
  simp only [begin]
  split <;> exact ⟨trivial, fun _ h => by cases h⟩

theorem begin_other (sp : Bool) {c : Char} {a : Ab} (h : codeStep c = some a) : Rep a (begin sp (.other c)).1 ∧ NoHash (begin sp (.other c)).2 := by
  unfold codeStep at h
  split at h
  · cases h
  · rename_i h0
    simp only [begin]
    split at h
    · rename_i h1
      cases h
      subst h1
      exact ⟨trivial, fun _ h => by cases h⟩
    · split at h
      · rename_i h1
        cases h
        subst h1
        exact ⟨trivial, fun _ h => by cases h⟩
      · split at h
        · rename_i h1
          cases h
          subst h1
          exact ⟨rfl, fun _ h => by cases h⟩
        · rename_i h1 h2 h3
          cases h
          split
          · exact ⟨trivial, fun _ h => by cases h⟩
          · split
            · exact ⟨trivial, fun t h => by
                rcases List.mem_singleton.mp h with rfl
                simp⟩
            · rw [if_neg (fun e => h0 (.inr e))]
              exact ⟨⟨by simpa using h3, by simpa using fun e => h0 (.inl e)⟩, fun _ h => by cases h⟩

theorem next_word {t : T} (ht : t.tok ≠ .punct (str% "#")) (w : Str) : ∃ s' ts, next t (.word w) = some (s', ts) ∧ Rep .code s' ∧ NoHash ts :=
  ⟨_, _, rfl, (begin_word false w).1, fun x hx => (List.mem_cons.mp hx).elim (fun e => e ▸ ht) ((begin_word false w).2 x)⟩

theorem next_other {t : T} (ht : t.tok ≠ .punct (str% "#")) {c : Char} {a : Ab} (h : codeStep c = some a) :
    ∃ s' ts, next t (.other c) = some (s', ts) ∧ Rep a s' ∧ NoHash ts :=
  ⟨_, _, rfl, (begin_other false h).1, fun x hx => (List.mem_cons.mp hx).elim (fun e => e ▸ ht) ((begin_other false h).2 x)⟩

theorem noHash_nil : NoHash [] := fun _ h => by cases h

theorem punctuators_last : punctuators.all (fun p => p.getLast? != some '/' && p.getLast? != some '"' && p.getLast? != some '\'' && p.getLast? != some '\n' && decide (2 ≤ p.length)) = true := by decide

/-- A word. -/
theorem step_word {a : Ab} {s : Lex} (h : Rep a s) (w : Str) : ∃ s' ts, step s (.word w) = some (s', ts) ∧ Rep (absWord a) s' ∧ NoHash ts := by
  cases a <;> cases s <;> first | exact False.elim h | skip
  case code.gap sp => exact ⟨_, _, rfl, (begin_word sp w).1, (begin_word sp w).2⟩
  case code.word sp v => exact next_word (by simp) w
  case code.num sp v => exact ⟨_, _, rfl, trivial, noHash_nil⟩
  case code.punct sp p =>
    simp only [step]
    split
    · exact ⟨_, _, rfl, trivial, noHash_nil⟩
    · exact next_word (by simpa using h.2) w
  case slash.punct sp p =>
    simp only [step]
    split
    · exact ⟨_, _, rfl, trivial, noHash_nil⟩
    · exact next_word (by simp [show p = ['/'] from h]) w
  all_goals exact ⟨_, _, rfl, trivial, noHash_nil⟩

/-- Another character. -/
theorem step_other {a a' : Ab} {s : Lex} (h : Rep a s) {c : Char} (hc : absOther a c = some a') :
    ∃ s' ts, step s (.other c) = some (s', ts) ∧ Rep a' s' ∧ NoHash ts := by
  have hp := List.all_eq_true.mp punctuators_last
  have longer : ∀ {sp : Bool} {p : Str} {a' : Ab}, p ++ [c] ∈ punctuators → codeStep c = some a' → Rep a' (.punct sp (p ++ [c])) := by
    intro sp p a' hm hc
    have := hp _ hm
    simp only [List.getLast?_append, List.getLast?_singleton, Option.some_or, Bool.and_eq_true, bne_iff_ne, ne_eq, Option.some.injEq, decide_eq_true_eq] at this
    obtain ⟨⟨⟨⟨h1, h2⟩, h3⟩, h4⟩, h5⟩ := this
    unfold codeStep at hc
    split at hc
    · cases hc
    · cases hc
      constructor <;> (intro e; rw [e] at h5; simp at h5)
  cases a <;> cases s <;> first | exact False.elim h | skip
  case code.gap sp => exact ⟨_, _, rfl, (begin_other sp hc).1, (begin_other sp hc).2⟩
  case code.word sp v =>
    simp only [step]
    split
    · rename_i he
      rw [he.2] at hc
      cases hc
      exact ⟨_, _, rfl, trivial, noHash_nil⟩
    · split
      · rename_i he
        rw [he.2] at hc
        cases hc
        exact ⟨_, _, rfl, trivial, noHash_nil⟩
      · exact next_other (by simp) hc
  case code.num sp v =>
    simp only [step]
    split
    · rename_i he
      have : a' = .code := by
        rcases he with e | ⟨e | e, _⟩ <;> subst e <;> cases hc <;> rfl
      subst this
      exact ⟨_, _, rfl, trivial, noHash_nil⟩
    · exact next_other (by simp) hc
  case code.punct sp p =>
    simp only [step]
    rw [if_neg (fun e => h.1 e.1), if_neg (fun e => h.1 e.1)]
    split
    · rename_i hm
      exact ⟨_, _, rfl, longer hm hc, noHash_nil⟩
    · exact next_other (by simpa using h.2) hc
  case slash.punct sp p =>
    have h : p = ['/'] := h
    subst h
    simp only [step, absOther] at hc ⊢
    by_cases h1 : c = '*'
    · rw [if_pos h1] at hc
      cases hc
      rw [if_pos (by simp [h1])]
      exact ⟨_, _, rfl, trivial, noHash_nil⟩
    · rw [if_neg h1] at hc
      rw [if_neg (fun e => h1 e.2)]
      by_cases h2 : c = '/'
      · rw [if_pos h2] at hc
        cases hc
        rw [if_pos (by simp [h2])]
        exact ⟨_, _, rfl, trivial, noHash_nil⟩
      · rw [if_neg h2] at hc
        rw [if_neg (fun e => h2 e.2)]
        split
        · rename_i hm
          exact ⟨_, _, rfl, longer hm hc, noHash_nil⟩
        · exact next_other (by simp) hc
  all_goals
    simp only [step, absOther] at hc ⊢
    repeat' split at hc
  all_goals first
    | (cases hc; done)
    | (cases hc
       simp only [*, if_true, if_false, reduceIte]
       exact ⟨_, _, rfl, trivial, fun t ht => by first | exact absurd ht List.not_mem_nil | (rcases List.mem_singleton.mp ht with rfl; simp)⟩)

theorem lex_abs {a a' : Ab} {s : Lex} (h : Rep a s) {ps : List Piece} (hps : absPieces a ps = some a') :
    ∃ s' ts, lex s ps = some (s', ts) ∧ Rep a' s' ∧ NoHash ts := by
  induction ps generalizing a s with
  | nil => cases hps; exact ⟨_, _, rfl, h, noHash_nil⟩
  | cons p r ih =>
    have key : ∀ {a1 : Ab}, (∃ s' ts, step s p = some (s', ts) ∧ Rep a1 s' ∧ NoHash ts) → absPieces a1 r = some a' →
        ∃ s' ts, lex s (p :: r) = some (s', ts) ∧ Rep a' s' ∧ NoHash ts := by
      intro a1 ⟨s1, t1, e1, e2, e3⟩ hr
      obtain ⟨s2, t2, e4, e5, e6⟩ := ih e2 hr
      refine ⟨s2, t1 ++ t2, ?_, e5, noHash_append e3 e6⟩
      rw [lex, e1, Option.bind_some, e4]
      rfl
    cases p with
    | word w => exact key (step_word h w) hps
    | other c =>
      rw [absPieces] at hps
      cases hc : absOther a c with
      | none => rw [hc] at hps; cases hps
      | some a1 => rw [hc] at hps; exact key (step_other h hc) hps

/-- The end of a line of code or of a comment. -/
theorem step_nl {a : Ab} {s : Lex} (h : Rep a s) (ha : absOther a '\n' = some .code) :
    ∃ ts, step s (.other '\n') = some (.gap true, ts ++ [nlT]) ∧ NoHash ts := by
  have single : ∀ t : T, t.tok ≠ .punct (str% "#") → NoHash [t] := fun t ht x hx => by rcases List.mem_singleton.mp hx with rfl; exact ht
  have np : ∀ p : Str, p ++ ['\n'] ∉ punctuators := by
    intro p hm
    have := List.all_eq_true.mp punctuators_last _ hm
    simp at this
  cases a <;> cases s <;> first | exact False.elim h | skip
  case code.gap sp => exact ⟨[], rfl, noHash_nil⟩
  case code.word sp v =>
    refine ⟨[⟨sp, .ident v⟩], ?_, single _ (by simp)⟩
    simp only [step]
    rw [if_neg (fun e => absurd e.2 (by decide)), if_neg (fun e => absurd e.2 (by decide))]
    rfl
  case code.num sp v =>
    refine ⟨[⟨sp, .num v⟩], ?_, single _ (by simp)⟩
    simp only [step]
    rw [if_neg (by simp)]
    rfl
  case code.punct sp p =>
    refine ⟨[⟨sp, .punct p⟩], ?_, single _ (by simpa using h.2)⟩
    simp only [step]
    rw [if_neg (fun e => absurd e.2 (by decide)), if_neg (fun e => absurd e.2 (by decide)), if_neg (np p)]
    rfl
  case slash.punct sp p =>
    refine ⟨[⟨sp, .punct p⟩], ?_, single _ (by simp [show p = ['/'] from h])⟩
    simp only [step]
    rw [if_neg (fun e => absurd e.2 (by decide)), if_neg (fun e => absurd e.2 (by decide)), if_neg (np p)]
    rfl
  case line.line => exact ⟨[], rfl, noHash_nil⟩
  all_goals exact absurd ha (by decide)

/-- Whole lines without directives. -/
theorem calm_whole {t : Str} (h : absRun .code (t ++ ['\n']) = some .code) : ∃ x, Whole (t ++ ['\n']) x ∧ NoHash x := by
  rw [absRun_append] at h
  cases ha : absRun .code t with
  | none => rw [ha] at h; cases h
  | some a =>
    rw [ha, Option.bind_some] at h
    have hn : absOther a '\n' = some .code := by
      simp only [absRun, absChar] at h
      rw [if_neg (by decide)] at h
      cases hx : absOther a '\n' with
      | none => rw [hx] at h; cases h
      | some a' => rw [hx] at h; exact h
    rw [← absPieces_pieces] at ha
    obtain ⟨s, ts, e1, e2, e3⟩ := lex_abs (a := .code) (s := .gap true) trivial ha
    obtain ⟨ts', e4, e5⟩ := step_nl e2 hn
    refine ⟨ts ++ ts', ⟨?_, t, rfl⟩, noHash_append e3 e5⟩
    rw [pieces_sep t (by decide), lex_append, e1, Option.bind_some]
    simp [pieces, lex, e4]

theorem runLine_noHash (inc : List T → Table) (D : Str → Bool) (s : Table × List Cc.Cond) {ln : List T} (h : NoHash ln) : runLine inc D s ln = some s := by
  cases ln with
  | nil => rfl
  | cons x r =>
    obtain ⟨sp, x⟩ := x
    cases x with
    | punct p =>
      simp only [runLine]
      rw [if_neg]
      intro e
      subst e
      exact h _ (List.mem_cons_self ..) rfl
    | _ => rfl

theorem splitLines_mem {ts ln : List T} {t : T} (h : ln ∈ splitLines ts) (ht : t ∈ ln) : t ∈ ts := by
  induction ts generalizing ln with
  | nil =>
    rcases List.mem_singleton.mp h with rfl
    cases ht
  | cons x r ih =>
    rw [splitLines] at h
    split at h
    · rcases List.mem_cons.mp h with rfl | h
      · cases ht
      · exact List.mem_cons_of_mem _ (ih h ht)
    · cases hs : splitLines r with
      | nil =>
        rw [hs] at h
        rcases List.mem_singleton.mp h with rfl
        rcases List.mem_singleton.mp ht with rfl
        exact List.mem_cons_self ..
      | cons l ls =>
        rw [hs] at h ih
        rcases List.mem_cons.mp h with rfl | h
        · rcases List.mem_cons.mp ht with rfl | ht
          · exact List.mem_cons_self ..
          · exact List.mem_cons_of_mem _ (ih (List.mem_cons_self ..) ht)
        · exact List.mem_cons_of_mem _ (ih (List.mem_cons_of_mem _ h) ht)

theorem runLines_noHash (inc : List T → Table) (D : Str → Bool) (s : Table × List Cc.Cond) {x : List T} (h : NoHash x) : runLines inc D s (splitLines x) = some s := by
  have : ∀ lns : List (List T), (∀ ln ∈ lns, NoHash ln) → runLines inc D s lns = some s := by
    intro lns hl
    induction lns with
    | nil => rfl
    | cons ln lns ih =>
      rw [runLines, runLine_noHash inc D s (hl ln (List.mem_cons_self ..)), Option.bind_some]
      exact ih fun x hx => hl x (List.mem_cons_of_mem _ hx)
  exact this _ fun ln hl t ht => h t (splitLines_mem hl ht)

end Gdo.Cpp
