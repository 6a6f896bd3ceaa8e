import Verif.Lemmas.CMacroRun

/-!
Lemmas: the tokens of a library name, and the expansion of the file name macros.
-/

namespace Gdo.Cpp
open Gdo Rename Tmpl Builtin

/-! ### The tokens of a name -/

/-- A token of a name. -/
def plainTok : PTok → Bool
  | .ident _ => true
  | .num _ => true
  | .punct p => p != str% "(" && p != str% ")" && p != str% "," && p != str% "#" && p != str% "##"
  | _ => false

variable {Q : Str → Prop}

/-- Tokens of a name that begins directly behind another token; `Q` holds for its
    identifiers. -/
def Tight (Q : Str → Prop) (ts : List T) : Prop := ∀ t ∈ ts, t.sp = false ∧ plainTok t.tok = true ∧ ∀ w, t.tok = .ident w → Q w

theorem Tight.nil : Tight Q [] := fun _ h => nomatch h

def spelled (ts : List T) : Str := ts.flatMap fun t => spell t.tok

/-- A token of a name is being read. -/
def GoodLex (Q : Str → Prop) : Lex → Prop
  | .word sp w => sp = false ∧ Q w
  | .num sp _ => sp = false
  | .punct sp p => sp = false ∧ p ≠ [] ∧ ∀ c ∈ p, c ∈ nameMarks
  | _ => False

/-- What was read of it. -/
def pending : Lex → Str
  | .word _ w => w
  | .num _ s => s
  | .punct _ p => p
  | _ => []

/-- A piece of a name. -/
def NamePiece (Q : Str → Prop) : Piece → Prop
  | .word w => Q w
  | .other c => c ∈ nameMarks

theorem begin_name {p : Piece} (h : NamePiece Q p) : GoodLex Q (begin false p).1 ∧ (begin false p).2 = [] ∧ pending (begin false p).1 = p.text := by
  cases p with
  | word w =>
    simp only [begin]
    split
    · exact ⟨rfl, rfl, rfl⟩
    · exact ⟨⟨rfl, h⟩, rfl, rfl⟩
  | other c =>
    simp only [NamePiece, nameMarks, List.mem_cons, List.not_mem_nil, or_false] at h
    rcases h with rfl | rfl | rfl | rfl | rfl <;> exact ⟨⟨rfl, by decide, by decide⟩, rfl, rfl⟩

theorem marks_plain {p : Str} (h1 : p ≠ []) (h2 : ∀ c ∈ p, c ∈ nameMarks) : plainTok (.punct p) = true := by
  cases p with
  | nil => exact absurd rfl h1
  | cons c p =>
    have := h2 c (by simp)
    simp only [nameMarks, List.mem_cons, List.not_mem_nil, or_false] at this
    rcases this with rfl | rfl | rfl | rfl | rfl <;> simp [plainTok]

theorem step_name {s : Lex} (hs : GoodLex Q s) {p : Piece} (h : NamePiece Q p) :
    ∃ s' ts, step s p = some (s', ts) ∧ GoodLex Q s' ∧ Tight Q ts ∧ spelled ts ++ pending s' = pending s ++ p.text := by
  obtain ⟨b1, b2, b3⟩ := begin_name h
  have hnext : ∀ {t : T}, t.sp = false → plainTok t.tok = true → (∀ w, t.tok = .ident w → Q w) → spell t.tok = pending s →
      ∃ s' ts, next t p = some (s', ts) ∧ GoodLex Q s' ∧ Tight Q ts ∧ spelled ts ++ pending s' = pending s ++ p.text := by
    intro t h1 h2 hq h3
    refine ⟨_, _, rfl, b1, ?_, ?_⟩
    · rw [b2]
      intro x hx
      simp at hx
      subst hx
      exact ⟨h1, h2, hq⟩
    · rw [b2, b3]
      simp [spelled, h3]
  cases s with
  | word sp w =>
    obtain ⟨rfl, hq⟩ := hs
    cases p with
    | word v => exact hnext (t := ⟨false, .ident w⟩) rfl rfl (fun _ e => by cases e; exact hq) rfl
    | other c =>
      have hc : c ≠ '"' ∧ c ≠ '\'' := by
        simp only [NamePiece, nameMarks, List.mem_cons, List.not_mem_nil, or_false] at h
        rcases h with rfl | rfl | rfl | rfl | rfl <;> decide
      simp only [step]
      rw [if_neg (by simp [hc.1]), if_neg (by simp [hc.2])]
      exact hnext (t := ⟨false, .ident w⟩) rfl rfl (fun _ e => by cases e; exact hq) rfl
  | num sp w =>
    cases hs
    cases p with
    | word v => exact ⟨_, _, rfl, rfl, Tight.nil, by simp [spelled, pending, Piece.text]⟩
    | other c =>
      simp only [step]
      split
      · exact ⟨_, _, rfl, rfl, Tight.nil, by simp [spelled, pending, Piece.text]⟩
      · exact hnext (t := ⟨false, .num w⟩) rfl rfl (fun _ e => by cases e) rfl
  | punct sp q =>
    obtain ⟨rfl, h1, h2⟩ := hs
    cases p with
    | word v =>
      simp only [step]
      split
      · rename_i hq
        exact ⟨_, _, rfl, rfl, Tight.nil, by simp [spelled, pending, Piece.text, hq.1]⟩
      · exact hnext (t := ⟨false, .punct q⟩) rfl (marks_plain h1 h2) (fun _ e => by cases e) rfl
    | other c =>
      have hq : q ≠ ['/'] := by
        rintro rfl
        have := h2 '/' (by simp)
        revert this
        decide
      simp only [step]
      rw [if_neg (by simp [hq]), if_neg (by simp [hq])]
      split
      · refine ⟨_, _, rfl, ⟨rfl, by simp, ?_⟩, Tight.nil, by simp [spelled, pending, Piece.text]⟩
        intro d hd
        rcases List.mem_append.mp hd with hd | hd
        · exact h2 d hd
        · rw [List.mem_singleton] at hd
          subst hd
          exact h
      · exact hnext (t := ⟨false, .punct q⟩) rfl (marks_plain h1 h2) (fun _ e => by cases e) rfl
  | _ => cases hs

theorem Tight.append {a b : List T} (ha : Tight Q a) (hb : Tight Q b) : Tight Q (a ++ b) := by
  intro t ht
  rcases List.mem_append.mp ht with h | h
  · exact ha t h
  · exact hb t h

theorem lex_good {ps : List Piece} (hp : ∀ p ∈ ps, NamePiece Q p) {s : Lex} (hs : GoodLex Q s) :
    ∃ s' ts, lex s ps = some (s', ts) ∧ GoodLex Q s' ∧ Tight Q ts ∧ spelled ts ++ pending s' = pending s ++ textOf ps := by
  induction ps generalizing s with
  | nil => exact ⟨s, [], rfl, hs, Tight.nil, by simp [spelled, textOf]⟩
  | cons p r ih =>
    obtain ⟨s1, t1, e1, e2, e3, e4⟩ := step_name hs (hp p (by simp))
    obtain ⟨s2, t2, f1, f2, f3, f4⟩ := ih (fun q hq => hp q (List.mem_cons_of_mem _ hq)) e2
    refine ⟨s2, t1 ++ t2, ?_, f2, e3.append f3, ?_⟩
    · rw [lex, e1]
      simp only [Option.bind_some]
      rw [f1]
      rfl
    · have : spelled (t1 ++ t2) = spelled t1 ++ spelled t2 := by simp [spelled]
      rw [this, List.append_assoc, f4, ← List.append_assoc, e4]
      simp [textOf]

/-- The end of a name. -/
theorem step_end {s : Lex} (hs : GoodLex Q s) {c : Char} (hc : c = ',' ∨ c = ')') :
    ∃ t, step s (.other c) = some (.punct false [c], [t]) ∧ Tight Q [t] ∧ spell t.tok = pending s := by
  have tight : ∀ {k : PTok}, plainTok k = true → (∀ w, k = .ident w → Q w) → Tight Q [⟨false, k⟩] := by
    intro k hk hq t ht
    rw [List.mem_singleton] at ht
    subst ht
    exact ⟨rfl, hk, hq⟩
  have hb : begin false (.other c) = (.punct false [c], []) := by rcases hc with rfl | rfl <;> rfl
  have hn : ∀ t, next t (.other c) = some (.punct false [c], [t]) := by
    intro t
    unfold next
    rw [hb]
  cases s with
  | word sp w =>
    obtain ⟨rfl, hq⟩ := hs
    refine ⟨⟨false, .ident w⟩, ?_, tight rfl (fun _ e => by cases e; exact hq), rfl⟩
    simp only [step]
    rw [if_neg (by rcases hc with rfl | rfl <;> simp), if_neg (by rcases hc with rfl | rfl <;> simp), hn]
  | num sp w =>
    cases hs
    refine ⟨⟨false, .num w⟩, ?_, tight rfl (fun _ e => by cases e), rfl⟩
    simp only [step]
    rw [if_neg (by rcases hc with rfl | rfl <;> simp), hn]
  | punct sp q =>
    obtain ⟨rfl, h1, h2⟩ := hs
    refine ⟨⟨false, .punct q⟩, ?_, tight (marks_plain h1 h2) (fun _ e => by cases e), rfl⟩
    simp only [step]
    have hp : q ++ [c] ∉ punctuators := by
      have key : ∀ p ∈ punctuators, p.getLast? ≠ some c := by
        rcases hc with rfl | rfl <;> decide
      intro hm
      exact key _ hm (by simp)
    rw [if_neg (by rcases hc with rfl | rfl <;> simp), if_neg (by rcases hc with rfl | rfl <;> simp), if_neg hp, hn]
  | _ => cases hs

/-- A name between a parenthesis or comma and another one. -/
theorem lex_name {s : Str} (h : NameText s) (hQ : ∀ w, .word w ∈ pieces s → Q w) {o c : Char} (ho : o = '(' ∨ o = ',') (hc : c = ',' ∨ c = ')') (sp : Bool) :
    ∃ ts, lex (.punct sp [o]) (pieces s ++ [.other c]) = some (.punct false [c], ⟨sp, .punct [o]⟩ :: ts) ∧ Tight Q ts ∧ spelled ts = s := by
  have hp : ∀ p ∈ pieces s, NamePiece Q p := by
    intro p hp
    cases p with
    | word w => exact hQ w hp
    | other d =>
      have hd : d ∈ s := by
        rw [← pieces_text s]
        exact List.mem_flatMap.mpr ⟨_, hp, by simp [Piece.text]⟩
      have hw : isWord d = false := by
        have key : ∀ ps : List Piece, Valid ps → .other d ∈ ps → isWord d = false := by
          intro ps hv hm
          induction ps with
          | nil => cases hm
          | cons q r ih =>
            cases q with
            | other e =>
              rcases List.mem_cons.mp hm with e | hm
              · cases e; exact hv.1
              · exact ih hv.2 hm
            | word w =>
              rcases List.mem_cons.mp hm with e | hm
              · cases e
              · exact ih hv.2.2.2 hm
        exact key _ (pieces_valid s) hp
      rcases h d hd with h | h
      · rw [hw] at h; cases h
      · exact h
  have hfirst : ∀ p, NamePiece Q p ∨ p = .other c → step (.punct sp [o]) p = next ⟨sp, .punct [o]⟩ p := by
    intro p hp
    have h1 : [o] ≠ ['/'] ∧ [o] ≠ ['.'] := by rcases ho with rfl | rfl <;> decide
    cases p with
    | word w => simp only [step]; rw [if_neg (by simp [h1.2])]
    | other d =>
      have h2 : [o] ++ [d] ∉ punctuators := by
        have key : ∀ p ∈ punctuators, p.head? ≠ some o := by rcases ho with rfl | rfl <;> decide
        intro hm
        exact key _ hm (by simp)
      simp only [step]
      rw [if_neg (by simp [h1.1]), if_neg (by simp [h1.1]), if_neg h2]
  have htext := pieces_text s
  cases hps : pieces s with
  | nil =>
    rw [hps] at htext
    refine ⟨[], ?_, Tight.nil, htext⟩
    rw [List.nil_append, lex, hfirst _ (.inr rfl)]
    rcases hc with rfl | rfl <;> rfl
  | cons p r =>
    rw [hps] at hp htext
    obtain ⟨b1, b2, b3⟩ := begin_name (hp p (by simp))
    obtain ⟨s2, t2, f1, f2, f3, f4⟩ := lex_good (fun q hq => hp q (List.mem_cons_of_mem _ hq)) b1
    obtain ⟨t, g1, g2, g3⟩ := step_end f2 hc
    refine ⟨t2 ++ [t], ?_, f3.append g2, ?_⟩
    · rw [List.cons_append, lex, hfirst p (.inl (hp p (by simp))), next, Option.bind_some, lex_append]
      simp only []
      rw [f1, Option.bind_some]
      simp only [lex]
      rw [g1, b2]
      simp
    · have : spelled (t2 ++ [t]) = spelled t2 ++ spell t.tok := by simp [spelled]
      rw [this, g3, f4, b3, ← htext]
      simp [textOf]

/-- The content of a string literal. -/
theorem lex_str {s : Str} (h : ∀ c ∈ s, c ≠ '"' ∧ c ≠ '\\' ∧ c ≠ '\n') (sp : Bool) (e x : Str) :
    lex (.str sp e x) (pieces s) = some (.str sp e (x ++ s), []) := by
  have key : ∀ ps : List Piece, (∀ c, .other c ∈ ps → c ≠ '"' ∧ c ≠ '\\' ∧ c ≠ '\n') → ∀ x,
      lex (.str sp e x) ps = some (.str sp e (x ++ textOf ps), []) := by
    intro ps hp
    induction ps with
    | nil => intro x; simp [lex, textOf]
    | cons p r ih =>
      intro x
      have ih := ih fun c hc => hp c (List.mem_cons_of_mem _ hc)
      have : step (.str sp e x) p = some (.str sp e (x ++ p.text), []) := by
        cases p with
        | word w => rfl
        | other c =>
          obtain ⟨h1, h2, h3⟩ := hp c (by simp)
          simp only [step]
          rw [if_neg h1, if_neg h2, if_neg h3]
          rfl
      rw [lex, this]
      simp only [Option.bind_some]
      rw [ih]
      simp [textOf]
  rw [key, pieces_text]
  intro c hc
  refine h c ?_
  rw [← pieces_text s]
  exact List.mem_flatMap.mpr ⟨_, hc, by simp [Piece.text]⟩

end Gdo.Cpp
