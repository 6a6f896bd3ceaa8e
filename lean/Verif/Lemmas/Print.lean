import Verif.Lemmas.Spells
import Verif.Props.Text
import Verif.Model.Main

namespace Gdo.Props
open Gdo Spec Lex

/-! ### Pieces of a printed text -/

theorem separated_append : ∀ (a b : List Piece), Separated a → Separated b → (∀ w, a.getLast? ≠ some (.word w)) →
    Separated (a ++ b)
  | [], _, _, hb, _ => hb
  | [p], b, _, hb, hl => by
    cases p with
    | word w => exact absurd rfl (hl w)
    | _ => exact hb
  | p :: q :: a, b, ha, hb, hl => by
    have ih := separated_append (q :: a) b
    have hl' : ∀ w, (q :: a).getLast? ≠ some (.word w) := fun w => by simpa [List.getLast?_cons_cons] using hl w
    cases p with
    | word v =>
      cases q with
      | word u => exact ha.elim
      | _ => exact ih ha hb hl'
    | _ => exact ih ha hb hl'

/-- Pieces with these tokens and this text, that can be followed by other pieces. -/
structure Chunk (ps : List Piece) (ts : List Tok) (s : Str) : Prop where
  text : render ps = s
  valid : ∀ p ∈ ps, p.Valid ∧ Piece.isInline p = true
  sep : Separated ps
  toks : tokens ps = ts
  last : ∀ w, ps.getLast? ≠ some (.word w)

theorem Chunk.append {a b : List Piece} {ta tb : List Tok} {sa sb : Str} (ha : Chunk a ta sa) (hb : Chunk b tb sb) :
    Chunk (a ++ b) (ta ++ tb) (sa ++ sb) := by
  refine ⟨by simp [render, ← ha.text, ← hb.text], ?_, separated_append a b ha.sep hb.sep ha.last,
    by simp [tokens, ← ha.toks, ← hb.toks], ?_⟩
  · intro p hp
    rcases List.mem_append.mp hp with hp | hp
    · exact ha.valid p hp
    · exact hb.valid p hp
  · intro w
    rw [List.getLast?_append]
    cases h : b.getLast? with
    | none => exact ha.last w
    | some q => simp only [Option.some_or]; rw [← h]; exact hb.last w

theorem Chunk.nil : Chunk [] [] [] := ⟨rfl, by simp, trivial, rfl, by simp⟩

theorem Chunk.flatten {α : Type} (l : List α) (f : α → List Piece) (g : α → List Tok) (k : α → Str)
    (h : ∀ x ∈ l, Chunk (f x) (g x) (k x)) : Chunk ((l.map f).flatten) ((l.map g).flatten) ((l.map k).flatten) := by
  induction l with
  | nil => exact .nil
  | cons x l ih =>
    have := (h x (by simp)).append (ih fun y hy => h y (by simp [hy]))
    simpa using this

theorem Chunk.source {ps : List Piece} {ts : List Tok} {s : Str} (h : Chunk ps ts s) : Source ps :=
  ⟨fun p hp => (h.valid p hp).1, h.sep, placed_inline ps (fun p hp => (h.valid p hp).2) _ _⟩

/-- A comment without slashes and backslashes. -/
theorem comment_ok (b : Str) (h1 : '/' ∉ b) (h2 : '\\' ∉ b) : CommentBody b := by
  constructor
  · intro pre suf h
    rcases List.eq_nil_or_concat suf with h' | ⟨s, c, h'⟩
    · exact h'
    · exfalso
      rw [h', List.concat_eq_append] at h
      have e : (b ++ ['*']) ++ ['/'] = (pre ++ ['*', '/'] ++ s) ++ [c] := by simpa using h
      have := (List.append_inj' e rfl).1
      have hm : '/' ∈ b ++ ['*'] := by rw [this]; simp
      simp at hm
      exact h1 hm
  · intro pre ws suf _ h
    apply h2
    rw [h]; simp

theorem chunk_comment (b : Str) (h1 : '/' ∉ b) (h2 : '\\' ∉ b) :
    Chunk [.cComment b, .space '\n'] [] (['/', '*'] ++ b ++ ['*', '/'] ++ ['\n']) := by
  refine ⟨by simp [render, Piece.text], ?_, trivial, rfl, by simp⟩
  intro p hp
  simp only [List.mem_cons, List.not_mem_nil, or_false] at hp
  rcases hp with rfl | rfl
  · exact ⟨comment_ok b h1 h2, rfl⟩
  · exact ⟨by simp only [Piece.Valid]; decide, rfl⟩

theorem chunk_newline : Chunk [.space '\n'] [] ['\n'] := by
  refine ⟨rfl, ?_, trivial, rfl, by simp⟩
  intro p hp
  simp only [List.mem_cons, List.not_mem_nil, or_false] at hp
  rw [hp]
  exact ⟨by simp only [Piece.Valid]; decide, rfl⟩

/-- A line with a statement. -/
theorem chunk_line {s : Str} {ts : List Str} (h : Spells s ts) :
    ∃ ps, Chunk ps (ts.map lexTok ++ [semi]) (s ++ str% ";\n") := by
  obtain ⟨ps, h1, h2, h3, h4⟩ := spells_pieces h
  have hsemi : Separated [.punct ';', .space '\n'] := trivial
  have hsep : ∀ ps : List Piece, Separated ps → Separated (ps ++ [.punct ';', .space '\n']) := by
    intro ps
    induction ps with
    | nil => intro _; trivial
    | cons p ps ih =>
      intro hp
      cases p with
      | word w =>
        cases ps with
        | nil => trivial
        | cons q ps =>
          cases q with
          | word => exact hp.elim
          | _ => exact ih hp
      | _ => exact ih hp
  refine ⟨ps ++ [.punct ';', .space '\n'], by simp [render, Piece.text, ← h1], ?_, hsep ps h3, ?_, ?_⟩
  · intro p hp
    rcases List.mem_append.mp hp with hp | hp
    · exact h2 p hp
    · simp only [List.mem_cons, List.not_mem_nil, or_false] at hp
      rcases hp with rfl | rfl
      · exact ⟨by simp only [Piece.Valid]; decide, rfl⟩
      · exact ⟨by simp only [Piece.Valid]; decide, rfl⟩
  · rw [← h4]
    simp [tokens, Piece.toks, semi, punctKind]
  · intro w
    rw [List.getLast?_append]; simp

/-- A line with a typedef. -/
theorem chunk_typedef {s : Str} {ts : List Str} (h : Spells s ts) :
    ∃ ps, Chunk ps (⟨.typedef_, str% "typedef"⟩ :: ts.map lexTok ++ [semi]) (str% "typedef " ++ s ++ str% ";\n") := by
  obtain ⟨ps, hp⟩ := chunk_line h
  have h0 : Chunk [.word (str% "typedef"), .space ' '] [⟨.typedef_, str% "typedef"⟩] (str% "typedef ") := by
    refine ⟨rfl, ?_, trivial, rfl, by simp⟩
    intro p hp
    simp only [List.mem_cons, List.not_mem_nil, or_false] at hp
    rcases hp with rfl | rfl
    · exact ⟨⟨by decide, by decide, by decide⟩, rfl⟩
    · exact ⟨by simp only [Piece.Valid]; decide, rfl⟩
  have := h0.append hp
  exact ⟨_, by simpa using this⟩

theorem lexTok_kind {t : Str} : (lexTok t).kind = .other ∨ (lexTok t).kind = .id ∨ TokKind.isBlock (lexTok t).kind = true := by
  unfold lexTok
  split
  · unfold wordKind
    simp only
    repeat' split
    all_goals first | exact Or.inr (Or.inr rfl) | exact Or.inr (Or.inl rfl)
  · exact Or.inl rfl

theorem balanced_lexToks (ts : List Str) : Balanced 0 (ts.map lexTok) := by
  induction ts with
  | nil => rfl
  | cons t ts ih =>
    simp only [List.map_cons, Balanced]
    rcases @lexTok_kind t with h | h | h
    · rw [h]; exact ih
    · rw [h]; exact ih
    · revert h
      cases (lexTok t).kind <;> simp [TokKind.isBlock] <;> exact ih

theorem code_lexToks (ts : List Str) : (code (ts.map lexTok)).map (·.text) = ts := by
  induction ts with
  | nil => rfl
  | cons t ts ih =>
    have : ((lexTok t).kind != .option) = true := by
      rcases @lexTok_kind t with h | h | h
      · rw [h]; rfl
      · rw [h]; rfl
      · revert h; cases (lexTok t).kind <;> simp [TokKind.isBlock]
    rw [List.map_cons, code, List.filter_cons, if_pos this, List.map_cons]
    have ih' := ih
    unfold code at ih'
    rw [ih']
    rfl

theorem code_lexToks' (ts : List Str) : code (ts.map lexTok) = ts.map lexTok := by
  unfold code
  rw [List.filter_eq_self]
  intro t ht
  rw [List.mem_map] at ht
  obtain ⟨x, -, rfl⟩ := ht
  rcases @lexTok_kind x with h | h | h
  · rw [h]; rfl
  · rw [h]; rfl
  · revert h; cases (lexTok x).kind <;> simp [TokKind.isBlock]

/-- The first token does not begin a type definition. -/
def Plainly (ts : List Str) : Prop := ∃ t r, ts = t :: r ∧ TokKind.isBlock (lexTok t).kind = false

theorem declToks_lexToks {ts : List Str} (h : Plainly ts) : DeclToks (ts.map lexTok) := by
  obtain ⟨t, r, rfl, hb⟩ := h
  refine ⟨?_, lexTok t, r.map lexTok, ?_, hb⟩
  · intro x hx
    rw [List.mem_map] at hx
    obtain ⟨y, -, rfl⟩ := hx
    rcases @lexTok_kind y with h | h | h
    · exact Or.inr (Or.inl h)
    · exact Or.inl h
    · exact Or.inr (Or.inr (Or.inr h))
  · rw [code_lexToks']; rfl

theorem digits_no (n : Nat) (c : Char) (h : c.isDigit = false) : c ∉ natDigits n := by
  intro hc
  have := Nat.isDigit_of_mem_toDigits (b := 10) (by omega) (by omega) hc
  rw [h] at this; cases this

theorem declsOf_append (a b : List Stmt) : declsOf (a ++ b) = declsOf a ++ declsOf b := List.filterMap_append

theorem declsOf_typedefs (tds : List (Str × List Str)) :
    declsOf (tds.map fun x => Stmt.typeDef ⟨.typedef_, str% "typedef"⟩ (x.2.map lexTok)) = [] := by
  induction tds with
  | nil => rfl
  | cons x l ih => exact ih

theorem declsOf_lines (ls : List (Str × List Str)) :
    declsOf (ls.map fun x => Stmt.decl (x.2.map lexTok)) = ls.map (·.2) := by
  induction ls with
  | nil => rfl
  | cons x l ih =>
    rw [List.map_cons, List.map_cons, ← ih]
    show (code (x.2.map lexTok)).map (·.text) :: _ = _
    rw [code_lexToks]
    rfl

/-- The scanner on a listing: the typedefs are skipped, the lines are the declarations. -/
theorem printed_stream (tds ls : List (Str × List Str)) (htd : ∀ x ∈ tds, Spells x.1 x.2) (hls : ∀ x ∈ ls, Spells x.1 x.2)
    (hp : ∀ x ∈ ls, Plainly x.2) (n : Nat) :
    tokenizeStream true
      ((if tds.isEmpty then []
        else str% "/* typedefs */\n" ++ (tds.map fun t => str% "typedef " ++ t.1 ++ str% ";\n").flatten ++ ['\n']) ++
       str% "/* prototypes */\n" ++ (ls.map fun x => x.1 ++ str% ";\n").flatten ++
       str% "\n/***  " ++ natDigits n ++ str% " matches  ***/\n") = (ls.map (·.2), [], .eof) := by
  have hT : ∀ x : Str × List Str, ∃ ps, Spells x.1 x.2 →
      Chunk ps (⟨.typedef_, str% "typedef"⟩ :: x.2.map lexTok ++ [semi]) (str% "typedef " ++ x.1 ++ str% ";\n") := by
    intro x
    by_cases h : Spells x.1 x.2
    · obtain ⟨ps, hps⟩ := chunk_typedef h
      exact ⟨ps, fun _ => hps⟩
    · exact ⟨[], fun h' => absurd h' h⟩
  have hL : ∀ x : Str × List Str, ∃ ps, Spells x.1 x.2 → Chunk ps (x.2.map lexTok ++ [semi]) (x.1 ++ str% ";\n") := by
    intro x
    by_cases h : Spells x.1 x.2
    · obtain ⟨ps, hps⟩ := chunk_line h
      exact ⟨ps, fun _ => hps⟩
    · exact ⟨[], fun h' => absurd h' h⟩
  obtain ⟨fT, hfT⟩ := Classical.axiomOfChoice hT
  obtain ⟨fL, hfL⟩ := Classical.axiomOfChoice hL
  have c1 := Chunk.flatten tds fT _ _ (fun x hx => hfT x (htd x hx))
  have c2 := Chunk.flatten ls fL _ _ (fun x hx => hfL x (hls x hx))
  have t1 := chunk_comment (str% " typedefs ") (by decide) (by decide)
  have t2 := chunk_comment (str% " prototypes ") (by decide) (by decide)
  have t3 := chunk_comment (str% "**  " ++ natDigits n ++ str% " matches  **")
    (by simp; exact digits_no n _ (by decide)) (by simp; exact digits_no n _ (by decide))
  have head : ∃ ps, Chunk ps ((tds.map fun x => (⟨.typedef_, str% "typedef"⟩ : Tok) :: x.2.map lexTok ++ [semi]).flatten)
      (if tds.isEmpty then []
        else str% "/* typedefs */\n" ++ (tds.map fun t => str% "typedef " ++ t.1 ++ str% ";\n").flatten ++ ['\n']) := by
    cases htds : tds with
    | nil => exact ⟨[], .nil⟩
    | cons y l =>
      rw [← htds]
      have hne : tds.isEmpty = false := by rw [htds]; rfl
      rw [hne]
      have := (t1.append c1).append chunk_newline
      exact ⟨_, by simpa using this⟩
  obtain ⟨hps, ch⟩ := head
  have all := (((ch.append t2).append c2).append chunk_newline).append t3
  let l : List Stmt := (tds.map fun x => Stmt.typeDef ⟨.typedef_, str% "typedef"⟩ (x.2.map lexTok)) ++
    ls.map fun x => Stmt.decl (x.2.map lexTok)
  have hl : ∀ s ∈ l, s.Valid := by
    intro s hs
    simp only [l, List.mem_append, List.mem_map] at hs
    rcases hs with ⟨x, hx, rfl⟩ | ⟨x, hx, rfl⟩
    · exact ⟨rfl, balanced_lexToks _⟩
    · exact declToks_lexToks (hp x hx)
  have htoks : stmtToks l = (tds.map fun x => (⟨.typedef_, str% "typedef"⟩ : Tok) :: x.2.map lexTok ++ [semi]).flatten ++
      (ls.map fun x => x.2.map lexTok ++ [semi]).flatten := by
    simp only [l, stmtToks, List.map_append, List.map_map, List.flatten_append]
    rfl
  have hdecls : declsOf l = ls.map (·.2) := by
    simp only [l, declsOf_append, declsOf_typedefs, declsOf_lines, List.nil_append]
  have hopts : optionsOf (stmtToks l) = [] := by
    unfold optionsOf
    rw [List.map_eq_nil_iff, List.filter_eq_nil_iff, htoks]
    intro t ht
    have hk : ∀ x, ¬ ((lexTok x).kind == TokKind.option) = true := by
      intro x
      rcases @lexTok_kind x with h | h | h
      · rw [h]; decide
      · rw [h]; decide
      · revert h; cases (lexTok x).kind <;> simp [TokKind.isBlock]
    simp only [List.mem_append, List.mem_flatten, List.mem_map] at ht
    rcases ht with ⟨_, ⟨x, -, rfl⟩, ht⟩ | ⟨_, ⟨x, -, rfl⟩, ht⟩
    · simp only [List.mem_append, List.mem_cons, List.mem_map, List.not_mem_nil, or_false] at ht
      rcases ht with (rfl | ⟨y, -, rfl⟩) | rfl
      · decide
      · exact hk y
      · decide
    · simp only [List.mem_append, List.mem_cons, List.mem_map, List.not_mem_nil, or_false] at ht
      rcases ht with ⟨y, -, rfl⟩ | rfl
      · exact hk y
      · decide
  have := (C06_text _ all.source l hl (by rw [all.toks, htoks]; simp)).1
  rw [all.text, hdecls, hopts] at this
  rw [← this]
  congr 1
  simp

end Gdo.Props
