import Verif.Spec.CMacro
import Verif.Lemmas.CSeg

/-!
Lemmas: the tokens of a renamed text are the renamed tokens.
-/

namespace Gdo.Cpp
open Gdo Rename Tmpl Pfx Builtin Sub

/-! ### Pieces -/

theorem pieces_words {w : Str} (hw : ∀ c ∈ w, isWord c = true) (hne : w ≠ []) {s : Str} (h : ∀ v r, pieces s ≠ .word v :: r) :
    pieces (w ++ s) = .word w :: pieces s := by
  induction w with
  | nil => exact absurd rfl hne
  | cons c w ih =>
    have hc := hw c (by simp)
    rw [List.cons_append, pieces, if_pos hc]
    cases w with
    | nil =>
      rw [List.nil_append]
      split
      · rename_i v r he
        exact absurd he (h v r)
      · rfl
    | cons d w =>
      rw [ih (fun c hc => hw c (List.mem_cons_of_mem _ hc)) (by simp)]

theorem pieces_textOf {ps : List Piece} (h : Valid ps) : pieces (textOf ps) = ps := by
  induction ps with
  | nil => rfl
  | cons p r ih =>
    cases p with
    | other c =>
      obtain ⟨h1, h2⟩ := h
      show pieces (c :: textOf r) = _
      rw [pieces, if_neg (by simp [h1]), ih h2]
    | word w =>
      obtain ⟨h1, h2, h3, h4⟩ := h
      show pieces (w ++ textOf r) = _
      rw [pieces_words h2 h1 (by rw [ih h4]; intro v r' e; exact h3 v (by rw [e]; rfl)), ih h4]

theorem pieces_sep (a : Str) {c : Char} (hc : isWord c = false) (b : Str) : pieces (a ++ c :: b) = pieces a ++ .other c :: pieces b := by
  induction a with
  | nil =>
    show pieces (c :: b) = .other c :: pieces b
    rw [pieces.eq_2, if_neg (by simp [hc])]
  | cons d a ih =>
    rw [List.cons_append, pieces, pieces, ih]
    split
    · cases pieces a with
      | nil => rfl
      | cons p r => cases p <;> rfl
    · rfl

theorem pieces_unlines (ls : List Str) : pieces (unlines ls) = ls.flatMap fun d => pieces d ++ [.other '\n'] := by
  induction ls with
  | nil => rfl
  | cons d ls ih =>
    have : unlines (d :: ls) = d ++ '\n' :: unlines ls := by simp [unlines]
    rw [this, pieces_sep d (by decide), ih]
    simp

theorem valid_mapWords {f : Str → Str} {ps : List Piece} (h : Valid ps) (hf : ∀ w, .word w ∈ ps → f w ≠ [] ∧ ∀ c ∈ f w, isWord c = true) :
    Valid (mapWords f ps) := by
  induction ps with
  | nil => trivial
  | cons p r ih =>
    cases p with
    | other c => exact ⟨h.1, ih h.2 fun w hw => hf w (List.mem_cons_of_mem _ hw)⟩
    | word w =>
      obtain ⟨h1, h2, h3, h4⟩ := h
      refine ⟨(hf w (by simp)).1, (hf w (by simp)).2, ?_, ih h4 fun w hw => hf w (List.mem_cons_of_mem _ hw)⟩
      intro v hv
      cases r with
      | nil => cases hv
      | cons q r =>
        cases q with
        | word x => exact h3 x rfl
        | other c => cases hv

/-! ### Tokens -/

theorem lex_append (s : Lex) (a b : List Piece) :
    lex s (a ++ b) = (lex s a).bind fun x => (lex x.1 b).map fun y => (y.1, x.2 ++ y.2) := by
  induction a generalizing s with
  | nil =>
    show lex s b = (lex s b).map fun y => (y.1, [] ++ y.2)
    cases lex s b <;> rfl
  | cons p r ih =>
    rw [List.cons_append, lex, lex]
    cases step s p with
    | none => rfl
    | some x =>
      simp only [Option.bind_some]
      rw [ih]
      cases lex x.1 r with
      | none => rfl
      | some y =>
        simp only [Option.bind_some, Option.map_some]
        cases lex y.1 b with
        | none => rfl
        | some z => simp

variable (f : Str → Str)

/-- A renamed token. -/
def renTok : PTok → PTok
  | .ident w => .ident (f w)
  | t => t

def renT (t : T) : T := ⟨t.sp, renTok f t.tok⟩

/-- A word that is being read, renamed. -/
def renLex : Lex → Lex
  | .word sp w => .word sp (f w)
  | s => s

def renPiece : Piece → Piece
  | .word w => .word (f w)
  | .other c => .other c

/-- Whether a word may come next: `ok`: as an identifier, `fixed`: inside of a number or
    literal. -/
def okStep (ok fixed : Str → Bool) : Lex → Piece → Bool
  | .num .., .word w => fixed w
  | .str .., .word w => fixed w
  | .strEsc .., .word w => fixed w
  | .chr .., .word w => fixed w
  | .chrEsc .., .word w => fixed w
  | .word .., .word _ => false
  | _, .word w => ok w
  | _, .other _ => true

def okLex (ok fixed : Str → Bool) : Lex → List Piece → Bool
  | _, [] => true
  | s, p :: r =>
    okStep ok fixed s p &&
      match step s p with
      | none => false
      | some a => okLex ok fixed a.1 r

variable {f}
variable {ok fixed : Str → Bool} (hfix : ∀ w, fixed w = true → f w = w)
  (hok : ∀ w, ok w = true → startsDigit (f w) = startsDigit w ∧ (startsDigit w = true → f w = w) ∧ (f w ∈ encodings ↔ w ∈ encodings) ∧ (w ∈ encodings → f w = w))

theorem begin_ren (hok : ∀ w, ok w = true → startsDigit (f w) = startsDigit w ∧ (startsDigit w = true → f w = w) ∧ (f w ∈ encodings ↔ w ∈ encodings) ∧ (w ∈ encodings → f w = w))
    (sp : Bool) {p : Piece} (h : ∀ w, p = .word w → ok w = true) :
    begin sp (renPiece f p) = (renLex f (begin sp p).1, (begin sp p).2.map (renT f)) := by
  cases p with
  | word w =>
    obtain ⟨h1, h2, _⟩ := hok w (h w rfl)
    simp only [renPiece, begin, h1]
    by_cases hd : startsDigit w = true
    · simp [hd, renLex, h2 hd]
    · simp [hd, renLex]
  | other c =>
    simp only [renPiece, begin]
    repeat' split
    all_goals rfl

/-- The word that is being read may be one. -/
def OkState (ok : Str → Bool) : Lex → Prop
  | .word _ w => ok w = true
  | _ => True

theorem begin_ok {ok : Str → Bool} (sp : Bool) {p : Piece} (h : ∀ w, p = .word w → ok w = true) : OkState ok (begin sp p).1 := by
  cases p with
  | word w =>
    simp only [begin]
    split
    · trivial
    · exact h w rfl
  | other c =>
    simp only [begin]
    repeat' split
    all_goals trivial

theorem next_ren (hok : ∀ w, ok w = true → startsDigit (f w) = startsDigit w ∧ (startsDigit w = true → f w = w) ∧ (f w ∈ encodings ↔ w ∈ encodings) ∧ (w ∈ encodings → f w = w))
    (t : T) {p : Piece} (h : ∀ w, p = .word w → ok w = true) :
    next (renT f t) (renPiece f p) = (next t p).map fun a => (renLex f a.1, a.2.map (renT f)) := by
  unfold next
  rw [begin_ren hok false h]
  rfl

theorem step_ren (hfix : ∀ w, fixed w = true → f w = w)
    (hok : ∀ w, ok w = true → startsDigit (f w) = startsDigit w ∧ (startsDigit w = true → f w = w) ∧ (f w ∈ encodings ↔ w ∈ encodings) ∧ (w ∈ encodings → f w = w))
    {s : Lex} (hs : OkState ok s) {p : Piece} (h : okStep ok fixed s p = true) :
    step (renLex f s) (renPiece f p) = (step s p).map fun a => (renLex f a.1, a.2.map (renT f)) := by
  have hother : ∀ c w, Piece.other c = .word w → ok w = true := fun _ _ h => by cases h
  cases p with
  | word w =>
    have hword : ok w = true → ∀ v, Piece.word w = .word v → ok v = true := fun h v e => by cases e; exact h
    cases s with
    | gap sp => simp only [renLex, step, begin_ren hok sp (hword h)]; rfl
    | word sp v => cases h
    | num sp s => simp only [renLex, renPiece, step, hfix w h]; rfl
    | punct sp q =>
      simp only [renLex, renPiece, step, (hok w h).1]
      split
      · rename_i hd
        rw [(hok w h).2.1 hd.2]; rfl
      · exact next_ren hok ⟨sp, .punct q⟩ (hword h)
    | str sp e s => simp only [renLex, renPiece, step, hfix w h]; rfl
    | strEsc sp e s => simp only [renLex, renPiece, step, hfix w h]; rfl
    | chr sp e s => simp only [renLex, renPiece, step, hfix w h]; rfl
    | chrEsc sp e s => simp only [renLex, renPiece, step, hfix w h]; rfl
    | line => rfl
    | block => rfl
    | star => rfl
    | splice => rfl
  | other c =>
    cases s with
    | gap sp => simp only [renLex, step, begin_ren hok sp (hother c)]; rfl
    | word sp v =>
      obtain ⟨_, _, h3, h4⟩ := hok v hs
      simp only [renLex, renPiece, step, h3]
      split
      · rename_i hd
        rw [h4 hd.1]; rfl
      · split
        · rename_i hd
          rw [h4 hd.1]; rfl
        · exact next_ren hok ⟨sp, .ident v⟩ (hother c)
    | num sp s =>
      simp only [renLex, renPiece, step]
      split
      · rfl
      · exact next_ren hok ⟨sp, .num s⟩ (hother c)
    | punct sp q =>
      simp only [renLex, renPiece, step]
      split
      · rfl
      · split
        · rfl
        · split
          · rfl
          · exact next_ren hok ⟨sp, .punct q⟩ (hother c)
    | _ =>
      simp only [renLex, renPiece, step]
      repeat' split
      all_goals rfl

theorem step_ok {s : Lex} {p : Piece} (h : okStep ok fixed s p = true) {a : Lex × List T} (ha : step s p = some a) : OkState ok a.1 := by
  have hother : ∀ c w, Piece.other c = .word w → ok w = true := fun _ _ h => by cases h
  have hn : ∀ {t : T} {q : Piece} {a : Lex × List T}, (∀ w, q = .word w → ok w = true) → next t q = some a → OkState ok a.1 := by
    intro t q a hq ha
    cases ha
    exact begin_ok false hq
  cases p with
  | word w =>
    have hword : ok w = true → ∀ v, Piece.word w = .word v → ok v = true := fun h v e => by cases e; exact h
    cases s with
    | gap sp => cases ha; exact begin_ok sp (hword h)
    | word sp v => cases h
    | punct sp q =>
      simp only [step] at ha
      split at ha
      · cases ha; trivial
      · exact hn (hword h) ha
    | splice => cases ha
    | _ => cases ha; trivial
  | other c =>
    cases s with
    | gap sp => cases ha; exact begin_ok sp (hother c)
    | word sp v =>
      simp only [step] at ha
      split at ha
      · cases ha; trivial
      · split at ha
        · cases ha; trivial
        · exact hn (hother c) ha
    | num sp v =>
      simp only [step] at ha
      split at ha
      · cases ha; trivial
      · exact hn (hother c) ha
    | punct sp v =>
      simp only [step] at ha
      split at ha
      · cases ha; trivial
      · split at ha
        · cases ha; trivial
        · split at ha
          · cases ha; trivial
          · exact hn (hother c) ha
    | _ =>
      simp only [step] at ha
      repeat' split at ha
      all_goals (first | (cases ha; trivial) | cases ha)

/-- The tokens of renamed pieces. -/
theorem lex_ren (hfix : ∀ w, fixed w = true → f w = w)
    (hok : ∀ w, ok w = true → startsDigit (f w) = startsDigit w ∧ (startsDigit w = true → f w = w) ∧ (f w ∈ encodings ↔ w ∈ encodings) ∧ (w ∈ encodings → f w = w))
    {ps : List Piece} {s : Lex} (hs : OkState ok s) (h : okLex ok fixed s ps = true) :
    lex (renLex f s) (mapWords f ps) = (lex s ps).map fun a => (renLex f a.1, a.2.map (renT f)) := by
  induction ps generalizing s with
  | nil => rfl
  | cons p r ih =>
    rw [okLex, Bool.and_eq_true] at h
    have e : mapWords f (p :: r) = renPiece f p :: mapWords f r := by cases p <;> rfl
    rw [e, lex, lex, step_ren hfix hok hs h.1]
    have h2 := h.2
    cases ha : step s p with
    | none => rfl
    | some a =>
      rw [ha] at h2
      simp only [Option.map_some, Option.bind_some]
      rw [ih (step_ok h.1 ha) h2]
      cases lex a.1 r with
      | none => rfl
      | some b => simp

/-! ### Renaming with prefixes -/

/-- A word that stays as it is with every prefix. -/
def fixedWord (w : Str) : Bool :=
  !((str% "GDO_").isPrefixOf w || (str% "_GDO_").isPrefixOf w || (str% "gdo_").isPrefixOf w || (str% "_gdo_").isPrefixOf w || w == str% "gdo")

def notGdo (w : Str) : Bool := w != str% "gdo"

theorem newName_fixed {u l w : Str} (h : fixedWord w = true) : newName u l w = w := by
  simp [fixedWord] at h
  obtain ⟨⟨⟨⟨h1, h2⟩, h3⟩, h4⟩, h5⟩ := h
  simp [newName, h1, h2, h3, h4, h5]

theorem newName_or {u l w : Str} (h : notGdo w = true) : newName u l w = w ∨
    ((∃ x, newName u l w = u ++ '_' :: x) ∨ (∃ x, newName u l w = '_' :: x) ∨ ∃ x, newName u l w = l ++ '_' :: x) ∧ startsDigit w = false ∧ w ∉ encodings := by
  have hp : ∀ {p : Str}, (startsDigit p = false ∧ p ≠ [] ∧ '_' ∈ p) → p.isPrefixOf w = true → startsDigit w = false ∧ w ∉ encodings := by
    intro p hp h
    rw [List.isPrefixOf_iff_prefix] at h
    obtain ⟨t, rfl⟩ := h
    obtain ⟨h1, h2, h3⟩ := hp
    constructor
    · cases p with
      | nil => exact absurd rfl h2
      | cons c p => exact h1
    · intro hm
      have : '_' ∈ p ++ t := List.mem_append_left _ h3
      simp only [encodings, List.mem_cons, List.not_mem_nil, or_false] at hm
      rcases hm with e | e | e | e <;> rw [e] at this <;> revert this <;> decide
  unfold newName
  split
  · rename_i h
    exact .inr ⟨.inl ⟨_, by simp; rfl⟩, hp (by decide) h⟩
  · split
    · rename_i h
      exact .inr ⟨.inr (.inl ⟨_, by simp; rfl⟩), hp (by decide) h⟩
    · split
      · rename_i h
        exact .inr ⟨.inr (.inr ⟨_, by simp; rfl⟩), hp (by decide) h⟩
      · split
        · rename_i h
          exact .inr ⟨.inr (.inl ⟨_, by simp; rfl⟩), hp (by decide) h⟩
        · rw [if_neg (by simpa [notGdo] using h)]
          exact .inl rfl

/-- What prefixes are: made of word characters, not empty, no digit first. -/
structure Prefixes (u l : Str) : Prop where
  upper : ∀ c ∈ u, isWord c = true
  lower : ∀ c ∈ l, isWord c = true
  upper_ne : u ≠ []
  lower_ne : l ≠ []
  upper_head : startsDigit u = false
  lower_head : startsDigit l = false

theorem prefixes_of {pfx : Str} (h : PrefixOk pfx) : Prefixes (toUpper pfx) (toLower pfx) := by
  have hne : ∀ {s : Str}, s.length = pfx.length → s ≠ [] := by
    intro s hs hn
    rw [hn] at hs
    exact h.1 (List.eq_nil_of_length_eq_zero hs.symm)
  have hd : ∀ {s : Str}, (∀ c, s.head? = some c → isDigit c = false) → startsDigit s = false := by
    intro s hs
    cases s with
    | nil => rfl
    | cons c s => exact hs c rfl
  exact ⟨C30_upper pfx, C30_lower pfx, hne (C30_length pfx).1, hne (C30_length pfx).2, hd (toUpper_head pfx h.2), hd (toLower_head pfx h.2)⟩

theorem newName_ok {u l : Str} (hp : Prefixes u l) : ∀ w, notGdo w = true → startsDigit (newName u l w) = startsDigit w ∧
    (startsDigit w = true → newName u l w = w) ∧ (newName u l w ∈ encodings ↔ w ∈ encodings) ∧ (w ∈ encodings → newName u l w = w) := by
  intro w hw
  rcases newName_or (u := u) (l := l) hw with h | ⟨h, h1, h2⟩
  · rw [h]; exact ⟨rfl, fun _ => rfl, .rfl, fun _ => rfl⟩
  · have h3 : '_' ∈ newName u l w := by rcases h with ⟨x, h⟩ | ⟨x, h⟩ | ⟨x, h⟩ <;> rw [h] <;> simp
    have h4 : newName u l w ∉ encodings := by
      intro hm
      simp only [encodings, List.mem_cons, List.not_mem_nil, or_false] at hm
      rcases hm with e | e | e | e <;> rw [e] at h3 <;> revert h3 <;> decide
    have h5 : startsDigit (newName u l w) = false := by
      have hh : ∀ {a : Str} (b : Str), a ≠ [] → startsDigit a = false → startsDigit (a ++ b) = false := by
        intro a b h1 h2
        cases a with
        | nil => exact absurd rfl h1
        | cons c a => exact h2
      rcases h with ⟨x, h⟩ | ⟨x, h⟩ | ⟨x, h⟩ <;> rw [h]
      · exact hh _ hp.upper_ne hp.upper_head
      · rfl
      · exact hh _ hp.lower_ne hp.lower_head
    exact ⟨by rw [h5, h1], fun h => by simp [h1] at h, ⟨fun h => absurd h h4, fun h => absurd h h2⟩, fun h => absurd h h2⟩

/-- A line with renamed words. -/
def renamedLine (u l d : Str) : Str := textOf (mapWords (newName u l) (pieces d))

theorem written_plain {u l : Str} (hp : Prefixes u l) (protos objs : List Proto) {d : Str} (h : firstKind (parts d) = none) :
    written u l protos objs d = [renamedLine u l d] := by
  unfold written
  dsimp only
  rw [h]
  dsimp only
  have hw : WordsOk (parts d) := splits_words (splits _) (pieces_valid _)
  rw [fillIn_none hp.upper hp.lower hp.lower_ne _ hw, parts, ← source_items (newName_keyword u l) (splits _)]
  rfl

theorem pieces_renamedLine {u l : Str} (hp : Prefixes u l) (d : Str) : pieces (renamedLine u l d) = mapWords (newName u l) (pieces d) := by
  refine pieces_textOf (valid_mapWords (pieces_valid d) fun w hw => ?_)
  obtain ⟨h1, h2⟩ := valid_mem (pieces_valid d) hw
  exact newName_word hp.upper hp.lower hp.lower_ne h2 h1

/-- The template text without keywords. -/
def plainText (ls : List Str) : Bool := ls.all fun d => firstKind (parts d) = none

theorem written_lines {u l : Str} (hp : Prefixes u l) (protos objs : List Proto) {ls : List Str} (h : plainText ls = true) :
    ls.flatMap (written u l protos objs) = ls.map (renamedLine u l) := by
  induction ls with
  | nil => rfl
  | cons d ls ih =>
    rw [plainText, List.all_cons, Bool.and_eq_true] at h
    rw [List.flatMap_cons, written_plain hp protos objs (by simpa using h.1), ih h.2]
    rfl

/-- The test on the words of a template. -/
def okText (ls : List Str) : Bool := okLex notGdo fixedWord (.gap true) (ls.flatMap fun d => pieces d ++ [.other '\n'])

/-- The tokens of template lines. -/
def lineTokens (ls : List Str) : Option (Lex × List T) := lex (.gap true) (ls.flatMap fun d => pieces d ++ [.other '\n'])

theorem lex_template {u l : Str} (hp : Prefixes u l) {ls : List Str} (h : okText ls = true) :
    lex (.gap true) (pieces (unlines (ls.map (renamedLine u l)))) =
      (lineTokens ls).map fun a => (renLex (newName u l) a.1, a.2.map (renT (newName u l))) := by
  rw [pieces_unlines]
  have : ∀ ls : List Str, ((ls.map (renamedLine u l)).flatMap fun d => pieces d ++ [.other '\n']) =
      mapWords (newName u l) (ls.flatMap fun d => pieces d ++ [.other '\n']) := by
    intro ls
    induction ls with
    | nil => rfl
    | cons d ls ih =>
      rw [List.map_cons, List.flatMap_cons, List.flatMap_cons, pieces_renamedLine hp, ih]
      simp [mapWords]
  rw [this]
  exact lex_ren (s := .gap true) (fun w h => newName_fixed h) (newName_ok hp) trivial h

end Gdo.Cpp
