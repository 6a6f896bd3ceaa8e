import Verif.Lemmas.CMacroHead

/-!
Lemmas: lines that define macros for each symbol.
-/

set_option maxRecDepth 20000

namespace Gdo.Cpp
open Gdo Rename Tmpl Builtin Sub

/-! ### Lines that define a macro -/

/-- A line that defines a macro without parameters. -/
def DefLine (text x : Str) (body : List T) : Prop :=
  (∃ s1 s2, lex (.gap true) (pieces (text ++ ['\n'])) =
    some (.gap true, (⟨true, .punct (str% "#")⟩ :: ⟨s1, .ident (str% "define")⟩ :: ⟨s2, .ident x⟩ :: body) ++ [nlT])) ∧
  (∀ t ∈ body, t.tok ≠ .nl) ∧ ∀ t, body.head? = some t → t.sp = true

theorem run_defLine {text x : Str} {body : List T} (h : DefLine text x body) (inc : List T → Table) (D : Str → Bool) (t : Table) (st : List Cc.Cond) (b : Str) :
    run inc D (t, st) (text ++ '\n' :: b) = run inc D (if Cc.active st then (x, some ⟨none, false, body⟩) :: t else t, st) b := by
  obtain ⟨⟨s1, s2, h1⟩, h2, h3⟩ := h
  have e : text ++ '\n' :: b = (text ++ ['\n']) ++ b := by simp
  rw [e, run_whole ⟨h1, text, rfl⟩, splitLines_one]
  · have hd : definition (⟨s2, .ident x⟩ :: body) = some (x, ⟨none, false, body⟩) := by
      cases body with
      | nil => rfl
      | cons y r =>
        obtain ⟨sp, y⟩ := y
        have : sp = true := h3 _ rfl
        subst this
        simp [definition]
    have : runLine inc D (t, st) (⟨true, .punct (str% "#")⟩ :: ⟨s1, .ident (str% "define")⟩ :: ⟨s2, .ident x⟩ :: body) =
        some (if Cc.active st then (x, some ⟨none, false, body⟩) :: t else t, st) := by
      simp only [runLine]
      rw [if_pos trivial]
      simp only [runDirective]
      rw [if_neg (by decide)]
      by_cases ha : Cc.active st = true
      · rw [if_pos ha, if_pos ha]
        unfold action
        rw [if_pos rfl, hd]
        rfl
      · rw [if_neg ha, if_neg ha]
    simp only [runLines, this, Option.bind_some]
  · intro y hy
    rcases List.mem_cons.mp hy with rfl | hy
    · simp
    rcases List.mem_cons.mp hy with rfl | hy
    · simp
    rcases List.mem_cons.mp hy with rfl | hy
    · simp
    · exact h2 y hy

/-- The definitions of lines. -/
def defs {α : Type} (name : α → Str) (body : α → List T) (as : List α) : Table := (as.map fun a => (name a, some ⟨none, false, body a⟩)).reverse

theorem run_defLines {α : Type} {text name : α → Str} {body : α → List T} {as : List α} (h : ∀ a ∈ as, DefLine (text a) (name a) (body a))
    (inc : List T → Table) (D : Str → Bool) (t : Table) (st : List Cc.Cond) (b : Str) :
    run inc D (t, st) (unlines (as.map text) ++ b) = run inc D ((if Cc.active st then defs name body as else []) ++ t, st) b := by
  induction as generalizing t with
  | nil => cases Cc.active st <;> rfl
  | cons a r ih =>
    have e : unlines ((a :: r).map text) ++ b = text a ++ '\n' :: (unlines (r.map text) ++ b) := by simp [unlines]
    rw [e, run_defLine (h a (by simp)), ih fun x hx => h x (List.mem_cons_of_mem _ hx)]
    cases Cc.active st with
    | false => rfl
    | true => simp [defs]

theorem lookup_defs {α : Type} {name : α → Str} {body : α → List T} {as : List α} {x : Str} (h : ∀ a ∈ as, name a ≠ x) : (defs name body as).lookup x = none := by
  rw [List.lookup_eq_none_iff]
  intro p hp
  obtain ⟨a, ha, rfl⟩ := List.mem_map.mp (List.mem_reverse.mp hp)
  exact bne_iff_ne.mpr fun e => h a ha e.symm

theorem lookup_defs_mem {α : Type} {name : α → Str} {body : α → List T} {as : List α} {a : α} (ha : a ∈ as) (hinj : ∀ b ∈ as, name b = name a → body b = body a) :
    (defs name body as).lookup (name a) = some (some ⟨none, false, body a⟩) := by
  have key : ∀ t : Table, (∀ p ∈ t, p.1 = name a → p.2 = some ⟨none, false, body a⟩) → (∃ p ∈ t, p.1 = name a) → t.lookup (name a) = some (some ⟨none, false, body a⟩) := by
    intro t
    induction t with
    | nil => intro _ ⟨p, hp, _⟩; cases hp
    | cons q t ih =>
      intro h1 ⟨p, hp, e⟩
      obtain ⟨n, m⟩ := q
      rw [List.lookup_cons]
      by_cases hn : name a = n
      · rw [beq_iff_eq.mpr hn]
        exact congrArg some (h1 (n, m) (by simp) hn.symm)
      · rw [beq_eq_false_iff_ne.mpr hn]
        refine ih (fun p hp => h1 p (List.mem_cons_of_mem _ hp)) ⟨p, ?_, e⟩
        rcases List.mem_cons.mp hp with rfl | hp
        · exact absurd e.symm hn
        · exact hp
  refine key _ ?_ ⟨(name a, some ⟨none, false, body a⟩), ?_, rfl⟩
  · intro p hp e
    obtain ⟨b, hb, rfl⟩ := List.mem_map.mp (List.mem_reverse.mp hp)
    show some _ = some _
    rw [hinj b hb e]
  · exact List.mem_reverse.mpr (List.mem_map.mpr ⟨a, ha, rfl⟩)

/-! ### The tokens of such lines -/

def blanks (k : Nat) : List Piece := List.replicate k (.other ' ')

theorem lex_blanks (k : Nat) (ps : List Piece) : lex (.gap true) (blanks k ++ ps) = lex (.gap true) ps := by
  induction k with
  | zero => rfl
  | succ k ih =>
    show lex (.gap true) (.other ' ' :: (blanks k ++ ps)) = _
    rw [lex]
    show (lex (.gap true) (blanks k ++ ps)).map _ = _
    rw [ih]
    cases lex (.gap true) ps <;> rfl

theorem valid_blanks (k : Nat) {ps : List Piece} (h : Valid ps) : Valid (blanks k ++ ps) := by
  induction k with
  | zero => exact h
  | succ k ih => exact ⟨by decide, ih⟩

/-- The pieces of a definition. -/
def defPieces (sp : Bool) (x : Str) (k : Nat) (body : List Piece) : List Piece :=
  .other '#' :: ((if sp then [.other ' '] else []) ++ .word (str% "define") :: .other ' ' :: .word x :: .other ' ' :: (blanks k ++ body))

theorem lex_defPieces (sp : Bool) {x : Str} (hx : WordText x) (k : Nat) (body : List Piece) :
    lex (.gap true) (defPieces sp x k body) = (lex (.gap true) body).map fun a =>
      (a.1, ⟨true, .punct (str% "#")⟩ :: ⟨sp, .ident (str% "define")⟩ :: ⟨true, .ident x⟩ :: a.2) := by
  have h2 : ∀ r, lex (.gap true) (.word x :: .other ' ' :: r) = (lex (.gap true) r).map fun a => (a.1, ⟨true, .ident x⟩ :: a.2) := by
    intro r
    simp [lex, step, begin, hx.head, next]
  have h1 : ∀ s r, lex (.word s (str% "define")) (.other ' ' :: r) = (lex (.gap true) r).map fun a => (a.1, ⟨s, .ident (str% "define")⟩ :: a.2) := by
    intro s r
    rw [lex]
    show (lex (.gap true) r).map _ = _
    rfl
  have key : ∀ r, lex (.gap true) (.other '#' :: ((if sp then [.other ' '] else []) ++ .word (str% "define") :: r)) =
      (lex (.word sp (str% "define")) r).map fun a => (a.1, ⟨true, .punct (str% "#")⟩ :: a.2) := by
    intro r
    cases sp with
    | false =>
      rw [lex]
      show (lex (.punct true (str% "#")) (.word (str% "define") :: r)).map _ = _
      rw [lex]
      show ((lex (.word false (str% "define")) r).map _).map _ = _
      cases lex (.word false (str% "define")) r <;> rfl
    | true =>
      rw [lex]
      show (lex (.punct true (str% "#")) (.other ' ' :: .word (str% "define") :: r)).map _ = _
      rw [lex]
      show ((lex (.gap true) (.word (str% "define") :: r)).map _).map _ = _
      rw [lex]
      show (((lex (.word true (str% "define")) r).map _).map _).map _ = _
      cases lex (.word true (str% "define")) r <;> rfl
  unfold defPieces
  rw [key, h1, h2, lex_blanks]
  cases lex (.gap true) body <;> rfl

theorem valid_defPieces (sp : Bool) {x : Str} (hx : WordText x) (k : Nat) {body : List Piece} (h : Valid body) : Valid (defPieces sp x k body) := by
  have h1 : Valid (.word (str% "define") :: .other ' ' :: .word x :: .other ' ' :: (blanks k ++ body)) :=
    ⟨by decide, by decide, (fun _ e => nomatch e), by decide, hx.ne, hx.word, (fun _ e => nomatch e), by decide, valid_blanks k h⟩
  refine ⟨by decide, ?_⟩
  cases sp with
  | false => exact h1
  | true => exact ⟨by decide, h1⟩

theorem defLine_of {text x : Str} {ts : List T} {sp : Bool} {k : Nat} {body : List Piece} (hx : WordText x) (ht : text ++ ['\n'] = textOf (defPieces sp x k body))
    (hv : Valid body) (hl : lex (.gap true) body = some (.gap true, ts ++ [nlT])) (h1 : ∀ t ∈ ts, t.tok ≠ .nl) (h2 : ∀ t, ts.head? = some t → t.sp = true) :
    DefLine text x ts := by
  refine ⟨⟨sp, true, ?_⟩, h1, h2⟩
  rw [ht, pieces_textOf (valid_defPieces sp hx k hv), lex_defPieces sp hx, hl]
  rfl

/-! ### The lines of the templates -/

variable {u l : Str}

/-- What stands for a pointer. -/
def rawBody (u l : Str) (p : Proto) : List T := [⟨true, .ident (l ++ str% "_hndl")⟩, ⟨false, .punct (str% ".")⟩, ⟨false, .ident (u ++ str% "_PTR_" ++ p.symbol)⟩]

/-- What stands for a function. -/
def aliasBody (u : Str) (p : Proto) : List T :=
  [⟨true, .ident (u ++ str% "_FUNC_ALIAS")⟩, ⟨false, .punct (str% "(")⟩, ⟨false, .ident p.symbol⟩, ⟨false, .punct (str% ")")⟩]

/-- What stands for an object. -/
def objectBody (u : Str) (p : Proto) : List T := [⟨true, .punct (str% "*")⟩, ⟨false, .ident (u ++ str% "_RAWPTR_" ++ p.symbol)⟩]

theorem WordText.of {s : Str} (h : Identifier s) : WordText s := ⟨h.1, h.2.1, h.2.2⟩

theorem lower_word (hp : Prefixes u l) {s : Str} (hs : ∀ c ∈ s, isWord c = true) : WordText (l ++ s) := by
  refine ⟨by simp [hp.lower_ne], fun c hc => ?_, ?_⟩
  · rcases List.mem_append.mp hc with h | h
    · exact hp.lower c h
    · exact hs c h
  · have h1 := hp.lower_head
    have h2 := hp.lower_ne
    cases l with
    | nil => exact absurd rfl h2
    | cons c u => exact h1

theorem symbol_word (hp : Prefixes u l) {s : Str} (hs : ∀ c ∈ s, isWord c = true) {x : Str} (hx : Identifier x) : WordText (u ++ s ++ x) := by
  rw [List.append_assoc]
  refine prefix_word hp fun c hc => ?_
  rcases List.mem_append.mp hc with h | h
  · exact hs c h
  · exact hx.2.1 c h

theorem textOf_blanks (k : Nat) (ps : List Piece) : textOf (blanks k ++ ps) = List.replicate k ' ' ++ textOf ps := by
  induction k with
  | zero => rfl
  | succ k ih =>
    show ' ' :: textOf (blanks k ++ ps) = ' ' :: (List.replicate k ' ' ++ textOf ps)
    rw [ih]

theorem textOf_cons (p : Piece) (ps : List Piece) : textOf (p :: ps) = p.text ++ textOf ps := rfl

theorem textOf_nil : textOf [] = [] := rfl

theorem blank_last (y x z : Str) (k : Nat) : y ++ (x ++ List.replicate k ' ') ++ str% " " ++ z = y ++ x ++ ' ' :: (List.replicate k ' ' ++ z) := by
  have e : List.replicate k ' ' ++ str% " " = ' ' :: List.replicate k ' ' := by
    rw [← List.replicate_succ, List.replicate_succ']
  have : y ++ (x ++ List.replicate k ' ') ++ str% " " ++ z = y ++ x ++ (List.replicate k ' ' ++ str% " ") ++ z := by simp only [List.append_assoc]
  rw [this, e]
  simp only [List.append_assoc, List.cons_append]

theorem lex_wordOther {w : Str} (hw : startsDigit w = false) {c : Char} (h1 : c ≠ '"') (h2 : c ≠ '\'') (sp : Bool) (r : List Piece) :
    lex (.gap sp) (.word w :: .other c :: r) = (lex (begin false (.other c)).1 r).map fun a => (a.1, ⟨sp, .ident w⟩ :: ((begin false (.other c)).2 ++ a.2)) := by
  rw [lex]
  have e : step (.gap sp) (.word w) = some (.word sp w, []) := by simp [step, begin, hw]
  rw [e]
  show (lex (.word sp w) (.other c :: r)).map _ = _
  rw [lex]
  have e : step (.word sp w) (.other c) = some ((begin false (.other c)).1, ⟨sp, .ident w⟩ :: (begin false (.other c)).2) := by
    simp [step, h1, h2, next]
  rw [e]
  show ((lex (begin false (.other c)).1 r).map _).map _ = _
  cases lex (begin false (.other c)).1 r <;> rfl

theorem lex_punctWord {w p : Str} (hw : startsDigit w = false) (sp : Bool) (r : List Piece) :
    lex (.punct sp p) (.word w :: r) = (lex (.word false w) r).map fun a => (a.1, ⟨sp, .punct p⟩ :: a.2) := by
  rw [lex]
  have e : step (.punct sp p) (.word w) = some (.word false w, [⟨sp, .punct p⟩]) := by simp [step, hw, next, begin]
  rw [e]
  rfl

theorem lex_wordEnd {w : Str} {c : Char} (h1 : c ≠ '"') (h2 : c ≠ '\'') (sp : Bool) (r : List Piece) :
    lex (.word sp w) (.other c :: r) = (lex (begin false (.other c)).1 r).map fun a => (a.1, ⟨sp, .ident w⟩ :: ((begin false (.other c)).2 ++ a.2)) := by
  rw [lex]
  have e : step (.word sp w) (.other c) = some ((begin false (.other c)).1, ⟨sp, .ident w⟩ :: (begin false (.other c)).2) := by
    simp [step, h1, h2, next]
  rw [e]
  rfl

theorem defLine_raw (hp : Prefixes u l) {p : Proto} (hs : Identifier p.symbol) (k : Nat) :
    DefLine (str% "#define " ++ (u ++ str% "_RAWPTR_") ++ (p.symbol ++ List.replicate k ' ') ++ str% " " ++ (l ++ str% "_hndl") ++ str% "." ++ (u ++ str% "_PTR_") ++ p.symbol)
      (u ++ str% "_RAWPTR_" ++ p.symbol) (rawBody u l p) := by
  have hx := symbol_word hp (s := str% "_RAWPTR_") (by decide) hs
  have hy := symbol_word hp (s := str% "_PTR_") (by decide) hs
  have hl := lower_word hp (s := str% "_hndl") (by decide)
  have ht : ∀ (A B C : Str) (k : Nat) (x : Str), str% "#define " ++ A ++ (x ++ List.replicate k ' ') ++ str% " " ++ B ++ str% "." ++ C ++ x ++ ['\n'] =
      textOf (defPieces false (A ++ x) k [.word B, .other '.', .word (C ++ x), .other '\n']) := by
    intro A B C k x
    rw [show ∀ y z : Str, y ++ (x ++ List.replicate k ' ') ++ str% " " ++ z = y ++ x ++ ' ' :: (List.replicate k ' ' ++ z) from fun y z => blank_last y x z k]
    simp only [defPieces, if_neg (show ¬ false = true by simp), List.nil_append, textOf_cons, textOf_blanks, Piece.text, textOf_nil]
    simp
  refine defLine_of (sp := false) (k := k) hx (ht _ _ _ _ _) ?_ ?_ ?_ ?_
  · exact ⟨hl.ne, hl.word, fun _ e => (nomatch e), by decide, hy.ne, hy.word, fun _ e => (nomatch e), by decide, trivial⟩
  · rw [lex_wordOther hl.head (by decide) (by decide)]
    show (lex (.punct false (str% ".")) (.word _ :: _)).map _ = _
    rw [lex_punctWord hy.head, lex_wordEnd (by decide) (by decide)]
    rfl
  · intro t ht
    simp only [rawBody, List.mem_cons, List.not_mem_nil, or_false] at ht
    rcases ht with rfl | rfl | rfl <;> simp
  · intro t ht
    cases ht
    rfl

theorem defLine_alias (hp : Prefixes u l) {p : Proto} (hs : Identifier p.symbol) (k : Nat) :
    DefLine (str% "# define " ++ (p.symbol ++ List.replicate k ' ') ++ str% " " ++ (u ++ str% "_FUNC_ALIAS") ++ str% "(" ++ p.symbol ++ str% ")") p.symbol (aliasBody u p) := by
  have hx := WordText.of hs
  have hy := prefix_word hp (s := str% "_FUNC_ALIAS") (by decide)
  have ht : ∀ (B : Str) (k : Nat) (x : Str), str% "# define " ++ (x ++ List.replicate k ' ') ++ str% " " ++ B ++ str% "(" ++ x ++ str% ")" ++ ['\n'] =
      textOf (defPieces true x k [.word B, .other '(', .word x, .other ')', .other '\n']) := by
    intro B k x
    rw [show ∀ y z : Str, y ++ (x ++ List.replicate k ' ') ++ str% " " ++ z = y ++ x ++ ' ' :: (List.replicate k ' ' ++ z) from fun y z => blank_last y x z k]
    simp only [defPieces, if_true, List.cons_append, List.nil_append, textOf_cons, textOf_blanks, Piece.text, textOf_nil]
    simp
  refine defLine_of (sp := true) (k := k) hx (ht _ _ _) ?_ ?_ ?_ ?_
  · exact ⟨hy.ne, hy.word, (fun _ e => nomatch e), by decide, hx.ne, hx.word, (fun _ e => nomatch e), by decide, by decide, trivial⟩
  · rw [lex_wordOther hy.head (by decide) (by decide)]
    show (lex (.punct false (str% "(")) (.word _ :: _)).map _ = _
    rw [lex_punctWord hx.head, lex_wordEnd (by decide) (by decide)]
    rfl
  · intro t ht
    simp only [aliasBody, List.mem_cons, List.not_mem_nil, or_false] at ht
    rcases ht with rfl | rfl | rfl | rfl <;> simp
  · intro t ht
    cases ht
    rfl

theorem defLine_object (hp : Prefixes u l) {p : Proto} (hs : Identifier p.symbol) (k : Nat) :
    DefLine (str% "#define " ++ (p.symbol ++ List.replicate k ' ') ++ str% " " ++ str% "*" ++ (u ++ str% "_RAWPTR_") ++ p.symbol) p.symbol (objectBody u p) := by
  have hx := WordText.of hs
  have hy := symbol_word hp (s := str% "_RAWPTR_") (by decide) hs
  have ht : ∀ (B : Str) (k : Nat) (x : Str), str% "#define " ++ (x ++ List.replicate k ' ') ++ str% " " ++ str% "*" ++ B ++ x ++ ['\n'] =
      textOf (defPieces false x k [.other '*', .word (B ++ x), .other '\n']) := by
    intro B k x
    rw [show ∀ y z : Str, y ++ (x ++ List.replicate k ' ') ++ str% " " ++ z = y ++ x ++ ' ' :: (List.replicate k ' ' ++ z) from fun y z => blank_last y x z k]
    simp only [defPieces, if_neg (show ¬ false = true by simp), List.nil_append, textOf_cons, textOf_blanks, Piece.text, textOf_nil]
    simp
  refine defLine_of (sp := false) (k := k) hx (ht _ _ _) ?_ ?_ ?_ ?_
  · exact ⟨by decide, hy.ne, hy.word, (fun _ e => nomatch e), by decide, trivial⟩
  · rw [lex]
    show (lex (.punct true (str% "*")) (.word _ :: _)).map _ = _
    rw [lex_punctWord hy.head, lex_wordEnd (by decide) (by decide)]
    rfl
  · intro t ht
    simp only [objectBody, List.mem_cons, List.not_mem_nil, or_false] at ht
    rcases ht with rfl | rfl <;> simp
  · intro t ht
    cases ht
    rfl

/-! ### The texts of the templates -/

/-- The definitions for pointers (c.h 180-181). -/
def rawLines : List Str := [str% "#define GDO_RAWPTR_%%func_symbol_pad%% gdo_hndl.GDO_PTR_%%func_symbol%%", str% "#define GDO_RAWPTR_%%obj_symbol_pad%% gdo_hndl.GDO_PTR_%%obj_symbol%%"]

/-- The definitions for names (c.h 293 and 299, c.c 979 and 983). -/
def aliasLine : Str := str% "# define %%func_symbol_pad%% GDO_FUNC_ALIAS(%%func_symbol%%)"

def objectLine : Str := str% "#define %%obj_symbol_pad%% *GDO_RAWPTR_%%obj_symbol%%"

def rawText (w : Nat) (u l : Str) (p : Proto) : Str :=
  str% "#define " ++ (u ++ str% "_RAWPTR_") ++ Tmpl.fill w p.symbol ++ str% " " ++ (l ++ str% "_hndl") ++ str% "." ++ (u ++ str% "_PTR_") ++ p.symbol

def aliasText (w : Nat) (u : Str) (p : Proto) : Str :=
  str% "# define " ++ Tmpl.fill w p.symbol ++ str% " " ++ (u ++ str% "_FUNC_ALIAS") ++ str% "(" ++ p.symbol ++ str% ")"

def objectText (w : Nat) (u : Str) (p : Proto) : Str :=
  str% "#define " ++ Tmpl.fill w p.symbol ++ str% " " ++ str% "*" ++ (u ++ str% "_RAWPTR_") ++ p.symbol

/-- A line for each function. -/
theorem written_function (u l : Str) (protos objs : List Proto) {d : Str} {ps : List Part} (h : parts d = ps) (hk : firstKind ps = some .function) :
    written u l protos objs d = protos.map fun p => fillIn u l (functionValues (width protos) p) false ps := by
  unfold written
  dsimp only
  rw [h, hk]

/-- A line for each object. -/
theorem written_object (u l : Str) (protos objs : List Proto) {d : Str} {ps : List Part} (h : parts d = ps) (hk : firstKind ps = some .object) :
    written u l protos objs d = objs.map fun p => fillIn u l (objectValues (width objs) p) false ps := by
  unfold written
  dsimp only
  rw [h, hk]

theorem written_raw (u l : Str) (protos objs : List Proto) :
    rawLines.flatMap (written u l protos objs) = protos.map (rawText (width protos) u l) ++ objs.map (rawText (width objs) u l) := by
  have e1 : written u l protos objs (str% "#define GDO_RAWPTR_%%func_symbol_pad%% gdo_hndl.GDO_PTR_%%func_symbol%%") = protos.map (rawText (width protos) u l) := by
    rw [written_function u l protos objs (ps := [.other '#', .word (str% "define"), .other ' ', .word (str% "GDO_RAWPTR_"), .kw (str% "func_symbol_pad"), .other ' ',
      .word (str% "gdo_hndl"), .other '.', .word (str% "GDO_PTR_"), .kw (str% "func_symbol")]) (by decide +kernel) (by decide)]
    refine List.map_congr_left fun p _ => ?_
    have k1 : functionValues (width protos) p (str% "func_symbol_pad") = some (Tmpl.fill (width protos) p.symbol, false) := rfl
    have k2 : functionValues (width protos) p (str% "func_symbol") = some (p.symbol, false) := rfl
    have n1 : newName u l (str% "GDO_RAWPTR_") = u ++ str% "_RAWPTR_" := newName_upper u l (str% "RAWPTR_")
    have n2 : newName u l (str% "GDO_PTR_") = u ++ str% "_PTR_" := newName_upper u l (str% "PTR_")
    have n3 : newName u l (str% "gdo_hndl") = l ++ str% "_hndl" := by simp [newName, List.isPrefixOf]
    have n4 : newName u l (str% "define") = str% "define" := rfl
    simp [fillIn, k1, k2, n1, n2, n3, n4, rawText]
  have e2 : written u l protos objs (str% "#define GDO_RAWPTR_%%obj_symbol_pad%% gdo_hndl.GDO_PTR_%%obj_symbol%%") = objs.map (rawText (width objs) u l) := by
    rw [written_object u l protos objs (ps := [.other '#', .word (str% "define"), .other ' ', .word (str% "GDO_RAWPTR_"), .kw (str% "obj_symbol_pad"), .other ' ',
      .word (str% "gdo_hndl"), .other '.', .word (str% "GDO_PTR_"), .kw (str% "obj_symbol")]) (by decide +kernel) (by decide)]
    refine List.map_congr_left fun p _ => ?_
    have k1 : objectValues (width objs) p (str% "obj_symbol_pad") = some (Tmpl.fill (width objs) p.symbol, false) := rfl
    have k2 : objectValues (width objs) p (str% "obj_symbol") = some (p.symbol, false) := rfl
    have n1 : newName u l (str% "GDO_RAWPTR_") = u ++ str% "_RAWPTR_" := newName_upper u l (str% "RAWPTR_")
    have n2 : newName u l (str% "GDO_PTR_") = u ++ str% "_PTR_" := newName_upper u l (str% "PTR_")
    have n3 : newName u l (str% "gdo_hndl") = l ++ str% "_hndl" := by simp [newName, List.isPrefixOf]
    have n4 : newName u l (str% "define") = str% "define" := rfl
    simp [fillIn, k1, k2, n1, n2, n3, n4, rawText]
  simp only [rawLines, List.flatMap_cons, List.flatMap_nil, e1, e2, List.append_nil]

theorem written_alias (u l : Str) (protos objs : List Proto) : written u l protos objs aliasLine = protos.map (aliasText (width protos) u) := by
  rw [written_function u l protos objs (ps := [.other '#', .other ' ', .word (str% "define"), .other ' ', .kw (str% "func_symbol_pad"), .other ' ',
    .word (str% "GDO_FUNC_ALIAS"), .other '(', .kw (str% "func_symbol"), .other ')']) (by decide +kernel) (by decide)]
  refine List.map_congr_left fun p _ => ?_
  have k1 : functionValues (width protos) p (str% "func_symbol_pad") = some (Tmpl.fill (width protos) p.symbol, false) := rfl
  have k2 : functionValues (width protos) p (str% "func_symbol") = some (p.symbol, false) := rfl
  have n1 : newName u l (str% "GDO_FUNC_ALIAS") = u ++ str% "_FUNC_ALIAS" := newName_upper u l (str% "FUNC_ALIAS")
  have n4 : newName u l (str% "define") = str% "define" := rfl
  simp [fillIn, k1, k2, n1, n4, aliasText]

theorem written_objectLine (u l : Str) (protos objs : List Proto) : written u l protos objs objectLine = objs.map (objectText (width objs) u) := by
  rw [written_object u l protos objs (ps := [.other '#', .word (str% "define"), .other ' ', .kw (str% "obj_symbol_pad"), .other ' ', .other '*',
    .word (str% "GDO_RAWPTR_"), .kw (str% "obj_symbol")]) (by decide +kernel) (by decide)]
  refine List.map_congr_left fun p _ => ?_
  have k1 : objectValues (width objs) p (str% "obj_symbol_pad") = some (Tmpl.fill (width objs) p.symbol, false) := rfl
  have k2 : objectValues (width objs) p (str% "obj_symbol") = some (p.symbol, false) := rfl
  have n1 : newName u l (str% "GDO_RAWPTR_") = u ++ str% "_RAWPTR_" := newName_upper u l (str% "RAWPTR_")
  have n4 : newName u l (str% "define") = str% "define" := rfl
  simp [fillIn, k1, k2, n1, n4, objectText]

/-! ### Static lines -/

/-- The names that the lines of the templates test, and the one that they define. -/
def aliasTested : List Str :=
  [str% "GDO_WRAP_FUNCTIONS", str% "GDO_ENABLE_AUTOLOAD", str% "GDO_SEPARATE", str% "GDO_INCLUDED_IN_BODY", str% "GDO_DISABLE_ALIASING", str% "GDO_WRAP_VISIBILITY",
   str% "GDO_WRAP_IS_VISIBLE"]

def aliasNames : List Str := aliasTested ++ [str% "GDO_FUNC_ALIAS"]

theorem aliasNames_apart : apartNames aliasNames = true := by decide +kernel

/-- The lines of the header from the definition of the alias macro on. -/
def headerStart : List Str := ((texts .cHeader).drop 241).take 22

/-- The lines of the body behind the last section. -/
def bodyStart : List Str := ((texts .cBody).drop 947).take 7

def middleLines : List Str := [str% "#endif", str% "", str% "/* object name aliases */"]

def middleLines' : List Str := [str% "#endif", str% "", str% "/* aliases to raw object pointers */"]

def headerEnd : List Str := [str% "", str% "#endif //GDO_SEPARATE ...", str% ""]

def bodyEnd : List Str := [str% "", str% "#endif //!GDO_SEPARATE", str% "", str% "#undef GDO_SET_LAST_ERRNO", str% "#undef GDO_SNPRINTF", str% ""]

theorem header_tail : (texts .cHeader).drop 241 = headerStart ++ aliasLine :: middleLines ++ objectLine :: headerEnd := by
  have : decide ((texts .cHeader).drop 241 = headerStart ++ aliasLine :: middleLines ++ objectLine :: headerEnd) = true := by decide +kernel
  exact of_decide_eq_true this

theorem body_tail : (texts .cBody).drop 947 = bodyStart ++ aliasLine :: middleLines' ++ objectLine :: bodyEnd := by
  have : decide ((texts .cBody).drop 947 = bodyStart ++ aliasLine :: middleLines' ++ objectLine :: bodyEnd) = true := by decide +kernel
  exact of_decide_eq_true this

theorem raw_lines : ((texts .cHeader).drop 179).take 2 = rawLines := by
  have : decide (((texts .cHeader).drop 179).take 2 = rawLines) = true := by decide +kernel
  exact of_decide_eq_true this

def wraps (D : Str → Bool) : Bool := D (str% "GDO_WRAP_FUNCTIONS") || D (str% "GDO_ENABLE_AUTOLOAD")

def headerActive (D : Str → Bool) : Bool := D (str% "GDO_SEPARATE") && !D (str% "GDO_INCLUDED_IN_BODY") && !D (str% "GDO_DISABLE_ALIASING")

def bodyActive (D : Str → Bool) : Bool := !D (str% "GDO_SEPARATE") && !D (str% "GDO_DISABLE_ALIASING")

/-- The open conditionals: one of the names in another one. -/
def nested (a b : Bool) : List Cc.Cond := [if a then ⟨b, b, false⟩ else ⟨true, false, false⟩, ⟨a, a, false⟩]

def aliasMacro (wrap : Bool) : Macro :=
  ⟨some [str% "x"], false, [⟨true, .ident (if wrap then str% "GDO_WRAP_" else str% "GDO_RAWPTR_")⟩, ⟨false, .punct (str% "##")⟩, ⟨false, .ident (str% "x")⟩]⟩

def headerTest (D : Str → Bool) (r : Option (Table × List Cc.Cond)) : Bool :=
  r = some ([(str% "GDO_FUNC_ALIAS", some (aliasMacro (wraps D)))], nested (headerActive D) (!D (str% "GDO_WRAP_VISIBILITY")))

def bodyTest (D : Str → Bool) (r : Option (Table × List Cc.Cond)) : Bool := r = some ([], nested (bodyActive D) (!D (str% "GDO_WRAP_IS_VISIBLE")))

theorem headerTest_congr (D D' : Str → Bool) (r : Option (Table × List Cc.Cond)) (h : ∀ x ∈ aliasTested, D x = D' x) : headerTest D r = headerTest D' r := by
  unfold headerTest wraps headerActive
  rw [h (str% "GDO_WRAP_FUNCTIONS") (by decide), h (str% "GDO_ENABLE_AUTOLOAD") (by decide), h (str% "GDO_SEPARATE") (by decide), h (str% "GDO_INCLUDED_IN_BODY") (by decide),
    h (str% "GDO_DISABLE_ALIASING") (by decide), h (str% "GDO_WRAP_VISIBILITY") (by decide)]

theorem bodyTest_congr (D D' : Str → Bool) (r : Option (Table × List Cc.Cond)) (h : ∀ x ∈ aliasTested, D x = D' x) : bodyTest D r = bodyTest D' r := by
  unfold bodyTest bodyActive
  rw [h (str% "GDO_SEPARATE") (by decide), h (str% "GDO_DISABLE_ALIASING") (by decide), h (str% "GDO_WRAP_IS_VISIBLE") (by decide)]

def wl (ls : List Str) : List (List T) := (wholeLines ls).getD []

theorem wl_whole {ls : List Str} (h : (wholeLines ls).isSome = true) : wholeLines ls = some (wl ls) := by
  unfold wl
  cases e : wholeLines ls with
  | none => rw [e] at h; cases h
  | some x => rfl

theorem headerStart_whole : wholeLines headerStart = some (wl headerStart) := wl_whole (by decide +kernel)

theorem bodyStart_whole : wholeLines bodyStart = some (wl bodyStart) := wl_whole (by decide +kernel)

theorem headerStart_check : checkLines aliasTested aliasNames (wl headerStart) headerTest = true := by decide +kernel

theorem bodyStart_check : checkLines aliasTested aliasNames (wl bodyStart) bodyTest = true := by decide +kernel

def line (ts : List PTok) : List T := ts.map fun t => ⟨true, t⟩

theorem run_endif {ls : List Str} {a b : List (List T)} (hp : Prefixes u l) (h : wholeLines ls = some (a ++ [⟨true, .punct (str% "#")⟩, ⟨false, .ident (str% "endif")⟩] :: b))
    (ha : ∀ x ∈ a, x = []) (hb : ∀ x ∈ b, x = []) (inc : List T → Table) (D : Str → Bool) (t : Table) (c : Cc.Cond) (st : List Cc.Cond) (r : Str) :
    run inc D (t, c :: st) (unlines (ls.map (renamedLine u l)) ++ r) = run inc D (t, st) r := by
  have empty : ∀ (s : Table × List Cc.Cond) {x : List (List T)}, (∀ y ∈ x, y = []) → runLines inc D s (x.map (·.map (renT (newName u l)))) = some s := by
    intro s x hx
    induction x with
    | nil => rfl
    | cons y x ih =>
      rw [hx y (by simp)]
      show (some s).bind _ = _
      exact ih fun z hz => hx z (List.mem_cons_of_mem _ hz)
  rw [run_template hp h, List.map_append, List.map_cons, runLines_append, empty _ ha]
  have e : newName u l (str% "endif") = str% "endif" := rfl
  have e1 : runLine inc D (t, c :: st) ((([⟨true, .punct (str% "#")⟩, ⟨false, .ident (str% "endif")⟩] : List T)).map (renT (newName u l))) = some (t, st) := by
    simp only [List.map_cons, List.map_nil, renT, renTok, e]
    rfl
  simp only [Option.bind_some]
  rw [runLines, e1]
  show (runLines inc D (t, st) _).bind _ = _
  rw [empty _ hb]
  rfl

def symbolOf (p : Proto) : Str := p.symbol

/-- The definitions behind the end of the header. -/
def headerTable (u : Str) (D : Str → Bool) (f : Str → Str) (protos objs : List Proto) : Table :=
  (if headerActive (fun w => D (f w)) then defs symbolOf (objectBody u) objs else []) ++
    ((if headerActive (fun w => D (f w)) && !D (f (str% "GDO_WRAP_VISIBILITY")) then defs symbolOf (aliasBody u) protos else []) ++
      [(f (str% "GDO_FUNC_ALIAS"), some (renMacro f (aliasMacro (wraps fun w => D (f w)))))])

theorem active_nested (a b : Bool) : Cc.active (nested a b) = (a && b) := by cases a <;> cases b <;> rfl

theorem run_header (hp : Prefixes u l) {protos objs : List Proto} (h1 : ∀ p ∈ protos, Identifier p.symbol) (h2 : ∀ p ∈ objs, Identifier p.symbol)
    (inc : List T → Table) (D : Str → Bool) (t : Table) (b : Str) :
    run inc D (t, []) (unlines (((texts .cHeader).drop 241).flatMap (written u l protos objs)) ++ b) =
      run inc D (headerTable u (isDefined D t) (newName u l) protos objs ++ t, []) b := by
  have plain : ∀ {ls : List Str}, plainText ls = true → ls.flatMap (written u l protos objs) = ls.map (renamedLine u l) := fun h => written_lines hp protos objs h
  rw [header_tail]
  simp only [List.flatMap_append, List.flatMap_cons, written_alias, written_objectLine, unlines_append, List.append_assoc]
  rw [plain (ls := headerStart) (by decide +kernel), plain (ls := middleLines) (by decide +kernel), plain (ls := headerEnd) (by decide +kernel)]
  rw [run_template hp headerStart_whole]
  obtain ⟨c1, c2⟩ := checkLines_spec headerStart_check headerTest_congr (fun w => isDefined D t (newName u l w))
  have c3 := (runLines_ren (u := u) (l := l) (apart_inj aliasNames_apart) inc (fun _ => []) (isDefined D t) c1 (t := []) (fun _ h => nomatch h) []).1
  have c2 := of_decide_eq_true (show decide _ = true from c2)
  rw [c2] at c3
  rw [runLines_start, show (([], []) : Table × List Cc.Cond) = (renTable (newName u l) [], []) from rfl, c3]
  simp only [Option.map_some, Option.bind_some]
  rw [run_defLines (text := aliasText (width protos) u) (name := symbolOf) (body := aliasBody u) fun p hp' => defLine_alias hp (h1 p hp') _, active_nested]
  unfold nested
  rw [run_endif hp (ls := middleLines) (a := []) (b := [[], []]) (by decide +kernel) (by simp) (by simp)]
  rw [run_defLines (text := objectText (width objs) u) (name := symbolOf) (body := objectBody u) fun p hp' => defLine_object hp (h2 p hp') _]
  rw [run_endif hp (ls := headerEnd) (a := [[]]) (b := [[]]) (by decide +kernel) (by simp) (by simp)]
  simp only [headerTable, List.append_assoc]
  congr 2
  cases headerActive (fun w => isDefined D t (newName u l w)) <;> rfl

/-- The definitions behind the end of the body. -/
def bodyTable (u : Str) (D : Str → Bool) (f : Str → Str) (protos objs : List Proto) : Table :=
  (f (str% "GDO_SNPRINTF"), none) :: (f (str% "GDO_SET_LAST_ERRNO"), none) ::
  ((if bodyActive (fun w => D (f w)) then defs symbolOf (objectBody u) objs else []) ++
    (if bodyActive (fun w => D (f w)) && !D (f (str% "GDO_WRAP_IS_VISIBLE")) then defs symbolOf (aliasBody u) protos else []))

theorem run_body (hp : Prefixes u l) {protos objs : List Proto} (h1 : ∀ p ∈ protos, Identifier p.symbol) (h2 : ∀ p ∈ objs, Identifier p.symbol)
    (inc : List T → Table) (D : Str → Bool) (t : Table) (b : Str) :
    run inc D (t, []) (unlines (((texts .cBody).drop 947).flatMap (written u l protos objs)) ++ b) =
      run inc D (bodyTable u (isDefined D t) (newName u l) protos objs ++ t, []) b := by
  have plain : ∀ {ls : List Str}, plainText ls = true → ls.flatMap (written u l protos objs) = ls.map (renamedLine u l) := fun h => written_lines hp protos objs h
  rw [body_tail]
  simp only [List.flatMap_append, List.flatMap_cons, written_alias, written_objectLine, unlines_append, List.append_assoc]
  rw [plain (ls := bodyStart) (by decide +kernel), plain (ls := middleLines') (by decide +kernel), plain (ls := bodyEnd) (by decide +kernel)]
  rw [run_template hp bodyStart_whole]
  obtain ⟨c1, c2⟩ := checkLines_spec bodyStart_check bodyTest_congr (fun w => isDefined D t (newName u l w))
  have c3 := (runLines_ren (u := u) (l := l) (apart_inj aliasNames_apart) inc (fun _ => []) (isDefined D t) c1 (t := []) (fun _ h => nomatch h) []).1
  have c2 := of_decide_eq_true (show decide _ = true from c2)
  rw [c2] at c3
  rw [runLines_start, show (([], []) : Table × List Cc.Cond) = (renTable (newName u l) [], []) from rfl, c3]
  simp only [Option.map_some, Option.bind_some]
  rw [run_defLines (text := aliasText (width protos) u) (name := symbolOf) (body := aliasBody u) fun p hp' => defLine_alias hp (h1 p hp') _, active_nested]
  unfold nested
  rw [run_endif hp (ls := middleLines') (a := []) (b := [[], []]) (by decide +kernel) (by simp) (by simp)]
  rw [run_defLines (text := objectText (width objs) u) (name := symbolOf) (body := objectBody u) fun p hp' => defLine_object hp (h2 p hp') _]
  rw [show bodyEnd = [str% "", str% "#endif //!GDO_SEPARATE", str% ""] ++ [str% "#undef GDO_SET_LAST_ERRNO", str% "#undef GDO_SNPRINTF", str% ""] from rfl, List.map_append, unlines_append,
    List.append_assoc, run_endif hp (ls := [str% "", str% "#endif //!GDO_SEPARATE", str% ""]) (a := [[]]) (b := [[]]) (by decide +kernel) (by simp) (by simp)]
  rw [run_template hp (ls := [str% "#undef GDO_SET_LAST_ERRNO", str% "#undef GDO_SNPRINTF", str% ""])
    (lns := [[⟨true, .punct (str% "#")⟩, ⟨false, .ident (str% "undef")⟩, ⟨true, .ident (str% "GDO_SET_LAST_ERRNO")⟩],
      [⟨true, .punct (str% "#")⟩, ⟨false, .ident (str% "undef")⟩, ⟨true, .ident (str% "GDO_SNPRINTF")⟩], []]) (by decide +kernel)]
  have eu : newName u l (str% "undef") = str% "undef" := rfl
  have undef : ∀ (t : Table) (x : Str), runLine inc D (t, []) (([⟨true, .punct (str% "#")⟩, ⟨false, .ident (str% "undef")⟩, ⟨true, .ident x⟩] : List T).map (renT (newName u l))) =
      some ((newName u l x, none) :: t, []) := by
    intro t x
    simp only [List.map_cons, List.map_nil, renT, renTok, eu]
    rfl
  simp only [List.map_cons, List.map_nil] at undef ⊢
  rw [runLines, undef]
  simp only [Option.bind_some]
  rw [runLines, undef]
  simp only [Option.bind_some]
  rw [runLines]
  show (runLines inc D (_, []) []).bind _ = _
  rw [runLines]
  simp only [Option.bind_some, bodyTable, List.append_assoc, List.cons_append]
  congr 2
  cases bodyActive (fun w => isDefined D t (newName u l w)) <;> rfl

def rawName (u : Str) (p : Proto) : Str := u ++ str% "_RAWPTR_" ++ p.symbol

/-- The definitions for pointers. -/
theorem run_raw (hp : Prefixes u l) {protos objs : List Proto} (h1 : ∀ p ∈ protos, Identifier p.symbol) (h2 : ∀ p ∈ objs, Identifier p.symbol)
    (inc : List T → Table) (D : Str → Bool) (t : Table) (b : Str) :
    run inc D (t, []) (unlines ((((texts .cHeader).drop 179).take 2).flatMap (written u l protos objs)) ++ b) =
      run inc D (defs (rawName u) (rawBody u l) (protos ++ objs) ++ t, []) b := by
  rw [raw_lines, written_raw, unlines_append, List.append_assoc]
  rw [run_defLines (text := rawText (width protos) u l) (name := rawName u) (body := rawBody u l) fun p hp' => defLine_raw hp (h1 p hp') _,
    run_defLines (text := rawText (width objs) u l) (name := rawName u) (body := rawBody u l) fun p hp' => defLine_raw hp (h2 p hp') _]
  simp only [show Cc.active [] = true from rfl, if_true, defs, List.map_append, List.reverse_append, List.append_assoc]

end Gdo.Cpp
