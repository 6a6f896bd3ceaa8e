import Verif.Lemmas.CMacroText
import Verif.Props.GenerateText

/-!
Lemmas: the definitions of the default library, and what they stand for.
-/

set_option maxRecDepth 20000

namespace Gdo.Cpp
open Gdo Rename Tmpl Builtin

/-! ### Tokens -/

/-- An identifier. -/
structure WordText (w : Str) : Prop where
  ne : w ≠ []
  word : ∀ c ∈ w, isWord c = true
  head : startsDigit w = false

theorem prefix_word {u l : Str} (hp : Prefixes u l) {s : Str} (hs : ∀ c ∈ s, isWord c = true) : WordText (u ++ s) := by
  refine ⟨by simp [hp.upper_ne], fun c hc => ?_, ?_⟩
  · rcases List.mem_append.mp hc with h | h
    · exact hp.upper c h
    · exact hs c h
  · have h1 := hp.upper_head
    have h2 := hp.upper_ne
    cases u with
    | nil => exact absurd rfl h2
    | cons c u => exact h1

theorem pieces_word {w : Str} (h : WordText w) : pieces w = [.word w] := by
  have := pieces_words h.word h.ne (s := []) (fun v r e => nomatch e)
  simpa [pieces] using this

/-- An identifier and a character that ends it. -/
theorem lex_word {w : Str} (h : WordText w) (sp : Bool) {c : Char} (hc : isWord c = false) (h1 : c ≠ '"') (h2 : c ≠ '\'') (r : Str) :
    lex (.gap sp) (pieces (w ++ c :: r)) =
      (lex (begin false (.other c)).1 (pieces r)).map fun a => (a.1, ⟨sp, .ident w⟩ :: (begin false (.other c)).2 ++ a.2) := by
  rw [pieces_sep w hc, pieces_word h]
  have hb : begin sp (.word w) = (.word sp w, []) := by
    rw [begin, if_neg (by simp [h.head])]
  have hs : step (.word sp w) (.other c) = some ((begin false (.other c)).1, ⟨sp, .ident w⟩ :: (begin false (.other c)).2) := by
    rw [step, if_neg (by simp [h1]), if_neg (by simp [h2]), next]
  rw [List.singleton_append, lex, step, hb]
  simp only [Option.bind_some]
  rw [lex, hs]
  simp only [Option.bind_some]
  cases lex (begin false (.other c)).1 (pieces r) <;> simp

variable {Q : Str → Prop}

/-- The use of a macro with two arguments. -/
theorem lex_call {w : Str} (h : WordText w) {a b : Str} (ha : NameText a) (hb : NameText b) (hQa : ∀ w, .word w ∈ pieces a → Q w)
    (hQb : ∀ w, .word w ∈ pieces b → Q w) (sp : Bool) :
    ∃ ta tb, lex (.gap sp) (pieces (w ++ '(' :: (a ++ ',' :: (b ++ [')'])))) =
        some (.punct false [')'], ⟨sp, .ident w⟩ :: punctT false (str% "(") :: (ta ++ punctT false (str% ",") :: tb)) ∧
      Tight Q ta ∧ Tight Q tb ∧ spelled ta = a ∧ spelled tb = b := by
  obtain ⟨ta, e1, e2, e3⟩ := lex_name (Q := Q) ha hQa (o := '(') (c := ',') (.inl rfl) (.inl rfl) false
  obtain ⟨tb, e4, e5, e6⟩ := lex_name (Q := Q) hb hQb (o := ',') (c := ')') (.inr rfl) (.inr rfl) false
  refine ⟨ta, tb, ?_, e2, e5, e3, e6⟩
  rw [lex_word h sp (by decide) (by decide) (by decide), pieces_sep a (by decide), pieces_sep b (by decide)]
  have e : pieces a ++ .other ',' :: (pieces b ++ .other ')' :: pieces []) = (pieces a ++ [.other ',']) ++ (pieces b ++ [.other ')']) := by simp [pieces]
  rw [e, lex_append]
  have hb : begin false (.other '(') = (.punct false ['('], []) := rfl
  rw [hb]
  simp only
  rw [e1, Option.bind_some]
  simp only
  rw [e4]
  simp [punctT]

/-- The tokens of a text that a line ends with. -/
def LineOf (x : Str) (ts : List T) : Prop :=
  ∃ st a fl, lex (.gap true) (pieces x) = some (st, a) ∧ step st (.other '\n') = some (.gap true, fl ++ [nlT]) ∧ ts = a ++ fl

theorem line_call {w : Str} (h : WordText w) {a b : Str} (ha : NameText a) (hb : NameText b) (hQa : ∀ w, .word w ∈ pieces a → Q w)
    (hQb : ∀ w, .word w ∈ pieces b → Q w) :
    ∃ ta tb, LineOf (w ++ '(' :: (a ++ ',' :: (b ++ [')'])))
        (⟨true, .ident w⟩ :: punctT false (str% "(") :: (ta ++ punctT false (str% ",") :: (tb ++ [punctT false (str% ")")]))) ∧
      Tight Q ta ∧ Tight Q tb ∧ spelled ta = a ∧ spelled tb = b := by
  obtain ⟨ta, tb, e, e1, e2, e3, e4⟩ := lex_call h ha hb hQa hQb true
  refine ⟨ta, tb, ⟨_, _, [punctT false (str% ")")], e, rfl, by simp⟩, e1, e2, e3, e4⟩

theorem tokens_call {w : Str} (h : WordText w) {a b : Str} (ha : NameText a) (hb : NameText b) (hQa : ∀ w, .word w ∈ pieces a → Q w)
    (hQb : ∀ w, .word w ∈ pieces b → Q w) :
    ∃ ta tb, tokens (w ++ '(' :: (a ++ ',' :: (b ++ [')']))) =
        some (⟨true, .ident w⟩ :: punctT false (str% "(") :: (ta ++ punctT false (str% ",") :: (tb ++ [punctT false (str% ")")]))) ∧
      Tight Q ta ∧ Tight Q tb ∧ spelled ta = a ∧ spelled tb = b := by
  obtain ⟨ta, tb, e, e1, e2, e3, e4⟩ := lex_call h ha hb hQa hQb true
  refine ⟨ta, tb, ?_, e1, e2, e3, e4⟩
  unfold tokens
  rw [e]
  simp [flush, punctT]

/-- A string literal with the letters in front of it. -/
theorem lex_literal {s : Str} (h : LiteralText s) (r : Str) :
    lex (.gap true) (pieces (str% "\"" ++ s ++ '"' :: r)) = (lex (.gap false) (pieces r)).map fun a => (a.1, ⟨true, .str [] s⟩ :: a.2) := by
  have e : str% "\"" ++ s ++ '"' :: r = [] ++ '"' :: (s ++ '"' :: r) := by simp
  rw [e, pieces_sep [] (by decide), pieces_sep s (by decide)]
  show lex (.gap true) (.other '"' :: (pieces s ++ .other '"' :: pieces r)) = _
  rw [lex]
  show (lex (.str true [] []) (pieces s ++ .other '"' :: pieces r)).map _ = _
  rw [lex_append, lex_str (fun c hc => ⟨(h c hc).1, (h c hc).2.1, (h c hc).2.2.1⟩)]
  simp only [Option.bind_some, lex, step]
  rw [if_pos trivial]
  simp only [Option.bind_some]
  cases lex (.gap false) (pieces r) <;> simp [begin, startsDigit]

theorem lex_wideLiteral {s : Str} (h : LiteralText s) (r : Str) :
    lex (.gap true) (pieces (str% "L\"" ++ s ++ '"' :: r)) = (lex (.gap false) (pieces r)).map fun a => (a.1, ⟨true, .str (str% "L") s⟩ :: a.2) := by
  have e : str% "L\"" ++ s ++ '"' :: r = str% "L" ++ '"' :: (s ++ '"' :: r) := by simp
  rw [e, pieces_sep _ (by decide), pieces_sep s (by decide)]
  show lex (.gap true) (.word (str% "L") :: .other '"' :: (pieces s ++ .other '"' :: pieces r)) = _
  rw [lex]
  show (lex (.word true (str% "L")) (.other '"' :: (pieces s ++ .other '"' :: pieces r))).map _ = _
  rw [lex]
  show ((lex (.str true (str% "L") []) (pieces s ++ .other '"' :: pieces r)).map _).map _ = _
  rw [lex_append, lex_str (fun c hc => ⟨(h c hc).1, (h c hc).2.1, (h c hc).2.2.1⟩)]
  simp only [Option.bind_some, lex, step]
  rw [if_pos trivial]
  simp only [Option.bind_some]
  cases lex (.gap false) (pieces r) <;> simp [begin, startsDigit]

theorem line_literal {s : Str} (h : LiteralText s) : LineOf (str% "\"" ++ s ++ str% "\"") [⟨true, .str [] s⟩] := by
  refine ⟨.gap false, [⟨true, .str [] s⟩], [], ?_, rfl, rfl⟩
  exact lex_literal h []

theorem line_wideLiteral {s : Str} (h : LiteralText s) : LineOf (str% "L\"" ++ s ++ str% "\"") [⟨true, .str (str% "L") s⟩] := by
  refine ⟨.gap false, [⟨true, .str (str% "L") s⟩], [], ?_, rfl, rfl⟩
  exact lex_wideLiteral h []

theorem lex_last {w : Str} (h : WordText w) : lex (.gap false) (pieces (' ' :: w)) = some (.word true w, []) := by
  have := pieces_sep [] (c := ' ') (by decide) w
  rw [show ' ' :: w = [] ++ ' ' :: w from rfl, this, pieces_word h]
  show lex (.gap false) [.other ' ', .word w] = _
  simp [lex, step, begin, h.head]

theorem step_word_nl {w : Str} : step (.word true w) (.other '\n') = some (.gap true, [⟨true, .ident w⟩] ++ [nlT]) := by
  simp only [step]
  rw [if_neg (by simp), if_neg (by simp)]
  rfl

theorem line_extension {s : Str} (h : LiteralText s) {w : Str} (hw : WordText w) :
    LineOf (str% "\"" ++ s ++ str% "\"" ++ ' ' :: w) [⟨true, .str [] s⟩, ⟨true, .ident w⟩] := by
  refine ⟨.word true w, [⟨true, .str [] s⟩], [⟨true, .ident w⟩], ?_, step_word_nl, rfl⟩
  have e : str% "\"" ++ s ++ str% "\"" ++ ' ' :: w = str% "\"" ++ s ++ '"' :: (' ' :: w) := by simp
  rw [e, lex_literal h, lex_last hw]
  rfl

theorem line_wideExtension {s : Str} (h : LiteralText s) {w : Str} (hw : WordText w) :
    LineOf (str% "L\"" ++ s ++ str% "\"" ++ ' ' :: w) [⟨true, .str (str% "L") s⟩, ⟨true, .ident w⟩] := by
  refine ⟨.word true w, [⟨true, .str (str% "L") s⟩], [⟨true, .ident w⟩], ?_, step_word_nl, rfl⟩
  have e : str% "L\"" ++ s ++ str% "\"" ++ ' ' :: w = str% "L\"" ++ s ++ '"' :: (' ' :: w) := by simp
  rw [e, lex_wideLiteral h, lex_last hw]
  rfl

/-! ### Definitions -/

theorem lex_define {w : Str} (h : WordText w) (r : Str) :
    lex (.gap true) (pieces (str% "#define " ++ w ++ ' ' :: r)) = (lex (.gap true) (pieces r)).map fun a =>
      (a.1, ⟨true, .punct (str% "#")⟩ :: ⟨false, .ident (str% "define")⟩ :: ⟨true, .ident w⟩ :: a.2) := by
  have e : str% "#define " ++ w ++ ' ' :: r = str% "#define" ++ ' ' :: (w ++ ' ' :: r) := by simp
  rw [e, pieces_sep _ (by decide)]
  show lex (.gap true) (.other '#' :: .word (str% "define") :: .other ' ' :: pieces (w ++ ' ' :: r)) = _
  rw [lex]
  show (lex (.punct true ['#']) (.word (str% "define") :: .other ' ' :: pieces (w ++ ' ' :: r))).map _ = _
  rw [lex]
  show ((lex (.word false (str% "define")) (.other ' ' :: pieces (w ++ ' ' :: r))).map _).map _ = _
  rw [lex]
  show (((lex (.gap true) (pieces (w ++ ' ' :: r))).map _).map _).map _ = _
  rw [lex_word h true (by decide) (by decide) (by decide)]
  show ((((lex (.gap true) (pieces r)).map _).map _).map _).map _ = _
  cases lex (.gap true) (pieces r) <;> rfl

theorem whole_define {w : Str} (h : WordText w) {x : Str} {ts : List T} (hx : LineOf x ts) :
    Whole (str% "#define " ++ w ++ ' ' :: (x ++ ['\n'])) (⟨true, .punct (str% "#")⟩ :: ⟨false, .ident (str% "define")⟩ :: ⟨true, .ident w⟩ :: ts) := by
  obtain ⟨st, a, fl, h1, h2, rfl⟩ := hx
  refine ⟨?_, str% "#define " ++ w ++ ' ' :: x, by simp⟩
  rw [lex_define h, pieces_sep x (by decide), show pieces [] = [] from rfl, lex_append, h1]
  simp only [Option.bind_some, lex]
  rw [h2]
  simp

theorem splitLines_one {ts : List T} (h : ∀ t ∈ ts, t.tok ≠ .nl) : splitLines ts = [ts] := by
  induction ts with
  | nil => rfl
  | cons t r ih =>
    rw [splitLines, if_neg (h t (by simp)), ih fun x hx => h x (List.mem_cons_of_mem _ hx)]

/-- A line that defines a macro without parameters. -/
theorem run_define {w : Str} (h : WordText w) {x : Str} {ts : List T} (hx : LineOf x ts) (hnl : ∀ t ∈ ts, t.tok ≠ .nl) (hsp : ∀ t, ts.head? = some t → t.sp = true)
    (inc : List T → Table) (D : Str → Bool) (t : Table) (b : Str) :
    run inc D (t, []) (str% "#define " ++ w ++ ' ' :: (x ++ '\n' :: b)) = run inc D ((w, some ⟨none, false, ts⟩) :: t, []) b := by
  have e : str% "#define " ++ w ++ ' ' :: (x ++ '\n' :: b) = (str% "#define " ++ w ++ ' ' :: (x ++ ['\n'])) ++ b := by simp
  rw [e, run_whole (whole_define h hx), splitLines_one]
  · have hd : definition (⟨true, .ident w⟩ :: ts) = some (w, ⟨none, false, ts⟩) := by
      cases ts with
      | nil => rfl
      | cons y r =>
        obtain ⟨sp, y⟩ := y
        have : sp = true := hsp _ rfl
        subst this
        simp [definition]
    have : runLine inc D (t, []) (⟨true, .punct (str% "#")⟩ :: ⟨false, .ident (str% "define")⟩ :: ⟨true, .ident w⟩ :: ts) =
        some ((w, some ⟨none, false, ts⟩) :: t, []) := by
      simp only [runLine]
      rw [if_pos trivial]
      simp only [runDirective]
      rw [if_neg (by decide), if_pos (show Cc.active [] = true from rfl)]
      unfold action
      rw [if_pos rfl, hd]
      rfl
    simp only [runLines, this, Option.bind_some]
  · intro x hx
    rcases List.mem_cons.mp hx with rfl | hx
    · simp
    rcases List.mem_cons.mp hx with rfl | hx
    · simp
    rcases List.mem_cons.mp hx with rfl | hx
    · simp
    · exact hnl x hx

/-! ### What names stand for -/

theorem yields_step {E : Str → Option Macro} {ts ts' : List H} {wide : Bool} {s : Str} (h : ∀ n, expand E (n + 1) ts = expand E n ts') (hy : Yields E ts' wide s) :
    Yields E ts wide s := by
  obtain ⟨N, hN⟩ := hy
  refine ⟨N + 1, fun n hn => ?_⟩
  obtain ⟨m, rfl⟩ : ∃ m, n = m + 1 := ⟨n - 1, by omega⟩
  rw [h m]
  exact hN m (by omega)

/-- A token in front that stays. -/
theorem yields_cons {E : Str → Option Macro} {hs : List Str} {sp : Bool} {e x s : Str} {ts : List H} {wide : Bool} (he : e = [] ∨ e = str% "L") (hy : Yields E ts wide s) :
    Yields E (⟨hs, sp, .str e x⟩ :: ts) (wide || e = str% "L") (x ++ s) := by
  obtain ⟨N, hN⟩ := hy
  refine ⟨N + 1, fun n hn => ?_⟩
  obtain ⟨m, rfl⟩ : ∃ m, n = m + 1 := ⟨n - 1, by omega⟩
  obtain ⟨out, h1, h2, h3⟩ := hN m (by omega)
  rw [expand_cons (fun w h => by cases h), h1]
  refine ⟨_, rfl, by simp, ?_⟩
  rw [literal]
  simp only []
  rcases he with rfl | rfl
  · rw [if_pos rfl, h3]
    simp
  · rw [if_neg (by simp), if_pos rfl, h3]
    simp

theorem yields_literal (E : Str → Option Macro) (hs : List Str) (sp : Bool) {e : Str} (he : e = [] ∨ e = str% "L") (x : Str) :
    Yields E [⟨hs, sp, .str e x⟩] (e = str% "L") x := by
  refine ⟨2, fun n hn => ?_⟩
  rw [expand_inert (fun t ht => by cases List.mem_singleton.mp ht; intro w h; cases h) (by simp; omega)]
  refine ⟨_, rfl, by simp, ?_⟩
  rcases he with rfl | rfl
  · simp [literal]
  · simp [literal]

/-- A macro that stands for another name. -/
theorem yields_name {E : Str → Option Macro} {x y : Str} {hs : List Str} {va : Bool} (hx : x ∉ hs) (he : E x = some ⟨none, va, [⟨true, .ident y⟩]⟩) {wide : Bool} {s : Str}
    (hy : Yields E [⟨x :: hs, true, .ident y⟩] wide s) : Yields E [⟨hs, true, .ident x⟩] wide s := by
  refine yields_step (fun n => ?_) hy
  rw [expand_object hx he (by simp)]
  simp [withSpace, painted, toH]

/-- A macro without parameters. -/
theorem yields_object {E : Str → Option Macro} {x : Str} {hs : List Str} {va : Bool} {body : List T} (hx : x ∉ hs) (he : E x = some ⟨none, va, body⟩)
    (hb : ∀ t ∈ body, t.tok ≠ .punct (str% "##")) {wide : Bool} {s : Str} (hy : Yields E (withSpace true (painted (x :: hs) (body.map toH))) wide s) :
    Yields E [⟨hs, true, .ident x⟩] wide s := by
  refine yields_step (fun n => ?_) hy
  rw [expand_object hx he hb, List.append_nil]

/-! ### The default library -/

/-- Macro names of the file name macros. -/
def helperNames (u : Str) : List Str := [u ++ str% "_LIBEXTA", u ++ str% "_LIBEXTW", u ++ str% "_LIBNAMEA", u ++ str% "_LIBNAMEW"]

/-- What the tokens stand for, coming from other macros than those. -/
def BodyGives (E : Str → Option Macro) (u : Str) (body : List T) (wide : Bool) (s : Str) : Prop :=
  ∀ hs, (∀ x ∈ hs, x ∉ helperNames u) → Yields E (withSpace true (painted hs (body.map toH))) wide s

/-- Tokens that can be the body of a definition. -/
structure BodyOk (ts : List T) : Prop where
  nl : ∀ t ∈ ts, t.tok ≠ .nl
  paste : ∀ t ∈ ts, t.tok ≠ .punct (str% "##")
  first : ∀ t, ts.head? = some t → t.sp = true

theorem tight_tok {ts : List T} (h : Tight Q ts) : ∀ t ∈ ts, t.tok ≠ .nl ∧ t.tok ≠ .punct (str% "##") := by
  intro t ht
  have := (h t ht).2.1
  constructor <;> intro e <;> rw [e] at this <;> revert this <;> decide

theorem bodyOk_call {ta tb : List T} (ha : Tight Q ta) (hb : Tight Q tb) (w : Str) :
    BodyOk (⟨true, .ident w⟩ :: punctT false (str% "(") :: (ta ++ punctT false (str% ",") :: (tb ++ [punctT false (str% ")")]))) := by
  have key : ∀ t ∈ (⟨true, .ident w⟩ :: punctT false (str% "(") :: (ta ++ punctT false (str% ",") :: (tb ++ [punctT false (str% ")")])) : List T),
      t.tok ≠ .nl ∧ t.tok ≠ .punct (str% "##") := by
    intro t ht
    simp only [List.mem_cons, List.mem_append, List.not_mem_nil, or_false] at ht
    rcases ht with rfl | rfl | ht | rfl | ht | rfl
    · simp
    · simp [punctT]
    · exact tight_tok ha t ht
    · simp [punctT]
    · exact tight_tok hb t ht
    · simp [punctT]
  exact ⟨fun t ht => (key t ht).1, fun t ht => (key t ht).2, fun t ht => by cases ht; rfl⟩

theorem stringify_tight {ts : List T} (h : Tight Q ts) : stringify (ts.map toH) = spelled ts := by
  rw [stringify_plain]
  · simp [spelled, toH, List.flatMap_map]
  · intro t ht
    obtain ⟨x, hx, rfl⟩ := List.mem_map.mp ht
    exact (h x hx).2.1
  · intro t ht
    obtain ⟨x, hx, rfl⟩ := List.mem_map.mp (List.mem_of_mem_tail ht)
    exact (h x hx).1

theorem painted_call (hs : List Str) (w : Str) (ta tb : List T) :
    withSpace true (painted hs ((⟨true, .ident w⟩ :: punctT false (str% "(") :: (ta ++ punctT false (str% ",") :: (tb ++ [punctT false (str% ")")])) : List T).map toH)) =
      ⟨hs, true, .ident w⟩ :: ⟨hs, false, .punct (str% "(")⟩ :: (painted hs (ta.map toH) ++ ⟨hs, false, .punct (str% ",")⟩ ::
        (painted hs (tb.map toH) ++ [⟨hs, false, .punct (str% ")")⟩])) := by
  simp [withSpace, painted, toH, punctT]

variable {E : Str → Option Macro} {u : Str} {sys : System} {wide : Bool}

theorem gives_call (hE : FileMacros E u sys wide) {ta tb : List T} (ha : Tight Q ta) (hb : Tight Q tb) :
    BodyGives E u (⟨true, .ident (u ++ str% "_LIBNAMEA")⟩ :: punctT false (str% "(") :: (ta ++ punctT false (str% ",") :: (tb ++ [punctT false (str% ")")]))) false
      (sys.fileName (spelled ta) (spelled tb)) := by
  intro hs hh
  rw [painted_call]
  refine yields_narrow 7 fun n hn => ?_
  obtain ⟨hs', e⟩ := expand_nameA (n := n) hE (hs := hs) (fun h => hh _ h (by simp [helperNames]))
    (simple_painted (hs := hs) (simple_tight ha toH fun _ => rfl)) (simple_painted (hs := hs) (simple_tight hb toH fun _ => rfl))
    (o := ⟨hs, false, .punct (str% "(")⟩) (c := ⟨hs, false, .punct (str% ",")⟩) (p := ⟨hs, false, .punct (str% ")")⟩) rfl rfl rfl hn
  rw [stringify_painted, stringify_painted, stringify_tight ha, stringify_tight hb] at e
  exact ⟨hs', e⟩

theorem inert_tight {ts : List T} (h : Tight Q ts) (hQ : ∀ w, Q w → E w = none) (hs : List Str) : ∀ t ∈ painted hs (ts.map toH), Inert E t := by
  intro t ht w hw
  obtain ⟨y, hy, rfl⟩ := List.mem_map.mp ht
  obtain ⟨x, hx, rfl⟩ := List.mem_map.mp hy
  exact .inr (hQ w ((h x hx).2.2 w hw))

theorem gives_wideCall (hE : FileMacros E u sys wide) {ta tb : List T} (ha : Tight Q ta) (hb : Tight Q tb) (hQ : ∀ w, Q w → E w = none) :
    BodyGives E u (⟨true, .ident (u ++ str% "_LIBNAMEW")⟩ :: punctT false (str% "(") :: (ta ++ punctT false (str% ",") :: (tb ++ [punctT false (str% ")")]))) true
      (sys.fileName (spelled ta) (spelled tb)) := by
  intro hs hh
  rw [painted_call]
  refine yields_wide (ta.length + tb.length + 9) fun n hn => ?_
  obtain ⟨hs', hs'', e⟩ := expand_nameW (n := n) hE (hs := hs) (fun h => hh _ h (by simp [helperNames])) (fun h => hh _ h (by simp [helperNames]))
    (simple_painted (hs := hs) (simple_tight ha toH fun _ => rfl)) (simple_painted (hs := hs) (simple_tight hb toH fun _ => rfl))
    (inert_tight ha hQ hs) (inert_tight hb hQ hs)
    (o := ⟨hs, false, .punct (str% "(")⟩) (c := ⟨hs, false, .punct (str% ",")⟩) (p := ⟨hs, false, .punct (str% ")")⟩) rfl rfl rfl (by simpa [painted] using hn)
  rw [stringify_painted, stringify_painted, stringify_tight ha, stringify_tight hb] at e
  exact ⟨hs', hs'', e⟩

theorem gives_literal (E : Str → Option Macro) (u : Str) {e : Str} (he : e = [] ∨ e = str% "L") (x : Str) : BodyGives E u [⟨true, .str e x⟩] (e = str% "L") x :=
  fun hs _ => yields_literal E (hs ++ []) true he x

/-- The extension, coming from other macros. -/
theorem yields_extA (hE : FileMacros E u sys wide) {hs : List Str} (h : u ++ str% "_LIBEXTA" ∉ hs) :
    Yields E [⟨hs, true, .ident (u ++ str% "_LIBEXTA")⟩] false sys.extension := by
  refine yields_object h hE.extA (by simp [strLit]) ?_
  have := yields_literal E (((u ++ str% "_LIBEXTA") :: hs) ++ []) true (.inl rfl) sys.extension
  simpa [withSpace, painted, toH, strLit] using this

theorem yields_extW (hE : FileMacros E u sys wide) {hs : List Str} (h : u ++ str% "_LIBEXTA" ∉ hs) (h' : u ++ str% "_LIBEXTW" ∉ hs) :
    Yields E [⟨hs, true, .ident (u ++ str% "_LIBEXTW")⟩] true sys.extension := by
  refine yields_object h' hE.extW (by simp [wideLit]) ?_
  have h1 := yields_extA hE (hs := (u ++ str% "_LIBEXTW") :: hs) (by
    intro hm
    rcases List.mem_cons.mp hm with e | hm
    · exact suffix_ne (u := u) (by decide) e
    · exact h hm)
  have := yields_cons (hs := (u ++ str% "_LIBEXTW") :: hs) (sp := true) (e := str% "L") (x := []) (.inr rfl) h1
  simpa [withSpace, painted, toH, wideLit] using this

theorem gives_extension (hE : FileMacros E u sys wide) (x : Str) :
    BodyGives E u [⟨true, .str [] x⟩, ⟨true, .ident (u ++ str% "_LIBEXTA")⟩] false (x ++ sys.extension) := by
  intro hs hh
  have h1 := yields_extA hE (hs := hs) (fun h => hh _ h (by simp [helperNames]))
  have := yields_cons (hs := hs) (sp := true) (e := []) (x := x) (.inl rfl) h1
  simpa [withSpace, painted, toH] using this

theorem gives_wideExtension (hE : FileMacros E u sys wide) (x : Str) :
    BodyGives E u [⟨true, .str (str% "L") x⟩, ⟨true, .ident (u ++ str% "_LIBEXTW")⟩] true (x ++ sys.extension) := by
  intro hs hh
  have h1 := yields_extW hE (hs := hs) (fun h => hh _ h (by simp [helperNames])) (fun h => hh _ h (by simp [helperNames]))
  have := yields_cons (hs := hs) (sp := true) (e := str% "L") (x := x) (.inr rfl) h1
  simpa [withSpace, painted, toH] using this

open GenSpec Gen in
/-- The definitions of the default library: their lines, tokens and meaning. -/
theorem opens_bodies {l : Str} (hp : Prefixes u l) {lib f t : Str} (h : Opens sys lib f t) :
    ∃ a w tsA tsW, formatLibname lib u = libraryDefines u a w ∧ LineOf a tsA ∧ LineOf w tsW ∧ BodyOk tsA ∧ BodyOk tsW ∧
      (∀ E wide, FileMacros E u sys wide → BodyGives E u tsA false f) ∧
      ∀ E wide, FileMacros E u sys wide → NoWords E t → BodyGives E u tsW true f := by
  have hq : ∀ {s : Str}, LiteralText s → ¬ Quoted s ∧ ¬ WideQuoted s := by
    intro s hs
    constructor
    · rintro ⟨x, rfl⟩
      exact (hs '"' (by simp)).1 rfl
    · rintro ⟨x, rfl⟩
      exact (hs '"' (by simp)).1 rfl
  have one : ∀ e x : Str, BodyOk [⟨true, .str e x⟩] := fun e x => ⟨by simp, by simp, fun t h => by cases h; rfl⟩
  have two : ∀ e x w : Str, BodyOk [⟨true, .str e x⟩, ⟨true, .ident w⟩] := fun e x w => ⟨by simp, by simp, fun t h => by cases h; rfl⟩
  have mode : ∀ {s md : Str} {c : Char}, (∀ d r, s = d :: r → d ∉ str% "NnEeAa") → md.head? = some c → c ∈ str% "nea" → ¬ HasMode md s := by
    intro s md c h1 h2 h3 hm
    cases md with
    | nil => cases h2
    | cons d ms =>
      cases h2
      obtain ⟨d, r, e, hd⟩ := mode_head rfl hm
      have := h1 d r e
      simp only [List.mem_cons, List.not_mem_nil, or_false, not_or] at this h3
      rcases h3 with rfl | rfl | rfl
      · rcases (lower_iff d).1.mp hd with rfl | rfl <;> simp at this
      · rcases (lower_iff d).2.1.mp hd with rfl | rfl <;> simp at this
      · rcases (lower_iff d).2.2.mp hd with rfl | rfl <;> simp at this
  have letter : ∀ {s : Str}, (∀ d r, s = d :: r → d ∉ str% "NnEeAa") → ∀ c r, s = c :: r → ¬ ModeLetter c := by
    intro s h c r e hm
    have := h c r e
    unfold ModeLetter at hm
    simp only [List.mem_cons, List.not_mem_nil, or_false, not_or] at this
    rcases hm with rfl | rfl | rfl | rfl | rfl | rfl <;> simp at this
  have hr : ∀ {s : Str}, LiteralText s → ∀ c ∈ s, c ≠ '\n' ∧ c ≠ '\r' := fun h c hc => (h c hc).2.2
  have mapped : ∀ {m md : Str}, m.map toLowerC = md → (∀ c ∈ md, c ≠ '\n' ∧ c ≠ '\r') → ∀ c ∈ m, c ≠ '\n' ∧ c ≠ '\r' := by
    intro m md hm h c hc
    have := h (toLowerC c) (hm ▸ List.mem_map.mpr ⟨c, hc, rfl⟩)
    constructor
    · rintro rfl; exact this.1 rfl
    · rintro rfl; exact this.2 rfl
  have hname : ∀ {s : Str}, NameText s → ∀ c ∈ s, c ≠ ':' ∧ c ≠ '\n' ∧ c ≠ '\r' := by
    intro s hs c hc
    rcases hs c hc with h | h
    · refine ⟨?_, ?_, ?_⟩ <;> rintro rfl <;> revert h <;> decide
    · refine ⟨?_, ?_, ?_⟩ <;> rintro rfl <;> revert h <;> decide
  cases h with
  | plain hl hc hne =>
    refine ⟨_, _, _, _, C36_partial u lib _ _ (.plain (mode hc rfl (by simp)) (mode hc rfl (by simp)) (mode hc rfl (by simp)) (.plain (hq hl).1 (hq hl).2)) hne (hr hl)
      (fun c r e hm => absurd hm (letter hc c r e)), line_literal hl, line_wideLiteral hl, one _ _, one _ _, ?_, ?_⟩
    · exact fun E wide _ => by simpa using gives_literal E u (.inl rfl) lib
    · exact fun E wide _ _ => by simpa using gives_literal E u (.inr rfl) lib
  | @quoted s hl =>
    have hc : ∀ d r, str% "\"" ++ f ++ str% "\"" = d :: r → d ∉ str% "NnEeAa" := by
      intro d r e
      cases e
      simp
    refine ⟨_, _, [⟨true, .str [] f⟩], [⟨true, .str (str% "L") f⟩], C36_partial u _ _ _ (.plain (mode hc rfl (by simp)) (mode hc rfl (by simp)) (mode hc rfl (by simp))
      (.quoted ⟨f, rfl⟩)) (by simp) ?_ (fun c r e hm => absurd hm (letter hc c r e)), line_literal hl, line_wideLiteral hl, one _ _, one _ _, ?_, ?_⟩
    · intro c hc
      simp only [List.mem_append, List.mem_singleton] at hc
      rcases hc with (rfl | hc) | rfl
      · decide
      · exact hr hl c hc
      · decide
    · exact fun E wide _ => by simpa using gives_literal E u (.inl rfl) f
    · exact fun E wide _ _ => by simpa using gives_literal E u (.inr rfl) f
  | @extension m s hm hl hne =>
    have hA := prefix_word hp (s := str% "_LIBEXTA") (by decide)
    have hW := prefix_word hp (s := str% "_LIBEXTW") (by decide)
    refine ⟨_, _, [⟨true, .str [] s⟩, ⟨true, .ident (u ++ str% "_LIBEXTA")⟩], [⟨true, .str (str% "L") s⟩, ⟨true, .ident (u ++ str% "_LIBEXTW")⟩],
      C36_partial u _ _ _ (.extension hm hne (.plain (hq hl).1 (hq hl).2)) (by simp [hne]) ?_ ?_, ?_, ?_, two _ _ _, two _ _ _, ?_, ?_⟩
    · intro c hc
      rcases List.mem_append.mp hc with hc | hc
      · exact mapped hm (by decide) c hc
      · exact hr hl c hc
    · exact fun c r e _ => .inr (.inl ⟨m, s, rfl, hm, hne⟩)
    · have := line_extension hl hA
      simpa using this
    · have := line_wideExtension hl hW
      simpa using this
    · exact fun E wide hE => gives_extension hE s
    · exact fun E wide hE _ => gives_wideExtension hE s
  | @api m v s hm hv hs =>
    have hA := prefix_word hp (s := str% "_LIBNAMEA") (by decide)
    have hW := prefix_word hp (s := str% "_LIBNAMEW") (by decide)
    obtain ⟨ta, tb, a1, a2, a3, a4, a5⟩ := line_call (Q := fun w => .word w ∈ pieces (s ++ ',' :: v)) hA hs hv
      (fun w hw => by rw [pieces_sep s (by decide)]; simp [hw]) (fun w hw => by rw [pieces_sep s (by decide)]; simp [hw])
    obtain ⟨ta', tb', b1, b2, b3, b4, b5⟩ := line_call (Q := fun w => .word w ∈ pieces (s ++ ',' :: v)) hW hs hv
      (fun w hw => by rw [pieces_sep s (by decide)]; simp [hw]) (fun w hw => by rw [pieces_sep s (by decide)]; simp [hw])
    refine ⟨_, _, _, _, C36_partial u _ _ _ (.api hm fun h => (hname hv _ h).1 rfl) (by simp) ?_ ?_, ?_, ?_, bodyOk_call a2 a3 (u ++ str% "_LIBNAMEA"),
      bodyOk_call b2 b3 (u ++ str% "_LIBNAMEW"), ?_, ?_⟩
    · intro c hc
      simp only [List.mem_append, List.mem_singleton] at hc
      rcases hc with ((hc | hc) | rfl) | hc
      · exact mapped hm (by decide) c hc
      · exact (hname hv c hc).2
      · decide
      · exact (hname hs c hc).2
    · exact fun c r e _ => .inr (.inr ⟨m, v ++ str% ":" ++ s, by simp, hm, by simp⟩)
    · simpa using a1
    · simpa using b1
    · intro E wide hE
      have := gives_call hE a2 a3
      rw [a4, a5] at this
      exact this
    · intro E wide hE hn
      have := gives_wideCall hE b2 b3 (fun w hw => hn w (by simpa using hw))
      rw [b4, b5] at this
      exact this

end Gdo.Cpp
