import Verif.Lemmas.CMacroActs

/-!
Lemmas: the lines of a template, walked through for the macros that they define.
-/

set_option maxRecDepth 20000

namespace Gdo.Cpp
open Gdo Rename Tmpl Builtin

variable {inc : List T → Table} {X : List Str} {u l : Str}

/-! ### Names with a keyword -/

/-- Stands for the name of a function. -/
def symbolWord : Str := str% "GDO_SYMBOL"

/-- What is in front of the name of the function. -/
def cutSymbol (w : Str) : Option Str :=
  if w = symbolWord then some []
  else if (str% "GDO_").isPrefixOf w && symbolWord.isSuffixOf w && (str% "GDO_").isPrefixOf (w.take (w.length - symbolWord.length)) then
    some (w.take (w.length - symbolWord.length))
  else none

/-- The words with the prefix and with the name of a function. -/
def ren (u l s w : Str) : Str :=
  match cutSymbol w with
  | some p => newName u l p ++ s
  | none => newName u l w

theorem gdo_prefix {w : Str} (h : (str% "GDO_").isPrefixOf w = true) : ∃ x, w = str% "GDO_" ++ x := by
  rw [List.isPrefixOf_iff_prefix] at h
  obtain ⟨x, h⟩ := h
  exact ⟨x, h.symm⟩

theorem newName_gdo (u l x : Str) : newName u l (str% "GDO_" ++ x) = u ++ '_' :: x := by
  unfold newName
  have e : (str% "GDO_").isPrefixOf (str% "GDO_" ++ x) = true := by rw [List.isPrefixOf_iff_prefix]; exact ⟨x, rfl⟩
  rw [if_pos e]
  simp

theorem newName_nil (u l : Str) : newName u l [] = [] := rfl

theorem cut_some {w p : Str} (h : cutSymbol w = some p) : w = symbolWord ∧ p = [] ∨ ∃ x y, w = str% "GDO_" ++ y ∧ p = str% "GDO_" ++ x := by
  unfold cutSymbol at h
  split at h
  · rename_i e
    cases h
    exact .inl ⟨e, rfl⟩
  · split at h
    · rename_i e
      cases h
      simp only [Bool.and_eq_true] at e
      obtain ⟨y, hy⟩ := gdo_prefix e.1.1
      obtain ⟨x, hx⟩ := gdo_prefix e.2
      exact .inr ⟨x, y, hy, hx⟩
    · cases h

theorem cut_word {w : Str} (h : (str% "GDO_").isPrefixOf w = true) : cutSymbol (w ++ symbolWord) = some w := by
  obtain ⟨x, rfl⟩ := gdo_prefix h
  unfold cutSymbol
  have e : (str% "GDO_" ++ x ++ symbolWord).take ((str% "GDO_" ++ x ++ symbolWord).length - symbolWord.length) = str% "GDO_" ++ x := by
    rw [List.length_append, Nat.add_sub_cancel, List.take_left]
  rw [if_neg, e, if_pos]
  · simp only [Bool.and_eq_true, List.isPrefixOf_iff_prefix, List.isSuffixOf_iff_suffix]
    exact ⟨⟨⟨x ++ symbolWord, by simp⟩, ⟨_, rfl⟩⟩, ⟨x, rfl⟩⟩
  · intro e
    have := congrArg List.length e
    simp at this
    omega

theorem ren_word (s : Str) {w : Str} (h : (str% "GDO_").isPrefixOf w = true) : ren u l s (w ++ symbolWord) = newName u l w ++ s := by
  unfold ren
  rw [cut_word h]

theorem ren_symbol (s : Str) : ren u l s symbolWord = s := by
  unfold ren
  rw [show cutSymbol symbolWord = some [] from by decide]
  rfl

theorem ren_none (s : Str) {w : Str} (h : cutSymbol w = none) : ren u l s w = newName u l w := by
  unfold ren
  rw [h]

theorem ren_fixed {s w : Str} (h : fixedWord w = true) : ren u l s w = w := by
  cases hc : cutSymbol w with
  | none => rw [ren_none s hc]; exact newName_fixed h
  | some p =>
    exfalso
    rcases cut_some hc with ⟨rfl, _⟩ | ⟨x, y, rfl, _⟩
    · exact absurd h (by decide)
    · have e : (str% "GDO_").isPrefixOf (str% "GDO_" ++ y) = true := by rw [List.isPrefixOf_iff_prefix]; exact ⟨y, rfl⟩
      unfold fixedWord at h
      rw [e] at h
      simp at h

/-- What may be asked about the name of a function. -/
structure Named (s : Str) : Prop where
  ident : Identifier s
  plain : s ∉ encodings

theorem line_encodings {w : Str} (h : '_' ∈ w) : w ∉ encodings := by
  intro hm
  simp only [encodings, List.mem_cons, List.not_mem_nil, or_false] at hm
  rcases hm with rfl | rfl | rfl | rfl <;> revert h <;> decide

theorem ren_ok (hp : Prefixes u l) {s : Str} (hs : Named s) : ∀ w, notGdo w = true → startsDigit (ren u l s w) = startsDigit w ∧
    (startsDigit w = true → ren u l s w = w) ∧ (ren u l s w ∈ encodings ↔ w ∈ encodings) ∧ (w ∈ encodings → ren u l s w = w) := by
  intro w hw
  cases hc : cutSymbol w with
  | none => rw [ren_none s hc]; exact newName_ok hp w hw
  | some p =>
    have key : startsDigit (ren u l s w) = false → startsDigit w = false → ren u l s w ∉ encodings → w ∉ encodings →
        startsDigit (ren u l s w) = startsDigit w ∧ (startsDigit w = true → ren u l s w = w) ∧ (ren u l s w ∈ encodings ↔ w ∈ encodings) ∧ (w ∈ encodings → ren u l s w = w) := by
      intro h1 h2 h3 h4
      refine ⟨by rw [h1, h2], fun h => ?_, ⟨fun h => absurd h h3, fun h => absurd h h4⟩, fun h => absurd h h4⟩
      rw [h2] at h
      cases h
    rcases cut_some hc with ⟨rfl, _⟩ | ⟨x, y, rfl, rfl⟩
    · exact key (by rw [ren_symbol]; exact hs.ident.2.2) (by decide) (by rw [ren_symbol]; exact hs.plain) (by decide)
    · have e : ren u l s (str% "GDO_" ++ y) = u ++ '_' :: x ++ s := by
        unfold ren
        rw [hc]
        simp only []
        rw [newName_gdo]
      refine key ?_ rfl ?_ (line_encodings (by simp))
      · rw [e]
        have h1 := hp.upper_ne
        have h2 := hp.upper_head
        cases u with
        | nil => exact absurd rfl h1
        | cons c u => exact h2
      · rw [e]
        exact line_encodings (by simp)

theorem ren_isWord (hp : Prefixes u l) {s : Str} (hs : Named s) {w : Str} (h1 : w ≠ []) (h2 : ∀ c ∈ w, isWord c = true) :
    ren u l s w ≠ [] ∧ ∀ c ∈ ren u l s w, isWord c = true := by
  cases hc : cutSymbol w with
  | none => rw [ren_none s hc]; exact newName_word hp.upper hp.lower hp.lower_ne h2 h1
  | some p =>
    rcases cut_some hc with ⟨rfl, _⟩ | ⟨x, y, rfl, rfl⟩
    · rw [ren_symbol]
      exact ⟨hs.ident.1, hs.ident.2.1⟩
    · have e : ren u l s (str% "GDO_" ++ y) = newName u l (str% "GDO_" ++ x) ++ s := by
        unfold ren
        rw [hc]
      have h3 : ∀ c ∈ str% "GDO_" ++ x, isWord c = true := by
        intro c hm
        unfold cutSymbol at hc
        split at hc
        · cases hc
        · split at hc
          · have := Option.some.inj hc
            rw [← this] at hm
            exact h2 c (List.mem_of_mem_take hm)
          · cases hc
      have h4 := newName_word hp.upper hp.lower hp.lower_ne h3 (by simp)
      rw [e]
      refine ⟨fun e => h4.1 (List.append_eq_nil_iff.mp e).1, fun c hc => ?_⟩
      rcases List.mem_append.mp hc with h | h
      · exact h4.2 c h
      · exact hs.ident.2.1 c h

/-! ### Lines with directives -/

/-- The pieces of a line without keywords. -/
def plainLine : List Part → Option (List Piece)
  | [] => some []
  | .word w :: r => (plainLine r).map (.word w :: ·)
  | .other c :: r => (plainLine r).map (.other c :: ·)
  | .kw _ :: _ => none

/-- The pieces of a line with the name of a function. -/
def namedLine : List Part → Option (List Piece)
  | [] => some []
  | .word w :: .kw k :: r =>
    if k = str% "func_symbol" ∧ (str% "GDO_").isPrefixOf w = true then (namedLine r).map (.word (w ++ symbolWord) :: ·) else none
  | .word w :: r => if cutSymbol w = none then (namedLine r).map (.word w :: ·) else none
  | .kw k :: r => if k = str% "func_symbol" then (namedLine r).map (.word symbolWord :: ·) else none
  | .other c :: r => (namedLine r).map (.other c :: ·)

theorem fillIn_plain {val : Values} {ps : List Part} {qs : List Piece} (h : plainLine ps = some qs) : fillIn u l val false ps = textOf (mapWords (newName u l) qs) := by
  induction ps generalizing qs with
  | nil => cases h; rfl
  | cons q r ih =>
    cases q with
    | kw k => cases h
    | word w =>
      rw [plainLine] at h
      cases hr : plainLine r with
      | none => rw [hr] at h; cases h
      | some x => rw [hr] at h; cases h; rw [fillIn, ih hr]; rfl
    | other c =>
      rw [plainLine] at h
      cases hr : plainLine r with
      | none => rw [hr] at h; cases h
      | some x => rw [hr] at h; cases h; rw [fillIn, ih hr]; rfl

theorem fillIn_named {val : Values} {s : Str} (hv : val (str% "func_symbol") = some (s, false)) {ps : List Part} {qs : List Piece} (h : namedLine ps = some qs) :
    fillIn u l val false ps = textOf (mapWords (ren u l s) qs) := by
  have cons : ∀ (p : Piece) (x : List Piece), textOf (mapWords (ren u l s) (p :: x)) = (renPiece (ren u l s) p).text ++ textOf (mapWords (ren u l s) x) := by
    intro p x
    cases p <;> rfl
  fun_induction namedLine ps generalizing qs with
  | case1 => cases h; rfl
  | case2 w k r hk ih =>
    cases hr : namedLine r with
    | none => rw [hr] at h; cases h
    | some x =>
      rw [hr] at h
      cases h
      obtain ⟨rfl, hw⟩ := hk
      rw [fillIn, fillIn, hv]
      simp only []
      rw [ih hr, cons]
      show _ = ren u l s (w ++ symbolWord) ++ _
      rw [ren_word s hw, List.append_assoc]
  | case3 => cases h
  | case4 w r _ hw ih =>
    cases hr : namedLine r with
    | none => rw [hr] at h; cases h
    | some x =>
      rw [hr] at h
      cases h
      rw [fillIn, ih hr, cons]
      show _ = ren u l s w ++ _
      rw [ren_none s hw]
  | case5 => cases h
  | case6 r ih =>
    cases hr : namedLine r with
    | none => rw [hr] at h; cases h
    | some x =>
      rw [hr] at h
      cases h
      rw [fillIn, hv]
      simp only []
      rw [ih hr, cons]
      show _ = ren u l s symbolWord ++ _
      rw [ren_symbol]
  | case7 => cases h
  | case8 c r ih =>
    cases hr : namedLine r with
    | none => rw [hr] at h; cases h
    | some x =>
      rw [hr] at h
      cases h
      rw [fillIn, ih hr]
      rfl

/-- The lines of tokens. -/
def chunkLines (qs : List Piece) : Option (List (List T)) :=
  if pieces (textOf qs) = qs ∧ okLex notGdo fixedWord (.gap true) qs = true ∧ qs.getLast? = some (.other '\n') then
    match lex (.gap true) qs with
    | some (.gap true, ts) => if ts.getLast? = some nlT then some (splitLines ts.dropLast) else none
    | _ => none
  else none

theorem chunk_whole {f : Str → Str} (hfix : ∀ w, fixedWord w = true → f w = w)
    (hok : ∀ w, notGdo w = true → startsDigit (f w) = startsDigit w ∧ (startsDigit w = true → f w = w) ∧ (f w ∈ encodings ↔ w ∈ encodings) ∧ (w ∈ encodings → f w = w))
    (hw : ∀ w, w ≠ [] → (∀ c ∈ w, isWord c = true) → f w ≠ [] ∧ ∀ c ∈ f w, isWord c = true) {qs : List Piece} {lns : List (List T)}
    (h : chunkLines qs = some lns) : ∃ x, Whole (textOf (mapWords f qs)) x ∧ splitLines x = lns.map (·.map (renT f)) := by
  unfold chunkLines at h
  split at h
  · rename_i hc
    obtain ⟨h1, h2, h3⟩ := hc
    split at h
    · rename_i ts hl
      split at h
      · rename_i h4
        cases h
        have hv : Valid qs := h1 ▸ pieces_valid _
        have hv' : Valid (mapWords f qs) := valid_mapWords hv fun w hm => by
          obtain ⟨h5, h6⟩ := valid_mem hv hm
          exact hw w h5 h6
        refine ⟨ts.dropLast.map (renT f), ⟨?_, ?_⟩, splitLines_map f _⟩
        · have e := lex_ren (f := f) (ok := notGdo) (fixed := fixedWord) hfix hok (s := .gap true) trivial h2
          rw [pieces_textOf hv', show (Lex.gap true) = renLex f (.gap true) from rfl, e, hl]
          have e2 : ts = ts.dropLast ++ [nlT] := by
            have hne : ts ≠ [] := by rintro rfl; cases h4
            rw [List.getLast?_eq_some_getLast hne] at h4
            rw [← Option.some.inj h4]
            exact (List.dropLast_concat_getLast hne).symm
          rw [Option.map_some]
          refine congrArg some (Prod.ext rfl ?_)
          show ts.map (renT f) = _
          conv => lhs; rw [e2]
          rw [List.map_append]
          rfl
        · have e2 : qs = qs.dropLast ++ [.other '\n'] := by
            have hne : qs ≠ [] := by rintro rfl; cases h3
            rw [List.getLast?_eq_some_getLast hne] at h3
            rw [← Option.some.inj h3]
            exact (List.dropLast_concat_getLast hne).symm
          refine ⟨textOf (mapWords f qs.dropLast), ?_⟩
          conv => lhs; rw [e2]
          unfold mapWords textOf
          rw [List.map_append, List.flatMap_append]
          rfl
      · cases h
    · cases h
  · cases h

/-- The pieces of some lines. -/
def gather (one : List Part → Option (List Piece)) : List (List Part) → Option (List Piece)
  | [] => some []
  | g :: gs => (one g).bind fun q => (gather one gs).map fun r => q ++ .other '\n' :: r

/-- The text of a line. -/
def physText (u l : Str) (val : Values) (g : List Part) : Str := fillIn u l val false g ++ ['\n']

theorem gather_text {val : Values} {f : Str → Str} {one : List Part → Option (List Piece)}
    (h1 : ∀ g q, one g = some q → fillIn u l val false g = textOf (mapWords f q)) {gs : List (List Part)} {q : List Piece} (h : gather one gs = some q) :
    gs.flatMap (physText u l val) = textOf (mapWords f q) := by
  induction gs generalizing q with
  | nil => cases h; rfl
  | cons g gs ih =>
    rw [gather] at h
    cases hg : one g with
    | none => rw [hg] at h; cases h
    | some q1 =>
      rw [hg, Option.bind_some] at h
      cases hr : gather one gs with
      | none => rw [hr] at h; cases h
      | some r =>
        rw [hr] at h
        cases h
        rw [List.flatMap_cons, ih hr, physText, h1 g q1 hg]
        unfold mapWords textOf
        rw [List.map_append, List.flatMap_append, List.append_assoc]
        rfl

/-- The conditionals that are open behind lines with directives. -/
def finish (okA okB : Str → Bool) (kw : Bool) (sh : List Bool) (g : List (List Part)) : Option (List Bool) :=
  match gather plainLine g with
  | some q =>
    match chunkLines q with
    | some lns => if lns.all (okSets okA) then shapeLines [] sh lns else none
    | none => none
  | none =>
    if kw then
      match gather namedLine g with
      | some q =>
        match chunkLines q with
        | some lns => if lns.all (okSets okB) then shapeKs sh lns else none
        | none => none
      | none => none
    else none

/-- What must be known about the names. -/
structure Env (inc : List T → Table) (X : List Str) (u l : Str) (okA okB : Str → Bool) : Prop where
  prefixes : Prefixes u l
  include_ : ∀ r, ∀ y ∈ X, (inc r).lookup y = none
  plain : ∀ n, okA n = true → newName u l n ∉ X

/-- What must be known about the name of a function. -/
structure Symbol (X : List Str) (u l : Str) (okB : Str → Bool) (val : Values) (s : Str) : Prop where
  value : val (str% "func_symbol") = some (s, false)
  named : Named s
  other : ∀ n, okB n = true → ren u l s n ∉ X

theorem finish_spec {okA okB : Str → Bool} (hE : Env inc X u l okA okB) {val : Values} {kw : Bool} (hS : kw = true → ∃ s, Symbol X u l okB val s)
    {sh sh' : List Bool} {g : List (List Part)} (h : finish okA okB kw sh g = some sh') : Acts inc X sh sh' (g.flatMap (physText u l val)) := by
  have done : ∀ {f : Str → Str} {ok : Str → Bool} {x : List T} {lns : List (List T)}, (∀ w, fixedWord w = true → f w = w) → (∀ n, ok n = true → f n ∉ X) →
      lns.all (okSets ok) = true → splitLines x = lns.map (·.map (renT f)) → ∀ {D t st s'}, runLines inc D (t, st) (splitLines x) = some s' →
      ∀ y ∈ X, s'.1.lookup y = t.lookup y := by
    intro f ok x lns hf hx ha e D t st s' hr y hy
    refine runLines_other hr (fun r => hE.include_ r y hy) fun ln hln hm => ?_
    rw [e, List.mem_map] at hln
    obtain ⟨ln0, h0, rfl⟩ := hln
    obtain ⟨n, hn, rfl⟩ := setIn_ren hf (List.all_eq_true.mp ha ln0 h0) hm
    exact hx n hn hy
  unfold finish at h
  split at h
  · rename_i q hq
    split at h
    · rename_i lns hl
      split at h
      · rename_i ha
        obtain ⟨x, wx, ex⟩ := chunk_whole (f := newName u l) (fun w => newName_fixed) (newName_ok hE.prefixes)
          (fun w h1 h2 => newName_word hE.prefixes.upper hE.prefixes.lower hE.prefixes.lower_ne h2 h1) hl
        rw [gather_text (fun g q => fillIn_plain) hq]
        refine .inr ⟨x, wx, fun D t st hs => ?_⟩
        subst hs
        obtain ⟨t', st', e1, e2, _⟩ := runLines_shape (u := u) (l := l) (S := []) (inc := inc) (fun r x hx => by cases hx) D (t := t) (fun _ _ _ _ x hx => by cases hx) h
        rw [← ex] at e1
        exact ⟨t', st', e1, e2, done (fun w => newName_fixed) hE.plain ha ex e1⟩
      · cases h
    · cases h
  · split at h
    · rename_i hk
      obtain ⟨s, hs⟩ := hS hk
      split at h
      · rename_i q hq
        split at h
        · rename_i lns hl
          split at h
          · rename_i ha
            obtain ⟨x, wx, ex⟩ := chunk_whole (f := ren u l s) (fun w => ren_fixed) (ren_ok hE.prefixes hs.named)
              (fun w => ren_isWord hE.prefixes hs.named) hl
            rw [gather_text (fun g q => fillIn_named hs.value) hq]
            refine .inr ⟨x, wx, fun D t st hst => ?_⟩
            subst hst
            obtain ⟨t', st', e1, e2⟩ := runLines_k (f := ren u l s) (fun w => ren_fixed) h inc D t
            rw [← ex] at e1
            exact ⟨t', st', e1, e2, done (fun w => ren_fixed) hs.other ha ex e1⟩
          · cases h
        · cases h
      · cases h
    · cases h

/-! ### The lines of an entry -/

/-- Where the walk is: in code, behind the lines of a directive that goes on, and inside
    of conditionals. -/
structure Walk where
  a : Ab
  pend : List (List Part)
  sh : List Bool
  deriving DecidableEq

def goesOn (g : List Part) : Bool := g.getLast? == some (.other '\\')

def walkLine (okA okB : Str → Bool) (kw : Bool) (w : Walk) (g : List Part) : Option Walk :=
  if w.pend = [] then
    match calmParts w.a (g ++ [.other '\n']) with
    | some a => some { w with a := a }
    | none =>
      if w.a = .code then
        if goesOn g then some { w with pend := [g] } else (finish okA okB kw w.sh [g]).map fun sh => ⟨.code, [], sh⟩
      else none
  else if goesOn g then some { w with pend := w.pend ++ [g] }
  else (finish okA okB kw w.sh (w.pend ++ [g])).map fun sh => ⟨.code, [], sh⟩

/-- The text that is not taken into account yet. -/
def Carry (u l : Str) (val : Values) (w : Walk) (c : Str) : Prop :=
  if w.pend = [] then CalmText .code w.a c else w.a = .code ∧ c = w.pend.flatMap (physText u l val)

def LineOk (g : List Part) : Prop := WordsOk g ∧ OthersOk g

theorem walkLine_spec {okA okB : Str → Bool} (hE : Env inc X u l okA okB) {val : Values} (hv : CalmValues val) {kw : Bool}
    (hS : kw = true → ∃ s, Symbol X u l okB val s) {w w' : Walk} {g : List Part} (hg : LineOk g) (h : walkLine okA okB kw w g = some w') {c : Str}
    (hc : Carry u l val w c) : ∃ a c', c ++ physText u l val g = a ++ c' ∧ Acts inc X w.sh w'.sh a ∧ Carry u l val w' c' := by
  unfold walkLine at h
  unfold Carry at hc
  split at h
  · rename_i hp
    rw [if_pos hp] at hc
    split at h
    · rename_i a ha
      cases h
      refine ⟨[], c ++ physText u l val g, rfl, .nil _, ?_⟩
      unfold Carry
      rw [if_pos hp]
      refine hc.append ⟨?_, .inr ⟨_, rfl⟩⟩
      have := absRun_fillIn (u := u) (l := l) hE.prefixes hv (ps := g ++ [.other '\n']) (eat := false)
        (by intro x hx; exact hg.1 x (by simpa using hx)) (by
          intro x hx
          rcases List.mem_append.mp hx with hx | hx
          · exact hg.2 x hx
          · rw [List.mem_singleton] at hx
            cases hx
            decide) (by intro h; cases h) ha
      rw [CForm.fillIn_nl] at this
      exact this
    · split at h
      · rename_i hcode
        rw [hcode] at hc
        split at h
        · cases h
          refine ⟨c, physText u l val g, rfl, acts_calm hc _, ?_⟩
          unfold Carry
          rw [if_neg (by simp)]
          exact ⟨hcode, by simp⟩
        · cases hf : finish okA okB kw w.sh [g] with
          | none => rw [hf] at h; cases h
          | some sh =>
            rw [hf] at h
            cases h
            have := finish_spec hE hS hf
            rw [List.flatMap_cons, List.flatMap_nil, List.append_nil] at this
            exact ⟨c ++ physText u l val g, [], (List.append_nil _).symm, (acts_calm hc _).append this, ⟨rfl, .inl rfl⟩⟩
      · cases h
  · rename_i hp
    rw [if_neg hp] at hc
    obtain ⟨hcode, rfl⟩ := hc
    split at h
    · cases h
      refine ⟨[], w.pend.flatMap (physText u l val) ++ physText u l val g, rfl, .nil _, ?_⟩
      unfold Carry
      rw [if_neg (by simp)]
      exact ⟨hcode, by simp⟩
    · cases hf : finish okA okB kw w.sh (w.pend ++ [g]) with
      | none => rw [hf] at h; cases h
      | some sh =>
        rw [hf] at h
        cases h
        have := finish_spec hE hS hf
        rw [List.flatMap_append, List.flatMap_cons, List.flatMap_nil, List.append_nil] at this
        exact ⟨w.pend.flatMap (physText u l val) ++ physText u l val g, [], (List.append_nil _).symm, this, ⟨rfl, .inl rfl⟩⟩

def walkLines (okA okB : Str → Bool) (kw : Bool) : Walk → List (List Part) → Option Walk
  | w, [] => some w
  | w, g :: gs => (walkLine okA okB kw w g).bind fun w' => walkLines okA okB kw w' gs

theorem walkLines_spec {okA okB : Str → Bool} (hE : Env inc X u l okA okB) {val : Values} (hv : CalmValues val) {kw : Bool}
    (hS : kw = true → ∃ s, Symbol X u l okB val s) {w w' : Walk} {gs : List (List Part)} (hg : ∀ g ∈ gs, LineOk g) (h : walkLines okA okB kw w gs = some w') {c : Str}
    (hc : Carry u l val w c) : ∃ a c', c ++ gs.flatMap (physText u l val) = a ++ c' ∧ Acts inc X w.sh w'.sh a ∧ Carry u l val w' c' := by
  induction gs generalizing w c with
  | nil =>
    cases h
    exact ⟨[], c, by simp, .nil _, hc⟩
  | cons g gs ih =>
    rw [walkLines] at h
    cases h1 : walkLine okA okB kw w g with
    | none => rw [h1] at h; cases h
    | some w1 =>
      rw [h1, Option.bind_some] at h
      obtain ⟨a1, c1, e1, r1, k1⟩ := walkLine_spec hE hv hS (hg g (by simp)) h1 hc
      obtain ⟨a2, c2, e2, r2, k2⟩ := ih (fun x hx => hg x (List.mem_cons_of_mem _ hx)) h k1
      refine ⟨a1 ++ a2, c2, ?_, r1.append r2, k2⟩
      rw [List.flatMap_cons, ← List.append_assoc, e1, List.append_assoc, e2, List.append_assoc]

/-- The physical lines. -/
def splitNl : List Part → List (List Part)
  | [] => [[]]
  | p :: r =>
    if p = .other '\n' then [] :: splitNl r
    else
      match splitNl r with
      | [] => [[p]]
      | g :: gs => (p :: g) :: gs

theorem splitNl_ne (ps : List Part) : splitNl ps ≠ [] := by
  cases ps with
  | nil => simp [splitNl]
  | cons p r =>
    rw [splitNl]
    split
    · simp
    · split <;> simp

theorem splitNl_text (val : Values) (eat : Bool) (ps : List Part) : ∃ g gs, splitNl ps = g :: gs ∧
    fillIn u l val eat ps ++ ['\n'] = (fillIn u l val eat g ++ ['\n']) ++ gs.flatMap (physText u l val) := by
  induction ps generalizing eat with
  | nil => exact ⟨[], [], rfl, by simp [fillIn]⟩
  | cons p r ih =>
    rw [splitNl]
    split
    · rename_i hp
      subst hp
      obtain ⟨g, gs, e1, e2⟩ := ih false
      refine ⟨[], splitNl r, rfl, ?_⟩
      have e : fillIn u l val eat (.other '\n' :: r) = '\n' :: fillIn u l val false r := by
        rw [fillIn, if_neg (show ¬ (eat && '\n' == ' ') = true from by cases eat <;> decide)]
      rw [e, e1, List.flatMap_cons, physText, ← e2]
      rfl
    · obtain ⟨g0, gs0, e0, _⟩ := ih false
      rw [e0]
      refine ⟨p :: g0, gs0, rfl, ?_⟩
      have get : ∀ eat, fillIn u l val eat r ++ ['\n'] = (fillIn u l val eat g0 ++ ['\n']) ++ gs0.flatMap (physText u l val) := by
        intro eat
        obtain ⟨g, gs, e1, e2⟩ := ih eat
        rw [e0] at e1
        cases e1
        exact e2
      cases p with
      | word w => rw [fillIn, fillIn, List.append_assoc, get]; simp only [List.append_assoc]
      | other c =>
        rw [fillIn, fillIn]
        split
        · exact get _
        · rw [List.cons_append, get]
          rfl
      | kw k =>
        rw [fillIn, fillIn]
        cases val k with
        | none => simp only []; rw [List.append_assoc, get]; simp only [List.append_assoc]
        | some v => obtain ⟨v, e⟩ := v; simp only []; rw [List.append_assoc, get]; simp only [List.append_assoc]

theorem splitNl_mem {ps g : List Part} (hg : g ∈ splitNl ps) {p : Part} (hp : p ∈ g) : p ∈ ps := by
  induction ps generalizing g with
  | nil =>
    rw [splitNl, List.mem_singleton] at hg
    subst hg
    cases hp
  | cons q r ih =>
    rw [splitNl] at hg
    split at hg
    · rcases List.mem_cons.mp hg with rfl | hg
      · cases hp
      · exact List.mem_cons_of_mem _ (ih hg hp)
    · split at hg
      · rw [List.mem_singleton] at hg
        subst hg
        rw [List.mem_singleton] at hp
        subst hp
        simp
      · rename_i g0 gs0 e0
        rcases List.mem_cons.mp hg with rfl | hg
        · rcases List.mem_cons.mp hp with rfl | hp
          · simp
          · exact List.mem_cons_of_mem _ (ih (by rw [e0]; simp) hp)
        · exact List.mem_cons_of_mem _ (ih (by rw [e0]; simp [hg]) hp)

theorem splitNl_flat (val : Values) (ps : List Part) : (splitNl ps).flatMap (physText u l val) = fillIn u l val false ps ++ ['\n'] := by
  obtain ⟨g, gs, e1, e2⟩ := splitNl_text (u := u) (l := l) val false ps
  rw [e1, e2]
  rfl

theorem entry_lines (d : Str) : ∀ g ∈ splitNl (parts d), LineOk g := by
  intro g hg
  have h1 : WordsOk (parts d) := splits_words (splits _) (pieces_valid _)
  have h2 := splits_others (splits (pieces d)) (pieces_valid _)
  exact ⟨fun w hw => h1 w (splitNl_mem hg hw), fun c hc => h2 c (splitNl_mem hg hc)⟩

/-! ### The entries of a template -/

def walkEntries (okA okB : Str → Bool) : Walk → List Str → Option Walk
  | w, [] => some w
  | w, d :: ds =>
    match firstKind (parts d) with
    | none => (walkLines okA okB false w (splitNl (parts d))).bind fun w' => walkEntries okA okB w' ds
    | some k =>
      if w.a = .code ∧ w.pend = [] ∧ walkLines okA okB (k == .function) w (splitNl (parts d)) = some w then walkEntries okA okB w ds else none

/-- Functions and objects whose data has no characters that begin comments, literals and
    directives. -/
structure CalmProto (p : Proto) : Prop where
  type : Calm p.type
  args : Calm p.args
  names : Calm p.paramNames
  symbol : ∀ c ∈ p.symbol, isWord c = true

theorem calm_append {a b : Str} (ha : Calm a) (hb : Calm b) : Calm (a ++ b) := by
  intro c hc
  rcases List.mem_append.mp hc with h | h
  · exact ha c h
  · exact hb c h

theorem calm_word {s : Str} (h : ∀ c ∈ s, isWord c = true) : Calm s := by
  intro c hc
  have := h c hc
  refine ⟨?_, ?_, ?_, ?_, ?_, ?_⟩ <;> rintro rfl <;> revert this <;> decide

theorem calm_fill {s : Str} (w : Nat) (h : Calm s) : Calm (Tmpl.fill w s) := by
  intro c hc
  rcases List.mem_append.mp hc with h1 | h1
  · exact h c h1
  · rw [List.mem_replicate] at h1
    rw [h1.2]
    decide

theorem calm_keyword {k : Str} (h : (kindOf k).isSome = true) : Calm (str% "%%" ++ k ++ str% "%%") ∧ (k ∈ nameKeywords → '*' ∉ str% "%%" ++ k ++ str% "%%") := by
  have : k ∈ [str% "return", str% "type", str% "func_symbol", str% "func_symbol_pad", str% "args", str% "param_names", str% "obj_type", str% "obj_symbol",
      str% "obj_symbol_pad", str% "sym_type", str% "symbol"] := by
    unfold kindOf at h
    split at h
    · rename_i h1; simp only [List.mem_cons, List.not_mem_nil, or_false] at h1 ⊢; rcases h1 with h1 | h1 | h1 | h1 | h1 | h1 <;> simp [h1]
    · split at h
      · rename_i h1; simp only [List.mem_cons, List.not_mem_nil, or_false] at h1 ⊢; rcases h1 with h1 | h1 | h1 <;> simp [h1]
      · split at h
        · rename_i h1; simp only [List.mem_cons, List.not_mem_nil, or_false] at h1 ⊢; rcases h1 with h1 | h1 <;> simp [h1]
        · cases h
  clear h
  unfold Calm
  have all : ∀ k ∈ [str% "return", str% "type", str% "func_symbol", str% "func_symbol_pad", str% "args", str% "param_names", str% "obj_type", str% "obj_symbol",
      str% "obj_symbol_pad", str% "sym_type", str% "symbol"], (∀ c ∈ str% "%%" ++ k ++ str% "%%", c ≠ '"' ∧ c ≠ '\'' ∧ c ≠ '\\' ∧ c ≠ '/' ∧ c ≠ '#' ∧ c ≠ '\n') ∧
      (k ∈ nameKeywords → '*' ∉ str% "%%" ++ k ++ str% "%%") := by decide +kernel
  exact all k this

theorem calm_of {val : Values} (h : ∀ k v e, val k = some (v, e) → Calm v ∧ (k ∈ nameKeywords → '*' ∉ v)) : CalmValues val := by
  constructor
  · intro k hk
    unfold valueText
    cases hv : val k with
    | none => exact (calm_keyword hk).1
    | some v => exact (h k v.1 v.2 hv).1
  · intro k hk
    unfold valueText
    cases hv : val k with
    | none => exact (calm_keyword (by clear hv; revert k; decide)).2 hk
    | some v => exact (h k v.1 v.2 hv).2 hk

theorem star_word {s : Str} (h : ∀ c ∈ s, isWord c = true) : '*' ∉ s := fun hm => by
  have := h _ hm
  revert this
  decide

theorem calm_function (w : Nat) {p : Proto} (h : CalmProto p) : CalmValues (functionValues w p) := by
  refine calm_of fun k v e hv => ?_
  unfold functionValues at hv
  split at hv
  · rename_i hk
    subst hk
    refine ⟨?_, fun h => absurd h (by decide)⟩
    split at hv
    · cases hv
      intro c hc
      cases hc
    · cases hv
      unfold Calm
      decide
  · split at hv
    · rename_i hk; subst hk; cases hv; exact ⟨h.type, fun h => absurd h (by decide)⟩
    · split at hv
      · cases hv; exact ⟨calm_word h.symbol, fun _ => star_word h.symbol⟩
      · split at hv
        · rename_i hk; subst hk; cases hv; exact ⟨calm_fill w (calm_word h.symbol), fun h => absurd h (by decide)⟩
        · split at hv
          · rename_i hk; subst hk; cases hv; exact ⟨h.args, fun h => absurd h (by decide)⟩
          · split at hv
            · rename_i hk; subst hk; cases hv; exact ⟨h.names, fun h => absurd h (by decide)⟩
            · cases hv

theorem calm_object (w : Nat) {p : Proto} (h : CalmProto p) : CalmValues (objectValues w p) := by
  refine calm_of fun k v e hv => ?_
  unfold objectValues at hv
  split at hv
  · rename_i hk; subst hk; cases hv; exact ⟨h.type, fun h => absurd h (by decide)⟩
  · split at hv
    · cases hv; exact ⟨calm_word h.symbol, fun _ => star_word h.symbol⟩
    · split at hv
      · rename_i hk; subst hk; cases hv; exact ⟨calm_fill w (calm_word h.symbol), fun h => absurd h (by decide)⟩
      · cases hv

theorem calm_symbol {t s : Str} (ht : Calm t) (hs : ∀ c ∈ s, isWord c = true) : CalmValues (symbolValues t s) := by
  refine calm_of fun k v e hv => ?_
  unfold symbolValues at hv
  split at hv
  · rename_i hk; subst hk; cases hv; exact ⟨ht, fun h => absurd h (by decide)⟩
  · split at hv
    · cases hv; exact ⟨calm_word hs, fun _ => star_word hs⟩
    · cases hv

theorem calm_sep {p : Proto} : Calm (if isPointer p.type then [] else str% " ") := by
  split
  · intro c hc; cases hc
  · unfold Calm; decide

theorem calm_functionPointer {p : Proto} (h : CalmProto p) : Calm (functionPointer p) := by
  unfold functionPointer
  exact calm_append (calm_append (calm_append (calm_append h.type calm_sep) (by unfold Calm; decide)) h.args) (by unfold Calm; decide)

theorem calm_objectPointer {p : Proto} (h : CalmProto p) : Calm (objectPointer p) := by
  unfold objectPointer
  exact calm_append (calm_append h.type calm_sep) (by unfold Calm; decide)

theorem unlines_cons' (a : Str) (b : List Str) : unlines (a :: b) = (a ++ ['\n']) ++ unlines b := rfl

theorem unlines_app (a b : List Str) : unlines (a ++ b) = unlines a ++ unlines b := List.flatMap_append

/-- The same entry for any number of functions. -/
theorem repeat_spec {okA okB : Str → Bool} (hE : Env inc X u l okA okB) {kw : Bool} {α : Type} (val : α → Values) {xs : List α}
    (hv : ∀ x ∈ xs, CalmValues (val x)) (hS : kw = true → ∀ x ∈ xs, ∃ s, Symbol X u l okB (val x) s) {w : Walk} (hw : w.a = .code ∧ w.pend = []) {d : Str}
    (h : walkLines okA okB kw w (splitNl (parts d)) = some w) {c : Str} (hc : CalmText .code .code c) :
    ∃ a c', c ++ unlines (xs.map fun x => fillIn u l (val x) false (parts d)) = a ++ c' ∧ Acts inc X w.sh w.sh a ∧ CalmText .code .code c' := by
  have carry : ∀ v c, Carry u l v w c ↔ CalmText .code .code c := by
    intro v c
    unfold Carry
    rw [if_pos hw.2, hw.1]
  induction xs generalizing c with
  | nil => exact ⟨[], c, by simp [unlines], .nil _, hc⟩
  | cons x xs ih =>
    obtain ⟨a1, c1, e1, r1, k1⟩ := walkLines_spec hE (hv x (by simp)) (fun hk => hS hk x (by simp)) (entry_lines d) h ((carry _ _).mpr hc)
    obtain ⟨a2, c2, e2, r2, k2⟩ := ih (fun y hy => hv y (List.mem_cons_of_mem _ hy)) (fun hk y hy => hS hk y (List.mem_cons_of_mem _ hy)) ((carry _ _).mp k1)
    refine ⟨a1 ++ a2, c2, ?_, r1.append r2, k2⟩
    rw [List.map_cons, unlines_cons', ← splitNl_flat, ← List.append_assoc, e1, List.append_assoc, e2, List.append_assoc]

theorem walkEntries_spec {okA okB : Str → Bool} (hE : Env inc X u l okA okB) {protos objs : List Proto} (hp : ∀ p ∈ protos ++ objs, CalmProto p)
    (hn : ∀ p ∈ protos, Named p.symbol) (hX : ∀ p ∈ protos, ∀ n, okB n = true → ren u l p.symbol n ∉ X) {w w' : Walk} {ds : List Str}
    (h : walkEntries okA okB w ds = some w') {c : Str} (hc : Carry u l (fun _ => none) w c) :
    ∃ a c', c ++ unlines (ds.flatMap (written u l protos objs)) = a ++ c' ∧ Acts inc X w.sh w'.sh a ∧ Carry u l (fun _ => none) w' c' := by
  induction ds generalizing w c with
  | nil =>
    cases h
    exact ⟨[], c, by simp [unlines], .nil _, hc⟩
  | cons d ds ih =>
    rw [walkEntries] at h
    have step : ∀ {w1 : Walk} {c1 a1 : Str}, walkEntries okA okB w1 ds = some w' → c ++ unlines (written u l protos objs d) = a1 ++ c1 → Acts inc X w.sh w1.sh a1 →
        Carry u l (fun _ => none) w1 c1 → ∃ a c', c ++ unlines ((d :: ds).flatMap (written u l protos objs)) = a ++ c' ∧ Acts inc X w.sh w'.sh a ∧ Carry u l (fun _ => none) w' c' := by
      intro w1 c1 a1 h1 e1 r1 k1
      obtain ⟨a2, c2, e2, r2, k2⟩ := ih h1 k1
      refine ⟨a1 ++ a2, c2, ?_, r1.append r2, k2⟩
      rw [List.flatMap_cons, unlines_app, ← List.append_assoc, e1, List.append_assoc, e2, List.append_assoc]
    cases hk : firstKind (parts d) with
    | none =>
      rw [hk] at h
      simp only [] at h
      cases h1 : walkLines okA okB false w (splitNl (parts d)) with
      | none => rw [h1] at h; cases h
      | some w1 =>
        rw [h1, Option.bind_some] at h
        obtain ⟨a1, c1, e1, r1, k1⟩ := walkLines_spec hE (calm_of fun k v e hv => by cases hv) (fun hk => by cases hk) (entry_lines d) h1 hc
        refine step h ?_ r1 k1
        rw [← e1, splitNl_flat]
        unfold written
        simp only [hk]
        simp [unlines]
    | some k =>
      rw [hk] at h
      simp only [] at h
      split at h
      · rename_i hw
        obtain ⟨hw1, hw2, hw3⟩ := hw
        have carry : ∀ c, Carry u l (fun _ => none) w c ↔ CalmText .code .code c := by
          intro c
          unfold Carry
          rw [if_pos hw2, hw1]
        have hc' := (carry c).mp hc
        cases k with
        | function =>
          obtain ⟨a1, c1, e1, r1, k1⟩ := repeat_spec hE (fun p => functionValues (width protos) p) (xs := protos)
            (fun p h => calm_function _ (hp p (List.mem_append_left _ h))) (fun _ p h => ⟨p.symbol, ⟨rfl, hn p h, hX p h⟩⟩) ⟨hw1, hw2⟩ hw3 hc'
          refine step h ?_ r1 ((carry _).mpr k1)
          rw [← e1]
          unfold written
          simp only [hk]
        | object =>
          obtain ⟨a1, c1, e1, r1, k1⟩ := repeat_spec hE (fun p => objectValues (width objs) p) (xs := objs)
            (fun p h => calm_object _ (hp p (List.mem_append_right _ h))) (fun h => by cases h) ⟨hw1, hw2⟩ hw3 hc'
          refine step h ?_ r1 ((carry _).mpr k1)
          rw [← e1]
          unfold written
          simp only [hk]
        | symbol =>
          obtain ⟨a1, c1, e1, r1, k1⟩ := repeat_spec hE (fun p : Proto => symbolValues (functionPointer p) p.symbol) (xs := protos)
            (fun p h => calm_symbol (calm_functionPointer (hp p (List.mem_append_left _ h))) (hp p (List.mem_append_left _ h)).symbol) (fun h => by cases h) ⟨hw1, hw2⟩ hw3 hc'
          obtain ⟨a2, c2, e2, r2, k2⟩ := repeat_spec hE (fun p : Proto => symbolValues (objectPointer p) p.symbol) (xs := objs)
            (fun p h => calm_symbol (calm_objectPointer (hp p (List.mem_append_right _ h))) (hp p (List.mem_append_right _ h)).symbol) (fun h => by cases h) ⟨hw1, hw2⟩ hw3 k1
          refine step h ?_ (r1.append r2) ((carry _).mpr k2)
          unfold written
          simp only [hk]
          rw [unlines_app, ← List.append_assoc, e1, List.append_assoc, e2, List.append_assoc]
      · cases h

/-- Text that the walk goes through leaves the macros as they are. -/
theorem walk_harmless {okA okB : Str → Bool} (hE : Env inc X u l okA okB) {protos objs : List Proto} (hp : ∀ p ∈ protos ++ objs, CalmProto p)
    (hn : ∀ p ∈ protos, Named p.symbol) (hX : ∀ p ∈ protos, ∀ n, okB n = true → ren u l p.symbol n ∉ X) {ds : List Str}
    (h : walkEntries okA okB ⟨.code, [], []⟩ ds = some ⟨.code, [], []⟩) : Harmless inc X (unlines (ds.flatMap (written u l protos objs))) := by
  obtain ⟨a, c, e, r, k⟩ := walkEntries_spec hE hp hn hX h (c := []) ⟨rfl, .inl rfl⟩
  have k' : CalmText .code .code c := k
  rw [List.nil_append] at e
  rw [e]
  exact (r.append (acts_calm k' [])).harmless

end Gdo.Cpp
