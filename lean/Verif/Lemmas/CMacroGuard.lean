import Verif.Lemmas.CMacroSeg

/-!
Lemmas: text inside of a conditional, and the guard of a header.
-/

set_option maxRecDepth 20000

namespace Gdo.Cpp
open Gdo Rename Tmpl Builtin Gdo.Sub Opt Tpl Gen Pfx

variable {inc : List T → Table} {D : Str → Bool}

/-! ### Text in a group that is used -/

theorem active_base {st base : List Cc.Cond} (h : Cc.active base = true) : Cc.active (st ++ base) = Cc.active st := by
  unfold Cc.active at *
  rw [List.all_append, h, Bool.and_true]

theorem directive_base {d : Str} {ts : List Cc.Tok} {st st' base : List Cc.Cond} (hb : Cc.active base = true) (h : Cc.directive D d ts st = some st') :
    Cc.directive D d ts (st ++ base) = some (st' ++ base) := by
  unfold Cc.directive at h ⊢
  simp only [active_base hb]
  have begin : ∀ b : Option Bool, (if Cc.active st = true then b.map fun b => (⟨b, b, false⟩ : Cc.Cond) :: st else some (⟨true, false, false⟩ :: st)) = some st' →
      (if Cc.active st = true then b.map fun b => (⟨b, b, false⟩ : Cc.Cond) :: (st ++ base) else some (⟨true, false, false⟩ :: (st ++ base))) = some (st' ++ base) := by
    intro b hh
    split at hh
    · rename_i ha
      rw [if_pos ha]
      cases b with
      | none => cases hh
      | some b => cases hh; rfl
    · rename_i ha
      rw [if_neg ha]
      cases hh
      rfl
  by_cases h1 : d = str% "if"
  · rw [if_pos h1] at h ⊢; exact begin _ h
  rw [if_neg h1] at h ⊢
  by_cases h2 : d = str% "ifdef"
  · rw [if_pos h2] at h ⊢; exact begin _ h
  rw [if_neg h2] at h ⊢
  by_cases h3 : d = str% "ifndef"
  · rw [if_pos h3] at h ⊢; exact begin _ h
  rw [if_neg h3] at h ⊢
  by_cases h4 : d = str% "elif"
  · rw [if_pos h4] at h ⊢
    cases st with
    | nil => cases h
    | cons c r =>
      simp only [List.cons_append] at h ⊢
      split at h
      · cases h
      · rename_i hl
        rw [if_neg hl]
        split at h
        · rename_i ht
          rw [if_pos ht]
          cases h
          rfl
        · rename_i ht
          rw [if_neg ht]
          cases hc : Cc.condition D ts with
          | none => rw [hc] at h; cases h
          | some b => rw [hc] at h; cases h; rfl
  rw [if_neg h4] at h ⊢
  by_cases h5 : d = str% "else"
  · rw [if_pos h5] at h ⊢
    cases st with
    | nil => cases h
    | cons c r =>
      simp only [List.cons_append] at h ⊢
      split at h
      · cases h
      · rename_i hl
        rw [if_neg hl]
        cases h
        rfl
  rw [if_neg h5] at h ⊢
  by_cases h6 : d = str% "endif"
  · rw [if_pos h6] at h ⊢
    cases st with
    | nil => cases h
    | cons c r => cases h; rfl
  rw [if_neg h6] at h ⊢
  cases h
  rfl

theorem runLine_base {t t' : Table} {st st' base : List Cc.Cond} (hb : Cc.active base = true) {ln : List T} (h : runLine inc D (t, st) ln = some (t', st')) :
    runLine inc D (t, st ++ base) ln = some (t', st' ++ base) := by
  unfold runLine at h ⊢
  split at h
  · split at h
    · rename_i hp
      rw [if_pos hp]
      unfold runDirective at h ⊢
      split at h
      · cases h; rfl
      · rename_i _ d r'
        split at h
        · rename_i hd
          simp only [if_pos hd] at h ⊢
          cases hc : Cc.directive (isDefined D t) d ((asked r').map fun t => toTok t.tok) st with
          | none => rw [hc] at h; cases h
          | some st1 =>
            rw [hc] at h
            cases h
            rw [directive_base hb hc]
            rfl
        · rename_i hd
          simp only [if_neg hd, active_base hb] at h ⊢
          split at h
          · rename_i ha
            rw [if_pos ha]
            cases hc : action inc d r' t with
            | none => rw [hc] at h; cases h
            | some t1 => rw [hc] at h; cases h; rfl
          · rename_i ha
            rw [if_neg ha]
            cases h
            rfl
      · cases h
    · rename_i hp
      rw [if_neg hp]
      cases h
      rfl
  · cases h
    rfl

theorem runLines_base {base : List Cc.Cond} (hb : Cc.active base = true) {lns : List (List T)} : ∀ {t t' : Table} {st st' : List Cc.Cond},
    runLines inc D (t, st) lns = some (t', st') → runLines inc D (t, st ++ base) lns = some (t', st' ++ base) := by
  induction lns with
  | nil => intro t t' st st' h; cases h; rfl
  | cons ln lns ih =>
    intro t t' st st' h
    simp only [runLines] at h ⊢
    cases hl : runLine inc D (t, st) ln with
    | none => rw [hl] at h; cases h
    | some s1 =>
      obtain ⟨t1, st1⟩ := s1
      rw [hl] at h
      rw [runLine_base hb hl]
      exact ih h

/-! ### Text in a group that is not used -/

theorem active_off {st base : List Cc.Cond} (h : Cc.active base = false) : Cc.active (st ++ base) = false := by
  unfold Cc.active at *
  rw [List.all_append, h, Bool.and_false]

theorem directive_off {D' : Str → Bool} {d : Str} {ts ts' : List Cc.Tok} {st st' st2 base : List Cc.Cond} (hb : Cc.active base = false) (h : Cc.directive D d ts st = some st')
    (h1 : st2.map (·.last) = st.map (·.last)) (h2 : ∀ c ∈ st2, c.taken = true) :
    ∃ st2', Cc.directive D' d ts' (st2 ++ base) = some (st2' ++ base) ∧ st2'.map (·.last) = st'.map (·.last) ∧ ∀ c ∈ st2', c.taken = true := by
  unfold Cc.directive at h ⊢
  simp only [active_off hb, Bool.false_eq_true, if_false]
  have begin : ∀ b : Option Bool, (if Cc.active st = true then b.map fun b => (⟨b, b, false⟩ : Cc.Cond) :: st else some (⟨true, false, false⟩ :: st)) = some st' →
      ∃ st2' : List Cc.Cond, some ((⟨true, false, false⟩ : Cc.Cond) :: (st2 ++ base)) = some (st2' ++ base) ∧ st2'.map (·.last) = st'.map (·.last) ∧ ∀ c ∈ st2', c.taken = true := by
    intro b hh
    refine ⟨⟨true, false, false⟩ :: st2, rfl, ?_, fun c hc => ?_⟩
    · split at hh
      · cases b with
        | none => cases hh
        | some b => cases hh; simp [h1]
      · cases hh
        simp [h1]
    · rcases List.mem_cons.mp hc with rfl | hc
      · rfl
      · exact h2 c hc
  by_cases e1 : d = str% "if"
  · rw [if_pos e1] at h ⊢; exact begin _ h
  rw [if_neg e1] at h ⊢
  by_cases e2 : d = str% "ifdef"
  · rw [if_pos e2] at h ⊢; exact begin _ h
  rw [if_neg e2] at h ⊢
  by_cases e3 : d = str% "ifndef"
  · rw [if_pos e3] at h ⊢; exact begin _ h
  rw [if_neg e3] at h ⊢
  by_cases e4 : d = str% "elif"
  · rw [if_pos e4] at h ⊢
    cases st with
    | nil => cases h
    | cons c r =>
      cases st2 with
      | nil => cases h1
      | cons c2 r2 =>
        simp only [List.map_cons, List.cons.injEq] at h1
        simp only [List.cons_append] at h ⊢
        split at h
        · cases h
        · rename_i hl
          rw [h1.1, if_neg hl, if_pos (h2 c2 (by simp))]
          refine ⟨⟨true, false, false⟩ :: r2, rfl, ?_, fun c hc => ?_⟩
          · split at h
            · cases h
              simp [h1.2]
            · cases hc : Cc.condition D ts with
              | none => rw [hc] at h; cases h
              | some b => rw [hc] at h; cases h; simp [h1.2]
          · rcases List.mem_cons.mp hc with rfl | hc
            · rfl
            · exact h2 c (List.mem_cons_of_mem _ hc)
  rw [if_neg e4] at h ⊢
  by_cases e5 : d = str% "else"
  · rw [if_pos e5] at h ⊢
    cases st with
    | nil => cases h
    | cons c r =>
      cases st2 with
      | nil => cases h1
      | cons c2 r2 =>
        simp only [List.map_cons, List.cons.injEq] at h1
        simp only [List.cons_append] at h ⊢
        split at h
        · cases h
        · rename_i hl
          rw [h1.1, if_neg hl]
          refine ⟨⟨true, !c2.taken, true⟩ :: r2, rfl, ?_, fun c hc => ?_⟩
          · cases h
            simp [h1.2]
          · rcases List.mem_cons.mp hc with rfl | hc
            · rfl
            · exact h2 c (List.mem_cons_of_mem _ hc)
  rw [if_neg e5] at h ⊢
  by_cases e6 : d = str% "endif"
  · rw [if_pos e6] at h ⊢
    cases st with
    | nil => cases h
    | cons c r =>
      cases st2 with
      | nil => cases h1
      | cons c2 r2 =>
        simp only [List.map_cons, List.cons.injEq] at h1
        cases h
        exact ⟨r2, rfl, h1.2, fun c hc => h2 c (List.mem_cons_of_mem _ hc)⟩
  rw [if_neg e6] at h ⊢
  cases h
  exact ⟨st2, rfl, h1, h2⟩

theorem runLine_off {inc' : List T → Table} {D' : Str → Bool} {t t' s : Table} {st st' st2 base : List Cc.Cond} (hb : Cc.active base = false) {ln : List T}
    (h : runLine inc D (t, st) ln = some (t', st')) (h1 : st2.map (·.last) = st.map (·.last)) (h2 : ∀ c ∈ st2, c.taken = true) :
    ∃ st2', runLine inc' D' (s, st2 ++ base) ln = some (s, st2' ++ base) ∧ st2'.map (·.last) = st'.map (·.last) ∧ ∀ c ∈ st2', c.taken = true := by
  unfold runLine at h ⊢
  split at h
  · split at h
    · rename_i hp
      simp only [if_pos hp]
      unfold runDirective at h ⊢
      split at h
      · cases h; exact ⟨st2, rfl, h1, h2⟩
      · rename_i _ d r'
        split at h
        · rename_i hd
          simp only [if_pos hd] at h ⊢
          cases hc : Cc.directive (isDefined D t) d ((asked r').map fun t => toTok t.tok) st with
          | none => rw [hc] at h; cases h
          | some st1 =>
            rw [hc] at h
            cases h
            obtain ⟨st2', a1, a2⟩ := directive_off (D' := isDefined D' s) (ts' := (asked r').map fun t => toTok t.tok) hb hc h1 h2
            exact ⟨st2', by rw [a1]; rfl, a2⟩
        · rename_i hd
          simp only [if_neg hd, active_off hb, Bool.false_eq_true, if_false] at h ⊢
          refine ⟨st2, rfl, ?_, h2⟩
          split at h
          · cases hc : action inc d r' t with
            | none => rw [hc] at h; cases h
            | some t1 => rw [hc] at h; cases h; exact h1
          · cases h
            exact h1
      · cases h
    · rename_i hp
      simp only [if_neg hp]
      cases h
      exact ⟨st2, rfl, h1, h2⟩
  · cases h
    exact ⟨st2, rfl, h1, h2⟩

theorem runLines_off {inc' : List T → Table} {D' : Str → Bool} {s : Table} {base : List Cc.Cond} (hb : Cc.active base = false) {lns : List (List T)} :
    ∀ {t t' : Table} {st st' st2 : List Cc.Cond}, runLines inc D (t, st) lns = some (t', st') → st2.map (·.last) = st.map (·.last) → (∀ c ∈ st2, c.taken = true) →
      ∃ st2', runLines inc' D' (s, st2 ++ base) lns = some (s, st2' ++ base) ∧ st2'.map (·.last) = st'.map (·.last) := by
  induction lns with
  | nil => intro t t' st st' st2 h h1 h2; cases h; exact ⟨st2, rfl, h1⟩
  | cons ln lns ih =>
    intro t t' st st' st2 h h1 h2
    simp only [runLines] at h ⊢
    cases hl : runLine inc D (t, st) ln with
    | none => rw [hl] at h; cases h
    | some s1 =>
      obtain ⟨t1, st1⟩ := s1
      rw [hl] at h
      obtain ⟨st3, a1, a2, a3⟩ := runLine_off (inc' := inc') (D' := D') (s := s) hb hl h1 h2
      obtain ⟨st4, a4, a5⟩ := ih h a2 a3
      exact ⟨st4, by rw [a1]; exact a4, a5⟩

/-! ### Whole lines -/

/-- A text is whole together with the end of its last line. -/
theorem whole_of_tokens {a : Str} {ts : List T} (h : tokens a = some ts) : Whole (a ++ ['\n']) ts := by
  unfold tokens at h
  cases hl : lex (.gap true) (pieces a) with
  | none => rw [hl] at h; cases h
  | some p =>
    obtain ⟨st, x⟩ := p
    rw [hl] at h
    simp only [Option.bind_some, Option.map_eq_some_iff] at h
    obtain ⟨f, hf, rfl⟩ := h
    refine ⟨?_, a, rfl⟩
    rw [pieces_sep a (by decide), show pieces [] = [] from rfl, lex_append, hl]
    have key : step st (.other '\n') = some (.gap true, f ++ [nlT]) := by
      cases st <;> simp only [flush, Option.some.injEq, reduceCtorEq] at hf <;> subst hf
      · rfl
      · simp only [step]
        rw [if_neg (by simp), if_neg (by simp)]
        rfl
      · rfl
      · rename_i sp q
        simp only [step]
        rw [if_neg (by simp), if_neg (by simp), if_neg]
        · rfl
        · intro hm
          have : ∀ q ∈ punctuators, '\n' ∉ q := by decide
          exact this _ hm (by simp)
      · rfl
    simp only [Option.bind_some, lex, key]
    simp

theorem lex_hash {d w : Str} (hd : WordText d) (hw : WordText w) (r : Str) :
    lex (.gap true) (pieces ('#' :: (d ++ ' ' :: (w ++ '\n' :: r)))) = (lex (.gap true) (pieces r)).map fun a =>
      (a.1, ⟨true, .punct (str% "#")⟩ :: ⟨false, .ident d⟩ :: ⟨true, .ident w⟩ :: nlT :: a.2) := by
  have e : '#' :: (d ++ ' ' :: (w ++ '\n' :: r)) = [] ++ '#' :: (d ++ ' ' :: (w ++ '\n' :: r)) := rfl
  rw [e, pieces_sep [] (by decide), pieces_sep d (by decide), pieces_word hd]
  show lex (.gap true) (.other '#' :: .word d :: .other ' ' :: pieces (w ++ '\n' :: r)) = _
  rw [lex]
  show (lex (.punct true ['#']) (.word d :: .other ' ' :: pieces (w ++ '\n' :: r))).map _ = _
  have h1 : step (.punct true ['#']) (.word d) = some (.word false d, [⟨true, .punct (str% "#")⟩]) := by
    simp [step, next, begin, hd.head]
  have h2 : step (.word false d) (.other ' ') = some (.gap true, [⟨false, .ident d⟩]) := by
    simp only [step]
    rw [if_neg (by simp), if_neg (by simp)]
    rfl
  rw [lex, h1, Option.bind_some, lex, h2, Option.bind_some, lex_word hw true (by decide) (by decide) (by decide)]
  show ((((lex (.gap true) (pieces r)).map _).map _).map _).map _ = _
  cases lex (.gap true) (pieces r) <;> rfl

theorem whole_hash {d w : Str} (hd : WordText d) (hw : WordText w) :
    Whole ('#' :: (d ++ ' ' :: (w ++ ['\n']))) [⟨true, .punct (str% "#")⟩, ⟨false, .ident d⟩, ⟨true, .ident w⟩] :=
  ⟨by rw [lex_hash hd hw]; rfl, '#' :: (d ++ ' ' :: w), by simp⟩

theorem whole_blank : Whole ['\n'] [] := ⟨rfl, [], rfl⟩

theorem lex_line {g : Str} (h : ∀ c ∈ g, isWord c = true) (r : Str) : lex .line (pieces (g ++ '\n' :: r)) = (lex (.gap true) (pieces r)).map fun a => (a.1, nlT :: a.2) := by
  rw [pieces_sep g (by decide)]
  cases g with
  | nil => 
    show lex .line (.other '\n' :: pieces r) = _
    rw [lex]
    show (lex (.gap true) (pieces r)).map _ = _
    rfl
  | cons c g =>
    have e := pieces_words h (by simp) (s := []) (fun v r e => nomatch e)
    rw [List.append_nil, show pieces [] = [] from rfl] at e
    rw [e]
    show lex .line (.word (c :: g) :: .other '\n' :: pieces r) = _
    rw [lex]
    show (lex .line (.other '\n' :: pieces r)).map _ = _
    rw [lex]
    show ((lex (.gap true) (pieces r)).map _).map _ = _
    cases lex (.gap true) (pieces r) <;> rfl

theorem whole_endif {g : Str} (h : ∀ c ∈ g, isWord c = true) : Whole (str% "#endif //" ++ g ++ str% "\n") [⟨true, .punct (str% "#")⟩, ⟨false, .ident (str% "endif")⟩] := by
  refine ⟨?_, str% "#endif //" ++ g, rfl⟩
  have e : str% "#endif //" ++ g ++ str% "\n" = str% "#endif /" ++ '/' :: (g ++ '\n' :: []) := by simp
  rw [e, pieces_sep _ (by decide), lex_append]
  show (some _).bind _ = _
  rw [Option.bind_some, lex]
  show ((lex .line (pieces (g ++ '\n' :: []))).map _).map _ = _
  rw [lex_line h]
  rfl

/-! ### The guard -/

/-- A text inside of a guard. -/
def guardedText (g inner : Str) : Str :=
  str% "\n#ifndef " ++ g ++ str% "\n#define " ++ g ++ str% "\n\n" ++ inner ++ (str% "\n#endif //" ++ g ++ str% "\n")

theorem run_guarded {g inner : Str} (hg : WordText g) {ts : List T} (ht : tokens inner = some ts) (inc : List T → Table) (D : Str → Bool) (t : Table) (b : Str) :
    run inc D (t, []) (guardedText g inner ++ b) =
      (runLines inc D (if isDefined D t g then (t, [⟨false, false, false⟩]) else ((g, some ⟨none, false, []⟩) :: t, [⟨true, true, false⟩])) (splitLines ts)).bind fun s =>
        match s.2 with
        | [] => none
        | _ :: r => run inc D (s.1, r) b := by
  have hi : WordText (str% "ifndef") := ⟨by decide, by decide, by decide⟩
  have hd : WordText (str% "define") := ⟨by decide, by decide, by decide⟩
  have e : guardedText g inner ++ b = ['\n'] ++ (('#' :: (str% "ifndef" ++ ' ' :: (g ++ ['\n']))) ++ (('#' :: (str% "define" ++ ' ' :: (g ++ ['\n']))) ++
      (['\n'] ++ ((inner ++ ['\n']) ++ ((str% "#endif //" ++ g ++ str% "\n") ++ b))))) := by
    simp [guardedText]
  rw [e, run_whole whole_blank, show splitLines [] = [[]] from rfl]
  show run inc D (t, []) _ = _
  rw [run_whole (whole_hash hi hg)]
  have key : ∀ s, (match s.2 with | [] => none | _ :: r => run inc D (s.1, r) b) = run inc D s ((str% "#endif //" ++ g ++ str% "\n") ++ b) := by
    intro s
    obtain ⟨t, st⟩ := s
    rw [run_whole (whole_endif hg.word), splitLines_one (by simp)]
    cases st <;> rfl
  simp only [key]
  rw [splitLines_one (by simp)]
  by_cases hdef : isDefined D t g = true
  · have e1 : runLines inc D (t, []) [[⟨true, .punct (str% "#")⟩, ⟨false, .ident (str% "ifndef")⟩, ⟨true, .ident g⟩]] = some (t, [⟨false, false, false⟩]) := by
      show (Option.map _ (some ((⟨!isDefined D t g, !isDefined D t g, false⟩ : Cc.Cond) :: []))).bind _ = _
      rw [hdef]
      rfl
    rw [e1, Option.bind_some, if_pos hdef, run_whole (whole_hash hd hg), splitLines_one (by simp)]
    show (run inc D (t, [⟨false, false, false⟩]) _) = _
    rw [run_whole whole_blank, show splitLines [] = [[]] from rfl]
    show (run inc D (t, [⟨false, false, false⟩]) _) = _
    rw [run_whole (whole_of_tokens ht)]
  · have hdef' : isDefined D t g = false := by simpa using hdef
    have e1 : runLines inc D (t, []) [[⟨true, .punct (str% "#")⟩, ⟨false, .ident (str% "ifndef")⟩, ⟨true, .ident g⟩]] = some (t, [⟨true, true, false⟩]) := by
      show (Option.map _ (some ((⟨!isDefined D t g, !isDefined D t g, false⟩ : Cc.Cond) :: []))).bind _ = _
      rw [hdef']
      rfl
    rw [e1, Option.bind_some, if_neg hdef, run_whole (whole_hash hd hg), splitLines_one (by simp)]
    show (run inc D ((g, some ⟨none, false, []⟩) :: t, [⟨true, true, false⟩]) _) = _
    rw [run_whole whole_blank, show splitLines [] = [[]] from rfl]
    show (run inc D ((g, some ⟨none, false, []⟩) :: t, [⟨true, true, false⟩]) _) = _
    rw [run_whole (whole_of_tokens ht)]

end Gdo.Cpp
