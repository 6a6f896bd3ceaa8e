import Verif.Lemmas.CMacroCalm
import Verif.Lemmas.CForm

/-!
Lemmas: which macros the text of a template with all its keywords may define.
-/

set_option maxRecDepth 20000

namespace Gdo.Cpp
open Gdo Rename Tmpl Builtin

/-! ### Text that leaves macros as they are -/

/-- Whole lines that do not fail and leave the macros `X` as they are; `sh`, `sh'`: the
    conditionals that are open before and behind. -/
def Acts (inc : List T → Table) (X : List Str) (sh sh' : List Bool) (a : Str) : Prop :=
  a = [] ∧ sh = sh' ∨
  ∃ x, Whole a x ∧ ∀ D t st, st.map (·.last) = sh →
    ∃ t' st', runLines inc D (t, st) (splitLines x) = some (t', st') ∧ st'.map (·.last) = sh' ∧ ∀ y ∈ X, t'.lookup y = t.lookup y

variable {inc : List T → Table} {X : List Str}

theorem whole_append {a b : Str} {x y : List T} (ha : Whole a x) (hb : Whole b y) : Whole (a ++ b) (x ++ nlT :: y) := by
  obtain ⟨h1, a', rfl⟩ := ha
  obtain ⟨h2, b', rfl⟩ := hb
  refine ⟨?_, (a' ++ ['\n']) ++ b', by simp⟩
  rw [pieces_whole, lex_append, h1, Option.bind_some, h2]
  simp

theorem Acts.append {a b : Str} {s1 s2 s3 : List Bool} (ha : Acts inc X s1 s2 a) (hb : Acts inc X s2 s3 b) : Acts inc X s1 s3 (a ++ b) := by
  rcases ha with ⟨rfl, rfl⟩ | ⟨x, wx, hx⟩
  · exact hb
  · rcases hb with ⟨rfl, rfl⟩ | ⟨y, wy, hy⟩
    · rw [List.append_nil]
      exact .inr ⟨x, wx, hx⟩
    · refine .inr ⟨_, whole_append wx wy, fun D t st hs => ?_⟩
      obtain ⟨t1, st1, e1, e2, e3⟩ := hx D t st hs
      obtain ⟨t2, st2, e4, e5, e6⟩ := hy D t1 st1 e2
      refine ⟨t2, st2, ?_, e5, fun z hz => by rw [e6 z hz, e3 z hz]⟩
      rw [nlT, splitLines_append, runLines_append, e1]
      exact e4

theorem Acts.nil (sh : List Bool) : Acts inc X sh sh [] := .inl ⟨rfl, rfl⟩

theorem Acts.harmless {a : Str} (h : Acts inc X [] [] a) : Harmless inc X a := by
  rcases h with ⟨rfl, _⟩ | ⟨x, wx, hx⟩
  · exact .inl rfl
  · refine .inr ⟨x, wx, fun D => ?_⟩
    obtain ⟨t, st, e1, e2, e3⟩ := hx D [] [] rfl
    rw [List.map_eq_nil_iff] at e2
    subst e2
    exact ⟨t, e1, fun y hy => by rw [e3 y hy]; rfl⟩

/-- Text without directives. -/
def CalmText (a b : Ab) (c : Str) : Prop := absRun a c = some b ∧ (c = [] ∨ ∃ c', c = c' ++ ['\n'])

theorem acts_calm {c : Str} (h : CalmText .code .code c) (sh : List Bool) : Acts inc X sh sh c := by
  obtain ⟨h1, rfl | ⟨c', rfl⟩⟩ := h
  · exact .nil sh
  · obtain ⟨x, wx, hx⟩ := calm_whole h1
    exact .inr ⟨x, wx, fun D t st hs => ⟨t, st, runLines_noHash inc D (t, st) hx, hs, fun _ _ => rfl⟩⟩

theorem CalmText.append {a b c : Ab} {s t : Str} (h1 : CalmText a b s) (h2 : CalmText b c t) : CalmText a c (s ++ t) := by
  refine ⟨by rw [absRun_append, h1.1]; exact h2.1, ?_⟩
  rcases h2.2 with rfl | ⟨t', rfl⟩
  · rw [List.append_nil]
    exact h1.2
  · exact .inr ⟨s ++ t', by simp⟩

/-! ### Lines of code -/

/-- The keywords whose values are names. -/
def nameKeywords : List Str := [str% "func_symbol", str% "obj_symbol", str% "symbol"]

/-- Where the value of a keyword may be. -/
def calmKw (a : Ab) (k : Str) : Bool :=
  (kindOf k).isSome && (a == .code || a == .str || a == .chr || a == .line || (a == .block && nameKeywords.contains k))

/-- The parts of code. -/
def calmParts : Ab → List Part → Option Ab
  | a, [] => some a
  | a, .word _ :: r => calmParts (absWord a) r
  | a, .other c :: r => (absOther a c).bind fun a' => calmParts a' r
  | a, .kw k :: r => if calmKw a k then calmParts a r else none

/-- How a keyword is written. -/
def valueText (val : Values) (k : Str) : Str :=
  match val k with
  | some (v, _) => v
  | none => str% "%%" ++ k ++ str% "%%"

/-- Values without characters that begin comments, literals and directives. -/
def Calm (v : Str) : Prop := ∀ c ∈ v, c ≠ '"' ∧ c ≠ '\'' ∧ c ≠ '\\' ∧ c ≠ '/' ∧ c ≠ '#' ∧ c ≠ '\n'

structure CalmValues (val : Values) : Prop where
  calm : ∀ k, (kindOf k).isSome = true → Calm (valueText val k)
  star : ∀ k ∈ nameKeywords, '*' ∉ valueText val k

theorem absRun_stay {a : Ab} {v : Str} (h : ∀ c ∈ v, absChar a c = some a) : absRun a v = some a := by
  induction v with
  | nil => rfl
  | cons c v ih =>
    rw [absRun, h c (by simp), Option.bind_some]
    exact ih fun c hc => h c (List.mem_cons_of_mem _ hc)

theorem absRun_value {val : Values} (hv : CalmValues val) {a : Ab} {k : Str} (h : calmKw a k = true) : absRun a (valueText val k) = some a := by
  unfold calmKw at h
  rw [Bool.and_eq_true] at h
  refine absRun_stay fun c hc => ?_
  obtain ⟨h1, h2, h3, h4, h5, h6⟩ := hv.calm k h.1 c hc
  have h7 := h.2
  simp only [Bool.or_eq_true, Bool.and_eq_true, beq_iff_eq] at h7
  unfold absChar
  rcases h7 with (((rfl | rfl) | rfl) | rfl) | ⟨rfl, h7⟩
  · split
    · rfl
    · simp [absOther, codeStep, h1, h2, h3, h4, h5]
  · split
    · rfl
    · simp [absOther, h1, h3, h6]
  · split
    · rfl
    · simp [absOther, h2, h3, h6]
  · split
    · rfl
    · simp [absOther, h3, h6]
  · split
    · rfl
    · have : c ≠ '*' := fun e => hv.star k (by simpa using h7) (e ▸ hc)
      simp [absOther, this]

/-- A blank does not matter there. -/
def blankOk (a : Ab) : Prop := absOther a ' ' = some a

theorem calmKw_blank {a : Ab} {k : Str} (h : calmKw a k = true) : blankOk a := by
  unfold calmKw at h
  simp only [Bool.or_eq_true, Bool.and_eq_true, beq_iff_eq] at h
  rcases h.2 with (((rfl | rfl) | rfl) | rfl) | ⟨rfl, _⟩ <;> rfl

variable {u l : Str}

/-- The characters that are no words are not word characters. -/
def OthersOk (ps : List Part) : Prop := ∀ c, .other c ∈ ps → isWord c = false

theorem absRun_fillIn (hp : Prefixes u l) {val : Values} (hv : CalmValues val) {ps : List Part} (hw : WordsOk ps) (ho : OthersOk ps) {a b : Ab} {eat : Bool}
    (he : eat = true → blankOk a) (h : calmParts a ps = some b) : absRun a (fillIn u l val eat ps) = some b := by
  induction ps generalizing a eat with
  | nil => exact h
  | cons q r ih =>
    have hw' : WordsOk r := fun w h => hw w (List.mem_cons_of_mem _ h)
    have ho' : OthersOk r := fun c h => ho c (List.mem_cons_of_mem _ h)
    have no : false = true → ∀ a, blankOk a := fun h => by cases h
    cases q with
    | word w =>
      obtain ⟨h1, h2⟩ := hw w (by simp)
      obtain ⟨h3, h4⟩ := newName_word hp.upper hp.lower hp.lower_ne h2 h1
      rw [fillIn, absRun_append, absRun_word h4 h3, Option.bind_some]
      exact ih hw' ho' (fun h => no h _) h
    | other c =>
      rw [calmParts] at h
      rw [fillIn]
      cases hc : absOther a c with
      | none => rw [hc] at h; cases h
      | some a' =>
        rw [hc, Option.bind_some] at h
        split
        · rename_i hx
          rw [Bool.and_eq_true, beq_iff_eq] at hx
          have := he hx.1
          unfold blankOk at this
          rw [hx.2, this] at hc
          cases hc
          exact ih hw' ho' (fun h => no h _) h
        · rw [absRun, absChar, if_neg (by simp [ho c (by simp)]), hc, Option.bind_some]
          exact ih hw' ho' (fun h => no h _) h
    | kw k =>
      rw [calmParts] at h
      split at h
      · rename_i hk
        have e := absRun_value hv hk
        unfold valueText at e
        rw [fillIn]
        cases hval : val k with
        | none =>
          rw [hval] at e
          simp only at e ⊢
          rw [absRun_append, e, Option.bind_some]
          exact ih hw' ho' (fun h => no h _) h
        | some v =>
          rw [hval] at e
          obtain ⟨v, eat'⟩ := v
          simp only at e ⊢
          rw [absRun_append, e, Option.bind_some]
          exact ih hw' ho' (fun _ => calmKw_blank hk) h
      · cases h

/-! ### Directives -/

/-- The name that a directive defines or removes. -/
def setIn : List T → List Str
  | ⟨_, .punct _⟩ :: ⟨_, .ident d⟩ :: ⟨_, .ident n⟩ :: _ => if d = str% "define" ∨ d = str% "undef" then [n] else []
  | _ => []

theorem action_other {inc : List T → Table} {d : Str} {r : List T} {t t' : Table} {y : Str} (h : action inc d r t = some t') (hi : ∀ r, (inc r).lookup y = none)
    (hn : ∀ sp n r', r = ⟨sp, .ident n⟩ :: r' → d = str% "define" ∨ d = str% "undef" → n ≠ y) : t'.lookup y = t.lookup y := by
  have key : ∀ {n : Str} {m : Option Macro}, n ≠ y → List.lookup y ((n, m) :: t) = t.lookup y := by
    intro n m h
    rw [List.lookup_cons, show (y == n) = false from by simpa using fun e => h e.symm]
  unfold action at h
  split at h
  · rename_i h1
    cases hd : definition r with
    | none => rw [hd] at h; cases h
    | some m =>
      rw [hd] at h
      cases h
      obtain ⟨sp, r', e⟩ := definition_name hd
      exact key (hn _ _ _ e (.inl h1))
  · split at h
    · rename_i h2
      split at h
      · cases h
        exact key (hn _ _ _ rfl (.inr h2))
      · cases h
    · split at h
      · cases h
        rw [List.lookup_append, hi]
        rfl
      · split at h
        · cases h; rfl
        · cases h

theorem runLine_other {inc : List T → Table} {D : Str → Bool} {s s' : Table × List Cc.Cond} {ln : List T} {y : Str} (h : runLine inc D s ln = some s')
    (hi : ∀ r, (inc r).lookup y = none) (hn : y ∉ setIn ln) : s'.1.lookup y = s.1.lookup y := by
  cases ln with
  | nil => cases h; rfl
  | cons x r =>
    obtain ⟨sp, x⟩ := x
    cases x with
    | punct p =>
      simp only [runLine] at h
      split at h
      · cases r with
        | nil => cases h; rfl
        | cons z r =>
          obtain ⟨sp', z⟩ := z
          cases z with
          | ident d =>
            simp only [runDirective] at h
            split at h
            · cases hd : Cc.directive (isDefined D s.1) d ((asked r).map fun t => toTok t.tok) s.2 with
              | none => rw [hd] at h; cases h
              | some st => rw [hd] at h; cases h; rfl
            · split at h
              · cases ha : action inc d r s.1 with
                | none => rw [ha] at h; cases h
                | some t' =>
                  rw [ha] at h
                  cases h
                  refine action_other ha hi fun sp n r' e hd hny => hn ?_
                  subst e hny
                  simp only [setIn]
                  rw [if_pos hd]
                  exact List.mem_singleton.mpr rfl
              · cases h; rfl
          | _ => cases h
      · cases h; rfl
    | _ => cases h; rfl

theorem runLines_other {inc : List T → Table} {D : Str → Bool} {s s' : Table × List Cc.Cond} {lns : List (List T)} {y : Str} (h : runLines inc D s lns = some s')
    (hi : ∀ r, (inc r).lookup y = none) (hn : ∀ ln ∈ lns, y ∉ setIn ln) : s'.1.lookup y = s.1.lookup y := by
  induction lns generalizing s with
  | nil => cases h; rfl
  | cons ln lns ih =>
    rw [runLines] at h
    cases h1 : runLine inc D s ln with
    | none => rw [h1] at h; cases h
    | some s1 =>
      rw [h1, Option.bind_some] at h
      rw [ih h fun x hx => hn x (List.mem_cons_of_mem _ hx), runLine_other h1 hi (hn ln (List.mem_cons_self ..))]

/-- The names that a line defines or removes pass a test. -/
def okSets (okName : Str → Bool) : List T → Bool
  | ⟨_, .punct _⟩ :: ⟨_, .ident d⟩ :: ⟨_, .ident n⟩ :: _ => fixedWord d && (!(d == str% "define" || d == str% "undef") || okName n)
  | _ => true

theorem setIn_ren {f : Str → Str} (hf : ∀ w, fixedWord w = true → f w = w) {okName : Str → Bool} {ln : List T} (h : okSets okName ln = true) {y : Str}
    (hy : y ∈ setIn (ln.map (renT f))) : ∃ n, okName n = true ∧ y = f n := by
  match ln with
  | [] => cases hy
  | [⟨sp, a⟩] => cases a <;> cases hy
  | [⟨sp, a⟩, ⟨sp', b⟩] => cases a <;> cases b <;> cases hy
  | ⟨sp, a⟩ :: ⟨sp', b⟩ :: ⟨sp'', c⟩ :: r =>
    cases a with
    | punct p =>
      cases b with
      | ident d =>
        cases c with
        | ident n =>
          simp only [okSets, Bool.and_eq_true] at h
          simp only [List.map_cons, renT, renTok, setIn, hf d h.1] at hy
          split at hy
          · rename_i hd
            have h2 := h.2
            simp only [Bool.or_eq_true, Bool.not_eq_true', beq_iff_eq, Bool.or_eq_false_iff, beq_eq_false_iff_ne] at h2
            rcases h2 with h2 | h2
            · exact absurd hd (by simp [h2.1, h2.2])
            · exact ⟨n, h2, List.mem_singleton.mp hy⟩
          · cases hy
        | _ => cases hy
      | _ => cases hy
    | _ => cases hy

/-! ### Directives with keywords -/

/-- The conditionals that are open behind a line, for any names in it. -/
def shapeK (sh : List Bool) : List T → Option (List Bool)
  | ⟨_, .punct p⟩ :: ⟨_, .ident d⟩ :: r =>
    if p = str% "#" ∧ fixedWord d = true then
      if d = str% "ifdef" ∨ d = str% "ifndef" then
        match r with
        | [⟨_, .ident _⟩] => some (false :: sh)
        | _ => none
      else if d = str% "else" then if sh.head? = some false then some (true :: sh.tail) else none
      else if d = str% "endif" then if sh = [] then none else some sh.tail
      else if d = str% "define" then if (definition r).isSome then some sh else none
      else none
    else none
  | _ => none

theorem runLine_k {f : Str → Str} (hf : ∀ w, fixedWord w = true → f w = w) {ln : List T} {st : List Cc.Cond} {sh' : List Bool} (h : shapeK (st.map (·.last)) ln = some sh')
    (inc : List T → Table) (D : Str → Bool) (t : Table) :
    ∃ t' st', runLine inc D (t, st) (ln.map (renT f)) = some (t', st') ∧ st'.map (·.last) = sh' := by
  match ln with
  | [] => cases h
  | [⟨sp, a⟩] => cases a <;> cases h
  | ⟨sp, a⟩ :: ⟨sp', b⟩ :: r =>
    cases a with
    | punct p =>
      cases b with
      | ident d =>
        simp only [shapeK] at h
        split at h
        · rename_i hpd
          obtain ⟨hp, hd⟩ := hpd
          simp only [List.map_cons, renT, renTok, runLine, if_pos hp, runDirective, hf d hd]
          have cond : ∀ {sh'}, d ∈ conditionals → shapeCond d ((asked (r.map (renT f))).map fun t => toTok t.tok) (st.map (·.last)) = some sh' →
              ∃ t' st', (if d ∈ conditionals then (Cc.directive (isDefined D t) d ((asked (r.map (renT f))).map fun t => toTok t.tok) st).map fun st => (t, st)
                else if Cc.active st then (action inc d (r.map (renT f)) t).map fun t => (t, st) else some (t, st)) = some (t', st') ∧ st'.map (·.last) = sh' := by
            intro sh' hc hs
            obtain ⟨st', e1, e2⟩ := directive_shape (D := isDefined D t) hc hs
            rw [if_pos hc, e1]
            exact ⟨_, _, rfl, e2⟩
          split at h
          · rename_i h1
            split at h
            · rename_i sx x
              cases h
              refine cond (by rcases h1 with rfl | rfl <;> decide) ?_
              unfold shapeCond
              rw [if_neg (by rcases h1 with rfl | rfl <;> decide), if_pos h1]
              rfl
            · cases h
          · rename_i h1
            split at h
            · rename_i h2
              refine cond (by subst h2; decide) ?_
              unfold shapeCond
              rw [if_neg (by subst h2; decide), if_neg h1, if_neg (by subst h2; decide), if_pos h2]
              exact h
            · rename_i h2
              split at h
              · rename_i h3
                refine cond (by subst h3; decide) ?_
                unfold shapeCond
                rw [if_neg (by subst h3; decide), if_neg h1, if_neg (by subst h3; decide), if_neg h2]
                exact h
              · split at h
                · rename_i h4
                  split at h
                  · rename_i h5
                    cases h
                    rw [if_neg (by subst h4; decide)]
                    split
                    · unfold action
                      rw [if_pos h4, definition_ren]
                      obtain ⟨m, hm⟩ := Option.isSome_iff_exists.mp h5
                      rw [hm]
                      exact ⟨_, _, rfl, rfl⟩
                    · exact ⟨_, _, rfl, rfl⟩
                  · cases h
                · cases h
        · cases h
      | _ => cases h
    | _ => cases h

def shapeKs : List Bool → List (List T) → Option (List Bool)
  | sh, [] => some sh
  | sh, l :: ls => (shapeK sh l).bind fun sh' => shapeKs sh' ls

theorem runLines_k {f : Str → Str} (hf : ∀ w, fixedWord w = true → f w = w) {lns : List (List T)} {st : List Cc.Cond} {sh' : List Bool}
    (h : shapeKs (st.map (·.last)) lns = some sh') (inc : List T → Table) (D : Str → Bool) (t : Table) :
    ∃ t' st', runLines inc D (t, st) (lns.map (·.map (renT f))) = some (t', st') ∧ st'.map (·.last) = sh' := by
  induction lns generalizing t st with
  | nil => cases h; exact ⟨_, _, rfl, rfl⟩
  | cons ln lns ih =>
    rw [shapeKs] at h
    cases hs : shapeK (st.map (·.last)) ln with
    | none => rw [hs] at h; cases h
    | some sh1 =>
      rw [hs, Option.bind_some] at h
      obtain ⟨t1, st1, e1, e2⟩ := runLine_k hf hs inc D t
      obtain ⟨t2, st2, e3, e4⟩ := ih (st := st1) (by rw [e2]; exact h) t1
      refine ⟨t2, st2, ?_, e4⟩
      rw [List.map_cons, runLines, e1, Option.bind_some, e3]

end Gdo.Cpp
