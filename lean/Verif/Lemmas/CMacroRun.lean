import Verif.Lemmas.CMacroLex

/-!
Lemmas: the directives of a renamed text define the renamed macros; text whose directives
do not name a macro leaves it as it is.
-/

namespace Gdo.Cpp
open Gdo Rename Tmpl Builtin

/-! ### Lines -/

theorem splitLines_append {a b : List T} : splitLines (a ++ ⟨false, .nl⟩ :: b) = splitLines a ++ splitLines b := by
  induction a with
  | nil => rfl
  | cons t a ih =>
    rw [List.cons_append, splitLines, splitLines, ih]
    split
    · rfl
    · cases h : splitLines a with
      | nil =>
        cases a with
        | nil => cases h
        | cons x a =>
          rw [splitLines] at h
          split at h
          · cases h
          · split at h <;> cases h
      | cons l ls => rfl

theorem splitLines_map (f : Str → Str) (ts : List T) : splitLines (ts.map (renT f)) = (splitLines ts).map (·.map (renT f)) := by
  induction ts with
  | nil => rfl
  | cons t r ih =>
    rw [List.map_cons, splitLines, splitLines, ih]
    have : ((renT f t).tok = .nl) ↔ (t.tok = .nl) := by
      obtain ⟨sp, t⟩ := t
      cases t <;> simp [renT, renTok]
    simp only [this]
    split
    · rfl
    · cases splitLines r <;> rfl

theorem runLines_append (inc : List T → Table) (D : Str → Bool) (s : Table × List Cc.Cond) (a b : List (List T)) :
    runLines inc D s (a ++ b) = (runLines inc D s a).bind fun s' => runLines inc D s' b := by
  induction a generalizing s with
  | nil => rfl
  | cons l a ih =>
    rw [List.cons_append, runLines, runLines]
    cases runLine inc D s l with
    | none => rfl
    | some s' => simp only [Option.bind_some, ih]

theorem isDefined_append (D : Str → Bool) (a t : Table) (x : Str) : isDefined (isDefined D t) a x = isDefined D (a ++ t) x := by
  unfold isDefined
  rw [List.lookup_append]
  cases a.lookup x <;> rfl

theorem known_append (E : Str → Option Macro) (a t : Table) : known (known E t) a = known E (a ++ t) := by
  funext x
  unfold known
  rw [List.lookup_append]
  cases a.lookup x <;> rfl

theorem isDefined_known (E : Str → Option Macro) (t : Table) : (fun x => (known E t x).isSome) = isDefined (fun x => (E x).isSome) t := by
  funext x
  unfold known isDefined
  cases t.lookup x <;> rfl

theorem action_append (inc : List T → Table) (d : Str) (r : List T) (a t : Table) : action inc d r (a ++ t) = (action inc d r a).map (· ++ t) := by
  unfold action
  split
  · cases definition r <;> rfl
  · split
    · split <;> rfl
    · split
      · simp
      · split <;> rfl

/-- What was defined before matters only by its being defined. -/
theorem runLine_append (inc : List T → Table) (D : Str → Bool) (a t : Table) (st : List Cc.Cond) (l : List T) :
    runLine inc D (a ++ t, st) l = (runLine inc (isDefined D t) (a, st) l).map fun s => (s.1 ++ t, s.2) := by
  cases l with
  | nil => rfl
  | cons x r =>
    obtain ⟨sp, x⟩ := x
    cases x with
    | punct p =>
      simp only [runLine]
      split
      · cases r with
        | nil => rfl
        | cons y r =>
          obtain ⟨sp', y⟩ := y
          cases y with
          | ident d =>
            simp only [runDirective]
            rw [show isDefined (isDefined D t) a = isDefined D (a ++ t) from funext (isDefined_append D a t), action_append]
            split
            · cases Cc.directive (isDefined D (a ++ t)) d ((asked r).map fun t => toTok t.tok) st <;> rfl
            · split
              · cases action inc d r a <;> rfl
              · rfl
          | _ => rfl
      · rfl
    | _ => rfl

theorem runLines_from (inc : List T → Table) (D : Str → Bool) (t : Table) (ls : List (List T)) : ∀ (a : Table) (st : List Cc.Cond),
    runLines inc D (a ++ t, st) ls = (runLines inc (isDefined D t) (a, st) ls).map fun s => (s.1 ++ t, s.2) := by
  induction ls with
  | nil => intro a st; rfl
  | cons l ls ih =>
    intro a st
    rw [runLines, runLines, runLine_append]
    cases runLine inc (isDefined D t) (a, st) l with
    | none => rfl
    | some s => exact ih s.1 s.2

theorem runLines_start (inc : List T → Table) (D : Str → Bool) (t : Table) (st : List Cc.Cond) (ls : List (List T)) :
    runLines inc D (t, st) ls = (runLines inc (isDefined D t) ([], st) ls).map fun s => (s.1 ++ t, s.2) :=
  runLines_from inc D t ls [] st

/-! ### Renamed directives -/

def renMacro (f : Str → Str) (m : Macro) : Macro := ⟨m.params.map (·.map f), m.va, m.body.map (renT f)⟩

def renTable (f : Str → Str) (t : Table) : Table := t.map fun p => (f p.1, p.2.map (renMacro f))

theorem paramList_ren (f : Str → Str) (ts : List T) :
    paramList (ts.map (renT f)) = (paramList ts).map fun a => (a.1.map f, a.2.1, a.2.2.map (renT f)) := by
  fun_induction paramList ts with
  | case1 sp p sq q r h => simp [paramList, renT, renTok, h]
  | case2 sp p sq q r h => simp only [List.map_cons, renT, renTok, paramList, if_neg h]; rfl
  | case3 sp x sq r => simp [paramList, renT, renTok]
  | case4 sp x sq r h ih =>
    simp only [List.map_cons, renT, renTok, paramList] at ih ⊢
    rw [if_neg h, if_pos trivial, ih]
    cases paramList r <;> rfl
  | case5 sp x sq p r h1 h2 => simp only [List.map_cons, renT, renTok, paramList, if_neg h1, if_neg h2]; rfl
  | case6 ts h1 h2 =>
    cases ts with
    | nil => rfl
    | cons a ts =>
      obtain ⟨sa, a⟩ := a
      cases ts with
      | nil => cases a <;> rfl
      | cons b ts =>
        obtain ⟨sb, b⟩ := b
        cases a with
        | ident x =>
          cases b with
          | punct q => exact absurd rfl (h2 _ _ _ _ _)
          | _ => rfl
        | punct p =>
          cases b with
          | punct q => exact absurd rfl (h1 _ _ _ _ _)
          | _ => rfl
        | _ => cases b <;> rfl

theorem parameters_ren (f : Str → Str) (ts : List T) :
    parameters (ts.map (renT f)) = (parameters ts).map fun a => (a.1.map f, a.2.1, a.2.2.map (renT f)) := by
  cases ts with
  | nil => rfl
  | cons a r =>
    obtain ⟨sa, a⟩ := a
    cases a with
    | punct p =>
      simp only [List.map_cons, renT, renTok, parameters]
      split
      · rfl
      · exact paramList_ren f (⟨sa, .punct p⟩ :: r)
    | ident x => exact paramList_ren f (⟨sa, .ident x⟩ :: r)
    | num x => exact paramList_ren f (⟨sa, .num x⟩ :: r)
    | str e x => exact paramList_ren f (⟨sa, .str e x⟩ :: r)
    | chr e x => exact paramList_ren f (⟨sa, .chr e x⟩ :: r)
    | nl => exact paramList_ren f (⟨sa, .nl⟩ :: r)

theorem definition_ren (f : Str → Str) (ts : List T) :
    definition (ts.map (renT f)) = (definition ts).map fun m => (f m.1, renMacro f m.2) := by
  cases ts with
  | nil => rfl
  | cons a r =>
    obtain ⟨sa, a⟩ := a
    cases a with
    | ident n =>
      cases r with
      | nil => rfl
      | cons b r =>
        obtain ⟨sb, b⟩ := b
        have : (renTok f b = .punct (str% "(")) ↔ (b = .punct (str% "(")) := by cases b <;> simp [renTok]
        show (if renTok f b = .punct (str% "(") ∧ sb = false then (parameters (r.map (renT f))).map fun a => (f n, (⟨some a.1, a.2.1, a.2.2⟩ : Macro))
          else some (f n, ⟨none, false, ⟨sb, renTok f b⟩ :: r.map (renT f)⟩)) =
          (if b = .punct (str% "(") ∧ sb = false then (parameters r).map fun a => (n, (⟨some a.1, a.2.1, a.2.2⟩ : Macro))
            else some (n, ⟨none, false, ⟨sb, b⟩ :: r⟩)).map fun m => (f m.1, renMacro f m.2)
        simp only [this]
        split
        · rw [parameters_ren]
          cases parameters r <;> rfl
        · rfl
    | _ => cases r <;> rfl

theorem lookup_ren {f : Str → Str} {W : List Str} (hinj : ∀ a ∈ W, ∀ b ∈ W, f a = f b → a = b) {x : Str} (hx : x ∈ W) {t : Table}
    (ht : ∀ p ∈ t, p.1 ∈ W) : (renTable f t).lookup (f x) = (t.lookup x).map (Option.map (renMacro f)) := by
  induction t with
  | nil => rfl
  | cons p t ih =>
    have ih := ih fun q hq => ht q (List.mem_cons_of_mem _ hq)
    obtain ⟨y, m⟩ := p
    show List.lookup (f x) ((f y, m.map (renMacro f)) :: renTable f t) = _
    by_cases h : x = y
    · subst h
      simp
    · have hne : f x ≠ f y := fun e => h (hinj x hx y (ht (y, m) (by simp)) e)
      rw [List.lookup_cons, List.lookup_cons, show (f x == f y) = false from by simpa using hne, show (x == y) = false from by simpa using h]
      exact ih

/-- Whether a macro is defined, in the names of the template. -/
theorem isDefined_ren {f : Str → Str} {W : List Str} (hinj : ∀ a ∈ W, ∀ b ∈ W, f a = f b → a = b) (D : Str → Bool) {x : Str} (hx : x ∈ W) {t : Table}
    (ht : ∀ p ∈ t, p.1 ∈ W) : isDefined D (renTable f t) (f x) = isDefined (fun w => D (f w)) t x := by
  unfold isDefined
  rw [lookup_ren hinj hx ht]
  cases t.lookup x with
  | none => rfl
  | some m => cases m <;> rfl

/-- A token of a condition. -/
def condTok (t : T) : Bool :=
  match t.tok with
  | .ident w => notGdo w
  | .num s => fixedWord s
  | .punct _ => true
  | _ => false

/-- The rest of such a line behind `#`. -/
def plainCond : List T → Bool
  | ⟨_, .ident w⟩ :: ⟨_, .punct p⟩ :: _ => p != str% "(" || w == str% "defined" || w == str% "__has_builtin"
  | _ => true

theorem asked_ren {u l : Str} {r : List T} (h : plainCond r = true) : asked (r.map (renT (newName u l))) = (asked r).map (renT (newName u l)) := by
  match r with
  | [] => rfl
  | [⟨sp, t⟩] => cases t <;> rfl
  | ⟨sp, t⟩ :: ⟨sp', t'⟩ :: r =>
    cases t with
    | ident w =>
      cases t' with
      | punct p =>
        simp only [plainCond, Bool.or_eq_true, bne_iff_ne, beq_iff_eq] at h
        simp only [List.map_cons, renT, renTok, asked]
        rcases h with (h | rfl) | rfl
        · rw [if_neg (fun e => h e.2), if_neg (fun e => h e.2)]
          rfl
        · have e : newName u l (str% "defined") = str% "defined" := rfl
          rw [e, if_neg (fun e => absurd e.1 (by decide)), if_neg (fun e => absurd e.1 (by decide))]
          rfl
        · have e : newName u l (str% "__has_builtin") = str% "__has_builtin" := rfl
          rw [e]
          by_cases hp : p = str% "("
          · rw [if_pos ⟨rfl, hp⟩, if_pos ⟨rfl, hp⟩]
            rfl
          · rw [if_neg (fun e => hp e.2), if_neg (fun e => hp e.2)]
            rfl
      | _ => rfl
    | _ => cases t' <;> rfl

def okDirective (W : List Str) : List T → Bool
  | [] => true
  | ⟨_, .ident d⟩ :: r =>
    fixedWord d && d != str% "include" && d != str% "error" &&
    if d ∈ conditionals then (plainCond r && (asked r).all condTok) && (Cc.directiveWords d ((asked r).map fun t => toTok t.tok)).all (W.contains ·)
    else
      match r with
      | ⟨_, .ident n⟩ :: _ => W.contains n
      | _ => true
  | _ => true

/-- A line without `#include`, whose directives are known and name words of `W` only. -/
def okLine (W : List Str) : List T → Bool
  | ⟨_, .punct p⟩ :: r => if p = str% "#" then okDirective W r else true
  | _ => true

theorem toTok_ren {u l : Str} {ts : List T} (h : ts.all condTok = true) :
    ((ts.map (renT (newName u l))).map fun t => toTok t.tok) = (ts.map fun t => toTok t.tok).map (Cc.ren u l) ∧
      Cc.Good (ts.map fun t => toTok t.tok) := by
  induction ts with
  | nil => exact ⟨rfl, fun _ h => by cases h⟩
  | cons t r ih =>
    rw [List.all_cons, Bool.and_eq_true] at h
    obtain ⟨i1, i2⟩ := ih h.2
    obtain ⟨sp, t⟩ := t
    have h1 := h.1
    constructor
    · rw [List.map_cons, List.map_cons, i1, List.map_cons, List.map_cons]
      congr 1
      cases t with
      | ident w => rfl
      | num s => simp only [renT, renTok, toTok, Cc.ren]; rw [newName_fixed h1]
      | punct p => rfl
      | nl => rfl
      | str e s => cases h1
      | chr e s => cases h1
    · intro x hx
      rcases List.mem_cons.mp hx with rfl | hx
      · cases t with
        | ident w =>
          simp only [toTok]
          intro e
          cases e
          cases h1
        | num s =>
          simp only [toTok]
          intro e
          cases e
          exact absurd (show fixedWord (str% "gdo") = true from h1) (by decide)
        | punct p => intro e; cases e
        | nl => intro e; cases e
        | str e s => cases h1
        | chr e s => cases h1
      · exact i2 x hx

variable {u l : Str} {W : List Str}

/-- A renamed line. -/
theorem runLine_ren (hinj : ∀ a ∈ W, ∀ b ∈ W, newName u l a = newName u l b → a = b) (inc inc' : List T → Table) (D : Str → Bool) {t : Table}
    (ht : ∀ p ∈ t, p.1 ∈ W) (st : List Cc.Cond) {ln : List T} (h : okLine W ln = true) :
    runLine inc D (renTable (newName u l) t, st) (ln.map (renT (newName u l))) =
      (runLine inc' (fun w => D (newName u l w)) (t, st) ln).map (fun s => (renTable (newName u l) s.1, s.2)) ∧
    ∀ s, runLine inc' (fun w => D (newName u l w)) (t, st) ln = some s → ∀ p ∈ s.1, p.1 ∈ W := by
  have trivial' : ∀ s, some (t, st) = some s → ∀ p ∈ s.1, p.1 ∈ W := fun s e => by cases e; exact ht
  cases ln with
  | nil => exact ⟨rfl, trivial'⟩
  | cons x r =>
    obtain ⟨sp, x⟩ := x
    cases x with
    | punct p =>
      simp only [List.map_cons, renT, renTok, runLine]
      by_cases hp : p = str% "#"
      · rw [if_pos hp, if_pos hp]
        simp only [okLine, if_pos hp] at h
        cases r with
        | nil => exact ⟨rfl, trivial'⟩
        | cons y r =>
          obtain ⟨sp', y⟩ := y
          cases y with
          | ident d =>
            simp only [okDirective, Bool.and_eq_true] at h
            obtain ⟨⟨⟨hd, hi⟩, he⟩, h⟩ := h
            simp only [List.map_cons, renT, renTok, runDirective, newName_fixed hd]
            by_cases hc : d ∈ conditionals
            · rw [if_pos hc] at h ⊢
              rw [if_pos hc]
              rw [Bool.and_eq_true, Bool.and_eq_true] at h
              obtain ⟨e1, e2⟩ := toTok_ren (u := u) (l := l) h.1.2
              have e0 := asked_ren (u := u) (l := l) h.1.1
              have e3 : Cc.directive (isDefined D (renTable (newName u l) t)) d ((asked (r.map (renT (newName u l)))).map fun t => toTok t.tok) st =
                  Cc.directive (isDefined (fun w => D (newName u l w)) t) d ((asked r).map fun t => toTok t.tok) st := by
                rw [e0, e1, Cc.directive_ren _ d e2 st]
                refine Cc.directive_congr (fun x hx => ?_) st
                have := List.all_eq_true.mp h.2 x hx
                exact isDefined_ren hinj D (by simpa using this) ht
              refine ⟨?_, ?_⟩
              · refine (congrArg (Option.map _) e3).trans ?_
                cases Cc.directive (isDefined (fun w => D (newName u l w)) t) d ((asked r).map fun t => toTok t.tok) st <;> rfl
              · intro s hs
                cases hx : Cc.directive (isDefined (fun w => D (newName u l w)) t) d ((asked r).map fun t => toTok t.tok) st with
                | none => rw [hx] at hs; cases hs
                | some st' => rw [hx] at hs; cases hs; exact ht
            · rw [if_neg hc] at h ⊢
              rw [if_neg hc]
              by_cases ha : Cc.active st = true
              · rw [if_pos ha, if_pos ha]
                have hi : d ≠ str% "include" := by simpa using hi
                unfold action
                by_cases h1 : d = str% "define"
                · rw [if_pos h1, if_pos h1]
                  rw [definition_ren]
                  cases hdef : definition r with
                  | none => exact ⟨rfl, fun s hs => by cases hs⟩
                  | some m =>
                    refine ⟨rfl, fun s hs => ?_⟩
                    cases hs
                    intro p hp
                    rcases List.mem_cons.mp hp with rfl | hp
                    · obtain ⟨n, m⟩ := m
                      cases r with
                      | nil => cases hdef
                      | cons z r =>
                        obtain ⟨sz, z⟩ := z
                        cases z with
                        | ident x =>
                          have hx : x ∈ W := by simpa using h
                          have : n = x := by
                            cases r with
                            | nil => cases hdef; rfl
                            | cons b r =>
                              obtain ⟨sb, b⟩ := b
                              simp only [definition] at hdef
                              split at hdef
                              · cases hpar : parameters r with
                                | none => rw [hpar] at hdef; cases hdef
                                | some a => rw [hpar] at hdef; cases hdef; rfl
                              · cases hdef; rfl
                          rw [this]; exact hx
                        | _ => cases r <;> cases hdef
                    · exact ht p hp
                · rw [if_neg h1, if_neg h1]
                  by_cases h2 : d = str% "undef"
                  · rw [if_pos h2, if_pos h2]
                    cases r with
                    | nil => exact ⟨rfl, fun s hs => by cases hs⟩
                    | cons z r =>
                      obtain ⟨sz, z⟩ := z
                      cases r with
                      | nil =>
                        cases z with
                        | ident x =>
                          refine ⟨rfl, fun s hs => ?_⟩
                          cases hs
                          intro p hp
                          rcases List.mem_cons.mp hp with rfl | hp
                          · simpa using h
                          · exact ht p hp
                        | _ => exact ⟨rfl, fun s hs => by cases hs⟩
                      | cons b r => cases z <;> exact ⟨rfl, fun s hs => by cases hs⟩
                  · rw [if_neg h2, if_neg h2, if_neg hi, if_neg hi]
                    split
                    · exact ⟨rfl, trivial'⟩
                    · exact ⟨rfl, fun s hs => by cases hs⟩
              · rw [if_neg ha, if_neg ha]
                exact ⟨rfl, trivial'⟩
          | _ => exact ⟨rfl, fun s hs => by cases hs⟩
      · rw [if_neg hp, if_neg hp]
        exact ⟨rfl, trivial'⟩
    | _ => exact ⟨rfl, trivial'⟩

/-- Renamed lines. -/
theorem runLines_ren (hinj : ∀ a ∈ W, ∀ b ∈ W, newName u l a = newName u l b → a = b) (inc inc' : List T → Table) (D : Str → Bool)
    {lns : List (List T)} (h : lns.all (okLine W) = true) {t : Table} (ht : ∀ p ∈ t, p.1 ∈ W) (st : List Cc.Cond) :
    runLines inc D (renTable (newName u l) t, st) (lns.map (·.map (renT (newName u l)))) =
      (runLines inc' (fun w => D (newName u l w)) (t, st) lns).map (fun s => (renTable (newName u l) s.1, s.2)) ∧
    ∀ s, runLines inc' (fun w => D (newName u l w)) (t, st) lns = some s → ∀ p ∈ s.1, p.1 ∈ W := by
  induction lns generalizing t st with
  | nil => exact ⟨rfl, fun s hs => by cases hs; exact ht⟩
  | cons ln lns ih =>
    rw [List.all_cons, Bool.and_eq_true] at h
    obtain ⟨h1, h2⟩ := runLine_ren hinj inc inc' D ht st h.1
    rw [List.map_cons, runLines, runLines, h1]
    cases hs : runLine inc' (fun w => D (newName u l w)) (t, st) ln with
    | none => exact ⟨rfl, fun s hs => by cases hs⟩
    | some s => exact ih h.2 (h2 s hs) s.2

/-! ### Finitely many cases -/

/-- The words that a directive tests. -/
def testedBy : List T → List Str
  | ⟨_, .ident d⟩ :: r => if d ∈ conditionals then Cc.directiveWords d ((asked r).map fun t => toTok t.tok) else []
  | _ => []

/-- The words that a line tests. -/
def testedIn : List T → List Str
  | ⟨_, .punct p⟩ :: r => if p = str% "#" then testedBy r else []
  | _ => []

theorem isDefined_congr {D D' : Str → Bool} {x : Str} (h : D x = D' x) (t : Table) : isDefined D t x = isDefined D' t x := by
  unfold isDefined
  rw [h]

theorem runLine_congr {inc : List T → Table} {D D' : Str → Bool} {ln : List T} (h : ∀ x ∈ testedIn ln, D x = D' x) (s : Table × List Cc.Cond) :
    runLine inc D s ln = runLine inc D' s ln := by
  cases ln with
  | nil => rfl
  | cons x r =>
    obtain ⟨sp, x⟩ := x
    cases x with
    | punct p =>
      simp only [runLine]
      by_cases hp : p = str% "#"
      · rw [if_pos hp, if_pos hp]
        cases r with
        | nil => rfl
        | cons y r =>
          obtain ⟨sp', y⟩ := y
          cases y with
          | ident d =>
            simp only [runDirective]
            by_cases hd : d ∈ conditionals
            · have : Cc.directive (isDefined D s.1) d ((asked r).map fun t => toTok t.tok) s.2 = Cc.directive (isDefined D' s.1) d ((asked r).map fun t => toTok t.tok) s.2 := by
                refine Cc.directive_congr (fun x hx => isDefined_congr (h x ?_) s.1) s.2
                simp only [testedIn, if_pos hp, testedBy, if_pos hd]
                exact hx
              rw [if_pos hd, if_pos hd, this]
            · rw [if_neg hd, if_neg hd]
          | _ => rfl
      · rw [if_neg hp, if_neg hp]
    | _ => rfl

theorem runLines_congr {inc : List T → Table} {D D' : Str → Bool} {lns : List (List T)} (h : ∀ ln ∈ lns, ∀ x ∈ testedIn ln, D x = D' x)
    (s : Table × List Cc.Cond) : runLines inc D s lns = runLines inc D' s lns := by
  induction lns generalizing s with
  | nil => rfl
  | cons ln lns ih =>
    have e := runLine_congr (inc := inc) (h ln (List.mem_cons_self ..)) s
    have ih := ih fun ln hl => h ln (List.mem_cons_of_mem _ hl)
    show (runLine inc D s ln).bind (fun s' => runLines inc D s' lns) = (runLine inc D' s ln).bind fun s' => runLines inc D' s' lns
    rw [e]
    congr 1
    exact funext ih

/-- The test on lines: their words are in `W`, the tested ones in `V`, and in all cases of
    `V` being defined `P` holds for the definitions. -/
def checkLines (V W : List Str) (lns : List (List T)) (P : (Str → Bool) → Option (Table × List Cc.Cond) → Bool) : Bool :=
  lns.all (okLine W) && lns.all (fun ln => (testedIn ln).all (V.contains ·)) &&
    (Cc.allBools V.length).all fun bs => P (Cc.among V bs) (runLines (fun _ => []) (Cc.among V bs) ([], []) lns)

theorem checkLines_spec {V W : List Str} {lns : List (List T)} {P : (Str → Bool) → Option (Table × List Cc.Cond) → Bool} (h : checkLines V W lns P = true)
    (hP : ∀ D D' r, (∀ x ∈ V, D x = D' x) → P D r = P D' r) (D : Str → Bool) :
    lns.all (okLine W) = true ∧ P D (runLines (fun _ => []) D ([], []) lns) = true := by
  unfold checkLines at h
  rw [Bool.and_eq_true, Bool.and_eq_true] at h
  obtain ⟨⟨h1, h2⟩, h3⟩ := h
  have h3 := List.all_eq_true.mp h3 (V.map D) (by simpa using Cc.mem_allBools (V.map D))
  rw [runLines_congr (D' := D) (fun ln hl x hx => by
    have := List.all_eq_true.mp (List.all_eq_true.mp h2 ln hl) x hx
    exact Cc.among_map D V (by simpa using this)), hP _ D _ fun x hx => Cc.among_map D V hx] at h3
  exact ⟨h1, h3⟩

/-! ### Text that leaves macros as they are -/

theorem operand_rest {D D' : Str → Bool} {sub sub' : Nat → List Cc.Tok → Option (Bool × List Cc.Tok)}
    (hs : ∀ lev r, (sub lev r).map Prod.snd = (sub' lev r).map Prod.snd) (ts : List Cc.Tok) :
    (Cc.operand D sub ts).map Prod.snd = (Cc.operand D' sub' ts).map Prod.snd := by
  unfold Cc.operand
  split
  · rename_i p r
    by_cases h1 : p = str% "!"
    · rw [if_pos h1, if_pos h1]
      have := hs 2 r
      cases h : sub 2 r <;> cases h' : sub' 2 r <;> rw [h, h'] at this <;> simp at this ⊢
      exact this
    · rw [if_neg h1, if_neg h1]
      by_cases h2 : p = str% "("
      · rw [if_pos h2, if_pos h2]
        have := hs 0 r
        cases h : sub 0 r <;> cases h' : sub' 0 r <;> rw [h, h'] at this <;> simp at this ⊢
        rw [this]
        split
        · split <;> rfl
        · rfl
      · rw [if_neg h2, if_neg h2]
  · split <;> rfl
  · rfl

theorem cond_rest (D D' : Str → Bool) (n lev : Nat) (ts : List Cc.Tok) : (Cc.cond D n lev ts).map Prod.snd = (Cc.cond D' n lev ts).map Prod.snd := by
  induction n generalizing lev ts with
  | zero => rfl
  | succ n ih =>
    rw [Cc.cond, Cc.cond]
    have pair : ∀ (k j : Nat) (op : Str) (f : Bool → Bool → Bool),
        ((Cc.cond D n k ts).bind fun a => if Cc.operatorIs op a.2 then (Cc.cond D n j a.2.tail).map fun b => (f a.1 b.1, b.2) else some a).map Prod.snd =
        ((Cc.cond D' n k ts).bind fun a => if Cc.operatorIs op a.2 then (Cc.cond D' n j a.2.tail).map fun b => (f a.1 b.1, b.2) else some a).map Prod.snd := by
      intro k j op f
      have := ih k ts
      cases h : Cc.cond D n k ts <;> cases h' : Cc.cond D' n k ts <;> rw [h, h'] at this <;> simp at this ⊢
      rename_i x y
      rw [this]
      split
      · have := ih j y.2.tail
        cases h : Cc.cond D n j y.2.tail <;> cases h' : Cc.cond D' n j y.2.tail <;> rw [h, h'] at this <;> simp at this ⊢
        exact this
      · simpa using this
    split
    · exact pair 1 0 _ (· || ·)
    · split
      · exact pair 2 1 _ (· && ·)
      · exact operand_rest (fun lev r => ih lev r) ts

/-- Whether a condition can be read does not depend on its value. -/
theorem condition_some (D D' : Str → Bool) (ts : List Cc.Tok) (h : (Cc.condition D ts).isSome = true) : (Cc.condition D' ts).isSome = true := by
  unfold Cc.condition at h ⊢
  have := cond_rest D D' (3 * ts.length + 3) 0 ts
  cases h1 : Cc.cond D (3 * ts.length + 3) 0 ts with
  | none => rw [h1] at h; cases h
  | some a =>
    obtain ⟨b, r⟩ := a
    rw [h1] at this h
    cases h2 : Cc.cond D' (3 * ts.length + 3) 0 ts with
    | none => rw [h2] at this; cases this
    | some a' =>
      obtain ⟨b', r'⟩ := a'
      rw [h2] at this
      simp at this
      subst this
      cases r with
      | nil => rfl
      | cons _ _ => cases h

/-- The conditionals that are open behind a conditional directive: for each, whether its
    last group was reached. -/
def shapeCond (d : Str) (ts : List Cc.Tok) (sh : List Bool) : Option (List Bool) :=
  let readable := (Cc.condition (fun _ => false) ts).isSome
  if d = str% "if" then if readable then some (false :: sh) else none
  else if d = str% "ifdef" ∨ d = str% "ifndef" then if (Cc.only ts).isSome then some (false :: sh) else none
  else if d = str% "elif" then if sh.head? = some false ∧ readable then some sh else none
  else if d = str% "else" then if sh.head? = some false then some (true :: sh.tail) else none
  else if sh = [] then none else some sh.tail

/-- A directive that does not fail and does not change one of the macros `S`. -/
def keepsAction (S : List Str) (d : Str) (r : List T) : Bool :=
  if d = str% "define" then
    match definition r with
    | some m => !S.contains m.1
    | none => false
  else if d = str% "undef" then
    match r with
    | [⟨_, .ident x⟩] => !S.contains x
    | _ => false
  else d == str% "include" || d == str% "line" || d == str% "pragma"

/-- `none` if the line may fail or may change one of the macros `S`. -/
def shapeDirective (S : List Str) (sh : List Bool) : List T → Option (List Bool)
  | [] => some sh
  | ⟨_, .ident d⟩ :: r =>
    if fixedWord d = false then none
    else if d ∈ conditionals then if plainCond r && (asked r).all condTok then shapeCond d ((asked r).map fun t => toTok t.tok) sh else none
    else if keepsAction S d r then some sh
    else none
  | _ => none

def shapeLine (S : List Str) (sh : List Bool) : List T → Option (List Bool)
  | ⟨_, .punct p⟩ :: r => if p = str% "#" then shapeDirective S sh r else some sh
  | _ => some sh

def shapeLines (S : List Str) : List Bool → List (List T) → Option (List Bool)
  | sh, [] => some sh
  | sh, l :: ls => (shapeLine S sh l).bind fun sh' => shapeLines S sh' ls


theorem directive_shape {D : Str → Bool} {d : Str} {ts : List Cc.Tok} {st : List Cc.Cond} {sh : List Bool} (hd : d ∈ conditionals)
    (h : shapeCond d ts (st.map (·.last)) = some sh) : ∃ st', Cc.directive D d ts st = some st' ∧ st'.map (·.last) = sh := by
  have hc : (Cc.condition (fun _ => false) ts).isSome = true → ∃ b, Cc.condition D ts = some b := fun h =>
    Option.isSome_iff_exists.mp (condition_some _ D ts h)
  unfold shapeCond at h
  dsimp only at h
  unfold Cc.directive
  dsimp only
  by_cases h1 : d = str% "if"
  · rw [if_pos h1] at h ⊢
    split at h
    · rename_i hr
      obtain ⟨b, hb⟩ := hc hr
      cases h
      rw [hb]
      split <;> exact ⟨_, rfl, rfl⟩
    · cases h
  · rw [if_neg h1] at h ⊢
    by_cases h2 : d = str% "ifdef"
    · rw [if_pos (.inl h2)] at h
      rw [if_pos h2]
      split at h
      · rename_i hr
        obtain ⟨b, hb⟩ := Option.isSome_iff_exists.mp hr
        cases h
        rw [hb]
        split <;> exact ⟨_, rfl, rfl⟩
      · cases h
    · rw [if_neg h2]
      by_cases h3 : d = str% "ifndef"
      · rw [if_pos (.inr h3)] at h
        rw [if_pos h3]
        split at h
        · rename_i hr
          obtain ⟨b, hb⟩ := Option.isSome_iff_exists.mp hr
          cases h
          rw [hb]
          split <;> exact ⟨_, rfl, rfl⟩
        · cases h
      · rw [if_neg (by simp [h2, h3])] at h
        rw [if_neg h3]
        by_cases h4 : d = str% "elif"
        · rw [if_pos h4] at h ⊢
          split at h
          · rename_i hr
            obtain ⟨b, hb⟩ := hc hr.2
            cases h
            cases st with
            | nil => simp at hr
            | cons c st =>
              have hl : c.last = false := by simpa using hr.1
              rw [hb]
              dsimp only
              rw [hl, if_neg (by simp)]
              split <;> exact ⟨_, rfl, by simp [hl]⟩
          · cases h
        · rw [if_neg h4] at h ⊢
          by_cases h5 : d = str% "else"
          · rw [if_pos h5] at h ⊢
            split at h
            · rename_i hr
              cases h
              cases st with
              | nil => simp at hr
              | cons c st =>
                have hl : c.last = false := by simpa using hr
                dsimp only
                rw [hl]
                exact ⟨_, rfl, rfl⟩
            · cases h
          · rw [if_neg h5] at h ⊢
            have h6 : d = str% "endif" := by
              simp only [conditionals, List.mem_cons, List.not_mem_nil, or_false] at hd
              rcases hd with e | e | e | e | e | e
              · exact absurd e h1
              · exact absurd e h2
              · exact absurd e h3
              · exact absurd e h4
              · exact absurd e h5
              · exact e
            rw [if_pos h6]
            cases st with
            | nil => cases h
            | cons c st => cases h; exact ⟨_, rfl, rfl⟩

theorem definition_name {r : List T} {m : Str × Macro} (h : definition r = some m) : ∃ sp t, r = ⟨sp, .ident m.1⟩ :: t := by
  cases r with
  | nil => cases h
  | cons z r =>
    obtain ⟨sz, z⟩ := z
    cases z with
    | ident x =>
      cases r with
      | nil => cases h; exact ⟨_, _, rfl⟩
      | cons b r =>
        obtain ⟨sb, b⟩ := b
        simp only [definition] at h
        split at h
        · cases hpar : parameters r with
          | none => rw [hpar] at h; cases h
          | some a => rw [hpar] at h; cases h; exact ⟨_, _, rfl⟩
        · cases h; exact ⟨_, _, rfl⟩
    | _ => cases r <;> cases h

/-- The names that a directive defines or removes. -/
def changedBy : List T → List Str
  | ⟨_, .ident _⟩ :: ⟨_, .ident n⟩ :: _ => [n]
  | _ => []

def changedIn : List T → List Str
  | ⟨_, .punct _⟩ :: r => changedBy r
  | _ => []

theorem action_keeps {S : List Str} {inc : List T → Table} (hinc : ∀ r, ∀ x ∈ S.map (newName u l), (inc r).lookup x = none) {d : Str} {r : List T}
    (h : keepsAction S d r = true) (hn : ∀ sp n t, r = ⟨sp, .ident n⟩ :: t → ∀ x ∈ S, newName u l n = newName u l x → n = x) (t : Table) :
    ∃ t', action inc d (r.map (renT (newName u l))) t = some t' ∧ ∀ x ∈ S.map (newName u l), t'.lookup x = t.lookup x := by
  have key : ∀ {n : Str} {m : Option Macro}, (∀ x ∈ S, newName u l n = newName u l x → n = x) → n ∉ S →
      ∀ x ∈ S.map (newName u l), List.lookup x ((newName u l n, m) :: t) = t.lookup x := by
    intro n m h1 h2 x hx
    obtain ⟨y, hy, rfl⟩ := List.mem_map.mp hx
    rw [List.lookup_cons, show (newName u l y == newName u l n) = false from ?_]
    rw [beq_eq_false_iff_ne]
    intro e
    exact h2 (h1 y hy e.symm ▸ hy)
  unfold keepsAction at h
  unfold action
  by_cases h1 : d = str% "define"
  · rw [if_pos h1] at h ⊢
    rw [definition_ren]
    cases hd : definition r with
    | none => rw [hd] at h; cases h
    | some m =>
      rw [hd] at h
      obtain ⟨sp, t', e⟩ := definition_name hd
      exact ⟨_, rfl, key (hn _ _ _ e) (by simpa using h)⟩
  · rw [if_neg h1] at h ⊢
    by_cases h2 : d = str% "undef"
    · rw [if_pos h2] at h ⊢
      split at h
      · rename_i sp x
        exact ⟨_, rfl, key (hn _ _ _ rfl) (by simpa using h)⟩
      · cases h
    · rw [if_neg h2] at h ⊢
      by_cases h3 : d = str% "include"
      · rw [if_pos h3]
        refine ⟨_, rfl, fun x hx => ?_⟩
        rw [List.lookup_append, hinc _ x hx]
        rfl
      · rw [if_neg h3]
        have : d = str% "line" ∨ d = str% "pragma" := by
          simp only [Bool.or_eq_true, beq_iff_eq] at h
          rcases h with (h | h) | h
          · exact absurd h h3
          · exact .inl h
          · exact .inr h
        rw [if_pos this]
        exact ⟨_, rfl, fun _ _ => rfl⟩

theorem runLine_shape {S : List Str} {inc : List T → Table} (hinc : ∀ r, ∀ x ∈ S.map (newName u l), (inc r).lookup x = none) (D : Str → Bool)
    {ln : List T} (hn : ∀ n ∈ changedIn ln, ∀ x ∈ S, newName u l n = newName u l x → n = x) {t : Table} {st : List Cc.Cond} {sh : List Bool}
    (h : shapeLine S (st.map (·.last)) ln = some sh) :
    ∃ t' st', runLine inc D (t, st) (ln.map (renT (newName u l))) = some (t', st') ∧ st'.map (·.last) = sh ∧
      ∀ x ∈ S.map (newName u l), t'.lookup x = t.lookup x := by
  cases ln with
  | nil => cases h; exact ⟨_, _, rfl, rfl, fun _ _ => rfl⟩
  | cons x r =>
    obtain ⟨sp, x⟩ := x
    cases x with
    | punct p =>
      simp only [shapeLine] at h
      simp only [List.map_cons, renT, renTok, runLine]
      by_cases hp : p = str% "#"
      · rw [if_pos hp] at h ⊢
        cases r with
        | nil => cases h; exact ⟨_, _, rfl, rfl, fun _ _ => rfl⟩
        | cons y r =>
          obtain ⟨sp', y⟩ := y
          cases y with
          | ident d =>
            simp only [shapeDirective] at h
            by_cases hd : fixedWord d = false
            · rw [if_pos hd] at h; cases h
            · rw [if_neg hd] at h
              have hd : fixedWord d = true := by simpa using hd
              simp only [List.map_cons, renT, renTok, runDirective, newName_fixed hd]
              by_cases hc : d ∈ conditionals
              · rw [if_pos hc] at h ⊢
                split at h
                · rename_i hr
                  rw [Bool.and_eq_true] at hr
                  obtain ⟨e1, e2⟩ := toTok_ren (u := u) (l := l) hr.2
                  have e0 := asked_ren (u := u) (l := l) hr.1
                  rw [e0, e1, Cc.directive_ren _ d e2 st]
                  obtain ⟨st', e3, e4⟩ := directive_shape (D := fun w => isDefined D t (newName u l w)) hc h
                  rw [e3]
                  exact ⟨_, _, rfl, e4, fun _ _ => rfl⟩
                · cases h
              · rw [if_neg hc] at h ⊢
                split at h
                · rename_i hk
                  cases h
                  split
                  · obtain ⟨t', e1, e2⟩ := action_keeps hinc hk (fun sp n t e => hn n (by rw [e]; simp [changedIn, changedBy])) t
                    rw [e1]
                    exact ⟨_, _, rfl, rfl, e2⟩
                  · exact ⟨_, _, rfl, rfl, fun _ _ => rfl⟩
                · cases h
          | _ => cases h
      · rw [if_neg hp] at h ⊢
        cases h
        exact ⟨_, _, rfl, rfl, fun _ _ => rfl⟩
    | _ => cases h; exact ⟨_, _, rfl, rfl, fun _ _ => rfl⟩

/-- Lines that pass the test do not fail and leave the macros as they are, whatever is
    defined and included. -/
theorem runLines_shape {S : List Str} {inc : List T → Table} (hinc : ∀ r, ∀ x ∈ S.map (newName u l), (inc r).lookup x = none) (D : Str → Bool)
    {lns : List (List T)} (hn : ∀ ln ∈ lns, ∀ n ∈ changedIn ln, ∀ x ∈ S, newName u l n = newName u l x → n = x) {t : Table} {st : List Cc.Cond}
    {sh : List Bool} (h : shapeLines S (st.map (·.last)) lns = some sh) :
    ∃ t' st', runLines inc D (t, st) (lns.map (·.map (renT (newName u l)))) = some (t', st') ∧ st'.map (·.last) = sh ∧
      ∀ x ∈ S.map (newName u l), t'.lookup x = t.lookup x := by
  induction lns generalizing t st with
  | nil => cases h; exact ⟨_, _, rfl, rfl, fun _ _ => rfl⟩
  | cons ln lns ih =>
    rw [shapeLines] at h
    cases hs : shapeLine S (st.map (·.last)) ln with
    | none => rw [hs] at h; cases h
    | some sh1 =>
      rw [hs] at h
      obtain ⟨t1, st1, e1, e2, e3⟩ := runLine_shape hinc D (t := t) (hn ln (List.mem_cons_self ..)) hs
      obtain ⟨t2, st2, e4, e5, e6⟩ := ih (fun x hx => hn x (List.mem_cons_of_mem _ hx)) (t := t1) (st := st1) (by rw [e2]; exact h)
      refine ⟨t2, st2, ?_, e5, fun x hx => by rw [e6 x hx, e3 x hx]⟩
      show (runLine inc D (t, st) (ln.map (renT (newName u l)))).bind (fun s => runLines inc D s (lns.map (·.map (renT (newName u l))))) = _
      rw [e1]
      exact e4

end Gdo.Cpp
