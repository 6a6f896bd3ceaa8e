import Verif.Lemmas.CUsed
import Verif.Lemmas.CLang

/-!
Lemmas: a part of a template is code, whatever macros are defined.  Only the macros that
are tested matter, so that finitely many cases are left.
-/

namespace Gdo.Cc
open Gdo Tpl Tmpl Rename Builtin

variable {u l : Str}

/-! ### Tested macros -/

/-- The word behind `defined`. -/
def definedWord : List Tok → List Str
  | .word w :: .punct _ :: .word x :: _ => if w = str% "defined" then [x] else []
  | _ => []

/-- The words behind `defined`. -/
def definedWords : List Tok → List Str
  | [] => []
  | t :: r => definedWord (t :: r) ++ definedWords r

theorem definedWords_suffix {a b : List Tok} (h : a <:+ b) {x : Str} (hx : x ∈ definedWords a) : x ∈ definedWords b := by
  obtain ⟨p, rfl⟩ := h
  induction p with
  | nil => exact hx
  | cons t p ih =>
    rw [List.cons_append, definedWords]
    exact List.mem_append_right _ ih

theorem operand_suffix {D : Str → Bool} {sub : Nat → List Tok → Option (Bool × List Tok)}
    (hs : ∀ {lev : Nat} {ts : List Tok} {a : Bool × List Tok}, sub lev ts = some a → a.2 <:+ ts) {ts : List Tok} {a : Bool × List Tok}
    (h : operand D sub ts = some a) : a.2 <:+ ts := by
  unfold operand at h
  split at h
  · rename_i p r
    by_cases h1 : p = str% "!"
    · rw [if_pos h1] at h
      obtain ⟨b, hb, rfl⟩ := map_some_eq h
      exact (hs hb).trans (List.suffix_cons _ _)
    · rw [if_neg h1] at h
      by_cases h2 : p = str% "("
      · rw [if_pos h2] at h
        obtain ⟨b, hb, h⟩ := bind_some_eq h
        have hs' := hs hb
        split at h
        · rename_i q r' he
          obtain ⟨_, h⟩ := if_some_eq h
          cases h
          rw [he] at hs'
          exact ((List.suffix_cons _ _).trans hs').trans (List.suffix_cons _ _)
        · cases h
      · rw [if_neg h2] at h
        cases h
  · obtain ⟨_, h⟩ := if_some_eq h
    cases h
    exact ⟨[_, _, _, _], rfl⟩
  · cases h

theorem cond_suffix {D : Str → Bool} {n lev : Nat} {ts : List Tok} {a : Bool × List Tok} (h : cond D n lev ts = some a) : a.2 <:+ ts := by
  induction n generalizing lev ts a with
  | zero => cases h
  | succ n ih =>
    have pair : ∀ {x : Bool × List Tok} {op : Str} {lev : Nat} {f : Bool × List Tok → Bool × List Tok}, (∀ b, (f b).2 = b.2) →
        x.2 <:+ ts → (if operatorIs op x.2 then (cond D n lev x.2.tail).map f else some x) = some a → a.2 <:+ ts := by
      intro x op lev f hf hx h
      split at h
      · obtain ⟨b, hb, rfl⟩ := map_some_eq h
        rw [hf]
        exact ((ih hb).trans (List.tail_suffix _)).trans hx
      · cases h
        exact hx
    rw [cond] at h
    split at h
    · obtain ⟨x, hx, h⟩ := bind_some_eq h
      exact pair (f := fun b => (x.1 || b.1, b.2)) (fun _ => rfl) (ih hx) h
    · split at h
      · obtain ⟨x, hx, h⟩ := bind_some_eq h
        exact pair (f := fun b => (x.1 && b.1, b.2)) (fun _ => rfl) (ih hx) h
      · exact operand_suffix ih h

theorem operand_congr {D D' : Str → Bool} {sub sub' : Nat → List Tok → Option (Bool × List Tok)} {ts : List Tok}
    (hD : ∀ x ∈ definedWords ts, D x = D' x) (h : ∀ lev, ∀ r, r <:+ ts → sub lev r = sub' lev r) : operand D sub ts = operand D' sub' ts := by
  cases ts with
  | nil => rfl
  | cons t r =>
    cases t with
    | punct p =>
      simp only [operand]
      rw [h 2 r (List.suffix_cons _ _), h 0 r (List.suffix_cons _ _)]
    | str s => rfl
    | chr s => rfl
    | nl => rfl
    | word w =>
      rcases r with _ | ⟨t2, r⟩
      · rfl
      cases t2 with
      | punct p =>
        rcases r with _ | ⟨t3, r⟩
        · rfl
        cases t3 with
        | word x =>
          rcases r with _ | ⟨t4, r⟩
          · rfl
          cases t4 with
          | punct q =>
            simp only [operand]
            by_cases hw : w = str% "defined"
            · rw [hD x (by simp [definedWords, definedWord, hw])]
            · rw [if_neg (fun h => hw h.1), if_neg (fun h => hw h.1)]
          | _ => rfl
        | _ => rfl
      | _ => rfl

theorem cond_congr {D D' : Str → Bool} (n lev : Nat) {ts : List Tok} (hD : ∀ x ∈ definedWords ts, D x = D' x) :
    cond D n lev ts = cond D' n lev ts := by
  induction n generalizing lev ts with
  | zero => rfl
  | succ n ih =>
    have sub : ∀ (j : Nat) (r : List Tok), r <:+ ts → cond D n j r = cond D' n j r := fun j r hr =>
      ih j fun x hx => hD x (definedWords_suffix hr hx)
    have pair : ∀ (k j : Nat) (op : Str) (f : Bool → Bool → Bool),
        ((cond D n k ts).bind fun a =>
          if operatorIs op a.2 then (cond D n j a.2.tail).map fun b => (f a.1 b.1, b.2) else some a) =
        ((cond D' n k ts).bind fun a =>
          if operatorIs op a.2 then (cond D' n j a.2.tail).map fun b => (f a.1 b.1, b.2) else some a) := by
      intro k j op f
      rw [sub k ts (List.suffix_refl _)]
      cases hx : cond D' n k ts with
      | none => rfl
      | some x =>
        simp only [Option.bind_some]
        rw [sub j x.2.tail ((List.tail_suffix _).trans (cond_suffix hx))]
    rw [cond, cond]
    split
    · exact pair 1 0 _ (· || ·)
    · split
      · exact pair 2 1 _ (· && ·)
      · exact operand_congr hD sub

/-- The directives with a condition. -/
def conditionNames : List Str := [str% "if", str% "ifdef", str% "ifndef", str% "elif"]

/-- The words that a directive tests. -/
def directiveWords (d : Str) (ts : List Tok) : List Str :=
  if d ∈ conditionNames then (only ts).toList ++ definedWords ts else []

theorem directive_congr {D D' : Str → Bool} {d : Str} {ts : List Tok} (h : ∀ x ∈ directiveWords d ts, D x = D' x) (st : List Cond) :
    directive D d ts st = directive D' d ts st := by
  by_cases hd : d ∈ conditionNames
  · rw [directiveWords, if_pos hd] at h
    have h1 : condition D ts = condition D' ts := by
      unfold condition
      rw [cond_congr _ _ fun x hx => h x (List.mem_append_right _ hx)]
    have h2 : (only ts).map D = (only ts).map D' := by
      cases ho : only ts with
      | none => rfl
      | some x => simp [h x (by simp [ho])]
    have h3 : ((only ts).map fun x => !D x) = (only ts).map fun x => !D' x := by
      cases ho : only ts with
      | none => rfl
      | some x => simp [h x (by simp [ho])]
    unfold directive
    rw [h1, h2, h3]
  · simp only [conditionNames, List.mem_cons, List.not_mem_nil, or_false, not_or] at hd
    obtain ⟨h1, h2, h3, h4⟩ := hd
    unfold directive
    simp only [if_neg h1, if_neg h2, if_neg h3, if_neg h4]

/-- The words that a row tests. -/
def rowWords : Row → List Str
  | .line ts =>
    match asToks ts with
    | some (.punct p :: .word d :: zs) => if p = str% "#" then directiveWords d zs else []
    | _ => []
  | .rep _ _ => []

/-- Only the tested macros matter. -/
theorem symUsed_congr {D D' : Str → Bool} {rows : List Row} (h : ∀ x ∈ rows.flatMap rowWords, D x = D' x) (st : List Cond) :
    symUsed D st rows = symUsed D' st rows := by
  induction rows generalizing st with
  | nil => rfl
  | cons r rs ih =>
    have hr : ∀ x ∈ rowWords r, D x = D' x := fun x hx => h x (by simp [hx])
    have ih : ∀ st, symUsed D st rs = symUsed D' st rs := ih fun x hx => h x (by rw [List.flatMap_cons]; exact List.mem_append_right _ hx)
    cases r with
    | rep k ts => rw [symUsed, symUsed, ih]
    | line ts =>
      rw [symUsed, symUsed]
      cases hx : asToks ts with
      | none => rw [Option.bind_none, Option.bind_none]
      | some xs =>
        rw [Option.bind_some, Option.bind_some]
        have other : (if active st then (symUsed D st rs).map (ts.map .tok ++ ·) else symUsed D st rs) =
            (if active st then (symUsed D' st rs).map (ts.map .tok ++ ·) else symUsed D' st rs) := by rw [ih]
        cases xs with
        | nil => exact other
        | cons x xs =>
          cases x with
          | punct p =>
            dsimp only
            by_cases hp : p = str% "#"
            · rw [if_pos hp, if_pos hp]
              cases xs with
              | nil => rfl
              | cons y zs =>
                cases y with
                | word d =>
                  have hr : ∀ x ∈ directiveWords d zs, D x = D' x := by
                    intro x hx'
                    refine hr x ?_
                    rw [rowWords, hx]
                    dsimp only
                    rw [if_pos hp]
                    exact hx'
                  dsimp only
                  rw [directive_congr hr, show (fun st' => symUsed D st' rs) = fun st' => symUsed D' st' rs from funext ih]
                | punct _ => rfl
                | str _ => rfl
                | chr _ => rfl
                | nl => rfl
            · rw [if_neg hp, if_neg hp]
              exact other
          | word _ => exact other
          | str _ => exact other
          | chr _ => exact other
          | nl => exact other

/-! ### Parts of a template -/

/-- The lines are the code `f`, whatever macros are defined. -/
def Seg (ds : List Str) (f : (Str → Bool) → List Top) : Prop :=
  ∀ D, ∃ rows items, symFile .code [] ds = some rows ∧ symUsed D [] rows = some items ∧ progToks (f D) = some items

theorem Seg.append {a b : List Str} {f g : (Str → Bool) → List Top} (h1 : Seg a f) (h2 : Seg b g) : Seg (a ++ b) fun D => f D ++ g D := by
  intro D
  obtain ⟨r1, x1, e1, e2, e3⟩ := h1 D
  obtain ⟨r2, x2, e4, e5, e6⟩ := h2 D
  exact ⟨_, _, symFile_append e1 e4, symUsed_append e2 e5, by rw [progToks_append, e3, e6]; rfl⟩

theorem Seg.nil : Seg [] fun _ => [] := fun _ => ⟨[], [], rfl, rfl, rfl⟩

/-- Which of the words are defined. -/
def among (ws : List Str) (bs : List Bool) (w : Str) : Bool := ((ws.zip bs).lookup w).getD false

theorem among_map (D : Str → Bool) (ws : List Str) {w : Str} (h : w ∈ ws) : among ws (ws.map D) w = D w := by
  induction ws with
  | nil => cases h
  | cons x ws ih =>
    by_cases hx : w = x
    · subst hx
      simp [among]
    · have : among (x :: ws) ((x :: ws).map D) w = among ws (ws.map D) w := by
        simp [among, List.lookup, show (w == x) = false from by simpa using hx]
      rw [this]
      exact ih (by simpa [hx] using h)

/-- All the lists of truth values. -/
def allBools : Nat → List (List Bool)
  | 0 => [[]]
  | n + 1 => (allBools n).flatMap fun bs => [true :: bs, false :: bs]

theorem mem_allBools (bs : List Bool) : bs ∈ allBools bs.length := by
  induction bs with
  | nil => simp [allBools]
  | cons b bs ih =>
    rw [List.length_cons, allBools, List.mem_flatMap]
    exact ⟨bs, ih, by cases b <;> simp⟩

/-- The lines are the code `f` in all cases of the words `ws` being defined. -/
def checkSeg (ds : List Str) (ws : List Str) (f : List Bool → List Top) : Bool :=
  match symFile .code [] ds with
  | none => false
  | some rows =>
    ((rows.flatMap rowWords).all fun x => ws.contains x) && (allBools ws.length).all fun bs =>
      match symUsed (among ws bs) [] rows, progToks (f bs) with
      | some a, some b => a = b
      | _, _ => false

theorem seg_of {ds : List Str} {ws : List Str} {f : List Bool → List Top} (h : checkSeg ds ws f = true) : Seg ds fun D => f (ws.map D) := by
  intro D
  unfold checkSeg at h
  split at h
  · cases h
  · rename_i rows hr
    rw [Bool.and_eq_true] at h
    obtain ⟨h1, h2⟩ := h
    have h2 := List.all_eq_true.mp h2 (ws.map D) (by simpa using mem_allBools (ws.map D))
    have hc := symUsed_congr (rows := rows) (D := among ws (ws.map D)) (D' := D) (fun x hx => by
      have := List.all_eq_true.mp h1 x hx
      exact among_map D ws (by simpa using this)) []
    split at h2
    · rename_i a b ha hb
      have : a = b := by simpa using h2
      subst this
      exact ⟨rows, a, hr, hc ▸ ha, hb⟩
    · cases h2

/-- What the compiler gets of the text is the code `f`, with the names that were asked
    for, for all the functions and objects. -/
theorem Seg.sound {ds : List Str} {f : (Str → Bool) → List Top} (h : Seg ds f) (hu : ∀ c ∈ u, isWord c = true) (hl : ∀ c ∈ l, isWord c = true)
    (hln : l ≠ []) {protos objs : List Proto} (hI : InstsOk (insts protos objs)) (D : Str → Bool) :
    ∃ ts out, progToks ((f fun w => D (newName u l w)).map (Top.inst (insts protos objs))) = some (ts.map .tok) ∧
      preprocess D (unlines (ds.flatMap (written u l protos objs))) = some out ∧ closeAll u l ts = some out := by
  obtain ⟨rows, items, e1, e2, e3⟩ := h fun w => D (newName u l w)
  obtain ⟨b, e4, e5⟩ := symFile_sound hu hl hln hI (s := .code) trivial (cur := []) (a := []) rfl e1
  obtain ⟨o, e6, e7⟩ := symUsed_sound hI e2 e5
  refine ⟨_, o, progToks_inst _ e3, ?_, e7⟩
  have e4 : scan .code (unlines (ds.flatMap (written u l protos objs))) = some (.code, b) := e4
  unfold preprocess tokens
  rw [e4]
  show used D [] (splitLines (b ++ [])) = _
  rw [List.append_nil]
  exact e6

end Gdo.Cc
