import Verif.Lemmas.CRows

/-!
Lemmas: the conditional directives of a template are evaluated once for all prefixes and
symbols.
-/

namespace Gdo.Cc
open Gdo Tpl Tmpl Sub Rename Builtin

variable {u l : Str}

/-! ### Renamed tokens -/

/-- A token with its words renamed. -/
def ren (u l : Str) : Tok → Tok
  | .word w => .word (newName u l w)
  | .str s => .str (renamed u l s)
  | .chr s => .chr (renamed u l s)
  | t => t

/-- The token of a template without keywords. -/
def asTok : STok → Option Tok
  | .word (.fixed w) => some (.word w)
  | .str (.fixed w) => some (.str w)
  | .chr (.fixed w) => some (.chr w)
  | .punct p => some (.punct p)
  | _ => none

def asToks : List STok → Option (List Tok)
  | [] => some []
  | t :: r => (asTok t).bind fun a => (asToks r).map (a :: ·)

theorem asTok_close {t : STok} {x : Tok} (h : asTok t = some x) : t.close u l = some [ren u l x] := by
  unfold asTok at h
  split at h <;> cases h <;> rfl

theorem asToks_close {ts : List STok} {xs : List Tok} (h : asToks ts = some xs) : closeAll u l ts = some (xs.map (ren u l)) := by
  induction ts generalizing xs with
  | nil => cases h; rfl
  | cons t ts ih =>
    rw [asToks] at h
    obtain ⟨a, ha, h⟩ := bind_some_eq h
    obtain ⟨b, hb, rfl⟩ := map_some_eq h
    exact closeAll_cons (a := [_]) (asTok_close ha) (ih hb)

theorem asToks_nl {ts : List STok} {xs : List Tok} (h : asToks ts = some xs) : Tok.nl ∉ xs := by
  induction ts generalizing xs with
  | nil => cases h; simp
  | cons t ts ih =>
    rw [asToks] at h
    obtain ⟨a, ha, h⟩ := bind_some_eq h
    obtain ⟨b, hb, rfl⟩ := map_some_eq h
    have : Tok.nl ≠ a := by
      unfold asTok at ha
      split at ha <;> cases ha <;> simp
    simp [this, ih hb]

theorem ren_nl {xs : List Tok} (h : Tok.nl ∉ xs) : Tok.nl ∉ xs.map (ren u l) := by
  intro hm
  obtain ⟨x, hx, he⟩ := List.mem_map.mp hm
  cases x with
  | nl => exact h hx
  | _ => cases he

/-! ### Conditions -/

theorem newName_defined {w : Str} (hw : w ≠ str% "gdo") : newName u l w = str% "defined" ↔ w = str% "defined" := by
  constructor
  · intro h
    have hu : ∀ (a b : Str), a ++ '_' :: b ≠ str% "defined" := fun a b he => by
      have : '_' ∈ str% "defined" := he ▸ (by simp)
      revert this
      decide
    unfold newName at h
    split at h
    · exact absurd (by simpa using h) (hu u (w.drop 4))
    · split at h
      · exact absurd (by simpa using h) (hu [] (u ++ str% "_" ++ w.drop 5))
      · split at h
        · exact absurd (by simpa using h) (hu l (w.drop 4))
        · split at h
          · exact absurd (by simpa using h) (hu [] (l ++ str% "_" ++ w.drop 5))
          · first | exact h | (rw [if_neg hw] at h; exact h)
  · rintro rfl
    rfl

/-- No word `gdo`. -/
def Good (xs : List Tok) : Prop := ∀ x ∈ xs, x ≠ .word (str% "gdo")

theorem operand_subset {D : Str → Bool} {sub : Nat → List Tok → Option (Bool × List Tok)}
    (hs : ∀ {lev : Nat} {ts : List Tok} {a : Bool × List Tok}, sub lev ts = some a → ∀ t ∈ a.2, t ∈ ts) {ts : List Tok} {a : Bool × List Tok}
    (h : operand D sub ts = some a) : ∀ t ∈ a.2, t ∈ ts := by
  unfold operand at h
  split at h
  · rename_i p r
    by_cases h1 : p = str% "!"
    · rw [if_pos h1] at h
      obtain ⟨b, hb, rfl⟩ := map_some_eq h
      intro t ht
      exact List.mem_cons_of_mem _ (hs hb t ht)
    · rw [if_neg h1] at h
      by_cases h2 : p = str% "("
      · rw [if_pos h2] at h
        obtain ⟨b, hb, h⟩ := bind_some_eq h
        have hs' := hs hb
        split at h
        · rename_i q r' he
          obtain ⟨_, h⟩ := if_some_eq h
          cases h
          intro t ht
          exact List.mem_cons_of_mem _ (hs' t (by rw [he]; exact List.mem_cons_of_mem _ ht))
        · cases h
      · rw [if_neg h2] at h
        cases h
  · obtain ⟨_, h⟩ := if_some_eq h
    cases h
    intro t ht
    simp only [List.mem_cons]
    exact Or.inr (Or.inr (Or.inr (Or.inr ht)))
  · cases h

theorem cond_subset {D : Str → Bool} {n lev : Nat} {ts : List Tok} {a : Bool × List Tok} (h : cond D n lev ts = some a) : ∀ t ∈ a.2, t ∈ ts := by
  induction n generalizing lev ts a with
  | zero => cases h
  | succ n ih =>
    have pair : ∀ {x : Bool × List Tok} {op : Str} {lev : Nat} {f : Bool × List Tok → Bool × List Tok}, (∀ b, (f b).2 = b.2) →
        (∀ t ∈ x.2, t ∈ ts) → (if operatorIs op x.2 then (cond D n lev x.2.tail).map f else some x) = some a → ∀ t ∈ a.2, t ∈ ts := by
      intro x op lev f hf hx h
      split at h
      · obtain ⟨b, hb, rfl⟩ := map_some_eq h
        intro t ht
        rw [hf] at ht
        exact hx t (List.mem_of_mem_tail (ih hb t ht))
      · cases h
        exact hx
    rw [cond] at h
    split at h
    · obtain ⟨x, hx, h⟩ := bind_some_eq h
      exact pair (f := fun b => (x.1 || b.1, b.2)) (fun _ => rfl) (ih hx) h
    · split at h
      · obtain ⟨x, hx, h⟩ := bind_some_eq h
        exact pair (f := fun b => (x.1 && b.1, b.2)) (fun _ => rfl) (ih hx) h
      · exact operand_subset ih h

theorem ren_punct {t : Tok} {p : Str} : ren u l t = .punct p ↔ t = .punct p := by
  cases t <;> simp [ren]

theorem operatorIs_ren (op : Str) (ts : List Tok) : operatorIs op (ts.map (ren u l)) = operatorIs op ts := by
  cases ts with
  | nil => rfl
  | cons t r => cases t <;> rfl

theorem tail_map (ts : List Tok) (f : Tok → Tok) : (ts.map f).tail = ts.tail.map f := by cases ts <;> rfl

/-- The result of reading renamed tokens. -/
def renRest (u l : Str) (a : Bool × List Tok) : Bool × List Tok := (a.1, a.2.map (ren u l))

theorem operand_ren (D : Str → Bool) {sub sub' : Nat → List Tok → Option (Bool × List Tok)} {ts : List Tok} (hg : Good ts)
    (h : ∀ lev, ∀ r, Good r → sub lev (r.map (ren u l)) = (sub' lev r).map (renRest u l)) :
    operand D sub (ts.map (ren u l)) = (operand (fun w => D (newName u l w)) sub' ts).map (renRest u l) := by
  cases ts with
  | nil => rfl
  | cons t r =>
    have hr : Good r := fun t ht => hg t (List.mem_cons_of_mem _ ht)
    cases t with
    | punct p =>
      simp only [List.map_cons, ren, operand]
      by_cases h1 : p = str% "!"
      · rw [if_pos h1, if_pos h1, h 2 r hr]
        cases sub' 2 r <;> rfl
      · rw [if_neg h1, if_neg h1]
        by_cases h2 : p = str% "("
        · rw [if_pos h2, if_pos h2, h 0 r hr]
          cases sub' 0 r with
          | none => rfl
          | some x =>
            obtain ⟨b, r'⟩ := x
            simp only [Option.map_some, Option.bind_some, renRest]
            cases r' with
            | nil => rfl
            | cons t r' =>
              cases t with
              | punct q =>
                simp only [List.map_cons, ren]
                by_cases hq : q = str% ")"
                · rw [if_pos hq, if_pos hq]; rfl
                · rw [if_neg hq, if_neg hq]; rfl
              | word w => rfl
              | str s => rfl
              | chr s => rfl
              | nl => rfl
        · rw [if_neg h2, if_neg h2]
          rfl
    | str s => rfl
    | chr s => rfl
    | nl => rfl
    | word w =>
      have hw : w ≠ str% "gdo" := fun h => hg (.word w) (by simp) (by rw [h])
      cases r with
      | nil => rfl
      | cons t2 r =>
        cases t2 with
        | word _ => rfl
        | str _ => rfl
        | chr _ => rfl
        | nl => rfl
        | punct p =>
          cases r with
          | nil => rfl
          | cons t3 r =>
            cases t3 with
            | punct _ => rfl
            | str _ => rfl
            | chr _ => rfl
            | nl => rfl
            | word x =>
              cases r with
              | nil => rfl
              | cons t4 r =>
                cases t4 with
                | word _ => rfl
                | str _ => rfl
                | chr _ => rfl
                | nl => rfl
                | punct q =>
                  simp only [List.map_cons, ren, operand, newName_defined hw]
                  split <;> rfl

/-- The condition of renamed tokens. -/
theorem cond_ren (D : Str → Bool) (n lev : Nat) {ts : List Tok} (hg : Good ts) :
    cond D n lev (ts.map (ren u l)) = (cond (fun w => D (newName u l w)) n lev ts).map (renRest u l) := by
  induction n generalizing lev ts with
  | zero => rfl
  | succ n ih =>
    rw [cond, cond]
    have pair : ∀ (k j : Nat) (op : Str) (f : Bool → Bool → Bool),
        ((cond D n k (ts.map (ren u l))).bind fun a =>
          if operatorIs op a.2 then (cond D n j a.2.tail).map fun b => (f a.1 b.1, b.2) else some a) =
        ((cond (fun w => D (newName u l w)) n k ts).bind fun a =>
          if operatorIs op a.2 then (cond (fun w => D (newName u l w)) n j a.2.tail).map fun b => (f a.1 b.1, b.2) else some a).map (renRest u l) := by
      intro k j op f
      rw [ih k hg]
      cases hx : cond (fun w => D (newName u l w)) n k ts with
      | none => rfl
      | some x =>
        have hr : Good x.2.tail := fun t ht => hg t (cond_subset hx t (List.mem_of_mem_tail ht))
        simp only [Option.map_some, Option.bind_some, renRest, operatorIs_ren, tail_map]
        split
        · rw [ih j hr]
          cases cond (fun w => D (newName u l w)) n j x.2.tail <;> rfl
        · rfl
    split
    · exact pair 1 0 _ (· || ·)
    · split
      · exact pair 2 1 _ (· && ·)
      · exact operand_ren D hg fun lev r hr => ih lev hr

theorem condition_ren (D : Str → Bool) {ts : List Tok} (hg : Good ts) :
    condition D (ts.map (ren u l)) = condition (fun w => D (newName u l w)) ts := by
  unfold condition
  rw [cond_ren D _ _ hg, List.length_map]
  cases cond (fun w => D (newName u l w)) (3 * ts.length + 3) 0 ts with
  | none => rfl
  | some a =>
    obtain ⟨b, r⟩ := a
    cases r <;> rfl

theorem directive_ren (D : Str → Bool) (d : Str) {ts : List Tok} (hg : Good ts) (st : List Cond) :
    directive D d (ts.map (ren u l)) st = directive (fun w => D (newName u l w)) d ts st := by
  have e : only (ts.map (ren u l)) = (only ts).map (newName u l) := by
    cases ts with
    | nil => rfl
    | cons t r =>
      cases r with
      | nil => cases t <;> rfl
      | cons _ _ => cases t <;> rfl
  unfold directive
  rw [condition_ren D hg, e, Option.map_map, Option.map_map]
  rfl

/-! ### Used rows -/

def directiveNames : List Str :=
  [str% "if", str% "ifdef", str% "ifndef", str% "elif", str% "else", str% "endif", str% "define", str% "undef", str% "include", str% "pragma"]

/-- Directives that are not conditionals. -/
def plainNames : List Str := [str% "define", str% "undef", str% "include", str% "pragma"]

/-- A token of repeated lines. -/
def tokOk (k : Kind) : STok → Bool
  | .text (.hole p n) => decide (p = [] ∧ n ∈ textKws ∧ n ∈ kwsOf k)
  | .text _ => false
  | .nl => false
  | _ => true

/-- The tokens of repeated lines without directives. -/
def keep (k : Kind) : List (List STok) → Option (List STok)
  | [] => some []
  | ln :: r =>
    if ln.all (tokOk k) then
      match ln with
      | .punct p :: ts =>
        if p = str% "#" then
          match ts with
          | .word (.fixed d) :: _ => if d ∈ plainNames then keep k r else none
          | _ => none
        else (keep k r).map (ln ++ ·)
      | .text _ :: .punct p :: _ => if p = str% "#" then none else (keep k r).map (ln ++ ·)
      | .text _ :: _ => none
      | _ => (keep k r).map (ln ++ ·)
    else none

/-- The tokens of the rows that are used; `D`: which macros are defined, by their names
    in the template. -/
def symUsed (D : Str → Bool) : List Cond → List Row → Option (List Item)
  | st, [] => if st = [] then some [] else none
  | st, .line ts :: rs =>
    (asToks ts).bind fun xs =>
      match xs with
      | .punct p :: ys =>
        if p = str% "#" then
          match ys with
          | .word d :: zs => if d ∈ directiveNames ∧ zs.all (fun t => t ≠ .word (str% "gdo")) then (directive D d zs st).bind fun st' => symUsed D st' rs else none
          | _ => none
        else if active st then (symUsed D st rs).map (ts.map .tok ++ ·) else symUsed D st rs
      | _ => if active st then (symUsed D st rs).map (ts.map .tok ++ ·) else symUsed D st rs
  | st, .rep k ts :: rs =>
    if (splitNl [] ts).2 = [] then
      (keep k (splitNl [] ts).1).bind fun xs =>
        if active st then (symUsed D st rs).map fun b => if xs = [] then b else .rep k xs :: b else symUsed D st rs
    else none

theorem splitNl_join (cur ts : List STok) : cur ++ ts = (splitNl cur ts).1.flatMap (· ++ [.nl]) ++ (splitNl cur ts).2 := by
  induction ts generalizing cur with
  | nil => simp [splitNl]
  | cons t ts ih =>
    by_cases ht : t = .nl
    · subst ht
      rw [splitNl]
      have := ih []
      simp only [List.nil_append] at this
      simp only [List.flatMap_cons, List.append_assoc]
      rw [← this]
      simp
    · have e : splitNl cur (t :: ts) = splitNl (cur ++ [t]) ts := by
        cases t <;> first | rfl | exact absurd rfl ht
      rw [e, ← ih]
      simp

theorem splitLines_line {a b : List Tok} (h : Tok.nl ∉ a) : splitLines (a ++ .nl :: b) = a :: splitLines b := by
  induction a with
  | nil => rfl
  | cons t a ih =>
    have ht : t ≠ .nl := fun e => h (by simp [e])
    have ha : Tok.nl ∉ a := fun e => h (by simp [e])
    rw [List.cons_append]
    cases t <;> first | exact absurd rfl ht | (rw [splitLines, ih ha]; simp)

/-- A line that is not a directive. -/
theorem used_line {D : Str → Bool} {st : List Cond} {x : List Tok} (hx : x.head? ≠ some (.punct (str% "#"))) (ls : List (List Tok)) :
    used D st (x :: ls) = if active st then (used D st ls).map (x ++ ·) else used D st ls := by
  cases x with
  | nil => rfl
  | cons t r =>
    cases t with
    | punct p =>
      have hp : p ≠ str% "#" := by rintro rfl; exact hx rfl
      conv => lhs; unfold used
      dsimp only
      rw [if_neg hp]
    | _ => rfl

theorem used_directive {D : Str → Bool} {st : List Cond} {d : Str} {ts : List Tok} (ls : List (List Tok)) :
    used D st ((.punct (str% "#") :: .word d :: ts) :: ls) = (directive D d ts st).bind fun st' => used D st' ls := by
  rw [used, if_pos rfl]

theorem directive_plain {D : Str → Bool} {st : List Cond} {d : Str} {ts : List Tok} (h : d ∈ plainNames) : directive D d ts st = some st := by
  simp only [plainNames, List.mem_cons, List.not_mem_nil, or_false] at h
  rcases h with rfl | rfl | rfl | rfl <;> rfl

theorem newName_known {d : Str} (h : d ∈ directiveNames) : newName u l d = d := by
  simp only [directiveNames, List.mem_cons, List.not_mem_nil, or_false] at h
  rcases h with rfl | rfl | rfl | rfl | rfl | rfl | rfl | rfl | rfl | rfl <;> rfl

/-! ### Values have no line ends -/

theorem start_nl {c : Char} (h : c ≠ '\n') : Tok.nl ∉ (start c).2 := by
  unfold start
  rw [if_neg h]
  repeat' split
  all_goals simp

theorem step_nl {s s' : Scan} {c : Char} (h : c ≠ '\n') {ts : List Tok} (hs : step s c = some (s', ts)) : Tok.nl ∉ ts := by
  have hst := start_nl h
  cases s with
  | code =>
    have hs : start c = (s', ts) := Option.some.inj hs
    rw [hs] at hst
    exact hst
  | word w =>
    rw [step] at hs
    split at hs <;> cases hs
    · simp
    · simp [hst]
  | punct p =>
    rw [step] at hs
    repeat' split at hs
    all_goals cases hs
    all_goals simp [hst]
  | line =>
    rw [step, if_neg h] at hs
    split at hs <;> cases hs
    simp
  | splice => rw [step, if_neg h] at hs; cases hs
  | _ =>
    rw [step] at hs
    repeat' split at hs
    all_goals cases hs
    all_goals simp

theorem scan_nl {s s' : Scan} {v : Str} (h : '\n' ∉ v) {ts : List Tok} (hs : scan s v = some (s', ts)) : Tok.nl ∉ ts := by
  induction v generalizing s ts with
  | nil => cases hs; simp
  | cons c v ih =>
    rw [scan] at hs
    obtain ⟨a, ha, hs⟩ := bind_some_eq hs
    obtain ⟨b, hb, he⟩ := map_some_eq hs
    cases he
    have h1 := step_nl (c := c) (fun e => h (by simp [e])) (show step s c = some (a.1, a.2) from ha)
    have h2 := ih (fun e => h (by simp [e])) (show scan a.1 v = some (b.1, b.2) from hb)
    simp [h1, h2]

theorem tokens_nl {v : Str} (h : '\n' ∉ v) {ts : List Tok} (hs : tokens v = some ts) : Tok.nl ∉ ts := by
  unfold tokens at hs
  obtain ⟨a, ha, hs⟩ := bind_some_eq hs
  obtain ⟨b, hb, rfl⟩ := map_some_eq hs
  have h1 := scan_nl h (show scan .code v = some (a.1, a.2) from ha)
  have h2 : Tok.nl ∉ b := by
    unfold flush at hb
    split at hb <;> cases hb <;> simp
  simp [h1, h2]

/-! ### Values have no directives -/

/-- No `#` was read. -/
def NoHash : Scan → Prop
  | .punct p => '#' ∉ p
  | _ => True

theorem start_hash {c : Char} (h : c ≠ '#') : NoHash (start c).1 ∧ Tok.punct (str% "#") ∉ (start c).2 := by
  unfold start
  repeat' split
  all_goals simp [NoHash, Ne.symm h]

theorem step_hash {s s' : Scan} (h0 : NoHash s) {c : Char} (h : c ≠ '#') {ts : List Tok} (hs : step s c = some (s', ts)) :
    NoHash s' ∧ Tok.punct (str% "#") ∉ ts := by
  have hst := start_hash h
  cases s with
  | code =>
    have hs : start c = (s', ts) := Option.some.inj hs
    rw [hs] at hst
    exact hst
  | word w =>
    rw [step] at hs
    split at hs <;> cases hs
    · exact ⟨trivial, by simp⟩
    · exact ⟨hst.1, by simp [hst.2]⟩
  | punct p =>
    have hp : p ≠ str% "#" := by
      rintro rfl
      exact h0 (by simp)
    rw [step] at hs
    repeat' split at hs
    all_goals cases hs
    · exact ⟨trivial, by simp⟩
    · exact ⟨trivial, by simp⟩
    · refine ⟨?_, by simp⟩
      intro hm
      rcases List.mem_append.mp hm with hm | hm
      · exact h0 hm
      · exact h (by simpa using (List.mem_singleton.mp hm).symm)
    · refine ⟨hst.1, ?_⟩
      intro hm
      rcases List.mem_cons.mp hm with hm | hm
      · exact hp (by injection hm with hm; exact hm.symm)
      · exact hst.2 hm
  | _ =>
    rw [step] at hs
    repeat' split at hs
    all_goals cases hs
    all_goals exact ⟨trivial, by simp⟩

theorem scan_hash {s s' : Scan} (h0 : NoHash s) {v : Str} (h : '#' ∉ v) {ts : List Tok} (hs : scan s v = some (s', ts)) :
    NoHash s' ∧ Tok.punct (str% "#") ∉ ts := by
  induction v generalizing s ts with
  | nil => cases hs; exact ⟨h0, by simp⟩
  | cons c v ih =>
    rw [scan] at hs
    obtain ⟨a, ha, hs⟩ := bind_some_eq hs
    obtain ⟨b, hb, he⟩ := map_some_eq hs
    cases he
    have h1 := step_hash h0 (c := c) (fun e => h (by simp [e])) (show step s c = some (a.1, a.2) from ha)
    have h2 := ih h1.1 (fun e => h (by simp [e])) (show scan a.1 v = some (b.1, b.2) from hb)
    exact ⟨h2.1, by simp [h1.2, h2.2]⟩

theorem tokens_hash {v : Str} (h : '#' ∉ v) {ts : List Tok} (hs : tokens v = some ts) : Tok.punct (str% "#") ∉ ts := by
  unfold tokens at hs
  obtain ⟨a, ha, hs⟩ := bind_some_eq hs
  obtain ⟨b, hb, rfl⟩ := map_some_eq hs
  have h1 := scan_hash (s := .code) trivial h (show scan .code v = some (a.1, a.2) from ha)
  have h2 : Tok.punct (str% "#") ∉ b := by
    unfold flush at hb
    split at hb
    · cases hb; simp
    · cases hb; simp
    · rename_i p hp
      have hn := h1.1
      rw [hp] at hn
      cases hb
      intro hm
      have : str% "#" = p := by simpa using hm
      exact hn (by rw [← this]; simp)
    all_goals first | (cases hb; simp) | cases hb
  simp [h1.2, h2]

/-! ### The preprocessor -/

theorem tok_nl {k : Kind} {val : Values} (hv : ∀ n ∈ kwsOf k, KwOk val n) {t : STok} (ht : tokOk k t = true) {x : List Tok}
    (h : (t.inst val).close u l = some x) : Tok.nl ∉ x := by
  cases t with
  | word n =>
    unfold STok.inst STok.close at h
    split at h <;> first | cases h | skip
    all_goals simp_all
  | str n =>
    unfold STok.inst STok.close at h
    split at h <;> first | cases h | skip
    all_goals simp_all
  | chr n =>
    unfold STok.inst STok.close at h
    split at h <;> first | cases h | skip
    all_goals simp_all
  | punct p => cases h; simp
  | nl => cases ht
  | text n =>
    cases n with
    | fixed _ => cases ht
    | glued _ _ => cases ht
    | hole p n =>
      simp only [tokOk, decide_eq_true_eq] at ht
      obtain ⟨rfl, h1, h2⟩ := ht
      obtain ⟨v, e, hval, hc⟩ := (hv n h2).text h1
      simp only [STok.inst, Name.inst, hval, STok.close] at h
      exact tokens_nl (fun hm => hc _ hm (by simp)) h

theorem line_nl {k : Kind} {val : Values} (hv : ∀ n ∈ kwsOf k, KwOk val n) {ts : List STok} (ht : ts.all (tokOk k) = true) {x : List Tok}
    (h : closeAll u l (ts.map (STok.inst val)) = some x) : Tok.nl ∉ x := by
  induction ts generalizing x with
  | nil => cases h; simp
  | cons t ts ih =>
    rw [List.map_cons, closeAll] at h
    obtain ⟨a, ha, h⟩ := bind_some_eq h
    obtain ⟨b, hb, rfl⟩ := map_some_eq h
    simp only [List.all_cons, Bool.and_eq_true] at ht
    have h1 := tok_nl hv ht.1 ha
    have h2 := ih ht.2 hb
    simp [h1, h2]

theorem closeAll_cons_inv {t : STok} {ts : List STok} {x : List Tok} (h : closeAll u l (t :: ts) = some x) :
    ∃ a b, t.close u l = some a ∧ closeAll u l ts = some b ∧ x = a ++ b := by
  rw [closeAll] at h
  obtain ⟨a, ha, h⟩ := bind_some_eq h
  obtain ⟨b, hb, rfl⟩ := map_some_eq h
  exact ⟨a, b, ha, hb, rfl⟩

theorem closeAll_append_inv {xs ys : List STok} {o : List Tok} (h : closeAll u l (xs ++ ys) = some o) :
    ∃ a b, closeAll u l xs = some a ∧ closeAll u l ys = some b ∧ o = a ++ b := by
  induction xs generalizing o with
  | nil => exact ⟨[], o, rfl, h, rfl⟩
  | cons x xs ih =>
    obtain ⟨a, b, h1, h2, rfl⟩ := closeAll_cons_inv h
    obtain ⟨c, d, h3, h4, rfl⟩ := ih h2
    exact ⟨a ++ c, d, closeAll_cons h1 h3, h4, by simp⟩

/-- The first token of a line. -/
theorem head_close {val : Values} {t : STok} (h1 : t ≠ .punct (str% "#")) (h2 : ∀ n, t ≠ .text n) {a : List Tok}
    (h : (t.inst val).close u l = some a) : a.head? ≠ some (.punct (str% "#")) := by
  cases t with
  | word n =>
    unfold STok.inst STok.close at h
    split at h <;> first | cases h | skip
    all_goals simp_all
  | str n =>
    unfold STok.inst STok.close at h
    split at h <;> first | cases h | skip
    all_goals simp_all
  | chr n =>
    unfold STok.inst STok.close at h
    split at h <;> first | cases h | skip
    all_goals simp_all
  | punct p => cases h; intro he; apply h1; simpa using he
  | nl => cases h; simp
  | text n => exact absurd rfl (h2 n)

theorem close_ne_nil {val : Values} {t : STok} (h2 : ∀ n, t ≠ .text n) {a : List Tok} (h : (t.inst val).close u l = some a) : a ≠ [] := by
  cases t with
  | word n =>
    unfold STok.inst STok.close at h
    split at h <;> first | cases h | skip
    all_goals simp_all
  | str n =>
    unfold STok.inst STok.close at h
    split at h <;> first | cases h | skip
    all_goals simp_all
  | chr n =>
    unfold STok.inst STok.close at h
    split at h <;> first | cases h | skip
    all_goals simp_all
  | punct p => cases h; simp
  | nl => cases h; simp
  | text n => exact absurd rfl (h2 n)

/-- Repeated lines, for one symbol. -/
theorem keep_sound {k : Kind} {val : Values} (hv : ∀ n ∈ kwsOf k, KwOk val n) {D : Str → Bool} {st : List Cond} {lns : List (List STok)}
    {xs : List STok} (h : keep k lns = some xs) {o : List Tok} (ho : closeAll u l ((lns.flatMap (· ++ [.nl])).map (STok.inst val)) = some o)
    (rest : List Tok) : ∃ b, closeAll u l (xs.map (STok.inst val)) = some b ∧
      used D st (splitLines (o ++ rest)) =
        if active st then (used D st (splitLines rest)).map (b ++ ·) else used D st (splitLines rest) := by
  induction lns generalizing xs o with
  | nil =>
    cases h
    cases ho
    refine ⟨[], rfl, ?_⟩
    split
    · exact Option.map_id'.symm
    · rfl
  | cons ln lns ih =>
    unfold keep at h
    obtain ⟨hall, h⟩ := if_some_eq h
    rw [List.flatMap_cons, List.map_append, List.map_append] at ho
    obtain ⟨a', c, ha', hc, rfl⟩ := closeAll_append_inv ho
    obtain ⟨a, n, ha, hn, rfl⟩ := closeAll_append_inv ha'
    obtain rfl : [Tok.nl] = n := Option.some.inj hn
    have hanl := line_nl hv hall ha
    have e : splitLines ((a ++ [.nl] ++ c) ++ rest) = a :: splitLines (c ++ rest) := by
      have := splitLines_line (b := c ++ rest) hanl
      rw [← this]
      simp
    rw [e]
    have other : ∀ {ys : List STok}, keep k lns = some ys → xs = ln ++ ys → a.head? ≠ some (.punct (str% "#")) →
        ∃ b, closeAll u l (xs.map (STok.inst val)) = some b ∧ used D st (a :: splitLines (c ++ rest)) =
          if active st then (used D st (splitLines rest)).map (b ++ ·) else used D st (splitLines rest) := by
      intro ys hys hx hh
      obtain ⟨b, hb, e2⟩ := ih hys hc
      refine ⟨a ++ b, by rw [hx, List.map_append]; exact closeAll_append ha hb, ?_⟩
      rw [used_line hh, e2]
      by_cases hact : active st = true
      · simp only [if_pos hact]
        cases used D st (splitLines rest) <;> simp
      · simp only [if_neg hact]
    cases ln with
    | nil =>
      cases ha
      obtain ⟨ys, hys, he⟩ := map_some_eq h
      exact other hys he.symm (by simp)
    | cons t ts =>
      rw [List.map_cons] at ha
      obtain ⟨p, q, hp, hq, rfl⟩ := closeAll_cons_inv ha
      have simple : (∀ n, t ≠ .text n) → t ≠ .punct (str% "#") → (p ++ q).head? ≠ some (.punct (str% "#")) := by
        intro h1 h2
        have := head_close h2 h1 hp
        have hne := close_ne_nil h1 hp
        cases p with
        | nil => exact absurd rfl hne
        | cons x p => exact this
      cases t with
      | punct w =>
        dsimp only at h
        by_cases hw : w = str% "#"
        · rw [if_pos hw] at h
          cases ts with
          | nil => cases h
          | cons t2 ts =>
            cases t2 with
            | word m =>
              cases m with
              | fixed d =>
                obtain ⟨hd, h⟩ := if_some_eq h
                obtain ⟨b, hb, e2⟩ := ih h hc
                refine ⟨b, hb, ?_⟩
                cases hp
                obtain ⟨p2, q2, hp2, hq2, rfl⟩ := closeAll_cons_inv hq
                cases hp2
                have hd' : newName u l d = d := newName_known (by
                  simp only [plainNames, List.mem_cons, List.not_mem_nil, or_false] at hd
                  rcases hd with rfl | rfl | rfl | rfl <;> decide)
                rw [hw, hd']
                show used D st ((.punct (str% "#") :: .word d :: q2) :: _) = _
                rw [used_directive, directive_plain hd]
                exact e2
              | hole _ _ => cases h
              | glued _ _ => cases h
            | _ => cases h
        · rw [if_neg hw] at h
          obtain ⟨ys, hys, he⟩ := map_some_eq h
          exact other hys he.symm (simple (by simp) (by simpa using hw))
      | text n =>
        cases ts with
        | nil => cases h
        | cons t2 ts =>
          cases t2 with
          | punct w =>
            dsimp only at h
            by_cases hw : w = str% "#"
            · rw [if_pos hw] at h; cases h
            · rw [if_neg hw] at h
              obtain ⟨ys, hys, he⟩ := map_some_eq h
              refine other hys he.symm ?_
              obtain ⟨p2, q2, hp2, hq2, rfl⟩ := closeAll_cons_inv hq
              cases hp2
              have hhash : Tok.punct (str% "#") ∉ p := by
                simp only [List.all_cons, Bool.and_eq_true] at hall
                cases n with
                | fixed _ => cases hall.1
                | glued _ _ => cases hall.1
                | hole p' n =>
                  have ht := hall.1
                  simp only [tokOk, decide_eq_true_eq] at ht
                  obtain ⟨rfl, h1, h2⟩ := ht
                  obtain ⟨v, e, hval, hcs⟩ := (hv n h2).text h1
                  simp only [STok.inst, Name.inst, hval, STok.close] at hp
                  exact tokens_hash (fun hm => hcs _ hm (by simp)) hp
              cases p with
              | nil => simpa using hw
              | cons x p =>
                intro he2
                exact hhash (by simpa using Or.inl (Option.some.inj he2).symm)
          | word _ => cases h
          | str _ => cases h
          | chr _ => cases h
          | nl => cases h
          | text _ => cases h
      | word n =>
        obtain ⟨ys, hys, he⟩ := map_some_eq h
        exact other hys he.symm (simple (by simp) (by simp))
      | str n =>
        obtain ⟨ys, hys, he⟩ := map_some_eq h
        exact other hys he.symm (simple (by simp) (by simp))
      | chr n =>
        obtain ⟨ys, hys, he⟩ := map_some_eq h
        exact other hys he.symm (simple (by simp) (by simp))
      | nl =>
        obtain ⟨ys, hys, he⟩ := map_some_eq h
        exact other hys he.symm (simple (by simp) (by simp))

/-- Repeated lines, for all symbols. -/
theorem rep_sound {k : Kind} {vals : List Values} (hv : ∀ val ∈ vals, ∀ n ∈ kwsOf k, KwOk val n) {D : Str → Bool} {st : List Cond}
    {ts xs : List STok} (hs : (splitNl [] ts).2 = []) (h : keep k (splitNl [] ts).1 = some xs) {o : List Tok}
    (ho : closeAll u l (vals.flatMap fun val => ts.map (STok.inst val)) = some o) (rest : List Tok) :
    ∃ b, closeAll u l (vals.flatMap fun val => xs.map (STok.inst val)) = some b ∧
      used D st (splitLines (o ++ rest)) =
        if active st then (used D st (splitLines rest)).map (b ++ ·) else used D st (splitLines rest) := by
  induction vals generalizing o with
  | nil =>
    cases ho
    refine ⟨[], rfl, ?_⟩
    split
    · exact Option.map_id'.symm
    · rfl
  | cons val vals ih =>
    rw [List.flatMap_cons] at ho
    obtain ⟨a, c, ha, hc, rfl⟩ := closeAll_append_inv ho
    obtain ⟨b, hb, e⟩ := ih (fun x hx => hv x (by simp [hx])) hc
    have hj := splitNl_join [] ts
    rw [hs, List.append_nil, List.nil_append] at hj
    rw [hj] at ha
    obtain ⟨b', hb', e'⟩ := keep_sound (D := D) (st := st) (hv val (by simp)) h ha (c ++ rest)
    refine ⟨b' ++ b, by rw [List.flatMap_cons]; exact closeAll_append hb' hb, ?_⟩
    rw [List.append_assoc, e', e]
    by_cases hact : active st = true
    · simp only [if_pos hact]
      cases used D st (splitLines rest) <;> simp
    · simp only [if_neg hact]

theorem map_tok_inst (I : Insts) (ts : List STok) : (ts.map Item.tok).flatMap (Item.inst I) = ts := by
  induction ts with
  | nil => rfl
  | cons t ts ih => rw [List.map_cons, List.flatMap_cons, ih]; rfl

/-- What the preprocessor leaves of the generated text. -/
theorem symUsed_sound {I : Insts} (hI : InstsOk I) {D : Str → Bool} {rows : List Row} {st : List Cond} {items : List Item}
    (h : symUsed (fun w => D (newName u l w)) st rows = some items) {toks : List Tok} (hc : closeRows u l I rows = some toks) :
    ∃ o, used D st (splitLines toks) = some o ∧ closeAll u l (items.flatMap (Item.inst I)) = some o := by
  induction rows generalizing st items toks with
  | nil =>
    rw [symUsed] at h
    obtain ⟨rfl, h⟩ := if_some_eq h
    cases h
    cases hc
    exact ⟨[], rfl, rfl⟩
  | cons r rs ih =>
    rw [closeRows] at hc
    obtain ⟨a, ha, hc⟩ := bind_some_eq hc
    obtain ⟨c, hc', rfl⟩ := map_some_eq hc
    cases r with
    | line ts =>
      rw [symUsed] at h
      obtain ⟨xs, hxs, h⟩ := bind_some_eq h
      rw [closeRow, asToks_close (u := u) (l := l) hxs] at ha
      cases ha
      have hnl := ren_nl (u := u) (l := l) (asToks_nl hxs)
      have e : splitLines ((xs.map (ren u l) ++ [.nl]) ++ c) = xs.map (ren u l) :: splitLines c := by
        have := splitLines_line (b := c) hnl
        rw [← this]
        simp
      rw [e]
      have other : xs.head? ≠ some (.punct (str% "#")) →
          (if active st then (symUsed (fun w => D (newName u l w)) st rs).map (ts.map .tok ++ ·) else symUsed (fun w => D (newName u l w)) st rs) = some items →
          ∃ o, used D st (xs.map (ren u l) :: splitLines c) = some o ∧ closeAll u l (items.flatMap (Item.inst I)) = some o := by
        intro hh h
        have hh' : (xs.map (ren u l)).head? ≠ some (.punct (str% "#")) := by
          cases xs with
          | nil => simp
          | cons x xs =>
            simp only [List.map_cons, List.head?_cons, ne_eq, Option.some.injEq] at hh ⊢
            rwa [ren_punct]
        rw [used_line hh']
        by_cases hact : active st = true
        · rw [if_pos hact] at h ⊢
          obtain ⟨b, hb, rfl⟩ := map_some_eq h
          obtain ⟨o, e1, e2⟩ := ih hb hc'
          refine ⟨xs.map (ren u l) ++ o, by rw [e1]; rfl, ?_⟩
          rw [List.flatMap_append, map_tok_inst]
          exact closeAll_append (asToks_close hxs) e2
        · rw [if_neg hact] at h ⊢
          exact ih h hc'
      cases xs with
      | nil => exact other (by simp) h
      | cons x xs =>
        cases x with
        | punct p =>
          dsimp only at h
          by_cases hp : p = str% "#"
          · rw [if_pos hp] at h
            cases xs with
            | nil => cases h
            | cons y zs =>
              cases y with
              | word d =>
                obtain ⟨⟨hd, hg⟩, h⟩ := if_some_eq h
                obtain ⟨st', hst, h⟩ := bind_some_eq h
                obtain ⟨o, e1, e2⟩ := ih h hc'
                refine ⟨o, ?_, e2⟩
                rw [hp]
                show used D st ((.punct (str% "#") :: .word (newName u l d) :: zs.map (ren u l)) :: _) = _
                rw [newName_known hd, used_directive, directive_ren D d (fun t ht => by simpa using List.all_eq_true.mp hg t ht), hst]
                exact e1
              | _ => cases h
          · rw [if_neg hp] at h
            exact other (by simpa using hp) h
        | word _ => exact other (by simp) h
        | str _ => exact other (by simp) h
        | chr _ => exact other (by simp) h
        | nl => exact other (by simp) h
    | rep k ts =>
      rw [symUsed] at h
      obtain ⟨hs, h⟩ := if_some_eq h
      obtain ⟨xs, hxs, h⟩ := bind_some_eq h
      rw [closeRow] at ha
      obtain ⟨b, hb, e⟩ := rep_sound (D := D) (st := st) (hI k) hs hxs ha c
      rw [e]
      by_cases hact : active st = true
      · rw [if_pos hact] at h ⊢
        obtain ⟨b', hb', rfl⟩ := map_some_eq h
        obtain ⟨o, e1, e2⟩ := ih hb' hc'
        refine ⟨b ++ o, by rw [e1]; rfl, ?_⟩
        by_cases hn : xs = []
        · rw [if_pos hn]
          have : b = [] := by
            rw [hn] at hb
            have hz : ((I k).flatMap fun val => ([] : List STok).map (STok.inst val)) = [] := by simp
            rw [hz] at hb
            cases hb
            rfl
          rw [this]
          exact e2
        · rw [if_neg hn, List.flatMap_cons]
          exact closeAll_append hb e2
      · rw [if_neg hact] at h ⊢
        exact ih h hc'

/-- Rows after each other. -/
theorem symUsed_append {D : Str → Bool} {x y : List Row} {st : List Cond} {a b : List Item} (h1 : symUsed D st x = some a)
    (h2 : symUsed D [] y = some b) : symUsed D st (x ++ y) = some (a ++ b) := by
  induction x generalizing st a with
  | nil =>
    rw [symUsed] at h1
    obtain ⟨rfl, h⟩ := if_some_eq h1
    cases h
    exact h2
  | cons r rs ih =>
    cases r with
    | line ts =>
      rw [symUsed] at h1
      rw [List.cons_append, symUsed]
      obtain ⟨xs, hxs, h⟩ := bind_some_eq h1
      rw [hxs, Option.bind_some]
      have other : (if active st then (symUsed D st rs).map (ts.map .tok ++ ·) else symUsed D st rs) = some a →
          (if active st then (symUsed D st (rs ++ y)).map (ts.map .tok ++ ·) else symUsed D st (rs ++ y)) = some (a ++ b) := by
        intro h
        by_cases hact : active st = true
        · rw [if_pos hact] at h ⊢
          obtain ⟨c, hc, rfl⟩ := map_some_eq h
          rw [ih hc]
          simp
        · rw [if_neg hact] at h ⊢
          exact ih h
      cases xs with
      | nil => exact other h
      | cons x xs =>
        cases x with
        | punct p =>
          dsimp only at h ⊢
          by_cases hp : p = str% "#"
          · rw [if_pos hp] at h ⊢
            cases xs with
            | nil => cases h
            | cons y zs =>
              cases y with
              | word d =>
                obtain ⟨hd, h⟩ := if_some_eq h
                obtain ⟨st', hst, h⟩ := bind_some_eq h
                dsimp only
                rw [if_pos hd, hst, Option.bind_some]
                exact ih h
              | _ => cases h
          · rw [if_neg hp] at h ⊢
            exact other h
        | word _ => exact other h
        | str _ => exact other h
        | chr _ => exact other h
        | nl => exact other h
    | rep k ts =>
      rw [symUsed] at h1
      rw [List.cons_append, symUsed]
      obtain ⟨hs, h⟩ := if_some_eq h1
      obtain ⟨xs, hxs, h⟩ := bind_some_eq h
      rw [if_pos hs, hxs, Option.bind_some]
      by_cases hact : active st = true
      · rw [if_pos hact] at h ⊢
        obtain ⟨c, hc, rfl⟩ := map_some_eq h
        rw [ih hc, Option.map_some]
        split <;> simp
      · rw [if_neg hact] at h ⊢
        exact ih h

end Gdo.Cc
