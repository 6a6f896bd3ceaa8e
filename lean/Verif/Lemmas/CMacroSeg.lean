import Verif.Props.CMacroFile

/-!
Lemmas: the definitions that parts of a template make, depending on what is defined.
-/

set_option maxRecDepth 20000

namespace Gdo.Cpp
open Gdo Rename Tmpl Builtin Sub Opt Tpl Gen Pfx

variable {u l : Str} {E : Str → Option Macro} {inc : List T → Table} {protos objs : List Proto}

/-- What a definition, from the name on, defines. -/
def macroOf (line : Str) : Option (Str × Macro) := (tokens line).bind definition

/-- Definitions one behind the other. -/
def tableOf (lines : List Str) : Table := (lines.filterMap macroOf).reverse.map fun p => (p.1, some p.2)

/-- The macro that the definition `line` defines is known, with the prefix in place. -/
def Gives (E : Str → Option Macro) (u l line : Str) : Prop :=
  ∃ n m, macroOf line = some (n, m) ∧ E (newName u l n) = some (renMacro (newName u l) m)

/-! ### A text with known definitions -/

theorem after_table {a b : Str} {t : Table} (h : run inc (fun x => (E x).isSome) ([], []) (a ++ b) = run inc (fun x => (E x).isSome) (t, []) b) :
    after inc E (a ++ b) = after inc (known E t) b := by
  have e3 : definitions inc (fun x => (known E t x).isSome) b = definitions inc (isDefined (fun x => (E x).isSome) t) b :=
    congrArg (fun D => definitions inc D b) (funext fun x => (isDefined_isSome E t x).symm)
  have e4 : definitions inc (fun x => (E x).isSome) (a ++ b) = (definitions inc (isDefined (fun x => (E x).isSome) t) b).map (· ++ t) := by
    rw [definitions_run, h, run_start, definitions_run]
    generalize run inc (isDefined (fun x => (E x).isSome) t) ([], []) b = y
    rcases y with _ | ⟨y1, y2⟩
    · rfl
    · simp only [Option.map_some, Option.bind_some]
      split <;> rfl
  unfold after
  rw [e3, e4, Option.map_map]
  generalize definitions inc (isDefined (fun x => (E x).isSome) t) b = y
  cases y with
  | none => rfl
  | some y =>
    simp only [Option.map_some, Function.comp]
    refine congrArg some (funext fun x => ?_)
    unfold known
    rw [List.lookup_append]
    generalize List.lookup x y = z
    cases z <;> rfl

/-! ### Parts of a template -/

def segTest (f : (Str → Bool) → List Str) (D : Str → Bool) (r : Option (Table × List Cc.Cond)) : Bool :=
  decide (r = some (tableOf (f D), [])) && decide ((tableOf (f D)).map (·.1)).Nodup && (f D).all fun line => (macroOf line).isSome

/-- The test on a part: lines without keywords that test the words `V`, and define `f`. -/
def segOk (ls : List Str) (V W : List Str) (f : (Str → Bool) → List Str) : Bool :=
  (wholeLines ls).isSome && plainText ls && apartNames W && checkLines V W (wl ls) (segTest f)

def DependsOn (V : List Str) (f : (Str → Bool) → List Str) : Prop := ∀ D D' : Str → Bool, (∀ x ∈ V, D x = D' x) → f D = f D'

theorem run_seg (hp : Prefixes u l) {ls V W : List Str} {f : (Str → Bool) → List Str} (h : segOk ls V W f = true) (hf : DependsOn V f) (protos objs : List Proto)
    (inc : List T → Table) (D : Str → Bool) (b : Str) :
    run inc D ([], []) (unlines (ls.flatMap (written u l protos objs)) ++ b) = run inc D (renTable (newName u l) (tableOf (f fun w => D (newName u l w))), []) b ∧
      ((tableOf (f fun w => D (newName u l w))).map (·.1)).Nodup ∧ (∀ line ∈ f fun w => D (newName u l w), (macroOf line).isSome = true) ∧
      (∀ p ∈ tableOf (f fun w => D (newName u l w)), p.1 ∈ W) ∧ apartNames W = true := by
  unfold segOk at h
  simp only [Bool.and_eq_true] at h
  obtain ⟨⟨⟨h1, h2⟩, h3⟩, h4⟩ := h
  rw [written_lines hp protos objs h2, run_template hp (wl_whole h1)]
  obtain ⟨c1, c2⟩ := checkLines_spec h4 (fun D D' r h => by unfold segTest; rw [hf D D' h]) (fun w => D (newName u l w))
  obtain ⟨c3, c4⟩ := runLines_ren (u := u) (l := l) (apart_inj h3) inc (fun _ => []) D c1 (t := []) (fun _ h => nomatch h) []
  unfold segTest at c2
  simp only [Bool.and_eq_true, decide_eq_true_eq] at c2
  obtain ⟨⟨c5, c6⟩, c7⟩ := c2
  rw [c5] at c3
  refine ⟨?_, c6, fun line hl => List.all_eq_true.mp c7 line hl, c4 _ c5, h3⟩
  rw [show (([], []) : Table × List Cc.Cond) = (renTable (newName u l) [], []) from rfl, c3]
  rfl

theorem lookup_nodup {t : Table} {x : Str} {m : Option Macro} (hn : (t.map (·.1)).Nodup) (h : (x, m) ∈ t) : t.lookup x = some m := by
  induction t with
  | nil => cases h
  | cons p t ih =>
    obtain ⟨y, k⟩ := p
    rw [List.map_cons, List.nodup_cons] at hn
    rcases List.mem_cons.mp h with e | h'
    · cases e
      simp [List.lookup]
    · have : x ≠ y := by
        rintro rfl
        exact hn.1 (List.mem_map.mpr ⟨_, h', rfl⟩)
      rw [List.lookup_cons, beq_false_of_ne this]
      exact ih hn.2 h'

theorem lookup_other {t : Table} {x : Str} (h : ∀ p ∈ t, p.1 ≠ x) : t.lookup x = none := by
  induction t with
  | nil => rfl
  | cons p t ih =>
    obtain ⟨y, k⟩ := p
    rw [List.lookup_cons, beq_false_of_ne fun e => h (y, k) (List.mem_cons_self ..) e.symm]
    exact ih fun p hp => h p (List.mem_cons_of_mem _ hp)

/-- The macros behind such a part. -/
theorem after_seg (hp : Prefixes u l) {ls V W : List Str} {f : (Str → Bool) → List Str} (h : segOk ls V W f = true) (hf : DependsOn V f) (protos objs : List Proto)
    (inc : List T → Table) (E : Str → Option Macro) (b : Str) :
    ∃ E1 : Str → Option Macro, after inc E (entriesText u l protos objs ls ++ b) = after inc E1 b ∧
      (∀ line ∈ f fun w => (E (newName u l w)).isSome, Gives E1 u l line) ∧
      ∀ y, (∀ line ∈ f fun w => (E (newName u l w)).isSome, ∀ p, macroOf line = some p → newName u l p.1 ≠ y) → E1 y = E y := by
  obtain ⟨h1, h2, h3, h4, h5⟩ := run_seg hp h hf protos objs inc (fun x => (E x).isSome) b
  refine ⟨_, after_table h1, fun line hl => ?_, fun y hy => ?_⟩
  · have h6 := h3 line hl
    cases hm : macroOf line with
    | none => rw [hm] at h6; cases h6
    | some p =>
      obtain ⟨n, m⟩ := p
      refine ⟨n, m, hm, ?_⟩
      have mem : (n, some m) ∈ tableOf (f fun w => (E (newName u l w)).isSome) :=
        List.mem_map.mpr ⟨(n, m), List.mem_reverse.mpr (List.mem_filterMap.mpr ⟨line, hl, hm⟩), rfl⟩
      have e := lookup_ren (apart_inj (u := u) (l := l) h5) (h4 _ mem) h4
      unfold known
      rw [e, lookup_nodup h2 mem]
      rfl
  · unfold known
    rw [lookup_other]
    intro p hp e
    obtain ⟨q, hq, rfl⟩ := List.mem_map.mp hp
    obtain ⟨r, hr, rfl⟩ := List.mem_map.mp hq
    obtain ⟨line, hl, hm⟩ := List.mem_filterMap.mp (List.mem_reverse.mp hr)
    exact hy line hl r hm e

/-! ### Parts that leave macros alone -/

theorem whole_template (hp : Prefixes u l) {ls : List Str} {lns : List (List T)} (h : wholeLines ls = some lns) :
    ∃ x, Whole (unlines (ls.map (renamedLine u l))) x ∧ splitLines x = lns.map (·.map (renT (newName u l))) := by
  unfold wholeLines at h
  split at h
  · rename_i hok
    split at h
    · rename_i ts hts
      split at h
      · rename_i hl
        cases h
        have e : ts = ts.dropLast ++ [nlT] := by
          obtain ⟨ys, rfl⟩ := List.getLast?_eq_some_iff.mp hl
          simp
        refine ⟨ts.dropLast.map (renT (newName u l)), ⟨?_, ?_⟩, by rw [← splitLines_map]⟩
        · rw [lex_template hp hok.1, hts]
          simp only [Option.map_some, renLex]
          congr 2
          conv => lhs; rw [e]
          rw [List.map_append]
          rfl
        · have : ∀ ds : List Str, ds ≠ [] → ∃ a', unlines ds = a' ++ ['\n'] := by
            intro ds hd
            refine ⟨unlines ds.dropLast ++ ds.getLast hd, ?_⟩
            conv => lhs; rw [← List.dropLast_concat_getLast hd]
            simp [unlines]
          exact this _ (by simpa using hok.2)
      · cases h
    · cases h
  · cases h

def restOk (ls S : List Str) : Bool := (wholeLines ls).isSome && plainText ls && changesApart S (wl ls) && decide (shapeLines S [] (wl ls) = some [])

theorem rest_harmless (hp : Prefixes u l) {ls S : List Str} (h : restOk ls S = true) (protos objs : List Proto)
    (hinc : ∀ r, ∀ x ∈ S.map (newName u l), (inc r).lookup x = none) : Harmless inc (S.map (newName u l)) (entriesText u l protos objs ls) := by
  unfold restOk at h
  simp only [Bool.and_eq_true, decide_eq_true_eq] at h
  obtain ⟨⟨⟨h1, h2⟩, h3⟩, h4⟩ := h
  obtain ⟨x, hx, e⟩ := whole_template hp (wl_whole h1)
  unfold entriesText
  rw [written_lines hp protos objs h2]
  refine .inr ⟨x, hx, fun D => ?_⟩
  obtain ⟨t', st', r1, r2, r3⟩ := runLines_shape hinc D (changesApart_spec (u := u) (l := l) h3) (t := []) (st := []) (by exact h4)
  have : st' = [] := by simpa using r2
  subst this
  exact ⟨t', by rw [e, r1], fun y hy => r3 y hy⟩

end Gdo.Cpp
