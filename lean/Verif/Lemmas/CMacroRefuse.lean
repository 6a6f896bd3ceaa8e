import Verif.Props.CMacroGuard

/-!
Lemmas: names that lines do not define, and lines with `#error`.
-/

set_option maxRecDepth 20000

namespace Gdo.Cpp
open Gdo Rename Tmpl Builtin Gdo.Sub Opt Tpl Gen

variable {u l : Str} {E E' : Str → Option Macro} {inc : List T → Table} {D : Str → Bool}

/-! ### Names that lines do not define -/

/-- The name that a line defines or removes. -/
def definedIn : List T → List Str
  | ⟨_, .punct p⟩ :: ⟨_, .ident d⟩ :: ⟨_, .ident n⟩ :: _ => if p = str% "#" ∧ (d = str% "define" ∨ d = str% "undef") then [n] else []
  | _ => []

theorem runLine_keeps {y : Str} (hi : ∀ r, (inc r).lookup y = none) {s s' : Table × List Cc.Cond} {ln : List T} (hy : y ∉ definedIn ln)
    (h : runLine inc D s ln = some s') : s'.1.lookup y = s.1.lookup y := by
  unfold runLine at h
  split at h
  · rename_i sp p r
    split at h
    · rename_i hp
      unfold runDirective at h
      split at h
      · cases h; rfl
      · rename_i sp' d r
        split at h
        · simp only [Option.map_eq_some_iff] at h
          obtain ⟨st, _, rfl⟩ := h
          rfl
        · split at h
          · simp only [Option.map_eq_some_iff] at h
            obtain ⟨t, ht, rfl⟩ := h
            unfold action at ht
            split at ht
            · rename_i hd
              simp only [Option.map_eq_some_iff] at ht
              obtain ⟨m, hm, rfl⟩ := ht
              obtain ⟨sp2, r2, rfl⟩ := definition_name hm
              have hne : y ≠ m.1 := fun e => hy (by simp [definedIn, hp, hd, e])
              simp only [List.lookup_cons, beq_eq_false_iff_ne.mpr hne]
            · split at ht
              · rename_i hd
                split at ht
                · rename_i x
                  cases ht
                  have hne : y ≠ x := fun e => hy (by simp [definedIn, hp, hd, e])
                  simp only [List.lookup_cons, beq_eq_false_iff_ne.mpr hne]
                · cases ht
              · split at ht
                · cases ht
                  rw [List.lookup_append, hi]
                  rfl
                · split at ht
                  · cases ht; rfl
                  · cases ht
          · cases h; rfl
      · cases h
    · cases h; rfl
  · cases h; rfl

theorem runLines_keeps {y : Str} (hi : ∀ r, (inc r).lookup y = none) {lns : List (List T)} (hy : ∀ ln ∈ lns, y ∉ definedIn ln) :
    ∀ {s s' : Table × List Cc.Cond}, runLines inc D s lns = some s' → s'.1.lookup y = s.1.lookup y := by
  induction lns with
  | nil => intro s s' h; cases h; rfl
  | cons ln lns ih =>
    intro s s' h
    rw [runLines] at h
    cases hs : runLine inc D s ln with
    | none => rw [hs] at h; cases h
    | some s1 =>
      rw [hs] at h
      rw [ih (fun x hx => hy x (List.mem_cons_of_mem _ hx)) h, runLine_keeps hi (hy ln (List.mem_cons_self ..)) hs]

/-- The word of a directive does not depend on the prefix. -/
def fixedDirective : List T → Bool
  | ⟨_, .punct _⟩ :: ⟨_, .ident d⟩ :: _ => fixedWord d
  | _ => true

theorem definedIn_ren {ln : List T} (hf : fixedDirective ln = true) : ∀ y ∈ definedIn (ln.map (renT (newName u l))), ∃ n ∈ definedIn ln, y = newName u l n := by
  intro y hy
  match ln with
  | [] => cases hy
  | [⟨_, .punct p⟩] => cases hy
  | [⟨_, .punct p⟩, ⟨_, .ident d⟩] => cases hy
  | ⟨_, .punct p⟩ :: ⟨_, .ident d⟩ :: ⟨_, .ident n⟩ :: r =>
    simp only [List.map_cons, renT, renTok, definedIn, newName_fixed (show fixedWord d = true from hf)] at hy ⊢
    split at hy
    · rename_i h
      refine ⟨n, ?_, by simpa using hy⟩
      rw [if_pos h]
      simp
    · cases hy
  | ⟨_, .punct p⟩ :: ⟨_, .ident d⟩ :: ⟨_, .punct _⟩ :: r => cases hy
  | ⟨_, .punct p⟩ :: ⟨_, .ident d⟩ :: ⟨_, .num _⟩ :: r => cases hy
  | ⟨_, .punct p⟩ :: ⟨_, .ident d⟩ :: ⟨_, .nl⟩ :: r => cases hy
  | ⟨_, .punct p⟩ :: ⟨_, .ident d⟩ :: ⟨_, .str _ _⟩ :: r => cases hy
  | ⟨_, .punct p⟩ :: ⟨_, .ident d⟩ :: ⟨_, .chr _ _⟩ :: r => cases hy
  | ⟨_, .punct p⟩ :: ⟨_, .punct _⟩ :: r => cases hy
  | ⟨_, .punct p⟩ :: ⟨_, .num _⟩ :: r => cases hy
  | ⟨_, .punct p⟩ :: ⟨_, .nl⟩ :: r => cases hy
  | ⟨_, .punct p⟩ :: ⟨_, .str _ _⟩ :: r => cases hy
  | ⟨_, .punct p⟩ :: ⟨_, .chr _ _⟩ :: r => cases hy
  | ⟨_, .ident _⟩ :: r => cases hy
  | ⟨_, .num _⟩ :: r => cases hy
  | ⟨_, .nl⟩ :: r => cases hy
  | ⟨_, .str _ _⟩ :: r => cases hy
  | ⟨_, .chr _ _⟩ :: r => cases hy

/-! ### `#error` -/

theorem runLine_if {c : List T} (hc : plainCond c = true) (ha : (asked c).all condTok = true) {t : Table} {st : List Cc.Cond} (hs : Cc.active st = true) :
    runLine inc D (t, st) ((⟨true, .punct (str% "#")⟩ :: ⟨false, .ident (str% "if")⟩ :: c).map (renT (newName u l))) =
      (Cc.condition (fun w => isDefined D t (newName u l w)) ((asked c).map fun t => toTok t.tok)).map fun b => (t, ⟨b, b, false⟩ :: st) := by
  obtain ⟨e1, e2⟩ := toTok_ren (u := u) (l := l) ha
  have e0 := asked_ren (u := u) (l := l) hc
  have k1 : newName u l (str% "if") = str% "if" := newName_fixed (by decide)
  simp only [List.map_cons, renT, renTok, runLine, runDirective, if_true, k1, if_pos (by decide : str% "if" ∈ conditionals)]
  rw [e0, e1, Cc.directive_ren _ _ e2]
  unfold Cc.directive
  rw [if_pos rfl]
  simp only [if_pos hs, Option.map_map]
  rfl

theorem runLine_error {e : List T} {t : Table} {st : List Cc.Cond} (hs : Cc.active st = true) (b : Bool) :
    runLine inc D (t, ⟨b, b, false⟩ :: st) (⟨true, .punct (str% "#")⟩ :: ⟨true, .ident (str% "error")⟩ :: e) = if b then none else some (t, ⟨b, b, false⟩ :: st) := by
  simp only [runLine, runDirective, if_true, if_neg (by decide : str% "error" ∉ conditionals)]
  cases b with
  | false => simp [Cc.active]
  | true =>
    have : Cc.active (⟨true, true, false⟩ :: st) = true := by
      simpa [Cc.active] using hs
    rw [if_pos this]
    rfl

end Gdo.Cpp
