import Verif.Props.Runtime
import Verif.Props.Prefix

/-!
Property C32: loading a symbol by its name.
-/

namespace Gdo.Rt
open Gdo RtSpec

theorem strncmpEq_iff : ∀ (a p : Str), strncmpEq a p p.length = true ↔ p <+: a
  | a, [] => by cases a <;> simp [strncmpEq]
  | [], b :: p => by simp [strncmpEq]
  | a :: r, b :: p => by
    rw [List.length_cons, strncmpEq]
    simp only [Bool.and_eq_true, decide_eq_true_eq, strncmpEq_iff r p, List.cons_prefix_cons]
    constructor <;> rintro ⟨rfl, h⟩ <;> exact ⟨rfl, h⟩

theorem nameMatches_iff {name cur p : Str} (h1 : p <+: name) (h2 : p <+: cur) : nameMatches name cur p.length = some (decide (name = cur)) := by
  obtain ⟨a, rfl⟩ := h1
  obtain ⟨b, rfl⟩ := h2
  unfold nameMatches plus
  by_cases hl : (p ++ a).length = (p ++ b).length
  · rw [if_pos hl]
    simp
  · rw [if_neg hl]
    have : p ++ a ≠ p ++ b := fun h => hl (by rw [h])
    simp [this]

theorem findName_known {name p : Str} (h : p <+: name) : ∀ {l : List Str} (k i : Nat), (∀ x ∈ l, p <+: x) → l[i]? = some name →
    (∀ j, j < i → l[j]? ≠ some name) → findName name p.length k l = some (some (k + i, name))
  | [], k, i, _, hi, _ => by simp at hi
  | cur :: r, k, i, hl, hi, hj => by
    rw [findName, nameMatches_iff h (hl cur (by simp))]
    cases i with
    | zero =>
      simp at hi
      subst hi
      simp
    | succ i =>
      have hne : name ≠ cur := fun he => hj 0 (by omega) (by simp [he])
      simp only [hne, decide_false, Option.bind_eq_bind, Option.bind_some, Bool.false_eq_true, if_false]
      rw [findName_known h (k + 1) i (fun x hx => hl x (by simp [hx])) (by simpa using hi)
        (fun j hji => by simpa using hj (j + 1) (by omega))]
      simp only [Option.some.injEq, Prod.mk.injEq, and_true]
      omega

theorem findName_unknown {name p : Str} (h : p <+: name) : ∀ {l : List Str} (k : Nat), (∀ x ∈ l, p <+: x) → name ∉ l →
    findName name p.length k l = some none
  | [], _, _, _ => rfl
  | cur :: r, k, hl, hn => by
    rw [findName, nameMatches_iff h (hl cur (by simp))]
    have hne : name ≠ cur := fun he => hn (by simp [he])
    simp only [hne, decide_false, Option.bind_eq_bind, Option.bind_some, Bool.false_eq_true, if_false]
    exact findName_unknown h (k + 1) (fun x hx => hl x (by simp [hx])) (fun hx => hn (by simp [hx]))

theorem foundName_known {C : Cfg} (hp : ∀ x ∈ C.syms, C.pfx <+: x) {i : Nat} {name : Str} (hi : C.syms[i]? = some name)
    (hj : ∀ j, j < i → C.syms[j]? ≠ some name) : foundName C name = some (some (i, name)) := by
  have h := hp name (List.mem_of_getElem? hi)
  unfold foundName
  rw [if_pos (Or.inr ((strncmpEq_iff _ _).mpr h)), findName_known h 0 i hp hi hj, Nat.zero_add]

theorem foundName_unknown {C : Cfg} (hp : ∀ x ∈ C.syms, C.pfx <+: x) {name : Str} (hn : name ∉ C.syms) : foundName C name = some none := by
  unfold foundName
  split
  · rename_i hc
    refine findName_unknown ?_ 0 hp hn
    rcases hc with h | h
    · rw [List.length_eq_zero_iff.mp h]; simp
    · exact (strncmpEq_iff _ _).mp h
  · rfl

theorem findName_safe {name p : Str} (h : p <+: name) : ∀ {l : List Str} (k : Nat), (∀ x ∈ l, p <+: x) → findName name p.length k l ≠ none
  | [], _, _ => by simp [findName]
  | c :: r, k, hl => by
    rw [findName, nameMatches_iff h (hl c (by simp))]
    simp only [Option.bind_eq_bind, Option.bind_some]
    split
    · simp
    · exact findName_safe h (k + 1) (fun x hx => hl x (by simp [hx]))

theorem foundName_safe {C : Cfg} (hp : ∀ x ∈ C.syms, C.pfx <+: x) (name : Str) : foundName C name ≠ none := by
  unfold foundName
  split
  · rename_i hc
    refine findName_safe ?_ 0 hp
    rcases hc with h | h
    · rw [List.length_eq_zero_iff.mp h]; simp
    · exact (strncmpEq_iff _ _).mp h
  · simp

/-- The common prefix macro is empty or the common prefix of the symbols as the generator
    computes it. -/
def PfxOk (C : Cfg) : Prop := C.pfx = [] ∨ ∃ prot obj, C.syms = prot ++ obj ∧ Common.getCommonPrefix prot obj = some C.pfx

theorem PfxOk.prefix {C : Cfg} (h : PfxOk C) : ∀ x ∈ C.syms, C.pfx <+: x := by
  rcases h with h | ⟨prot, obj, h1, h2⟩
  · intro x _; rw [h]; simp
  · rw [h1]; exact Common.C31_prefix prot obj _ h2

/-- Loading a symbol by its name does the same as loading it by its number. -/
theorem C32_known (L : Loader) (C : Cfg) (hp : PfxOk C) (hd : C.syms.Nodup) (i : Nat) (name : Str) (hi : C.syms[i]? = some name)
    (hn : name ≠ []) (s : St) : loadSymbolName L C (some name) s = some (loadSymbol L C i s) := by
  unfold loadSymbolName loadSymbol
  simp only [clearError_handle]
  cases hx : s.handle with
  | none => rfl
  | some x =>
    simp only [Option.getD_some]
    rw [if_neg hn, foundName_known hp.prefix hi (fun j hj hje => by
      obtain ⟨hj1, hj2⟩ := List.getElem?_eq_some_iff.mp hje
      obtain ⟨hi1, hi2⟩ := List.getElem?_eq_some_iff.mp hi
      exact List.pairwise_iff_getElem.mp hd j i hj1 hi1 hj (by rw [hj2, hi2]))]
    have hc : caseOf C (i : Int) = some (i, name) := by
      show (C.syms[i]?).map _ = _
      rw [hi]
      rfl
    simp only [hc, Option.map_some, loadFound]

/-- The loader is asked for exactly this name, and only if the symbol is not loaded yet. -/
theorem C32_asked (L : Loader) (C : Cfg) (hp : PfxOk C) (hd : C.syms.Nodup) (i : Nat) (name : Str) (hi : C.syms[i]? = some name)
    (hn : name ≠ []) (s : St) (x : Ptr) (hx : s.handle = some x) : ∃ b t, loadSymbolName L C (some name) s = some (b, t) ∧
      b = (t.ptr i).isSome ∧ (∀ j, j ≠ i → t.ptr j = s.ptr j) ∧
      ((s.ptr i).isSome = true ∧ t.log = s.log ∧ t.ptr i = s.ptr i ∨ s.ptr i = none ∧ t.log = s.log ++ [.sym x name (t.ptr i)]) := by
  rw [C32_known L C hp hd i name hi hn s]
  refine ⟨(loadSymbol L C i s).1, (loadSymbol L C i s).2, rfl, ?_⟩
  have hc : caseOf C (i : Int) = some (i, name) := by
    show (C.syms[i]?).map _ = _
    rw [hi]
    rfl
  have hs : loadSymbol L C i s = loadOne L x i name (clearError s) := by
    unfold loadSymbol
    simp only [clearError_handle, hx, hc]
  rw [hs]
  unfold loadOne
  simp only [clearError_ptr]
  cases hq : s.ptr i with
  | some q => simp [hq]
  | none =>
    obtain ⟨f1, _, f3, f4, _⟩ := gdoSym_fields (L := L) x name (clearError s)
    simp only [setPtr, if_true, f1, f3, f4]
    refine ⟨by simp, ?_, Or.inr (by simp)⟩
    intro j hj
    simp [hj]

/-- An unknown name is refused: nothing is asked of the loader, nothing changes. -/
theorem C32_unknown (L : Loader) (C : Cfg) (hp : PfxOk C) (name : Str) (hn : name ∉ C.syms) (s : St) (hx : s.handle ≠ none) (h0 : name ≠ []) :
    ∃ t, loadSymbolName L C (some name) s = some (false, t) ∧ Same s t ∧ t.errbuf = fit (str% "unknown symbol: " ++ name) := by
  unfold loadSymbolName
  simp only [clearError_handle]
  cases hh : s.handle with
  | none => exact absurd hh hx
  | some x =>
    simp only [Option.getD_some]
    rw [if_neg h0, foundName_unknown hp.prefix hn]
    exact ⟨_, rfl, by simp [Same, hh], rfl⟩

/-- A null pointer and an empty name are refused. -/
theorem C32_empty (L : Loader) (C : Cfg) (name : Option Str) (h : name = none ∨ name = some []) (s : St) :
    ∃ t, loadSymbolName L C name s = some (false, t) ∧ Same s t := by
  have hn : name.getD [] = [] := by rcases h with rfl | rfl <;> rfl
  unfold loadSymbolName
  simp only [clearError_handle, hn]
  cases hh : s.handle with
  | none => exact ⟨_, rfl, by simp [Same, hh, noLibrary]⟩
  | some x => exact ⟨_, rfl, by simp [Same, hh]⟩

/-- No name makes the function read behind the end of a string. -/
theorem C32_safe (L : Loader) (C : Cfg) (hp : PfxOk C) (name : Option Str) (s : St) : loadSymbolName L C name s ≠ none := by
  unfold loadSymbolName
  simp only [clearError_handle]
  cases hh : s.handle with
  | none => simp
  | some x =>
    simp only
    split
    · simp
    · by_cases hm : name.getD [] ∈ C.syms
      · rw [ne_eq, Option.map_eq_none_iff]
        unfold foundName
        split
        · have : ∀ {l : List Str} (k : Nat), (∀ x ∈ l, C.pfx <+: x) → C.pfx <+: name.getD [] →
              findName (name.getD []) C.pfx.length k l ≠ none := by
            intro l
            induction l with
            | nil => intro k _ _; simp [findName]
            | cons c r ih =>
              intro k hl h
              rw [findName, nameMatches_iff h (hl c (by simp))]
              simp only [Option.bind_eq_bind, Option.bind_some]
              split
              · simp
              · exact ih (k + 1) (fun x hx => hl x (by simp [hx])) h
          exact this 0 hp.prefix (hp.prefix _ hm)
        · simp
      · rw [foundName_unknown hp.prefix hm]
        simp

example : PfxOk { demoCfg with syms := [str% "ab_f", str% "ab_g"], pfx := str% "ab_" } :=
  Or.inr ⟨[str% "ab_f", str% "ab_g"], [], rfl, by decide⟩

example : (loadSymbolName demoLoader { demoCfg with syms := [str% "ab_f", str% "ab_g"], pfx := str% "ab_" } (some (str% "ab"))
    { handle := some 100 }).map (·.2.errbuf) = some (str% "unknown symbol: ab") := by decide

end Gdo.Rt
