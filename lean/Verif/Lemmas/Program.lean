import Verif.Model.Program
import Verif.Lemmas.ScanTok
import Verif.Lemmas.GenerateAll
import Verif.Lemmas.OptionsEffect

/-! Lemmas about the whole program. -/

namespace Gdo.Program
open Gdo Opt Gen

/-! ### Sorted lists of names -/

/-- The order of byte strings: the first difference decides, a beginning comes first. -/
def Before (a b : Str) : Prop :=
  ∃ c, (∃ x r, a = c ∧ b = c ++ x :: r) ∨ ∃ x y r t, a = c ++ x :: r ∧ b = c ++ y :: t ∧ x.toNat < y.toNat

theorem char_of_not_lt {a b : Char} (h1 : ¬ a.toNat < b.toNat) (h2 : ¬ b.toNat < a.toNat) : a = b :=
  Char.toNat_inj.mp (by omega)

theorem strLt_iff : ∀ {a b : Str}, strLt a b = true ↔ Before a b
  | a, [] => by
    constructor
    · intro h
      cases a <;> cases h
    · rintro ⟨c, ⟨x, r, -, h⟩ | ⟨x, y, r, t, -, h, -⟩⟩ <;> simp at h
  | [], b :: bs => by
    constructor
    · exact fun _ => ⟨[], Or.inl ⟨b, bs, rfl, rfl⟩⟩
    · exact fun _ => rfl
  | a :: as, b :: bs => by
    unfold strLt
    split
    · rename_i h
      exact ⟨fun _ => ⟨[], Or.inr ⟨a, b, as, bs, rfl, rfl, h⟩⟩, fun _ => rfl⟩
    · split
      · rename_i h1 h2
        refine ⟨fun h => (by cases h), ?_⟩
        rintro ⟨c, ⟨x, r, e1, e2⟩ | ⟨x, y, r, t, e1, e2, h⟩⟩
        · subst e1
          simp only [List.cons_append, List.cons.injEq] at e2
          rw [e2.1] at h2
          omega
        · cases c with
          | nil =>
            simp only [List.nil_append, List.cons.injEq] at e1 e2
            rw [e1.1, e2.1] at h1
            omega
          | cons d c =>
            simp only [List.cons_append, List.cons.injEq] at e1 e2
            rw [e1.1, e2.1] at h2
            omega
      · rename_i h1 h2
        have hab := char_of_not_lt h1 h2
        subst hab
        rw [strLt_iff (a := as) (b := bs)]
        constructor
        · rintro ⟨c, ⟨x, r, e1, e2⟩ | ⟨x, y, r, t, e1, e2, h⟩⟩
          · exact ⟨a :: c, Or.inl ⟨x, r, by rw [e1], by rw [e2]; rfl⟩⟩
          · exact ⟨a :: c, Or.inr ⟨x, y, r, t, by rw [e1]; rfl, by rw [e2]; rfl, h⟩⟩
        · rintro ⟨c, ⟨x, r, e1, e2⟩ | ⟨x, y, r, t, e1, e2, h⟩⟩
          · subst e1
            simp only [List.cons_append, List.cons.injEq, true_and] at e2
            exact ⟨as, Or.inl ⟨x, r, rfl, e2⟩⟩
          · cases c with
            | nil =>
              simp only [List.nil_append, List.cons.injEq] at e1 e2
              rw [← e1.1, ← e2.1] at h
              omega
            | cons d c =>
              simp only [List.cons_append, List.cons.injEq] at e1 e2
              exact ⟨c, Or.inr ⟨x, y, r, t, e1.2, e2.2, h⟩⟩

theorem strLt_irrefl : ∀ a : Str, strLt a a = false
  | [] => rfl
  | c :: a => by
    unfold strLt
    rw [if_neg (by omega), if_neg (by omega)]
    exact strLt_irrefl a

theorem strLt_trans : ∀ {a b c : Str}, strLt a b = true → strLt b c = true → strLt a c = true
  | [], [], _, h, _ => by cases h
  | _ :: _, [], _, h, _ => by cases h
  | _, _ :: _, [], _, h => by cases h
  | [], _ :: _, _ :: _, _, _ => rfl
  | a :: as, b :: bs, c :: cs, h1, h2 => by
    unfold strLt at h1 h2 ⊢
    by_cases x : a.toNat < b.toNat
    · by_cases y : b.toNat < c.toNat
      · rw [if_pos (by omega)]
      · rw [if_neg y] at h2
        by_cases z : c.toNat < b.toNat
        · rw [if_pos z] at h2; cases h2
        · rw [if_pos (by omega)]
    · rw [if_neg x] at h1
      by_cases x' : b.toNat < a.toNat
      · rw [if_pos x'] at h1; cases h1
      · rw [if_neg x'] at h1
        by_cases y : b.toNat < c.toNat
        · rw [if_pos (by omega)]
        · rw [if_neg y] at h2
          by_cases z : c.toNat < b.toNat
          · rw [if_pos z] at h2; cases h2
          · rw [if_neg z] at h2
            rw [if_neg (by omega), if_neg (by omega)]
            exact strLt_trans h1 h2

theorem strLt_total : ∀ {a b : Str}, strLt a b = false → strLt b a = false → a = b
  | [], [], _, _ => rfl
  | [], _ :: _, h, _ => by cases h
  | _ :: _, [], _, h => by cases h
  | a :: as, b :: bs, h1, h2 => by
    unfold strLt at h1 h2
    by_cases x : a.toNat < b.toNat
    · rw [if_pos x] at h1; cases h1
    · rw [if_neg x] at h1
      by_cases y : b.toNat < a.toNat
      · rw [if_pos y] at h2; cases h2
      · rw [if_neg y] at h1
        rw [if_neg y, if_neg x] at h2
        rw [char_of_not_lt x y, strLt_total h1 h2]

theorem insertSorted_mem {x y : Str} {l : List Str} : y ∈ insertSorted x l ↔ y = x ∨ y ∈ l := by
  induction l with
  | nil => simp [insertSorted]
  | cons z l ih =>
    unfold insertSorted
    split
    · simp only [List.mem_cons, ih]
      constructor <;> (rintro (h | h | h) <;> simp [h])
    · simp

theorem sortNames_mem {y : Str} {l : List Str} : y ∈ sortNames l ↔ y ∈ l := by
  induction l with
  | nil => rfl
  | cons x l ih => simp [sortNames, insertSorted_mem, ih]

/-- Sorted, repetitions allowed. -/
def Sorted (l : List Str) : Prop := l.Pairwise fun a b => strLt b a = false

theorem insertSorted_sorted {x : Str} {l : List Str} (h : Sorted l) : Sorted (insertSorted x l) := by
  induction l with
  | nil => exact List.pairwise_singleton _ _
  | cons y l ih =>
    unfold insertSorted
    have hc := List.pairwise_cons.mp h
    split
    · rename_i hlt
      refine List.pairwise_cons.mpr ⟨?_, ih hc.2⟩
      intro z hz
      rcases insertSorted_mem.mp hz with rfl | hz
      · cases hh : strLt z y with
        | false => rfl
        | true =>
          have := strLt_trans hlt hh
          rw [strLt_irrefl] at this
          cases this
      · exact hc.1 z hz
    · rename_i hlt
      refine List.pairwise_cons.mpr ⟨?_, h⟩
      intro z hz
      rcases List.mem_cons.mp hz with rfl | hz
      · simpa using hlt
      · cases hh : strLt z x with
        | false => rfl
        | true =>
          have hyz := hc.1 z hz
          cases hxy : strLt x y with
          | true =>
            rw [strLt_trans hh hxy] at hyz
            cases hyz
          | false =>
            have := strLt_total hxy (by simpa using hlt)
            subst this
            rw [hyz] at hh
            cases hh

theorem sortNames_sorted (l : List Str) : Sorted (sortNames l) := by
  induction l with
  | nil => exact List.Pairwise.nil
  | cons x l ih => exact insertSorted_sorted ih

theorem uniqueFrom_mem {x y : Str} {l : List Str} : y ∈ uniqueFrom x l ↔ y = x ∨ y ∈ l := by
  induction l generalizing x with
  | nil => simp [uniqueFrom]
  | cons z l ih =>
    unfold uniqueFrom
    split
    · rename_i h
      subst h
      rw [ih]
      simp
    · simp [ih]

theorem uniqueFrom_strict {x : Str} {l : List Str} (h : Sorted (x :: l)) :
    (uniqueFrom x l).Pairwise fun a b => strLt a b = true := by
  induction l generalizing x with
  | nil => exact List.pairwise_singleton _ _
  | cons z l ih =>
    have h1 := List.pairwise_cons.mp h
    have h2 := List.pairwise_cons.mp h1.2
    unfold uniqueFrom
    split
    · rename_i hx
      subst hx
      exact ih h1.2
    · rename_i hx
      have hlt : strLt x z = true := by
        cases hh : strLt x z with
        | true => rfl
        | false => exact absurd (strLt_total hh (h1.1 z List.mem_cons_self)) hx
      refine List.pairwise_cons.mpr ⟨?_, ih h1.2⟩
      intro y hy
      rcases uniqueFrom_mem.mp hy with rfl | hy
      · exact hlt
      · cases hzy : strLt z y with
        | true => exact strLt_trans hlt hzy
        | false =>
          have := strLt_total hzy (h2.1 y hy)
          rw [← this]
          exact hlt

/-- `sort_dedup` keeps the elements. -/
theorem sortDedup_mem {y : Str} {l : List Str} : y ∈ sortDedup l ↔ y ∈ l := by
  unfold sortDedup
  split
  · rw [← sortNames_mem (l := l)]
    cases sortNames l with
    | nil => rfl
    | cons x r => rw [uniqueNames, uniqueFrom_mem, List.mem_cons]
  · rfl

/-- `sort_dedup` gives an increasing list. -/
theorem sortDedup_strict (l : List Str) : (sortDedup l).Pairwise Before := by
  have key : (sortDedup l).Pairwise fun a b => strLt a b = true := by
    unfold sortDedup
    split
    · have := sortNames_sorted l
      cases h : sortNames l with
      | nil => exact List.Pairwise.nil
      | cons x r =>
        rw [h] at this
        exact uniqueFrom_strict this
    · rename_i h
      match l with
      | [] => exact List.Pairwise.nil
      | [x] => exact List.pairwise_singleton _ _
      | _ :: _ :: _ => simp at h
  exact key.imp fun h => strLt_iff.mp h

theorem before_irrefl (a : Str) : ¬ Before a a := by
  rw [← strLt_iff, strLt_irrefl]
  simp

theorem before_trans {a b c : Str} (h1 : Before a b) (h2 : Before b c) : Before a c := by
  rw [← strLt_iff] at *
  exact strLt_trans h1 h2

/-- There is only one increasing list with given elements. -/
theorem strict_unique : ∀ {l m : List Str}, l.Pairwise Before → m.Pairwise Before → (∀ x, x ∈ l ↔ x ∈ m) → l = m
  | [], [], _, _, _ => rfl
  | [], y :: m, _, _, h => by
    have := (h y).mpr List.mem_cons_self
    cases this
  | x :: l, [], _, _, h => by
    have := (h x).mp List.mem_cons_self
    cases this
  | x :: l, y :: m, hl, hm, h => by
    have h1 := List.pairwise_cons.mp hl
    have h2 := List.pairwise_cons.mp hm
    have hxy : x = y := by
      rcases List.mem_cons.mp ((h x).mp List.mem_cons_self) with e | hx
      · exact e
      · rcases List.mem_cons.mp ((h y).mpr List.mem_cons_self) with e | hy
        · exact e.symm
        · exact absurd (before_trans (h1.1 y hy) (h2.1 x hx)) (before_irrefl x)
    subst hxy
    rw [strict_unique h1.2 h2.2 ?_]
    intro z
    constructor
    · intro hz
      rcases List.mem_cons.mp ((h z).mp (List.mem_cons_of_mem _ hz)) with e | hz'
      · rw [e] at hz
        exact absurd (h1.1 x hz) (before_irrefl x)
      · exact hz'
    · intro hz
      rcases List.mem_cons.mp ((h z).mpr (List.mem_cons_of_mem _ hz)) with e | hz'
      · rw [e] at hz
        exact absurd (h2.1 x hz) (before_irrefl x)
      · exact hz'

/-! ### Settings that `%option` lines do not change -/

/-- The settings agree in what concerns the files and the choice of symbols. -/
structure SameFiles (s s' : Settings) : Prop where
  input : s'.input = s.input
  output : s'.output = s.output
  force : s'.force = s.force
  separate : s'.separate = s.separate
  customTemplate : s'.customTemplate = s.customTemplate
  printSymbols : s'.printSymbols = s.printSymbols
  templatesPath : s'.templatesPath = s.templatesPath
  prefixList : s'.prefixList = s.prefixList
  symbolList : s'.symbolList = s.symbolList

theorem SameFiles.refl (s : Settings) : SameFiles s s := ⟨rfl, rfl, rfl, rfl, rfl, rfl, rfl, rfl, rfl⟩

theorem SameFiles.trans {a b c : Settings} (h1 : SameFiles a b) (h2 : SameFiles b c) : SameFiles a c :=
  ⟨h2.input.trans h1.input, h2.output.trans h1.output, h2.force.trans h1.force, h2.separate.trans h1.separate,
   h2.customTemplate.trans h1.customTemplate, h2.printSymbols.trans h1.printSymbols, h2.templatesPath.trans h1.templatesPath,
   h2.prefixList.trans h1.prefixList, h2.symbolList.trans h1.symbolList⟩

theorem addDef_same (d : Str) (s : Settings) : SameFiles s (addDef d s) := by
  unfold addDef
  dsimp only
  cases splitFirst (str% "=") d with
  | none =>
    dsimp only
    split
    · exact SameFiles.refl s
    · exact ⟨rfl, rfl, rfl, rfl, rfl, rfl, rfl, rfl, rfl⟩
  | some x =>
    obtain ⟨a, b⟩ := x
    dsimp only
    split
    · exact SameFiles.refl s
    · exact ⟨rfl, rfl, rfl, rfl, rfl, rfl, rfl, rfl, rfl⟩

theorem setFormat_same {v : Str} {s : Settings} : (∀ s', setFormat v s = .ok s' → SameFiles s s') ∧ ∀ e, setFormat v s ≠ .error (.exit e) := by
  unfold setFormat
  dsimp only
  constructor
  · intro s' h
    repeat' split at h
    all_goals first
      | (cases h; exact ⟨rfl, rfl, rfl, rfl, rfl, rfl, rfl, rfl, rfl⟩)
      | (cases h; done)
  · intro e h
    repeat' split at h
    all_goals cases h

theorem setNames_same {v : Str} {s : Settings} : (∀ s', setNames v s = .ok s' → SameFiles s s') ∧ ∀ e, setNames v s ≠ .error (.exit e) := by
  unfold setNames
  constructor
  · intro s' h
    repeat' split at h
    all_goals first
      | (cases h; exact ⟨rfl, rfl, rfl, rfl, rfl, rfl, rfl, rfl, rfl⟩)
      | (cases h; done)
  · intro e h
    repeat' split at h
    all_goals cases h

theorem getOption_no_exit {t o : Str} {e : Exit} : getOption t o ≠ .error (.exit e) := by
  unfold getOption
  split
  · split
    · intro h; cases h
    · intro h; cases h
  · intro h; cases h

theorem optionDispatch_same (t : Str) (s : Settings) : ∀ l : List (Str × (Str → Settings → Except Stop Settings)),
    (∀ x ∈ l, ∀ v, (∀ s', x.2 v s = .ok s' → SameFiles s s') ∧ ∀ e, x.2 v s ≠ .error (.exit e)) →
    (∀ s', optionDispatch t s l = .ok s' → SameFiles s s') ∧ ∀ e, optionDispatch t s l ≠ .error (.exit e)
  | [], _ => ⟨fun s' h => (by cases h), fun e h => by cases h⟩
  | (n, f) :: r, hl => by
    have hf := hl (n, f) List.mem_cons_self
    have ih := optionDispatch_same t s r fun x hx => hl x (List.mem_cons_of_mem _ hx)
    cases hg : getOption t n with
    | error x =>
      have : optionDispatch t s ((n, f) :: r) = .error x := by
        show (getOption t n >>= _) = _
        rw [hg]
        rfl
      rw [this]
      refine ⟨fun s' h => (by cases h), fun e h => ?_⟩
      simp only [Except.error.injEq] at h
      subst h
      exact getOption_no_exit hg
    | ok o =>
      cases o with
      | none =>
        have : optionDispatch t s ((n, f) :: r) = optionDispatch t s r := by
          show (getOption t n >>= _) = _
          rw [hg]
          rfl
        rw [this]
        exact ih
      | some v =>
        have : optionDispatch t s ((n, f) :: r) = f v s := by
          show (getOption t n >>= _) = _
          rw [hg]
          rfl
        rw [this]
        exact hf v

theorem parseOption_same (t : Str) (s : Settings) :
    (∀ s', parseOption s t = .ok s' → SameFiles s s') ∧ ∀ e, parseOption s t ≠ .error (.exit e) := by
  unfold parseOption
  repeat' split
  · exact ⟨fun s' h => (by cases h; exact ⟨rfl, rfl, rfl, rfl, rfl, rfl, rfl, rfl, rfl⟩), fun e h => by cases h⟩
  · exact ⟨fun s' h => (by cases h; exact ⟨rfl, rfl, rfl, rfl, rfl, rfl, rfl, rfl, rfl⟩), fun e h => by cases h⟩
  · exact ⟨fun s' h => (by cases h; exact ⟨rfl, rfl, rfl, rfl, rfl, rfl, rfl, rfl, rfl⟩), fun e h => by cases h⟩
  · apply optionDispatch_same
    intro x hx v
    simp only [optionHandlers, List.mem_cons, List.not_mem_nil, or_false] at hx
    rcases hx with rfl | rfl | rfl | rfl | rfl | rfl
    · exact ⟨fun s' h => (by cases h; exact addDef_same v s), fun e h => by cases h⟩
    · exact setFormat_same
    · exact ⟨fun s' h => (by cases h; exact ⟨rfl, rfl, rfl, rfl, rfl, rfl, rfl, rfl, rfl⟩), fun e h => by cases h⟩
    · exact ⟨fun s' h => (by cases h; exact ⟨rfl, rfl, rfl, rfl, rfl, rfl, rfl, rfl, rfl⟩), fun e h => by cases h⟩
    · exact setNames_same
    · exact ⟨fun s' h => (by cases h; exact ⟨rfl, rfl, rfl, rfl, rfl, rfl, rfl, rfl, rfl⟩), fun e h => by cases h⟩

theorem parseOptions_same (toks : List Str) : ∀ s : Settings,
    (∀ s', parseOptions s toks = .ok s' → SameFiles s s') ∧ ∀ e, parseOptions s toks ≠ .error (.exit e) := by
  induction toks with
  | nil => exact fun s => ⟨fun s' h => (by cases h; exact SameFiles.refl s), fun e h => by cases h⟩
  | cons t toks ih =>
    intro s
    have hs := parseOption_same t s
    have hc : parseOptions s (t :: toks) = (parseOption s t >>= fun s1 => parseOptions s1 toks) := by
      unfold parseOptions
      rw [List.foldlM_cons]
    cases ho : parseOption s t with
    | error x =>
      rw [hc, ho]
      refine ⟨fun s' h => (by cases h), fun e h => ?_⟩
      exact hs.2 e (by rw [ho]; exact h)
    | ok s1 =>
      rw [hc, ho]
      have := ih s1
      exact ⟨fun s' h => (hs.1 s1 ho).trans (this.1 s' h), this.2⟩

theorem applyOptions_same {s s' : Settings} {toks : List Str} (h : applyOptions s toks = .ok s') : SameFiles s s' := by
  unfold applyOptions at h
  split at h
  · cases ho : parseOptions s toks with
    | ok s1 =>
      rw [ho] at h
      cases h
      exact (parseOptions_same toks s).1 _ ho
    | error x =>
      rw [ho] at h
      cases x with
      | error e => cases h
      | exit e => exact absurd ho ((parseOptions_same toks s).2 e)
  · cases h
    exact SameFiles.refl s

theorem tokenize_same {w : World} {s s' : Settings} {sy : Symbols} (h : tokenize w s = some (.ok (s', sy))) : SameFiles s s' := by
  unfold tokenize at h
  split at h
  · cases h
  · split at h
    · cases h
    · split at h
      · cases h
      · rename_i text ht
        generalize tokenizeStream s.readOptions text = r at h
        obtain ⟨vec, opts, e⟩ := r
        cases e with
        | error =>
          dsimp only at h
          unfold scanFailed at h
          split at h
          · cases h
          · rename_i e he
            cases hx : e.text w.signedChar with
            | none => rw [hx] at h; cases h
            | some m => rw [hx] at h; cases h
        | ast =>
          have h : readAst s text = .ok (s', sy) := by simpa using h
          unfold readAst at h
          split at h
          · cases h
          · split at h
            · cases h
            · cases h
              exact SameFiles.refl s
        | eof =>
          dsimp only at h
          unfold readText at h
          split at h
          · cases h
          · rename_i s1 ho
            cases hd : tokenizeDecls vec (toLower s1.pfx) s1.names s1.prefixList s1.symbolList with
            | none => rw [hd] at h; cases h
            | some r =>
              rw [hd] at h
              cases r with
              | error e => cases e <;> cases h
              | ok y =>
                cases h
                exact applyOptions_same ho

end Gdo.Program
