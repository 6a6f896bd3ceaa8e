import Verif.Lemmas.Filter

/-!
Property theorems C14 (text input) and C15: duplicates and symbol filters.
-/

namespace Gdo
open Spec

/-- The name is listed with `-S`, or begins with something given with `-P`, or there
    are no such options. -/
def Spec.Selected (prefixes symbols : List Str) (s : Str) : Prop :=
  (prefixes = [] ∧ symbols = []) ∨ s ∈ symbols ∨ ∃ e ∈ prefixes, e <+: s

theorem isPrefixed_iff {s : Str} (hs : s ≠ []) (l : List Str) :
    isPrefixed s l = true ↔ ∃ e ∈ l, e <+: s := by
  unfold isPrefixed
  cases l with
  | nil => simp
  | cons a l => simp [hs, List.isPrefixOf_iff_prefix]

/-- `v` as the filter gets it. -/
structure FilterInput (v : List Proto) : Prop where
  unsaved : ∀ p ∈ v, p.saved = false
  nodup : (v.map Proto.symbol).Nodup
  names : ∀ p ∈ v, p.symbol ≠ []

/-- The selected entries: those with a prefix first. -/
def chosen (prefixes symbols : List Str) (v : List Proto) : List Proto :=
  if prefixes = [] ∧ symbols = [] then v
  else v.filter (fun p => isPrefixed p.symbol prefixes) ++
    v.filter (fun p => decide (p.symbol ∈ symbols) && !isPrefixed p.symbol prefixes)

theorem filterSymbols_eq (v : List Proto) (hv : FilterInput v) (P S : List Str) :
    filterSymbols v P S =
      if S.filter (fun s => decide (s ∉ v.map Proto.symbol)) ≠ [] then
        .error (.notFound (S.filter (fun s => decide (s ∉ v.map Proto.symbol))))
      else if chosen P S v = [] then .error .nothingFound
      else .ok ⟨fns (chosen P S v), obs (chosen P S v)⟩ := by
  have hemp : ∀ c : List Proto, ((fns c).isEmpty && (obs c).isEmpty) = decide (c = []) := by
    intro c
    cases c with
    | nil => rfl
    | cons p c => by_cases h : p.kind = .function <;> simp [fns, obs, h]
  have fin : ∀ c : List Proto, (if ((fns c).isEmpty && (obs c).isEmpty) = true then
      (Except.error ParseErr.nothingFound : Except ParseErr FilterState) else .ok ⟨fns c, obs c⟩) =
      if c = [] then .error .nothingFound else .ok ⟨fns c, obs c⟩ := by
    intro c; rw [hemp]; simp
  have hnp : ∀ p : Proto, isPrefixed p.symbol [] = false := by intro p; simp [isPrefixed]
  have hfilt : ∀ (f : Proto → Bool), listPass (v.map (mark f)) S ⟨[] ++ fns (v.filter f), [] ++ obs (v.filter f)⟩ =
      (S.filter (fun s => decide (s ∉ v.map Proto.symbol)),
        ⟨fns (v.filter f ++ v.filter fun p => decide (p.symbol ∈ S) && !f p),
         obs (v.filter f ++ v.filter fun p => decide (p.symbol ∈ S) && !f p)⟩) := by
    intro f; rw [listPass_eq f v hv.unsaved hv.nodup, fns_append, obs_append]; rfl
  have hlist : ∀ (c : List Proto), (match (if (S.filter (fun s => decide (s ∉ v.map Proto.symbol))).isEmpty = true
        then (Except.ok ⟨fns c, obs c⟩ : Except ParseErr FilterState)
        else .error (.notFound (S.filter (fun s => decide (s ∉ v.map Proto.symbol))))) with
      | .error e => .error e
      | .ok st => if (st.protos.isEmpty && st.objs.isEmpty) = true then .error .nothingFound else .ok st) =
      if S.filter (fun s => decide (s ∉ v.map Proto.symbol)) ≠ [] then
        (.error (.notFound (S.filter (fun s => decide (s ∉ v.map Proto.symbol)))) : Except ParseErr FilterState)
      else if c = [] then .error .nothingFound
      else .ok ⟨fns c, obs c⟩ := by
    intro c
    generalize S.filter (fun s => decide (s ∉ v.map Proto.symbol)) = rest
    cases rest with
    | nil => simpa using fin c
    | cons r rest => rfl
  have hfalse : v.map (mark fun _ => false) = v := by
    have : (mark fun _ => false) = id := by funext p; simp [mark]
    rw [this]; simp
  unfold filterSymbols getFilterMode
  by_cases hP : P = []
  · by_cases hS : S = []
    · subst hP hS
      simp only [List.length_nil, Nat.lt_irrefl, decide_false, Bool.and_self, Bool.false_eq_true, if_false,
        gt_iff_lt, if_true, savePass_eq _ v hv.unsaved, List.nil_append, List.filter_nil, ne_eq,
        not_true_eq_false, chosen, and_self]
      have e : v.filter (fun _ => true) = v := List.filter_eq_self.mpr (by simp)
      rw [e]
      exact fin v
    · subst hP
      have hlen : 0 < S.length := List.length_pos_iff.mpr hS
      have hc : chosen [] S v = v.filter (fun _ => false) ++ v.filter fun p => decide (p.symbol ∈ S) && !(fun _ => false) p := by
        unfold chosen; rw [if_neg (by simp [hS])]; simp [hnp]
      have hl := hfilt (fun _ => false)
      rw [hfalse, ← hc] at hl
      have e : v.filter (fun _ => false) = [] := by simp
      rw [e] at hl
      have hl : listPass v S ⟨[], []⟩ = _ := hl
      simp only [List.length_nil, Nat.lt_irrefl, decide_false, Bool.false_and, Bool.false_eq_true, if_false,
        gt_iff_lt, hlen, if_true, reduceCtorEq, false_or, or_false, hl]
      exact hlist _
  · have hPl : 0 < P.length := List.length_pos_iff.mpr hP
    have hc : chosen P S v = v.filter (fun p => isPrefixed p.symbol P) ++
        v.filter fun p => decide (p.symbol ∈ S) && !isPrefixed p.symbol P := by
      unfold chosen; rw [if_neg (by simp [hP])]
    by_cases hS : S = []
    · subst hS
      have e : (v.filter fun p => decide (p.symbol ∈ ([] : List Str)) && !isPrefixed p.symbol P) = [] := by simp
      rw [e, List.append_nil] at hc
      simp only [List.length_nil, Nat.lt_irrefl, decide_false, Bool.and_false, Bool.false_eq_true, if_false,
        gt_iff_lt, hPl, if_true, reduceCtorEq, or_self, true_or, or_true, savePass_eq _ v hv.unsaved,
        List.nil_append, ← hc, List.filter_nil, ne_eq, not_true_eq_false]
      exact fin _
    · have hSl : 0 < S.length := List.length_pos_iff.mpr hS
      have hl := hfilt (fun p => isPrefixed p.symbol P)
      rw [← hc] at hl
      simp only [gt_iff_lt, hPl, hSl, decide_true, Bool.and_self, if_true, reduceCtorEq, if_false, or_true,
        savePass_eq _ v hv.unsaved, hl]
      exact hlist _

theorem mem_chosen {v : List Proto} (hv : FilterInput v) {P S : List Str} {p : Proto} :
    p ∈ chosen P S v ↔ p ∈ v ∧ Selected P S p.symbol := by
  unfold chosen Selected
  split
  · rename_i h; simp [h]
  · rename_i h
    simp only [List.mem_append, List.mem_filter, Bool.and_eq_true, decide_eq_true_eq, Bool.not_eq_true']
    constructor
    · rintro (⟨h1, h2⟩ | ⟨h1, h2, h3⟩)
      · exact ⟨h1, Or.inr (Or.inr ((isPrefixed_iff (hv.names p h1) P).mp h2))⟩
      · exact ⟨h1, Or.inr (Or.inl h2)⟩
    · rintro ⟨h1, h2 | h2 | h2⟩
      · exact absurd h2 h
      · by_cases hp : isPrefixed p.symbol P
        · exact Or.inl ⟨h1, hp⟩
        · exact Or.inr ⟨h1, h2, by simpa using hp⟩
      · exact Or.inl ⟨h1, (isPrefixed_iff (hv.names p h1) P).mpr h2⟩

theorem filter_perm_split {α : Type} (f g : α → Bool) (v : List α) :
    (v.filter f ++ v.filter (fun p => g p && !f p)).Perm (v.filter (fun p => f p || g p)) := by
  induction v with
  | nil => simp
  | cons a v ih =>
    by_cases hf : f a
    · simp [hf]; exact ih
    · by_cases hg : g a
      · simp [hf, hg]
        exact List.perm_middle.trans (ih.cons a)
      · simp [hf, hg]; exact ih

open Classical in
/-- The chosen entries are the selected ones, each once. -/
theorem chosen_perm {v : List Proto} (hv : FilterInput v) (P S : List Str) :
    (chosen P S v).Perm (v.filter fun p => decide (Selected P S p.symbol)) := by
  unfold chosen
  split
  · rename_i h
    rw [List.filter_eq_self.mpr (by intro p _; simp [Selected, h])]
  · rename_i h
    refine (filter_perm_split _ _ v).trans (List.Perm.of_eq (List.filter_congr ?_))
    intro p hp
    have := isPrefixed_iff (hv.names p hp) P
    have h2 : ¬ (P = [] ∧ S = []) := h
    by_cases h1 : isPrefixed p.symbol P <;> simp [Selected, h2, h1, ← this]

/-- The list handed to the filter by the parser, and where it is from. -/
theorem parse_cases_from (vt : List Toks) (hlex : ∀ v ∈ vt, ∀ t ∈ v, LexTok t) (mode : ParamNames) :
    (∃ e, ∀ P S, gendlopenParse vt mode P S = some (.error e)) ∨
    (∃ ps v, parseTokens vt = some (some ps) ∧ doParameters mode ps = some (.ok v) ∧ FilterInput v ∧ v ≠ [] ∧
      ∀ P S, gendlopenParse vt mode P S = some (filterSymbols v P S)) := by
  obtain ⟨r, hr⟩ := parseTokens_isSome vt
  unfold gendlopenParse
  rw [hr]
  cases r with
  | none => left; exact ⟨_, fun _ _ => rfl⟩
  | some v =>
    simp only [Option.bind_eq_bind, Option.bind_some]
    by_cases hemp : v.isEmpty
    · left; exact ⟨_, fun _ _ => by rw [if_pos hemp]; rfl⟩
    · simp only [hemp, Bool.false_eq_true, if_false]
      cases hm : multipleDefinitions v with
      | some s => left; exact ⟨_, fun _ _ => rfl⟩
      | none =>
        obtain ⟨w, hw⟩ := doParameters_isSome mode v
        rw [hw]
        cases w with
        | error e => left; exact ⟨_, fun _ _ => rfl⟩
        | ok w =>
          right
          obtain ⟨h1, h2, h3, h4⟩ := doParameters_same v hw
          have hlen : w.length = v.length := by simpa using congrArg List.length h1
          refine ⟨v, w, rfl, hw, ⟨?_, ?_, ?_⟩, ?_, fun _ _ => rfl⟩
          · intro p hp
            have : p.saved ∈ v.map Proto.saved := by rw [← h3]; exact List.mem_map_of_mem hp
            obtain ⟨q, hq, he⟩ := List.mem_map.mp this
            obtain ⟨t, _, ht⟩ := parseTokens_mem vt hr q hq
            rw [← he]; exact checkPrototype_unsaved ht
          · rw [h1]; exact (multipleDefinitions_none v).mp hm
          · intro p hp
            have : p.symbol ∈ v.map Proto.symbol := by rw [← h1]; exact List.mem_map_of_mem hp
            obtain ⟨q, hq, he⟩ := List.mem_map.mp this
            obtain ⟨t, htm, ht⟩ := parseTokens_mem vt hr q hq
            obtain ⟨d, hd, -, hpd⟩ := C54_reading_is_a_declaration t q (hlex t htm) ht
            rw [← he, hpd]
            exact hd.2.1
          · intro h'; subst h'; simp at hlen; simp [List.length_eq_zero_iff.mp hlen.symm] at hemp

/-- The list handed to the filter by the parser. -/
theorem parse_cases (vt : List Toks) (hlex : ∀ v ∈ vt, ∀ t ∈ v, LexTok t) (mode : ParamNames) :
    (∃ e, ∀ P S, gendlopenParse vt mode P S = some (.error e)) ∨
    (∃ v, FilterInput v ∧ v ≠ [] ∧ ∀ P S, gendlopenParse vt mode P S = some (filterSymbols v P S)) := by
  rcases parse_cases_from vt hlex mode with h | ⟨ps, v, -, -, h1, h2, h3⟩
  · exact Or.inl h
  · exact Or.inr ⟨v, h1, h2, h3⟩

/-- C14 for text input: a successful run has no two entries for the same symbol. -/
theorem C14_no_duplicates_partial (vt : List Toks) (hlex : ∀ v ∈ vt, ∀ t ∈ v, LexTok t)
    (mode : ParamNames) (P S : List Str) (st : FilterState)
    (h : gendlopenParse vt mode P S = some (.ok st)) :
    ((st.protos ++ st.objs).map Proto.symbol).Nodup := by
  rcases parse_cases vt hlex mode with ⟨e, he⟩ | ⟨v, hv, -, hf⟩
  · rw [he] at h; simp at h
  · rw [hf, filterSymbols_eq v hv] at h
    split at h
    · simp at h
    · split at h
      · simp at h
      · simp at h
        subst h
        have hp : (fns (chosen P S v) ++ obs (chosen P S v)).Perm (chosen P S v) := by
          have := List.filter_append_perm (fun p : Proto => decide (p.kind = .function)) (chosen P S v)
          simpa [fns, obs] using this
        have hc : ((chosen P S v).map Proto.symbol).Nodup := by
          classical
          rw [((chosen_perm hv P S).map Proto.symbol).nodup_iff]
          exact (List.filter_sublist.map _).nodup hv.nodup
        exact ((hp.map Proto.symbol).nodup_iff).mpr hc

/-- Two declarations of the same symbol are reported. -/
theorem C14_duplicates_reported (vt : List Toks) (mode : ParamNames) (P S : List Str)
    (ps : List Proto) (hp : parseTokens vt = some (some ps)) (i j : Nat) (hij : i < j)
    (a b : Proto) (ha : ps[i]? = some a) (hb : ps[j]? = some b) (hs : a.symbol = b.symbol) :
    ∃ s, gendlopenParse vt mode P S = some (.error (.multipleDefinitions s)) := by
  unfold gendlopenParse
  rw [hp]
  have hne : ps.isEmpty = false := by cases ps <;> simp at ha ⊢
  simp only [Option.bind_eq_bind, Option.bind_some, hne]
  cases hm : multipleDefinitions ps with
  | some s => exact ⟨s, rfl⟩
  | none =>
    exfalso
    have := (multipleDefinitions_none ps).mp hm
    obtain ⟨hi, rfl⟩ := List.getElem?_eq_some_iff.mp ha
    obtain ⟨hj, rfl⟩ := List.getElem?_eq_some_iff.mp hb
    have := (List.nodup_iff_pairwise_ne.mp this)
    rw [List.pairwise_map, List.pairwise_iff_getElem] at this
    exact this i j hi hj hij hs

/-- C15: compared with the run without filters, the filtered run fails exactly if a
    listed symbol is missing or nothing is selected, and otherwise its functions and
    objects are the selected ones, each once. -/
theorem C15_filters_select (vt : List Toks) (hlex : ∀ v ∈ vt, ∀ t ∈ v, LexTok t)
    (mode : ParamNames) (P S : List Str) (all : FilterState)
    (hall : gendlopenParse vt mode [] [] = some (.ok all)) :
    ((∃ st, gendlopenParse vt mode P S = some (.ok st)) ↔
      (∀ s ∈ S, s ∈ (all.protos ++ all.objs).map Proto.symbol) ∧
      ∃ s ∈ (all.protos ++ all.objs).map Proto.symbol, Selected P S s) ∧
    ∀ st, gendlopenParse vt mode P S = some (.ok st) →
      (∀ p, p ∈ st.protos ↔ p ∈ all.protos ∧ Selected P S p.symbol) ∧
      (∀ p, p ∈ st.objs ↔ p ∈ all.objs ∧ Selected P S p.symbol) ∧
      ((st.protos ++ st.objs).map Proto.symbol).Nodup := by
  rcases parse_cases vt hlex mode with ⟨e, he⟩ | ⟨v, hv, hne, hf⟩
  · rw [he] at hall; simp at hall
  · have hch0 : chosen [] [] v = v := by simp [chosen]
    have hall' := hall
    rw [hf, filterSymbols_eq v hv, hch0] at hall'
    simp [hne] at hall'
    subst hall'
    have hnames : ∀ s, s ∈ (fns v ++ obs v).map Proto.symbol ↔ s ∈ v.map Proto.symbol := by
      intro s
      simp only [List.mem_map, List.mem_append, fns, obs, List.mem_filter]
      grind
    have hmiss : S.filter (fun s => decide (s ∉ v.map Proto.symbol)) = [] ↔
        ∀ s ∈ S, s ∈ v.map Proto.symbol := by
      rw [List.filter_eq_nil_iff]; simp
    have hnone : chosen P S v = [] ↔ ¬ ∃ s ∈ v.map Proto.symbol, Selected P S s := by
      rw [List.eq_nil_iff_forall_not_mem]
      constructor
      · rintro h ⟨s, hs, hsel⟩
        obtain ⟨p, hp, rfl⟩ := List.mem_map.mp hs
        exact h p ((mem_chosen hv).mpr ⟨hp, hsel⟩)
      · intro h p hp
        have := (mem_chosen hv).mp hp
        exact h ⟨_, List.mem_map_of_mem this.1, this.2⟩
    constructor
    · simp only [hnames]
      rw [hf, filterSymbols_eq v hv]
      by_cases h1 : S.filter (fun s => decide (s ∉ v.map Proto.symbol)) = []
      · rw [if_neg (by simpa using h1)]
        by_cases h2 : chosen P S v = []
        · rw [if_pos h2]
          simp only [Option.some.injEq, reduceCtorEq, exists_false, false_iff]
          exact fun h => hnone.mp h2 h.2
        · rw [if_neg h2]
          simp only [Option.some.injEq, Except.ok.injEq, exists_eq', true_iff]
          exact ⟨hmiss.mp h1, Classical.not_not.mp (fun h => h2 (hnone.mpr h))⟩
      · rw [if_pos h1]
        simp only [Option.some.injEq, reduceCtorEq, exists_false, false_iff]
        exact fun h => h1 (hmiss.mpr h.1)
    · intro st hst
      refine ⟨?_, ?_, C14_no_duplicates_partial vt hlex mode P S st hst⟩
      all_goals
        rw [hf, filterSymbols_eq v hv] at hst
        split at hst
        · simp at hst
        · split at hst
          · simp at hst
          · simp at hst
            subst hst
            intro p
            simp only [fns, obs, List.mem_filter, mem_chosen hv]
            grind

/-- If the run without filters fails, so does the filtered one, in the same way. -/
theorem C15_errors_unchanged (vt : List Toks) (hlex : ∀ v ∈ vt, ∀ t ∈ v, LexTok t)
    (mode : ParamNames) (P S : List Str) (e : ParseErr)
    (h : gendlopenParse vt mode [] [] = some (.error e)) :
    gendlopenParse vt mode P S = some (.error e) := by
  rcases parse_cases vt hlex mode with ⟨e', he⟩ | ⟨v, hv, hne, hf⟩
  · rw [he] at h ⊢; exact h
  · rw [hf, filterSymbols_eq v hv] at h
    have hch0 : chosen [] [] v = v := by simp [chosen]
    simp [hch0, hne] at h

/-- `int foo(void); int bar_x; char *bar_y(void);` with `-Pbar_ -Sfoo`. -/
example : ∃ all st,
    gendlopenParse [(Decl.func [str% "int"] (str% "foo") [str% "void"]).print,
      (Decl.var [str% "int"] (str% "bar_x")).print,
      (Decl.func [str% "char", str% "*"] (str% "bar_y") [str% "void"]).print] .read [] [] = some (.ok all) ∧
    gendlopenParse [(Decl.func [str% "int"] (str% "foo") [str% "void"]).print,
      (Decl.var [str% "int"] (str% "bar_x")).print,
      (Decl.func [str% "char", str% "*"] (str% "bar_y") [str% "void"]).print] .read [str% "bar_"] [str% "foo"]
      = some (.ok st) ∧
    st.protos.map Proto.symbol = [str% "bar_y", str% "foo"] ∧ st.objs.map Proto.symbol = [str% "bar_x"] :=
  ⟨_, _, rfl, rfl, rfl, rfl⟩

/-- `int foo(void); int foo;` -/
example : gendlopenParse [(Decl.func [str% "int"] (str% "foo") [str% "void"]).print,
      (Decl.var [str% "int"] (str% "foo")).print] .read [] [] = some (.error (.multipleDefinitions (str% "foo"))) := by
  rfl

end Gdo
