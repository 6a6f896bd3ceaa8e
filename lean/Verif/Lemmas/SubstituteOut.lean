import Verif.Lemmas.SubstituteSeq
import Verif.Props.Prefix

/-!
Lemmas about what template processing writes: percent signs and line numbers.
-/

namespace Gdo.Pfx
open Gdo

/-- The replacement text of a match has no percent signs unless the format or the
    groups have. -/
theorem expand_percent (g : List Str) (fmt : Str) (hf : '%' ∉ fmt) (hg : ∀ x ∈ g, '%' ∉ x) : '%' ∉ expand g fmt := by
  have hget : ∀ k, '%' ∉ g.getD k [] := by
    intro k
    rw [List.getD_eq_getElem?_getD]
    cases h : g[k]? with
    | none => simp
    | some x => simpa using hg x (List.mem_of_getElem? h)
  fun_induction expand g fmt with
  | case1 a b s h ih => simp only [List.mem_append, not_or]; exact ⟨hget _, ih (by simp_all)⟩
  | case2 a b s h h2 ih => simp only [List.mem_append, not_or]; exact ⟨hget _, ih (by simp_all)⟩
  | case3 a b s h h2 ih =>
    simp only [List.mem_cons, not_or]
    exact ⟨by decide, ih (by simp_all)⟩
  | case4 a h => exact hget _
  | case5 a h => simp_all
  | case6 c s h1 h2 ih =>
    simp only [List.mem_cons, not_or] at hf ⊢
    exact ⟨hf.1, ih hf.2⟩
  | case7 => simp

theorem regexReplace_percent (m : Bool → Str → Option (List Str)) (fmt : Str) (hf : '%' ∉ fmt)
    (hm : ∀ b s g, m b s = some g → '%' ∉ s → ∀ x ∈ g, '%' ∉ x) (b : Bool) (k : Nat) (s : Str) (hs : '%' ∉ s) :
    '%' ∉ regexReplace m fmt b k s := by
  induction s generalizing b k with
  | nil => cases k <;> simp [regexReplace]
  | cons c t ih =>
    have ht : '%' ∉ t := fun h => hs (by simp [h])
    cases k with
    | succ k => rw [regexReplace]; exact ih _ _ ht
    | zero =>
      rw [regexReplace]
      split
      · rename_i g hg
        simp only [List.mem_append, not_or]
        exact ⟨expand_percent _ _ hf (hm _ _ _ hg hs), ih _ _ ht⟩
      · simp only [List.mem_cons, not_or] at hs ⊢
        exact ⟨hs.1, ih _ _ ht⟩

theorem matchPrefix_percent (lit : Str) (hl : '%' ∉ lit) (b : Bool) (s : Str) (g : List Str) (h : matchPrefix lit b s = some g)
    (hs : '%' ∉ s) : ∀ x ∈ g, '%' ∉ x := by
  have hu : ∀ u : Str, u = [] ∨ u = str% "_" → '%' ∉ u := by rintro u (rfl | rfl) <;> simp
  unfold matchPrefix at h
  simp only at h
  split at h
  · rename_i g' hs'
    simp at h
    subst h
    split at hs'
    · rename_i c t
      split at hs'
      · simp at hs'
      · rw [Option.map_eq_some_iff] at hs'
        obtain ⟨y, hy, rfl⟩ := hs'
        obtain ⟨u, r, h1, h2, rfl⟩ := optUnderscore_some hy
        have := hu u h1
        have hc : '%' ≠ c := by intro hc; exact hs (List.mem_cons.mpr (Or.inl hc))
        intro x hx
        simp only [List.cons_append, List.nil_append, List.mem_cons, List.not_mem_nil, or_false] at hx
        rcases hx with rfl | rfl | rfl | rfl <;> simp [hc, this, hl]
    · simp at hs'
  · split at h
    · rw [Option.map_eq_some_iff] at h
      obtain ⟨y, hy, rfl⟩ := h
      obtain ⟨u, r, h1, h2, rfl⟩ := optUnderscore_some hy
      have := hu u h1
      intro x hx
      simp only [List.cons_append, List.nil_append, List.mem_cons, List.not_mem_nil, or_false] at hx
      rcases hx with rfl | rfl | rfl | rfl <;> simp [this, hl]
    · simp at h

theorem matchStandalone_percent (lit : Str) (hl : '%' ∉ lit) (b : Bool) (s : Str) (g : List Str)
    (h : matchStandalone lit b s = some g) (hs : '%' ∉ s) : ∀ x ∈ g, '%' ∉ x := by
  unfold matchStandalone at h
  simp only at h
  split at h
  · rename_i g' hs'
    simp at h
    subst h
    split at hs'
    · rename_i c t
      split at hs'
      · simp at hs'
      · obtain ⟨e, r, h2, rfl⟩ := litEnd_some hs'
        subst h2
        simp only [List.mem_cons, List.mem_append, not_or] at hs
        intro x hx
        simp only [List.mem_cons, List.not_mem_nil, or_false] at hx
        rcases hx with rfl | rfl | rfl | rfl <;> simp [hs, hl]
    · simp at hs'
  · split at h
    · obtain ⟨e, r, h2, rfl⟩ := litEnd_some h
      subst h2
      simp only [List.mem_append, not_or] at hs
      intro x hx
      simp only [List.mem_cons, List.not_mem_nil, or_false] at hx
      rcases hx with rfl | rfl | rfl | rfl <;> simp [hs, hl]
    · simp at h

theorem word_noPercent {s : Str} (h : ∀ c ∈ s, isWord c = true) : '%' ∉ s := by
  intro hm
  have := h _ hm
  simp [isWord, isAlnum, isAlpha, isUpper, isLower, isDigit] at this

/-- Replacing the prefix makes no percent signs. -/
theorem applyPrefix_percent (pfx s : Str) (h : '%' ∈ applyPrefix pfx s) : '%' ∈ s := by
  by_cases hs : '%' ∈ s
  · exact hs
  · exfalso
    have hu := word_noPercent (C30_upper pfx)
    have hl := word_noPercent (C30_lower pfx)
    unfold applyPrefix at h
    split at h
    · exact hs h
    · unfold replacePrefixes at h
      simp only at h
      refine regexReplace_percent _ _ ?_ (matchStandalone_percent _ (by decide)) _ _ _ ?_ h
      · simp [hl]
      · refine regexReplace_percent _ _ ?_ (matchPrefix_percent _ (by decide)) _ _ _ ?_
        · simp [hl]
        · refine regexReplace_percent _ _ ?_ (matchPrefix_percent _ (by decide)) _ _ _ hs
          simp [hu]

/-- Replacing the prefix keeps the number of lines. -/
theorem applyPrefix_lines (pfx : Str) (hd : ¬ BeginsWithDigit pfx) (s : Str) : nlCount (applyPrefix pfx s) = nlCount s := by
  unfold applyPrefix
  split
  · rfl
  · exact C29_lines_partial pfx hd s

end Gdo.Pfx

namespace Gdo.Sub
open Gdo Tpl Tmpl

theorem found_iff_contains (k s : Str) : found k s = true ↔ Contains k s := by
  unfold found
  cases h : splitFirst k s with
  | none => simpa using splitFirst_none.mp h
  | some r =>
    obtain ⟨a, b⟩ := r
    simp
    exact ⟨a, b, (splitFirst_some h).1⟩

/-- The data of a symbol have no newlines. -/
def OneLine (p : Proto) : Prop := '\n' ∉ p.type ∧ '\n' ∉ p.symbol ∧ '\n' ∉ p.args ∧ '\n' ∉ p.paramNames

theorem nl_zero {s : Str} (h : '\n' ∉ s) : nlCount s = 0 := by
  unfold nlCount
  exact List.count_eq_zero.mpr h

theorem padded_nl {w : Nat} {s : Str} (h : '\n' ∉ s) : '\n' ∉ padded w s := by
  unfold padded
  simp only [List.mem_append, not_or]
  exact ⟨h, fun hm => by have := List.eq_of_mem_replicate hm; simp at this⟩

theorem functionPasses_quiet (w : Nat) (p : Proto) (h : OneLine p) : Quiet (functionPasses w p) := by
  obtain ⟨h1, h2, h3, h4⟩ := h
  intro q hq
  have h5 := padded_nl (w := w) h2
  unfold functionPasses at hq
  simp only [List.mem_append] at hq
  rcases hq with ((hq | hq) | hq) | hq
  · split at hq <;> simp only [List.mem_cons, List.not_mem_nil, or_false] at hq
    · rcases hq with rfl | rfl <;> exact ⟨rfl, rfl⟩
    · subst hq; exact ⟨rfl, rfl⟩
  · split at hq <;> simp only [List.mem_cons, List.not_mem_nil, or_false] at hq
    subst hq; exact ⟨rfl, nl_zero h1⟩
  · simp only [List.mem_cons, List.not_mem_nil, or_false] at hq
    rcases hq with rfl | rfl | rfl | rfl
    · exact ⟨rfl, nl_zero h1⟩
    · exact ⟨rfl, nl_zero h2⟩
    · exact ⟨rfl, nl_zero h3⟩
    · exact ⟨rfl, nl_zero h4⟩
  · split at hq <;> simp only [List.mem_cons, List.not_mem_nil, or_false] at hq
    subst hq; exact ⟨rfl, nl_zero h5⟩

theorem objectPasses_quiet (w : Nat) (p : Proto) (h : OneLine p) : Quiet (objectPasses w p) := by
  obtain ⟨h1, h2, h3, h4⟩ := h
  intro q hq
  have h5 := padded_nl (w := w) h2
  unfold objectPasses at hq
  simp only [List.mem_append] at hq
  rcases hq with (hq | hq) | hq
  · split at hq <;> simp only [List.mem_cons, List.not_mem_nil, or_false] at hq
    subst hq; exact ⟨rfl, nl_zero h1⟩
  · simp only [List.mem_cons, List.not_mem_nil, or_false] at hq
    rcases hq with rfl | rfl
    · exact ⟨rfl, nl_zero h1⟩
    · exact ⟨rfl, nl_zero h2⟩
  · split at hq <;> simp only [List.mem_cons, List.not_mem_nil, or_false] at hq
    subst hq; exact ⟨rfl, nl_zero h5⟩

theorem symbolPasses_quiet {t s : Str} (ht : '\n' ∉ t) (hs : '\n' ∉ s) : Quiet (symbolPasses t s) := by
  intro q hq
  simp only [symbolPasses, List.mem_cons, List.not_mem_nil, or_false] at hq
  rcases hq with rfl | rfl
  · exact ⟨rfl, nl_zero ht⟩
  · exact ⟨rfl, nl_zero hs⟩

theorem loopPasses_quiet {cfg : Config} (h : ∀ p ∈ cfg.prototypes ++ cfg.objects, OneLine p) (buf : Str) (k : LoopKind) :
    ∀ ps ∈ loopPasses cfg buf k, Quiet ps := by
  intro ps hps
  cases k with
  | functions =>
    simp only [loopPasses, List.mem_map] at hps
    obtain ⟨p, hp, rfl⟩ := hps
    exact functionPasses_quiet _ _ (h p (by simp [hp]))
  | objects =>
    simp only [loopPasses, List.mem_map] at hps
    obtain ⟨p, hp, rfl⟩ := hps
    exact objectPasses_quiet _ _ (h p (by simp [hp]))
  | symbols =>
    simp only [loopPasses, List.mem_append, List.mem_map] at hps
    rcases hps with ⟨p, hp, rfl⟩ | ⟨p, hp, rfl⟩
    · have := h p (by simp [hp])
      refine symbolPasses_quiet ?_ this.2.1
      unfold functionSymType
      split <;> simp [this.1, this.2.2.1]
    · have := h p (by simp [hp])
      refine symbolPasses_quiet ?_ this.2.1
      unfold objectSymType
      split <;> simp [this.1]

/-- The data of a symbol do not have two percent signs next to each other. -/
def NoPairs (p : Proto) : Prop :=
  ¬ Contains (str% "%%") p.type ∧ ¬ Contains (str% "%%") p.symbol ∧ ¬ Contains (str% "%%") p.args ∧ ¬ Contains (str% "%%") p.paramNames

theorem pair_append {a b : Str} {c : Char} (hc : c ≠ '%') (ha : ¬ Contains (str% "%%") a) (hb : ¬ Contains (str% "%%") b) :
    ¬ Contains (str% "%%") (a ++ c :: b) := by
  rintro ⟨p, q, h⟩
  induction a generalizing p with
  | nil =>
    cases p with
    | nil => simp at h; exact hc h.1
    | cons x p => simp at h; exact hb ⟨p, q, by simpa using h.2⟩
  | cons y a ih =>
    cases p with
    | nil =>
      cases a with
      | nil => simp at h; exact hc h.2.1
      | cons z a => simp at h; exact ha ⟨[], a, by simp [h]⟩
    | cons x p =>
      simp at h
      refine ih (fun hca => ?_) p (by simpa using h.2)
      obtain ⟨u, v, huv⟩ := hca
      exact ha ⟨y :: u, v, by simp [huv]⟩

theorem pair_none : ¬ Contains (str% "%%") [] := by
  rintro ⟨p, q, h⟩
  cases p <;> simp at h

theorem pair_snoc {a : Str} {c : Char} (hc : c ≠ '%') (ha : ¬ Contains (str% "%%") a) : ¬ Contains (str% "%%") (a ++ [c]) :=
  pair_append hc ha pair_none

theorem padded_pair {w : Nat} {s : Str} (h : ¬ Contains (str% "%%") s) : ¬ Contains (str% "%%") (padded w s) := by
  unfold padded
  generalize w - s.length = k
  induction k generalizing s with
  | zero => simpa using h
  | succ k ih =>
    have := ih (pair_snoc (c := ' ') (by decide) h)
    rwa [List.append_assoc] at this

theorem functionPasses_harmless (w : Nat) (p : Proto) (h : NoPairs p) : Harmless (functionPasses w p) := by
  obtain ⟨h1, h2, h3, h4⟩ := h
  have pat : ∀ (k t : Str), k ≠ [] → (t = [] ∨ t = str% " ") → IsPattern (str% "%%" ++ k ++ str% "%%" ++ t) :=
    fun k t hk ht => ⟨k, t, rfl, hk, ht⟩
  intro q hq
  have h5 := padded_pair (w := w) h2
  unfold functionPasses at hq
  simp only [List.mem_append] at hq
  rcases hq with ((hq | hq) | hq) | hq
  · split at hq <;> simp only [List.mem_cons, List.not_mem_nil, or_false] at hq
    · rcases hq with rfl | rfl
      · exact ⟨pat (str% "return") (str% " ") (by simp) (by simp), pair_none⟩
      · exact ⟨pat (str% "return") [] (by simp) (by simp), pair_none⟩
    · subst hq
      exact ⟨pat (str% "return") [] (by simp) (by simp), by rw [← found_iff_contains]; decide⟩
  · split at hq <;> simp only [List.mem_cons, List.not_mem_nil, or_false] at hq
    subst hq; exact ⟨pat (str% "type") (str% " ") (by simp) (by simp), h1⟩
  · simp only [List.mem_cons, List.not_mem_nil, or_false] at hq
    rcases hq with rfl | rfl | rfl | rfl
    · exact ⟨pat (str% "type") [] (by simp) (by simp), h1⟩
    · exact ⟨pat (str% "func_symbol") [] (by simp) (by simp), h2⟩
    · exact ⟨pat (str% "args") [] (by simp) (by simp), h3⟩
    · exact ⟨pat (str% "param_names") [] (by simp) (by simp), h4⟩
  · split at hq <;> simp only [List.mem_cons, List.not_mem_nil, or_false] at hq
    subst hq; exact ⟨pat (str% "func_symbol_pad") [] (by simp) (by simp), h5⟩

theorem objectPasses_harmless (w : Nat) (p : Proto) (h : NoPairs p) : Harmless (objectPasses w p) := by
  obtain ⟨h1, h2, h3, h4⟩ := h
  have pat : ∀ (k t : Str), k ≠ [] → (t = [] ∨ t = str% " ") → IsPattern (str% "%%" ++ k ++ str% "%%" ++ t) :=
    fun k t hk ht => ⟨k, t, rfl, hk, ht⟩
  intro q hq
  have h5 := padded_pair (w := w) h2
  unfold objectPasses at hq
  simp only [List.mem_append] at hq
  rcases hq with (hq | hq) | hq
  · split at hq <;> simp only [List.mem_cons, List.not_mem_nil, or_false] at hq
    subst hq; exact ⟨pat (str% "obj_type") (str% " ") (by simp) (by simp), h1⟩
  · simp only [List.mem_cons, List.not_mem_nil, or_false] at hq
    rcases hq with rfl | rfl
    · exact ⟨pat (str% "obj_type") [] (by simp) (by simp), h1⟩
    · exact ⟨pat (str% "obj_symbol") [] (by simp) (by simp), h2⟩
  · split at hq <;> simp only [List.mem_cons, List.not_mem_nil, or_false] at hq
    subst hq; exact ⟨pat (str% "obj_symbol_pad") [] (by simp) (by simp), h5⟩

theorem symbolPasses_harmless {t s : Str} (ht : ¬ Contains (str% "%%") t) (hs : ¬ Contains (str% "%%") s) :
    Harmless (symbolPasses t s) := by
  intro q hq
  simp only [symbolPasses, List.mem_cons, List.not_mem_nil, or_false] at hq
  rcases hq with rfl | rfl
  · exact ⟨⟨str% "sym_type", [], rfl, by simp, by simp⟩, ht⟩
  · exact ⟨⟨str% "symbol", [], rfl, by simp, by simp⟩, hs⟩

theorem loopPasses_harmless {cfg : Config} (h : ∀ p ∈ cfg.prototypes ++ cfg.objects, NoPairs p) (buf : Str) (k : LoopKind) :
    ∀ ps ∈ loopPasses cfg buf k, Harmless ps := by
  intro ps hps
  cases k with
  | functions =>
    simp only [loopPasses, List.mem_map] at hps
    obtain ⟨p, hp, rfl⟩ := hps
    exact functionPasses_harmless _ _ (h p (by simp [hp]))
  | objects =>
    simp only [loopPasses, List.mem_map] at hps
    obtain ⟨p, hp, rfl⟩ := hps
    exact objectPasses_harmless _ _ (h p (by simp [hp]))
  | symbols =>
    simp only [loopPasses, List.mem_append, List.mem_map] at hps
    rcases hps with ⟨p, hp, rfl⟩ | ⟨p, hp, rfl⟩
    · have := h p (by simp [hp])
      refine symbolPasses_harmless ?_ this.2.1
      unfold functionSymType
      split
      · have h1 := pair_append (c := '(') (by decide) this.1 (pair_append (a := str% "*)") (c := '(') (by decide)
          (by rw [← found_iff_contains]; decide) (pair_snoc (c := ')') (by decide) this.2.2.1))
        simpa using h1
      · have h1 := pair_append (c := ' ') (by decide) this.1 (pair_append (a := str% "(*)") (c := '(') (by decide)
          (by rw [← found_iff_contains]; decide) (pair_snoc (c := ')') (by decide) this.2.2.1))
        simpa using h1
    · have := h p (by simp [hp])
      refine symbolPasses_harmless ?_ this.2.1
      unfold objectSymType
      split
      · exact pair_snoc (by decide) this.1
      · have h1 := pair_append (c := ' ') (b := str% "*") (by decide) this.1 (by rw [← found_iff_contains]; decide)
        simpa using h1

end Gdo.Sub
