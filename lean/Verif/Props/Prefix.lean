import Verif.Lemmas.Prefix
import Verif.Model.CommonPrefix

/-!
Properties C29 (prefix replacement), C30 (derived names) and C31 (common symbol
prefix).
-/

namespace Gdo.Pfx
open Gdo Rename

/-! ### C30 -/

theorem toUpperC_word {c : Char} (h : isAlnum c = true) : isWord (toUpperC c) = true ∧ isLower (toUpperC c) = false := by
  unfold toUpperC
  split
  · rename_i hl
    have hr : c.toNat - 32 < 0xd800 := by
      simp [isLower] at hl
      have h2 : c.val.toNat ≤ 'z'.val.toNat := hl.2
      have : c.toNat = c.val.toNat := rfl
      have h3 : 'z'.val.toNat = 122 := rfl
      omega
    have h1 : 97 ≤ c.toNat ∧ c.toNat ≤ 122 := by
      simp [isLower] at hl
      exact ⟨hl.1, hl.2⟩
    have hn : ∀ n, 97 ≤ n → n ≤ 122 → isWord (Char.ofNat (n - 32)) = true ∧ isLower (Char.ofNat (n - 32)) = false := by
      intro n h1 h2
      have : ∀ m, m < 123 → 97 ≤ m → isWord (Char.ofNat (m - 32)) = true ∧ isLower (Char.ofNat (m - 32)) = false := by decide
      exact this n (by omega) h1
    exact hn _ h1.1 h1.2
  · rename_i hl
    exact ⟨by simp [isWord, h], by simpa using hl⟩

theorem toLowerC_word {c : Char} (h : isAlnum c = true) : isWord (toLowerC c) = true := by
  unfold toLowerC
  split
  · rename_i hl
    have h1 : 65 ≤ c.toNat ∧ c.toNat ≤ 90 := by
      simp [isUpper] at hl
      exact ⟨hl.1, hl.2⟩
    have : ∀ m, m < 91 → 65 ≤ m → isWord (Char.ofNat (m + 32)) = true := by decide
    exact this _ (by omega) h1.1
  · simp [isWord, h]

/-- The macro prefix, as any name converted with `utils::to_upper`, consists of
    letters, digits and underscores, for every option value. -/
theorem C30_upper (s : Str) : ∀ c ∈ toUpper s, isWord c = true := by
  intro c hc
  simp only [toUpper, if_true, List.mem_map] at hc
  obtain ⟨a, _, rfl⟩ := hc
  split
  · rename_i h; exact (toUpperC_word h).1
  · decide

/-- The function prefix consists of letters, digits and underscores, for every
    option value. -/
theorem C30_lower (s : Str) : ∀ c ∈ toLower s, isWord c = true := by
  intro c hc
  simp only [toLower, if_true, List.mem_map] at hc
  obtain ⟨a, _, rfl⟩ := hc
  split
  · rename_i h; exact toLowerC_word h
  · decide

/-- Nothing is lost: as many characters as the option value has. -/
theorem C30_length (s : Str) : (toUpper s).length = s.length ∧ (toLower s).length = s.length := by
  simp [toUpper, toLower]

example : toUpper (str% "my-lib 2.h") = str% "MY_LIB_2_H" ∧ toLower (str% "My-Lib") = str% "my_lib" := by decide

theorem toUpper_noLower (s : Str) : ∀ c ∈ toUpper s, isLower c = false := by
  intro c hc
  simp only [toUpper, if_true, List.mem_map] at hc
  obtain ⟨a, _, rfl⟩ := hc
  split
  · rename_i h; exact (toUpperC_word h).2
  · decide

theorem word_noDollar {s : Str} (h : ∀ c ∈ s, isWord c = true) : '$' ∉ s := by
  intro hc
  have := h _ hc
  simp [isWord, isAlnum, isAlpha, isUpper, isLower, isDigit] at this

/-! ### C29 -/

/-- The option value begins with a digit. -/
def BeginsWithDigit (pfx : Str) : Prop := ∃ c r, pfx = c :: r ∧ isDigit c = true

theorem toUpper_head (pfx : Str) (h : ¬ BeginsWithDigit pfx) : ∀ c, (toUpper pfx).head? = some c → isDigit c = false := by
  intro c hc
  cases pfx with
  | nil => simp [toUpper] at hc
  | cons a r =>
    simp only [toUpper, if_true, List.map_cons, List.head?_cons, Option.some.injEq] at hc
    subst hc
    have ha : isDigit a = false := by
      cases hd : isDigit a with
      | false => rfl
      | true => exact absurd ⟨a, r, rfl, hd⟩ h
    split
    · unfold toUpperC
      split
      · rename_i hl
        have h1 : 97 ≤ a.toNat ∧ a.toNat ≤ 122 := by
          simp [isLower] at hl
          exact ⟨hl.1, hl.2⟩
        have : ∀ m, m < 123 → 97 ≤ m → isDigit (Char.ofNat (m - 32)) = false := by decide
        exact this _ (by omega) h1.1
      · exact ha
    · decide

theorem toLower_head (pfx : Str) (h : ¬ BeginsWithDigit pfx) : ∀ c, (toLower pfx).head? = some c → isDigit c = false := by
  intro c hc
  cases pfx with
  | nil => simp [toLower] at hc
  | cons a r =>
    simp only [toLower, if_true, List.map_cons, List.head?_cons, Option.some.injEq] at hc
    subst hc
    have ha : isDigit a = false := by
      cases hd : isDigit a with
      | false => rfl
      | true => exact absurd ⟨a, r, rfl, hd⟩ h
    split
    · unfold toLowerC
      split
      · rename_i hl
        have h1 : 65 ≤ a.toNat ∧ a.toNat ≤ 90 := by
          simp [isUpper] at hl
          exact ⟨hl.1, hl.2⟩
        have : ∀ m, m < 91 → 65 ≤ m → isDigit (Char.ofNat (m + 32)) = false := by decide
        exact this _ (by omega) h1.1
      · exact ha
    · decide

theorem newPrefix_word (lit p w : Str) (hp : ∀ c ∈ p, isWord c = true) (hne : w ≠ []) (hw : ∀ c ∈ w, isWord c = true) :
    newPrefix lit p w ≠ [] ∧ ∀ c ∈ newPrefix lit p w, isWord c = true := by
  unfold newPrefix
  have hu : isWord '_' = true := by decide
  have hdrop : ∀ n, ∀ c ∈ w.drop n, isWord c = true := fun n c hc => hw c (List.mem_of_mem_drop hc)
  split
  · refine ⟨by simp, ?_⟩
    intro c hc
    simp only [List.mem_append, List.mem_singleton] at hc
    rcases hc with (hc | rfl) | hc
    · exact hp c hc
    · exact hu
    · exact hdrop _ c hc
  · split
    · refine ⟨by simp, ?_⟩
      intro c hc
      simp only [List.mem_append, List.mem_singleton] at hc
      rcases hc with ((rfl | hc) | rfl) | hc
      · exact hu
      · exact hp c hc
      · exact hu
      · exact hdrop _ c hc
    · exact ⟨hne, hw⟩

theorem newPrefix_gdo (lit p w : Str) (h : newPrefix lit p w = str% "gdo") : w = str% "gdo" := by
  unfold newPrefix at h
  have hn : '_' ∉ (str% "gdo" : Str) := by decide
  split at h
  · rw [← h] at hn; simp at hn
  · split at h
    · rw [← h] at hn; simp at hn
    · exact h

theorem gdoPair_mapWords (f : Str → Str) (hf : ∀ w, f w = str% "gdo" → w = str% "gdo") (ps : List Piece)
    (h : GdoPair (mapWords f ps)) : GdoPair ps := by
  obtain ⟨a, c, b, hab⟩ := h
  unfold mapWords at hab
  rw [List.append_assoc] at hab
  obtain ⟨a', r', h1, h2, h3⟩ := List.map_eq_append_iff.mp hab
  obtain ⟨x, r1, h4, h5, h6⟩ := List.map_eq_cons_iff.mp h3
  obtain ⟨y, r2, h7, h8, h9⟩ := List.map_eq_cons_iff.mp h6
  obtain ⟨z, r3, h10, h11, h12⟩ := List.map_eq_cons_iff.mp h9
  subst h1 h4 h7 h10
  cases x with
  | other d => simp at h5
  | word w =>
    simp at h5
    cases y with
    | word w2 => simp at h8
    | other d =>
      cases z with
      | other d => simp at h11
      | word w3 =>
        simp at h11
        rw [hf w h5, hf w3 h11]
        exact ⟨a', d, r3, by simp⟩

theorem mapWords_comp (f g : Str → Str) (ps : List Piece) : mapWords f (mapWords g ps) = mapWords (fun w => f (g w)) ps := by
  unfold mapWords
  rw [List.map_map]
  apply List.map_congr_left
  intro q _
  cases q <;> rfl

theorem isPrefixOf_append {a b : Str} {w : Str} (h : (a ++ b).isPrefixOf w = true) : a.isPrefixOf w = true := by
  rw [List.isPrefixOf_iff_prefix] at h ⊢
  exact List.IsPrefix.trans (List.prefix_append _ _) h

/-- The three passes rename a word as they should. -/
theorem passes_newName (upper lower w : Str) (hu : upper ≠ []) (hul : ∀ c ∈ upper, isLower c = false) :
    newAlone lower (newPrefix (str% "gdo_") lower (newPrefix (str% "GDO_") upper w)) = newName upper lower w := by
  have hself : ∀ x : Str, '_' ∈ x → newAlone lower x = x := by
    intro x hx
    unfold newAlone
    rw [if_neg]
    rintro rfl
    simp at hx
  obtain ⟨u, us, rfl⟩ := List.exists_cons_of_ne_nil hu
  have hug : u ≠ 'g' := by
    rintro rfl
    have := hul 'g' (by simp)
    simp [isLower] at this
  unfold newName
  by_cases h1 : (str% "GDO_").isPrefixOf w = true
  · rw [if_pos h1]
    have e1 : newPrefix (str% "GDO_") (u :: us) w = u :: us ++ str% "_" ++ w.drop 4 := by
      unfold newPrefix; rw [if_pos h1]; rfl
    rw [e1]
    have e2 : newPrefix (str% "gdo_") lower (u :: us ++ str% "_" ++ w.drop 4) = u :: us ++ str% "_" ++ w.drop 4 := by
      unfold newPrefix
      rw [if_neg, if_neg]
      · intro h
        cases us with
        | nil =>
          simp [List.isPrefixOf] at h
        | cons v us =>
          simp [List.isPrefixOf] at h
          have := hul v (by simp)
          rw [← h.2.1] at this
          simp [isLower] at this
      · simp [List.isPrefixOf, Ne.symm hug]
    rw [e2, hself _ (by simp)]
  · rw [if_neg h1]
    by_cases h2 : (str% "_GDO_").isPrefixOf w = true
    · rw [if_pos h2]
      have e1 : newPrefix (str% "GDO_") (u :: us) w = str% "_" ++ (u :: us) ++ str% "_" ++ w.drop 5 := by
        unfold newPrefix; rw [if_neg h1, if_pos h2]; rfl
      rw [e1]
      have e2 : newPrefix (str% "gdo_") lower (str% "_" ++ (u :: us) ++ str% "_" ++ w.drop 5) =
          str% "_" ++ (u :: us) ++ str% "_" ++ w.drop 5 := by
        unfold newPrefix
        rw [if_neg, if_neg]
        · simp [List.isPrefixOf, Ne.symm hug]
        · simp [List.isPrefixOf]
      rw [e2, hself _ (by simp)]
    · rw [if_neg h2]
      have e1 : newPrefix (str% "GDO_") (u :: us) w = w := by
        unfold newPrefix; rw [if_neg h1, if_neg h2]
      rw [e1]
      by_cases h3 : (str% "gdo_").isPrefixOf w = true
      · rw [if_pos h3]
        have e2 : newPrefix (str% "gdo_") lower w = lower ++ str% "_" ++ w.drop 4 := by
          unfold newPrefix; rw [if_pos h3]; rfl
        rw [e2, hself _ (by simp)]
      · rw [if_neg h3]
        by_cases h4 : (str% "_gdo_").isPrefixOf w = true
        · rw [if_pos h4]
          have e2 : newPrefix (str% "gdo_") lower w = str% "_" ++ lower ++ str% "_" ++ w.drop 5 := by
            unfold newPrefix; rw [if_neg h3, if_pos h4]; rfl
          rw [e2, hself _ (by simp)]
        · rw [if_neg h4]
          have e2 : newPrefix (str% "gdo_") lower w = w := by
            unfold newPrefix; rw [if_neg h3, if_neg h4]
          rw [e2]
          rfl

/-- Every text is made of words and other characters in exactly one way. -/
theorem C29_pieces (s : Str) : ∃ ps, Valid ps ∧ textOf ps = s := pieces_exist s

/-- Prefix replacement renames the words as it should and leaves all else alone,
    unless the prefix is empty or begins with a digit, or two words `gdo` have only
    one character between them. -/
theorem C29_partial (pfx : Str) (hne : pfx ≠ []) (hd : ¬ BeginsWithDigit pfx) (ps : List Piece) (hv : Valid ps)
    (hg : ¬ GdoPair ps) :
    replacePrefixes pfx (textOf ps) = textOf (mapWords (newName (toUpper pfx) (toLower pfx)) ps) := by
  have hu := C30_upper pfx
  have hl := C30_lower pfx
  have hune : toUpper pfx ≠ [] := by
    intro h
    have := congrArg List.length h
    rw [(C30_length pfx).1] at this
    exact hne (List.eq_nil_of_length_eq_zero this)
  have hv1 : Valid (mapWords (newPrefix (str% "GDO_") (toUpper pfx)) ps) :=
    mapWords_valid _ _ hv (fun w h1 h2 => newPrefix_word _ _ w hu h1 h2)
  have hv2 : Valid (mapWords (newPrefix (str% "gdo_") (toLower pfx)) (mapWords (newPrefix (str% "GDO_") (toUpper pfx)) ps)) :=
    mapWords_valid _ _ hv1 (fun w h1 h2 => newPrefix_word _ _ w hl h1 h2)
  have e1 := pass_text (str% "GDO_") (toUpper pfx) (by decide) ⟨_, _, rfl, by decide⟩ (word_noDollar hu) (toUpper_head pfx hd) ps hv
  have e2 := pass_text (str% "gdo_") (toLower pfx) (by decide) ⟨_, _, rfl, by decide⟩ (word_noDollar hl) (toLower_head pfx hd) _ hv1
  have e3 := passAlone_text (toLower pfx) (word_noDollar hl) (toLower_head pfx hd) _ hv2 (by
    intro h
    exact hg (gdoPair_mapWords _ (newPrefix_gdo _ _) _ (gdoPair_mapWords _ (newPrefix_gdo _ _) _ h)))
  unfold pass at e1 e2
  unfold passAlone at e3
  unfold replacePrefixes
  simp only
  rw [e1, e2, e3, mapWords_comp, mapWords_comp]
  congr 2
  funext w
  exact passes_newName _ _ _ hune (toUpper_noLower pfx)

example : Valid [.word (str% "GDO_DECL"), .other ' ', .word (str% "gdo"), .other ';'] ∧
    ¬ GdoPair [.word (str% "GDO_DECL"), .other ' ', .word (str% "gdo"), .other ';'] := by
  constructor
  · simp [Valid, isWord, isAlnum, isAlpha, isUpper, isLower, isDigit]
  · rintro ⟨a, c, b, h⟩
    have h1 := congrArg List.length h
    cases a with
    | nil => simp at h
    | cons x a =>
      cases a with
      | nil => simp at h
      | cons y a => simp at h1; omega

/-- A match keeps the newlines. -/
theorem regexReplace_lines (m : Bool → Str → Option (List Str)) (fmt : Str)
    (hm : ∀ b s g, m b s = some g → ∃ x r, s = x ++ r ∧ g.getD 0 [] = x ∧ x ≠ [] ∧ nlCount (expand g fmt) = nlCount x)
    (n : Nat) (s : Str) (hlen : s.length ≤ n) (bol : Bool) : nlCount (regexReplace m fmt bol 0 s) = nlCount s := by
  induction n generalizing s bol with
  | zero =>
    have : s = [] := List.eq_nil_of_length_eq_zero (by omega)
    subst this
    simp [regexReplace]
  | succ n ih =>
    cases s with
    | nil => simp [regexReplace]
    | cons c s =>
      cases h : m bol (c :: s) with
      | none =>
        rw [regexReplace_none _ _ _ _ _ h]
        have := ih s (by simpa using hlen) false
        simp only [nlCount, List.count_cons] at this ⊢
        rw [this]
      | some g =>
        obtain ⟨x, r, h1, h2, h3, h4⟩ := hm _ _ _ h
        cases g with
        | nil => simp at h2; exact absurd h2.symm (by simpa using h3)
        | cons y g =>
          simp at h2
          subst h2
          rw [h1] at h ⊢
          rw [regexReplace_match _ _ _ _ _ _ h3 h]
          have := ih r (by
            have := congrArg List.length h1
            have h5 := List.length_pos_iff.mpr h3
            simp at this hlen; omega) false
          simp only [nlCount, List.count_append] at this h4 ⊢
          rw [this, h4]

theorem nlCount_word {w : Str} (h : ∀ c ∈ w, isWord c = true) : nlCount w = 0 := by
  unfold nlCount
  rw [List.count_eq_zero]
  intro hc
  have := h _ hc
  simp [isWord, isAlnum, isAlpha, isUpper, isLower, isDigit] at this

theorem after_some {lit s r : Str} (h : after lit s = some r) : s = lit ++ r := by
  unfold after at h
  split at h
  · rename_i hp
    rw [List.isPrefixOf_iff_prefix] at hp
    obtain ⟨t, rfl⟩ := hp
    simp at h
    rw [h]
  · simp at h

theorem optUnderscore_some {lit g s : Str} {x : List Str} (h : optUnderscore lit g s = some x) :
    ∃ u r, (u = [] ∨ u = str% "_") ∧ s = u ++ lit ++ r ∧ x = [g ++ u ++ lit, g ++ u] := by
  unfold optUnderscore at h
  split at h
  · rename_i r hr
    simp at h
    exact ⟨str% "_", r, Or.inr rfl, by simpa using after_some hr, by simp [← h]⟩
  · split at h
    · rename_i r hr
      simp at h
      exact ⟨[], r, Or.inl rfl, by simpa using after_some hr, by simp [← h]⟩
    · simp at h

theorem matchPrefix_lines (lit p : Str) (hl : ∀ c ∈ lit, isWord c = true) (hne : lit ≠ []) (hp : ∀ c ∈ p, isWord c = true)
    (hd : ∀ c, p.head? = some c → isDigit c = false) (b : Bool) (s : Str) (g : List Str)
    (h : matchPrefix lit b s = some g) :
    ∃ x r, s = x ++ r ∧ g.getD 0 [] = x ∧ x ≠ [] ∧ nlCount (expand g (str% "$1" ++ p ++ str% "_")) = nlCount x := by
  have key : ∀ (g0 u : Str) (e : List Str), g = [g0 ++ u ++ lit, g0 ++ u] ++ e →
      g.getD 0 [] = g0 ++ u ++ lit ∧ g0 ++ u ++ lit ≠ [] ∧
      nlCount (expand g (str% "$1" ++ p ++ str% "_")) = nlCount (g0 ++ u ++ lit) := by
    intro g0 u e he
    refine ⟨by rw [he]; simp, by simp [hne], ?_⟩
    rw [expand_prefix _ _ (word_noDollar hp) hd, he]
    have h1 := nlCount_word hl
    have h2 := nlCount_word hp
    simp only [nlCount] at h1 h2
    simp [nlCount, h1, h2]
  unfold matchPrefix at h
  simp only at h
  split at h
  · rename_i g' hs
    simp at h
    subst h
    split at hs
    · rename_i c t
      split at hs
      · simp at hs
      · rw [Option.map_eq_some_iff] at hs
        obtain ⟨y, hy, rfl⟩ := hs
        obtain ⟨u, r, _, h2, rfl⟩ := optUnderscore_some hy
        obtain ⟨k1, k2, k3⟩ := key [c] u _ rfl
        exact ⟨_, r, by simp [h2], k1, k2, k3⟩
    · simp at hs
  · split at h
    · rw [Option.map_eq_some_iff] at h
      obtain ⟨y, hy, rfl⟩ := h
      obtain ⟨u, r, _, h2, rfl⟩ := optUnderscore_some hy
      obtain ⟨k1, k2, k3⟩ := key [] u _ rfl
      exact ⟨_, r, by simp [h2], k1, k2, k3⟩
    · simp at h

theorem litEnd_some {lit g s : Str} {x : List Str} (h : litEnd lit g s = some x) :
    ∃ e r, s = lit ++ e ++ r ∧ x = [g ++ lit ++ e, g, lit, e] := by
  unfold litEnd at h
  split at h
  · rename_i c r hr
    split at h
    · simp at h
    · simp at h
      exact ⟨[c], r, by simpa using after_some hr, by simp [← h]⟩
  · rename_i hr
    simp at h
    exact ⟨[], [], by simpa using after_some hr, by simp [← h]⟩
  · simp at h

theorem matchStandalone_lines (lit p : Str) (hl : ∀ c ∈ lit, isWord c = true) (hne : lit ≠ []) (hp : ∀ c ∈ p, isWord c = true)
    (hd : ∀ c, p.head? = some c → isDigit c = false) (b : Bool) (s : Str) (g : List Str)
    (h : matchStandalone lit b s = some g) :
    ∃ x r, s = x ++ r ∧ g.getD 0 [] = x ∧ x ≠ [] ∧ nlCount (expand g (str% "$1" ++ p ++ str% "$3")) = nlCount x := by
  have key : ∀ (g0 e : Str), g = [g0 ++ lit ++ e, g0, lit, e] →
      g.getD 0 [] = g0 ++ lit ++ e ∧ g0 ++ lit ++ e ≠ [] ∧
      nlCount (expand g (str% "$1" ++ p ++ str% "$3")) = nlCount (g0 ++ lit ++ e) := by
    intro g0 e he
    refine ⟨by rw [he]; simp, by simp [hne], ?_⟩
    rw [expand_standalone _ _ (word_noDollar hp) hd, he]
    have h1 := nlCount_word hl
    have h2 := nlCount_word hp
    simp only [nlCount] at h1 h2
    simp [nlCount, h1, h2]
  unfold matchStandalone at h
  simp only at h
  split at h
  · rename_i g' hs
    simp at h
    subst h
    split at hs
    · rename_i c t
      split at hs
      · simp at hs
      · obtain ⟨e, r, h2, rfl⟩ := litEnd_some hs
        obtain ⟨k1, k2, k3⟩ := key [c] e rfl
        exact ⟨_, r, by simp [h2], k1, k2, k3⟩
    · simp at hs
  · split at h
    · obtain ⟨e, r, h2, rfl⟩ := litEnd_some h
      obtain ⟨k1, k2, k3⟩ := key [] e rfl
      exact ⟨_, r, by simp [h2], k1, k2, k3⟩
    · simp at h

/-- The number of lines does not change, unless the prefix begins with a digit. -/
theorem C29_lines_partial (pfx : Str) (hd : ¬ BeginsWithDigit pfx) (s : Str) : nlCount (replacePrefixes pfx s) = nlCount s := by
  have hu := C30_upper pfx
  have hl := C30_lower pfx
  unfold replacePrefixes
  simp only
  rw [regexReplace_lines _ _ (matchStandalone_lines (str% "gdo") _ (by decide) (by decide) hl (toLower_head pfx hd)) _ _ (Nat.le_refl _),
    regexReplace_lines _ _ (matchPrefix_lines (str% "gdo_") _ (by decide) (by decide) hl (toLower_head pfx hd)) _ _ (Nat.le_refl _),
    regexReplace_lines _ _ (matchPrefix_lines (str% "GDO_") _ (by decide) (by decide) hu (toUpper_head pfx hd)) _ _ (Nat.le_refl _)]

example : ¬ BeginsWithDigit (str% "my_lib") := by
  rintro ⟨c, r, h, hc⟩
  simp at h
  rw [← h.1] at hc
  simp [isDigit] at hc

/-! The choice whether the prefixes are replaced. -/

theorem ofNat_ascii {n : Nat} (h : n < 128) : (Char.ofNat n).toNat = n :=
  (by decide : ∀ k : Fin 128, (Char.ofNat k).toNat = k) ⟨n, h⟩

theorem lower_of_upper {c : Char} {u l : Char} (hul : (u, l) ∈ [('G', 'g'), ('D', 'd'), ('O', 'o')])
    (h : (if isAlnum c then toUpperC c else '_') = u) : (if isAlnum c then toLowerC c else '_') = l := by
  by_cases ha : isAlnum c = true
  · rw [if_pos ha] at h ⊢
    unfold toUpperC at h
    by_cases hl : isLower c = true
    · rw [if_pos hl] at h
      have hn : c.toNat - 32 = u.toNat := by
        have h1 := congrArg Char.toNat h
        have h3 := hl
        simp only [isLower, Bool.and_eq_true, decide_eq_true_eq] at h3
        have h2 : c.toNat ≤ 122 := h3.2
        rw [ofNat_ascii (by omega)] at h1
        exact h1
      have hlo : 97 ≤ c.toNat := by
        simp only [isLower, Bool.and_eq_true, decide_eq_true_eq] at hl
        exact hl.1
      have hc : c = Char.ofNat (u.toNat + 32) := by
        rw [← hn, show c.toNat - 32 + 32 = c.toNat by omega, Char.ofNat_toNat]
      rw [hc]
      simp only [List.mem_cons, Prod.mk.injEq, List.not_mem_nil, or_false] at hul
      rcases hul with ⟨rfl, rfl⟩ | ⟨rfl, rfl⟩ | ⟨rfl, rfl⟩ <;> decide
    · rw [if_neg hl] at h
      subst h
      simp only [List.mem_cons, Prod.mk.injEq, List.not_mem_nil, or_false] at hul
      rcases hul with ⟨rfl, rfl⟩ | ⟨rfl, rfl⟩ | ⟨rfl, rfl⟩ <;> decide
  · rw [if_neg ha] at h
    subst h
    simp at hul

theorem toLower_default {pfx : Str} (h : toUpper pfx = str% "GDO") : toLower pfx = str% "gdo" := by
  simp only [toUpper, if_true] at h
  match pfx, h with
  | [a, b, c], h =>
    simp only [List.map_cons, List.map_nil, List.cons.injEq, and_true] at h
    simp only [toLower, if_true, List.map_cons, List.map_nil]
    rw [lower_of_upper (u := 'G') (l := 'g') (by simp) h.1, lower_of_upper (u := 'D') (l := 'd') (by simp) h.2.1,
      lower_of_upper (u := 'O') (l := 'o') (by simp) h.2.2]
  | [], h => simp at h
  | [_], h => simp at h
  | [_, _], h => simp at h
  | _ :: _ :: _ :: _ :: _, h => simp at h

theorem newName_default (w : Str) : newName (str% "GDO") (str% "gdo") w = w := by
  unfold newName
  have key : ∀ p : Str, p.isPrefixOf w = true → p ++ w.drop p.length = w := by
    intro p hp
    obtain ⟨t, rfl⟩ := List.isPrefixOf_iff_prefix.mp hp
    simp
  split
  · rename_i h; exact key _ h
  · split
    · rename_i h; exact key _ h
    · split
      · rename_i h; exact key _ h
      · split
        · rename_i h; exact key _ h
        · split
          · rename_i h; exact h.symm
          · rfl

/-- What is written for a line of a template, whatever the prefix is, the default one
    included: all identifiers renamed, all else unchanged. -/
theorem C29_written_partial (pfx : Str) (hne : pfx ≠ []) (hd : ¬ BeginsWithDigit pfx) (ps : List Piece) (hv : Valid ps)
    (hg : ¬ GdoPair ps) :
    applyPrefix pfx (textOf ps) = textOf (mapWords (newName (toUpper pfx) (toLower pfx)) ps) := by
  unfold applyPrefix
  split
  · rename_i h
    rw [h, toLower_default h]
    have : mapWords (newName (str% "GDO") (str% "gdo")) ps = ps := by
      unfold mapWords
      induction ps with
      | nil => rfl
      | cons p ps _ =>
        apply List.map_id'' 
        intro q
        cases q with
        | word w => simp [newName_default]
        | other c => rfl
    rw [this]
  · exact C29_partial pfx hne hd ps hv hg

/-- With the default prefix, in any case of its letters, the text is unchanged, without any
    condition on it. -/
theorem C29_default (pfx s : Str) (h : toLower pfx = str% "gdo") : applyPrefix pfx s = s := by
  have : toUpper pfx = str% "GDO" := by
    simp only [toLower, if_true] at h
    match pfx, h with
    | [a, b, c], h =>
      simp only [List.map_cons, List.map_nil, List.cons.injEq, and_true] at h
      have key : ∀ (x u l : Char), (u, l) ∈ [('G', 'g'), ('D', 'd'), ('O', 'o')] →
          (if isAlnum x then toLowerC x else '_') = l → (if isAlnum x then toUpperC x else '_') = u := by
        intro x u l hul h
        by_cases ha : isAlnum x = true
        · rw [if_pos ha] at h ⊢
          unfold toLowerC at h
          by_cases hu : isUpper x = true
          · rw [if_pos hu] at h
            simp only [isUpper, Bool.and_eq_true, decide_eq_true_eq] at hu
            have h2 : x.toNat ≤ 90 := hu.2
            have hn : x.toNat + 32 = l.toNat := by
              have h1 := congrArg Char.toNat h
              rw [ofNat_ascii (by omega)] at h1
              exact h1
            have hc : x = Char.ofNat (l.toNat - 32) := by
              rw [← hn, show x.toNat + 32 - 32 = x.toNat by omega, Char.ofNat_toNat]
            rw [hc]
            simp only [List.mem_cons, Prod.mk.injEq, List.not_mem_nil, or_false] at hul
            rcases hul with ⟨rfl, rfl⟩ | ⟨rfl, rfl⟩ | ⟨rfl, rfl⟩ <;> decide
          · rw [if_neg hu] at h
            subst h
            simp only [List.mem_cons, Prod.mk.injEq, List.not_mem_nil, or_false] at hul
            rcases hul with ⟨rfl, rfl⟩ | ⟨rfl, rfl⟩ | ⟨rfl, rfl⟩ <;> decide
        · rw [if_neg ha] at h
          subst h
          simp at hul
      simp only [toUpper, if_true, List.map_cons, List.map_nil]
      rw [key a 'G' 'g' (by simp) h.1, key b 'D' 'd' (by simp) h.2.1, key c 'O' 'o' (by simp) h.2.2]
    | [], h => simp at h
    | [_], h => simp at h
    | [_, _], h => simp at h
    | _ :: _ :: _ :: _ :: _, h => simp at h
  unfold applyPrefix
  rw [if_pos this]

example : toLower (str% "GdO") = str% "gdo" := by decide

/-- The second of two words `gdo` with one character between them keeps its name. -/
theorem C29_violated_pair : applyPrefix (str% "x") (str% "gdo,gdo") = str% "x,gdo" := by decide

/-- A prefix that begins with a digit: the reference `$1` becomes `$12`, the digit
    and the character in front of the identifier are lost, even a newline. -/
theorem C29_violated_digit : applyPrefix (str% "2d") (str% "a;\nGDO_x") = str% "a;D_x" := by decide

/-- An empty prefix: an identifier is renamed twice. -/
theorem C29_violated_empty : applyPrefix [] (str% "GDO_gdo_x") = str% "__x" := by decide

end Gdo.Pfx

namespace Gdo.Common
open Gdo

/-! ### C31 -/

theorem cStrAt_some {s : Str} {pos : Nat} {c : Char} (h : cStrAt s pos = some c) (hc : c ≠ '\x00') : s[pos]? = some c := by
  unfold cStrAt at h
  split at h
  · rename_i h1; rw [h1]; exact h
  · split at h
    · simp at h; exact absurd h.symm hc
    · simp at h

theorem cStrAt_le {s : Str} {pos : Nat} (h : pos ≤ s.length) : ∃ c, cStrAt s pos = some c := by
  unfold cStrAt
  by_cases h1 : pos < s.length
  · rw [List.getElem?_eq_getElem h1]; exact ⟨_, rfl⟩
  · have h2 : pos = s.length := by omega
    rw [List.getElem?_eq_none (by omega)]
    simp [h2]

/-- All symbols in the list have the same characters as the first one up to `pos`. -/
def Same (front : Str) (pos : Nat) (l : List Str) : Prop := ∀ s ∈ l, pos ≤ s.length ∧ s.take pos = front.take pos

theorem compareLoop_spec (front : Str) (pos : Nat) (l : List Str) (hp : pos < front.length) (h : Same front pos l) :
    (compareLoop front pos l = some false ∧ Same front (pos + 1) l) ∨
    (compareLoop front pos l = some true ∧ ((∃ s ∈ l, s[pos]? ≠ front[pos]?) ∨ ∃ s ∈ l, '\x00' ∈ s)) := by
  induction l with
  | nil => left; exact ⟨rfl, by simp [Same]⟩
  | cons s l ih =>
    obtain ⟨h1, h2⟩ := h s (by simp)
    obtain ⟨c, hc⟩ := cStrAt_le h1
    have hf : cStrAt front pos = some front[pos] := by
      unfold cStrAt; rw [List.getElem?_eq_getElem hp]
    rw [compareLoop, hc, hf]
    simp only [Option.bind_eq_bind, Option.bind_some]
    by_cases hcc : c = '\x00' ∨ c ≠ front[pos]
    · rw [if_pos hcc]
      right
      refine ⟨rfl, ?_⟩
      unfold cStrAt at hc
      split at hc
      · rename_i d hd
        simp at hc
        subst hc
        rcases hcc with h3 | h3
        · right
          refine ⟨s, by simp, ?_⟩
          rw [← h3]
          exact List.mem_of_getElem? hd
        · left
          refine ⟨s, by simp, ?_⟩
          rw [hd, List.getElem?_eq_getElem hp]
          simpa using h3
      · rename_i hd
        left
        refine ⟨s, by simp, ?_⟩
        rw [hd, List.getElem?_eq_getElem hp]
        simp
    · rw [if_neg hcc]
      simp only [not_or, Classical.not_not] at hcc
      obtain ⟨hz, hce⟩ := hcc
      have hs : s[pos]? = some c := cStrAt_some hc hz
      have hsl : pos < s.length := by
        rcases Nat.lt_or_ge pos s.length with h | h
        · exact h
        · rw [List.getElem?_eq_none (by omega)] at hs; simp at hs
      have hsame : pos + 1 ≤ s.length ∧ s.take (pos + 1) = front.take (pos + 1) := by
        refine ⟨hsl, ?_⟩
        rw [List.take_add_one, List.take_add_one, h2, hs, hce, List.getElem?_eq_getElem hp]
      rcases ih (fun x hx => h x (by simp [hx])) with ⟨h3, h4⟩ | ⟨h3, h4⟩
      · left
        refine ⟨h3, ?_⟩
        intro x hx
        simp only [List.mem_cons] at hx
        rcases hx with rfl | hx
        · exact hsame
        · exact h4 x hx
      · right
        refine ⟨h3, ?_⟩
        rcases h4 with ⟨x, hx, h5⟩ | ⟨x, hx, h5⟩
        · exact Or.inl ⟨x, by simp [hx], h5⟩
        · exact Or.inr ⟨x, by simp [hx], h5⟩

theorem commonLoop_spec (front : Str) (prot obj : List Str) (i n : Nat) (hn : i + n = front.length)
    (h1 : Same front i prot) (h2 : Same front i obj) :
    ∃ j, commonLoop front prot obj i n = some j ∧ j ≤ front.length ∧ Same front j (prot ++ obj) ∧
      (j = front.length ∨ (∃ s ∈ prot ++ obj, s[j]? ≠ front[j]?) ∨ ∃ s ∈ prot ++ obj, '\x00' ∈ s) := by
  induction n generalizing i with
  | zero =>
    refine ⟨i, rfl, by omega, ?_, Or.inl (by omega)⟩
    intro s hs
    rw [List.mem_append] at hs
    rcases hs with hs | hs
    · exact h1 s hs
    · exact h2 s hs
  | succ n ih =>
    have hsame : Same front i (prot ++ obj) := by
      intro s hs
      rw [List.mem_append] at hs
      rcases hs with hs | hs
      · exact h1 s hs
      · exact h2 s hs
    rw [commonLoop]
    rcases compareLoop_spec front i prot (by omega) h1 with ⟨h3, h4⟩ | ⟨h3, h4⟩
    · rw [h3]
      rcases compareLoop_spec front i obj (by omega) h2 with ⟨h5, h6⟩ | ⟨h5, h6⟩
      · rw [h5]
        exact ih (i + 1) (by omega) h4 h6
      · rw [h5]
        refine ⟨i, rfl, by omega, hsame, ?_⟩
        rcases h6 with ⟨x, hx, h5⟩ | ⟨x, hx, h5⟩
        · exact Or.inr (Or.inl ⟨x, by simp [hx], h5⟩)
        · exact Or.inr (Or.inr ⟨x, by simp [hx], h5⟩)
    · rw [h3]
      refine ⟨i, rfl, by omega, hsame, ?_⟩
      rcases h4 with ⟨x, hx, h5⟩ | ⟨x, hx, h5⟩
      · exact Or.inr (Or.inl ⟨x, by simp [hx], h5⟩)
      · exact Or.inr (Or.inr ⟨x, by simp [hx], h5⟩)

theorem others_eq (prot obj : List Str) (h : 2 ≤ prot.length + obj.length) :
    ∃ f, (prot ++ obj).headD [] = f ∧ prot ++ obj = f :: ((others prot obj).1 ++ (others prot obj).2) := by
  unfold others
  cases prot with
  | cons p r => exact ⟨p, rfl, rfl⟩
  | nil =>
    cases obj with
    | nil => simp at h
    | cons o r => exact ⟨o, rfl, by simp⟩

theorem common_spec (prot obj : List Str) (h : 2 ≤ prot.length + obj.length) :
    ∃ r, getCommonPrefix prot obj = some r ∧ (∀ s ∈ prot ++ obj, r <+: s) ∧
      ((∀ s ∈ prot ++ obj, '\x00' ∉ s) → ∀ q, (∀ s ∈ prot ++ obj, q <+: s) → q <+: r) := by
  obtain ⟨f, h1, h2⟩ := others_eq prot obj h
  unfold getCommonPrefix
  rw [if_neg (by omega)]
  simp only
  rw [h1]
  obtain ⟨j, h3, h4, h5, h6⟩ := commonLoop_spec f (others prot obj).1 (others prot obj).2 0 f.length (by omega)
    (by intro s _; simp) (by intro s _; simp)
  rw [h3, h2]
  refine ⟨f.take j, rfl, ?_, ?_⟩
  · intro s hs
    simp only [List.mem_cons] at hs
    rcases hs with rfl | hs
    · exact List.take_prefix _ _
    · rw [← (h5 s hs).2]; exact List.take_prefix _ _
  · intro hz q hq
    have hqf := hq f (by simp)
    rw [List.prefix_iff_eq_take] at hqf
    have hql : q.length ≤ f.length := by
      have := congrArg List.length hqf
      simp at this
      omega
    have hle : q.length ≤ j := by
      rcases h6 with h6 | ⟨s, hs, h6⟩ | ⟨s, hs, h6⟩
      · omega
      · rcases Nat.lt_or_ge j q.length with hlt | hge
        · exfalso
          have hqs := hq s (by simp [hs])
          obtain ⟨t, ht⟩ := hqs
          obtain ⟨t', ht'⟩ := hq f (by simp)
          apply h6
          rw [← ht, ← ht', List.getElem?_append_left hlt, List.getElem?_append_left hlt]
        · exact hge
      · exact absurd h6 (hz s (by simp [hs]))
    rw [hqf]
    exact List.take_prefix_take_left hle

/-- No symbol is read behind its end, whatever the symbols are. -/
theorem C31_safe (prot obj : List Str) : getCommonPrefix prot obj ≠ none := by
  by_cases h : 2 ≤ prot.length + obj.length
  · obtain ⟨r, h1, _⟩ := common_spec prot obj h
    rw [h1]; simp
  · unfold getCommonPrefix
    rw [if_pos (by omega)]
    simp

/-- The common prefix is a prefix of every symbol. -/
theorem C31_prefix (prot obj : List Str) (r : Str) (h : getCommonPrefix prot obj = some r) : ∀ s ∈ prot ++ obj, r <+: s := by
  by_cases h2 : 2 ≤ prot.length + obj.length
  · obtain ⟨r', h1, h3, _⟩ := common_spec prot obj h2
    rw [h1] at h
    simp at h
    subst h
    exact h3
  · unfold getCommonPrefix at h
    rw [if_pos (by omega)] at h
    simp at h
    subst h
    intro s _
    exact List.nil_prefix

/-- For two or more symbols it is the longest one.  Missing: for a single symbol the
    code gives the empty prefix. -/
theorem C31_longest_partial (prot obj : List Str) (hn : 2 ≤ prot.length + obj.length) (hz : ∀ s ∈ prot ++ obj, '\x00' ∉ s)
    (r : Str) (h : getCommonPrefix prot obj = some r) : ∀ q, (∀ s ∈ prot ++ obj, q <+: s) → q <+: r := by
  obtain ⟨r', h1, _, h3⟩ := common_spec prot obj hn
  rw [h1] at h
  simp at h
  subst h
  exact h3 hz

example : getCommonPrefix [str% "abc_f", str% "abc_g"] [str% "abcd"] = some (str% "abc") := by decide
example : 2 ≤ [str% "abc_f", str% "abc_g"].length + [str% "abcd"].length ∧
    (∀ s ∈ [str% "abc_f", str% "abc_g"] ++ [str% "abcd"], '\x00' ∉ s) := by decide

/-- A single symbol: its longest prefix is the symbol itself, the code gives the
    empty one. -/
theorem C31_violated_single (s : Str) (h : s ≠ []) :
    getCommonPrefix [s] [] = some [] ∧ ∃ q, (∀ x ∈ [s] ++ [], q <+: x) ∧ ¬ q <+: [] :=
  ⟨rfl, s, by simp, by simpa using h⟩

end Gdo.Common
