import Verif.Model.Substitute
import Verif.Spec.Substitute
import Verif.Lemmas.Text

/-!
Lemmas about keyword replacement: a keyword pattern occurs in a well formed entry
only where the keyword is, and replacing it keeps the entry well formed and its
meaning.
-/

namespace Gdo.Tmpl
open Gdo

theorem nameChar_ne {c : Char} (h : isNameChar c = true) : c ≠ '%' := by
  rintro rfl
  simp [isNameChar, isLower] at h

/-- Plain characters. -/
def chs (s : Str) : List Item := s.map .ch

theorem source_append (a b : List Item) : source (a ++ b) = source a ++ source b := by simp [source]

@[simp] theorem source_chs (s : Str) : source (chs s) = s := by
  induction s with
  | nil => rfl
  | cons c s ih => simp only [chs, source, List.map_cons, List.flatMap_cons] at ih ⊢; rw [ih]; rfl

theorem source_cons (p : Item) (r : List Item) : source (p :: r) = p.source ++ source r := rfl

/-- Names that are followed by a percent sign are equal if the texts are. -/
theorem name_unique {k k' r r' : Str} (h : ∀ c ∈ k, c ≠ '%') (h' : ∀ c ∈ k', c ≠ '%')
    (he : k ++ '%' :: r = k' ++ '%' :: r') : k = k' ∧ r = r' := by
  induction k generalizing k' with
  | nil =>
    cases k' with
    | nil => simpa using he
    | cons c k' =>
      simp only [List.nil_append, List.cons_append, List.cons.injEq] at he
      exact absurd he.1.symm (h' c (by simp))
  | cons c k ih =>
    cases k' with
    | nil =>
      simp only [List.nil_append, List.cons_append, List.cons.injEq] at he
      exact absurd he.1 (h c (by simp))
    | cons d k' =>
      simp only [List.cons_append, List.cons.injEq] at he
      obtain ⟨rfl, he⟩ := he
      obtain ⟨h1, h2⟩ := ih (fun x hx => h x (by simp [hx])) (fun x hx => h' x (by simp [hx])) he
      exact ⟨by rw [h1], h2⟩

/-- A separated entry does not begin with a name followed by a percent sign. -/
theorem separated_no_name {r : List Item} (hs : Separated r) (hw : WellFormed r) {k b : Str}
    (hk : ∀ c ∈ k, isNameChar c = true) (h : source r = k ++ '%' :: b) : False := by
  induction r generalizing k with
  | nil => simp [source] at h
  | cons p r ih =>
    cases p with
    | kw k' => exact hs
    | ch c =>
      rw [source_cons] at h
      simp only [Item.source, List.singleton_append] at h
      cases k with
      | nil =>
        simp only [List.nil_append, List.cons.injEq] at h
        exact hw.1 h.1
      | cons d k =>
        simp only [List.cons_append, List.cons.injEq] at h
        obtain ⟨rfl, h⟩ := h
        rcases hs with hs | hs
        · rw [hk c (by simp)] at hs; simp at hs
        · exact ih hs hw.2 (fun x hx => hk x (by simp [hx])) h

/-- A keyword pattern occurs only where the keyword is. -/
theorem occurrence {ps : List Item} (hw : WellFormed ps) {k : Str} (hne : k ≠ []) (hk : ∀ c ∈ k, isNameChar c = true)
    {a b : Str} (h : source ps = a ++ (str% "%%" ++ k ++ str% "%%") ++ b) :
    ∃ qs rs, ps = qs ++ .kw k :: rs ∧ source qs = a ∧ source rs = b := by
  induction ps generalizing a with
  | nil => simp [source] at h
  | cons p ps ih =>
    obtain ⟨k0, ks, rfl⟩ := List.exists_cons_of_ne_nil hne
    have hk0 : k0 ≠ '%' := nameChar_ne (hk k0 (by simp))
    have hkp : ∀ c ∈ k0 :: ks, c ≠ '%' := fun c hc => nameChar_ne (hk c hc)
    cases p with
    | ch c =>
      rw [source_cons] at h
      simp only [Item.source, List.singleton_append] at h
      cases a with
      | nil =>
        simp only [List.nil_append, List.cons_append, List.cons.injEq] at h
        exact absurd h.1 hw.1
      | cons x a =>
        simp only [List.cons_append, List.cons.injEq] at h
        obtain ⟨rfl, h⟩ := h
        obtain ⟨qs, rs, h1, h2, h3⟩ := ih hw.2 (a := a) (by simpa using h)
        exact ⟨.ch c :: qs, rs, by simp [h1], by rw [source_cons, h2]; rfl, h3⟩
    | kw k' =>
      obtain ⟨hne', hk', hsep, hw'⟩ := hw
      obtain ⟨k0', ks', rfl⟩ := List.exists_cons_of_ne_nil hne'
      have hk0' : k0' ≠ '%' := nameChar_ne (hk' k0' (by simp))
      have hkp' : ∀ c ∈ k0' :: ks', c ≠ '%' := fun c hc => nameChar_ne (hk' c hc)
      rw [source_cons] at h
      have h : '%' :: '%' :: ((k0' :: ks') ++ '%' :: '%' :: source ps) =
          a ++ '%' :: '%' :: ((k0 :: ks) ++ '%' :: '%' :: b) := by
        simpa [Item.source] using h
      match a, h with
      | [], h =>
        simp only [List.nil_append, List.cons.injEq, true_and] at h
        obtain ⟨h1, h2⟩ := name_unique hkp' hkp h
        simp only [List.cons.injEq, true_and] at h2
        exact ⟨[], ps, by rw [← h1]; rfl, rfl, h2⟩
      | [x], h =>
        simp only [List.cons_append, List.nil_append, List.cons.injEq, true_and] at h
        exact absurd h.2.1 hk0'
      | x :: y :: a', h =>
        simp only [List.cons_append, List.cons.injEq] at h
        obtain ⟨rfl, rfl, h⟩ := h
        -- the name of this keyword ends before the occurrence
        have h : (k0' :: ks') ++ '%' :: '%' :: source ps = a' ++ '%' :: '%' :: ((k0 :: ks) ++ '%' :: '%' :: b) := by
          simpa using h
        rw [List.append_eq_append_iff] at h
        rcases h with ⟨w, h1, h2⟩ | ⟨w, h1, h2⟩
        · match w, h2 with
          | [], h2 =>
            simp only [List.nil_append, List.cons.injEq, true_and] at h2
            exact (separated_no_name hsep hw' (k := k0 :: ks) hk h2).elim
          | [z], h2 =>
            simp only [List.cons_append, List.nil_append, List.cons.injEq] at h2
            obtain ⟨_, _, h2⟩ := h2
            cases ps with
            | nil => simp [source] at h2
            | cons q ps =>
              cases q with
              | ch c =>
                rw [source_cons] at h2
                simp [Item.source] at h2
                exact absurd h2.1 hw'.1
              | kw k2 => exact hsep.elim
          | z :: z' :: w, h2 =>
            simp only [List.cons_append, List.cons.injEq] at h2
            obtain ⟨rfl, rfl, h2⟩ := h2
            obtain ⟨qs, rs, h3, h4, h5⟩ := ih hw' (a := w) (by simpa using h2)
            refine ⟨.kw (k0' :: ks') :: qs, rs, by simp [h3], ?_, h5⟩
            rw [source_cons, h4, h1]
            simp [Item.source]
        · cases w with
          | nil =>
            simp only [List.nil_append, List.cons.injEq, true_and] at h2
            exact (separated_no_name hsep hw' (k := k0 :: ks) hk h2.symm).elim
          | cons z w =>
            simp only [List.cons_append, List.cons.injEq] at h2
            have : '%' ∈ k0' :: ks' := by rw [h1, ← h2.1]; simp
            exact absurd rfl (hkp' '%' this)

/-- The entry contains the keyword. -/
theorem found_iff {ps : List Item} (hw : WellFormed ps) {k : Str} (hne : k ≠ []) (hk : ∀ c ∈ k, isNameChar c = true) :
    Sub.found (str% "%%" ++ k ++ str% "%%") (source ps) = true ↔ .kw k ∈ ps := by
  unfold Sub.found
  cases h : splitFirst (str% "%%" ++ k ++ str% "%%") (source ps) with
  | none =>
    simp only [Option.isSome_none, Bool.false_eq_true, false_iff]
    intro hm
    obtain ⟨a, b, rfl⟩ := List.append_of_mem hm
    apply splitFirst_none.mp h
    exact ⟨source a, source b, by simp [source_append, source_cons, Item.source]⟩
  | some r =>
    obtain ⟨a, b⟩ := r
    obtain ⟨h1, _⟩ := splitFirst_some h
    obtain ⟨qs, rs, h2, _⟩ := occurrence hw hne hk h1
    simp [h2]

/-! ### One replacement step -/

theorem wellFormed_chs {v : Str} (hv : '%' ∉ v) {r : List Item} (h : WellFormed r) : WellFormed (chs v ++ r) := by
  induction v with
  | nil => exact h
  | cons c v ih =>
    exact ⟨by rintro rfl; simp at hv, ih (fun hx => hv (by simp [hx]))⟩

theorem wellFormed_drop {s : Str} {r : List Item} (h : WellFormed (chs s ++ r)) : WellFormed r := by
  induction s with
  | nil => exact h
  | cons c s ih => exact ih h.2

theorem separated_step {qs : List Item} {k : Str} {x y : List Item} (h : Separated (qs ++ .kw k :: x)) : Separated (qs ++ y) := by
  induction qs with
  | nil => exact h.elim
  | cons q qs ih =>
    cases q with
    | kw k => exact h.elim
    | ch c =>
      rcases h with h | h
      · exact Or.inl h
      · exact Or.inr (ih h)

theorem wellFormed_step {qs : List Item} {k : Str} {t v : Str} {rs : List Item} (hv : '%' ∉ v)
    (h : WellFormed (qs ++ .kw k :: (chs t ++ rs))) : WellFormed (qs ++ (chs v ++ rs)) := by
  induction qs with
  | nil => exact wellFormed_chs hv (wellFormed_drop h.2.2.2)
  | cons q qs ih =>
    cases q with
    | ch c => exact ⟨h.1, ih h.2⟩
    | kw k' => exact ⟨h.1, h.2.1, separated_step h.2.2.1, ih h.2.2.2⟩

/-- In a well formed entry a keyword is not directly followed by another one. -/
theorem wellFormed_not_adjacent {qs : List Item} {a b : Str} {rs : List Item} (h : WellFormed (qs ++ .kw a :: .kw b :: rs)) : False := by
  induction qs with
  | nil => exact h.2.2.1
  | cons q qs ih =>
    cases q with
    | ch c => exact ih h.2
    | kw k => exact ih h.2.2.2

theorem replaceAll_chs (val : Values) (v : Str) (r : List Item) : replaceAll val false (chs v ++ r) = v ++ replaceAll val false r := by
  induction v with
  | nil => rfl
  | cons c v ih =>
    simp only [chs, List.map_cons, List.cons_append] at ih ⊢
    rw [replaceAll, ih]
    simp

/-- The step keeps what the entry stands for. -/
theorem replaceAll_step (val : Values) {qs : List Item} {k t v : Str} {rs : List Item} {e : Bool}
    (hval : val k = some (v, e))
    (hrest : replaceAll val e (chs t ++ rs) = replaceAll val false rs)
    (hw : WellFormed (qs ++ .kw k :: (chs t ++ rs))) (eat : Bool) (hq : qs = [] → eat = false) :
    replaceAll val eat (qs ++ .kw k :: (chs t ++ rs)) = replaceAll val eat (qs ++ (chs v ++ rs)) := by
  induction qs generalizing eat with
  | nil =>
    rw [hq rfl]
    simp only [List.nil_append]
    rw [replaceAll, hval]
    simp only
    rw [hrest, replaceAll_chs]
  | cons q qs ih =>
    cases q with
    | ch c =>
      simp only [List.cons_append]
      rw [replaceAll, replaceAll, ih hw.2 false (fun _ => rfl)]
    | kw k' =>
      simp only [List.cons_append]
      have hqs : qs ≠ [] := by
        rintro rfl
        exact hw.2.2.1
      rw [replaceAll, replaceAll]
      cases hv : val k' with
      | none =>
        simp only
        rw [ih hw.2.2.2 false (fun _ => rfl)]
      | some x =>
        obtain ⟨x, e'⟩ := x
        simp only
        rw [ih hw.2.2.2 e' (fun h => absurd h hqs)]

/-- Number of keywords `k`. -/
def countKw (k : Str) (ps : List Item) : Nat := ps.count (.kw k)

theorem countKw_chs (k v : Str) : countKw k (chs v) = 0 := by
  unfold countKw chs
  rw [List.count_eq_zero]
  simp

/-- `k` is followed by the text `t` somewhere. -/
def Followed (k t : Str) (ps : List Item) : Prop := ∃ qs rs, ps = qs ++ .kw k :: (chs t ++ rs)

/-- An occurrence of the pattern together with the blank. -/
theorem occurrence_text {ps : List Item} (hw : WellFormed ps) {k : Str} (hne : k ≠ []) (hk : ∀ c ∈ k, isNameChar c = true)
    {t : Str} (ht : t = [] ∨ t = str% " ") {a b : Str} (h : source ps = a ++ (str% "%%" ++ k ++ str% "%%" ++ t) ++ b) :
    ∃ qs rs, ps = qs ++ .kw k :: (chs t ++ rs) ∧ source qs = a ∧ source rs = b := by
  obtain ⟨qs, rs, h1, h2, h3⟩ := occurrence hw hne hk (a := a) (b := t ++ b) (by simpa using h)
  rcases ht with rfl | rfl
  · exact ⟨qs, rs, h1, h2, by simpa using h3⟩
  · cases rs with
    | nil => simp [source] at h3
    | cons r rs =>
      cases r with
      | kw k' => rw [source_cons] at h3; simp [Item.source] at h3
      | ch c =>
        rw [source_cons] at h3
        simp [Item.source] at h3
        obtain ⟨rfl, h3⟩ := h3
        exact ⟨qs, rs, h1, h2, h3⟩

/-- A replacement pass over a well formed entry: it ends, and it leaves a well formed
    entry with the same meaning in which the pattern does not occur any more. -/
theorem pass_spec (val : Values) (k t v : Str) (e : Bool) (hne : k ≠ []) (hk : ∀ c ∈ k, isNameChar c = true)
    (ht : t = [] ∨ t = str% " ") (hv : '%' ∉ v) (hval : val k = some (v, e)) (P : List Item → Prop)
    (hP : ∀ qs rs, P (qs ++ .kw k :: (chs t ++ rs)) → WellFormed (qs ++ .kw k :: (chs t ++ rs)) → P (qs ++ (chs v ++ rs)))
    (hrest : ∀ qs rs, P (qs ++ .kw k :: (chs t ++ rs)) → replaceAll val e (chs t ++ rs) = replaceAll val false rs)
    (ps : List Item) (hw : WellFormed ps) (hp : P ps) (n : Nat) (hn : countKw k ps < n) :
    ∃ ps', replaceFuel (str% "%%" ++ k ++ str% "%%" ++ t) v n (source ps) = some (source ps') ∧ WellFormed ps' ∧ P ps' ∧
      replaceAll val false ps' = replaceAll val false ps ∧ ¬ Followed k t ps' ∧
      (∀ k', countKw k' ps' ≤ countKw k' ps) := by
  induction n generalizing ps with
  | zero => omega
  | succ n ih =>
    rw [replaceFuel]
    unfold replaceStep
    cases hs : splitFirst (str% "%%" ++ k ++ str% "%%" ++ t) (source ps) with
    | none =>
      refine ⟨ps, rfl, hw, hp, rfl, ?_, fun _ => Nat.le_refl _⟩
      rintro ⟨qs, rs, rfl⟩
      apply splitFirst_none.mp hs
      refine ⟨source qs, source rs, ?_⟩
      simp [source_append, source_cons, Item.source]
    | some r =>
      obtain ⟨a, b⟩ := r
      obtain ⟨h1, _⟩ := splitFirst_some hs
      obtain ⟨qs, rs, rfl, rfl, rfl⟩ := occurrence_text hw hne hk ht h1
      have hw' := wellFormed_step hv hw
      have hcount : ∀ k', countKw k' (qs ++ (chs v ++ rs)) ≤ countKw k' (qs ++ .kw k :: (chs t ++ rs)) := by
        intro k'
        have e1 := countKw_chs k' v
        unfold countKw at *
        simp only [List.count_append, List.count_cons]
        omega
      have hless : countKw k (qs ++ (chs v ++ rs)) < countKw k (qs ++ .kw k :: (chs t ++ rs)) := by
        have e1 := countKw_chs k v
        unfold countKw at *
        simp only [List.count_append, List.count_cons, beq_self_eq_true, if_true]
        omega
      obtain ⟨ps', g1, g2, g3, g4, g5, g6⟩ := ih _ hw' (hP _ _ hp hw) (by omega)
      refine ⟨ps', ?_, g2, g3, ?_, g5, fun k' => Nat.le_trans (g6 k') (hcount k')⟩
      · have : source qs ++ v ++ source rs = source (qs ++ (chs v ++ rs)) := by simp [source_append]
        simp only [Option.map_some]
        rw [this]
        exact g1
      · rw [g4, replaceAll_step val hval (hrest _ _ hp) hw false (fun _ => rfl)]

/-- The pass that replaces the keyword and a blank behind it. -/
theorem pass_blank (val : Values) (k v : Str) (hne : k ≠ []) (hk : ∀ c ∈ k, isNameChar c = true)
    (hv : '%' ∉ v) (hval : val k = some (v, true)) (ps : List Item) (hw : WellFormed ps) (n : Nat) (hn : countKw k ps < n) :
    ∃ ps', replaceFuel (str% "%%" ++ k ++ str% "%% ") v n (source ps) = some (source ps') ∧ WellFormed ps' ∧
      replaceAll val false ps' = replaceAll val false ps ∧ ¬ Followed k (str% " ") ps' ∧
      (∀ k', countKw k' ps' ≤ countKw k' ps) := by
  obtain ⟨ps', h1, h2, _, h3, h4, h5⟩ := pass_spec val k (str% " ") v true hne hk (Or.inr rfl) hv hval (fun _ => True)
    (fun _ _ _ _ => trivial) (fun qs rs _ => by simp [chs, replaceAll]) ps hw trivial n hn
  exact ⟨ps', by simpa using h1, h2, h3, h4, h5⟩

/-- The pass that replaces the keyword, if no blank behind it has to be left out. -/
theorem pass_plain (val : Values) (k v : Str) (e : Bool) (hne : k ≠ []) (hk : ∀ c ∈ k, isNameChar c = true)
    (hv : '%' ∉ v) (hval : val k = some (v, e)) (ps : List Item) (hw : WellFormed ps)
    (hf : e = true → ¬ Followed k (str% " ") ps) (n : Nat) (hn : countKw k ps < n) :
    ∃ ps', replaceFuel (str% "%%" ++ k ++ str% "%%") v n (source ps) = some (source ps') ∧ WellFormed ps' ∧
      replaceAll val false ps' = replaceAll val false ps ∧ .kw k ∉ ps' ∧
      (∀ k', countKw k' ps' ≤ countKw k' ps) := by
  obtain ⟨ps', h1, h2, _, h3, h4, h5⟩ := pass_spec val k [] v e hne hk (Or.inl rfl) hv hval
    (fun x => e = true → ¬ Followed k (str% " ") x) (by
      rintro qs rs hp hw he ⟨qs', rs', h⟩
      -- where the keyword before a blank would be
      have hp := hp he
      simp only [chs, List.map_nil, List.nil_append] at hp hw h
      rw [List.append_eq_append_iff] at h
      rcases h with ⟨w, g1, g2⟩ | ⟨w, g1, g2⟩
      · -- behind `qs`
        rw [List.append_eq_append_iff] at g2
        rcases g2 with ⟨w2, g3, g4⟩ | ⟨w2, g3, g4⟩
        · exact hp ⟨qs ++ .kw k :: w2, rs', by simp [g4, chs]⟩
        · cases w2 with
          | nil =>
            simp at g4
            exact hp ⟨qs ++ [.kw k], rs', by simp [← g4, chs]⟩
          | cons z w2 =>
            simp only [List.cons_append, List.cons.injEq] at g4
            have : Item.kw k ∈ v.map Item.ch := by rw [g3, ← g4.1]; simp
            simp at this
      · -- inside of `qs`
        cases w with
        | nil =>
          simp at g2
          cases v with
          | nil =>
            simp at g2
            exact hp ⟨qs ++ [.kw k], rs', by simp [← g2, chs]⟩
          | cons c v => simp at g2
        | cons z w =>
          simp only [List.cons_append, List.cons.injEq] at g2
          obtain ⟨rfl, g2⟩ := g2
          cases w with
          | nil =>
            rw [g1] at hw
            exact wellFormed_not_adjacent (qs := qs') (a := k) (b := k) (rs := rs) (by simpa using hw)
          | cons y w =>
            simp only [List.map_cons, List.map_nil, List.nil_append, List.cons_append, List.cons.injEq] at g2
            obtain ⟨rfl, g2⟩ := g2
            exact hp ⟨qs', w ++ .kw k :: rs, by simp [g1, chs]⟩) (by
      intro qs rs hp
      simp only [chs, List.map_nil, List.nil_append] at hp ⊢
      cases e with
      | false => rfl
      | true =>
        have hp := hp rfl
        cases rs with
        | nil => rfl
        | cons r rs =>
          cases r with
          | kw k' => rw [replaceAll, replaceAll]
          | ch c =>
            rw [replaceAll, replaceAll]
            have : c ≠ ' ' := by
              rintro rfl
              exact hp ⟨qs, rs, by simp [chs]⟩
            simp [this]) ps hw hf n hn
  refine ⟨ps', by simpa using h1, h2, h3, ?_, h5⟩
  intro hm
  obtain ⟨a, b, h⟩ := List.append_of_mem hm
  exact h4 ⟨a, b, by simp [h, chs]⟩

/-- An entry without keywords that have a value stands for itself. -/
theorem replaceAll_none (val : Values) (ps : List Item) (h : ∀ k, .kw k ∈ ps → val k = none) :
    replaceAll val false ps = source ps := by
  induction ps with
  | nil => rfl
  | cons p ps ih =>
    have ih := ih (fun k hk => h k (by simp [hk]))
    cases p with
    | ch c => rw [replaceAll, ih]; simp [source_cons, Item.source]
    | kw k => rw [replaceAll, h k (by simp), ih]; simp [source_cons]

end Gdo.Tmpl
