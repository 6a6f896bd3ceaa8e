import Verif.Model.Tokenize
import Verif.Spec.Paren

/-!
Lemmas about the removal of superfluous parentheses.
-/

namespace Gdo
open Spec

theorem eraseRparen_length (i o : Int) (l l' : List PEntry) (h : eraseRparen i o l = some l') :
    l'.length + 1 = l.length := by
  induction l generalizing l' with
  | nil => simp [eraseRparen] at h
  | cons c l ih =>
    cases l with
    | nil => simp [eraseRparen] at h
    | cons d r =>
      unfold eraseRparen at h
      split at h
      · simp at h; subst h; simp
      · simp only [Option.map_eq_some_iff] at h
        obtain ⟨x, hx, rfl⟩ := h
        have := ih x hx
        simp at this ⊢
        omega

/-- The number of iterations does not matter once it is large enough. -/
theorem removeMatching_fuel (n : Nat) (l : List PEntry) (h : l.length ≤ n) :
    removeMatching n l = removeMatching l.length l := by
  induction n using Nat.strongRecOn generalizing l with
  | ind n ih =>
  match n, l with
  | 0, l => simp at h; subst h; rfl
  | n + 1, [] => simp [removeMatching]
  | n + 1, [a] => simp [removeMatching]
  | n + 1, a :: b :: r =>
    simp only [List.length_cons, Nat.add_le_add_iff_right] at h
    have e1 : removeMatching n (b :: r) = removeMatching (r.length + 1) (b :: r) :=
      ih n (by omega) _ (by simpa using h)
    show removeMatching (n + 1) (a :: b :: r) = removeMatching (r.length + 1 + 1) (a :: b :: r)
    simp only [removeMatching]
    split
    · cases he : eraseRparen b.num a.num r with
      | none => simp [e1]
      | some r' =>
        have hl := eraseRparen_length _ _ _ _ he
        simp only
        rw [ih n (by omega) (a :: r') (by simp; omega)]
        by_cases hn : r.length + 1 = n
        · rw [hn]; exact (ih n (by omega) _ (by simp; omega)).symm
        · exact (ih (r.length + 1) (by omega) (a :: r') (by simp; omega)).symm
    · simp [e1]

/-- `remove_matching_parentheses` with enough iterations. -/
def removeAll (l : List PEntry) : List PEntry := removeMatching l.length l

theorem removeAll_nil : removeAll [] = [] := rfl
theorem removeAll_one (a : PEntry) : removeAll [a] = [a] := rfl

theorem removeAll_erase (a b : PEntry) (r r' : List PEntry) (ha : a.ch = '(') (hb : b.ch = '(')
    (he : eraseRparen b.num a.num r = some r') : removeAll (a :: b :: r) = removeAll (a :: r') := by
  have hl := eraseRparen_length _ _ _ _ he
  unfold removeAll
  simp only [List.length_cons, removeMatching, ha, hb, he, and_self, if_true]
  exact removeMatching_fuel _ _ (by simp; omega)

theorem removeAll_keep (a b : PEntry) (r : List PEntry)
    (h : ¬ (a.ch = '(' ∧ b.ch = '(') ∨ eraseRparen b.num a.num r = none) :
    removeAll (a :: b :: r) = a :: removeAll (b :: r) := by
  unfold removeAll
  simp only [List.length_cons, removeMatching]
  rcases h with h | h
  · rw [if_neg h]
  · split
    · rw [h]
    · rfl

theorem removeAll_skip (a : PEntry) (l : List PEntry) (h : a.ch ≠ '(') :
    removeAll (a :: l) = a :: removeAll l := by
  cases l with
  | nil => rfl
  | cons b r => exact removeAll_keep a b r (Or.inl (fun h' => h h'.1))

/-- Strong induction over the list length for `removeAll`. -/
theorem removeAll_induct {P : List PEntry → List PEntry → Prop}
    (nil : P [] [])
    (one : ∀ a, P [a] [a])
    (erase : ∀ a b r r', a.ch = '(' → b.ch = '(' → eraseRparen b.num a.num r = some r' →
      P (a :: r') (removeAll (a :: r')) → P (a :: b :: r) (removeAll (a :: r')))
    (keep : ∀ a b r, P (b :: r) (removeAll (b :: r)) → P (a :: b :: r) (a :: removeAll (b :: r)))
    (l : List PEntry) : P l (removeAll l) := by
  induction hn : l.length using Nat.strongRecOn generalizing l with
  | ind n ih =>
  subst hn
  match l with
  | [] => exact nil
  | [a] => exact one a
  | a :: b :: r =>
    by_cases h : a.ch = '(' ∧ b.ch = '('
    · cases he : eraseRparen b.num a.num r with
      | none =>
        rw [removeAll_keep a b r (Or.inr he)]
        exact keep a b r (ih _ (by simp) (b :: r) rfl)
      | some r' =>
        rw [removeAll_erase a b r r' h.1 h.2 he]
        have hl := eraseRparen_length _ _ _ _ he
        exact erase a b r r' h.1 h.2 he (ih _ (by simp; omega) (a :: r') rfl)
    · rw [removeAll_keep a b r (Or.inl h)]
      exact keep a b r (ih _ (by simp) (b :: r) rfl)

theorem eraseRparen_split (i o : Int) (l l' : List PEntry) (h : eraseRparen i o l = some l') :
    ∃ p c q, l = p ++ c :: q ∧ l' = p ++ q ∧ c.ch = ')' := by
  induction l generalizing l' with
  | nil => simp [eraseRparen] at h
  | cons c l ih =>
    cases l with
    | nil => simp [eraseRparen] at h
    | cons d r =>
      unfold eraseRparen at h
      split at h
      · rename_i hc
        simp at h; subst h
        exact ⟨[], c, d :: r, rfl, rfl, hc.1⟩
      · simp only [Option.map_eq_some_iff] at h
        obtain ⟨x, hx, rfl⟩ := h
        obtain ⟨p, e, q, h1, h2, h3⟩ := ih x hx
        exact ⟨c :: p, e, q, by simp [h1], by simp [h2], h3⟩

theorem removeAll_sublist (l : List PEntry) : (removeAll l).Sublist l := by
  refine removeAll_induct (P := fun l r => r.Sublist l) (List.Sublist.refl _)
    (fun _ => List.Sublist.refl _) ?_ ?_ l
  · intro a b r r' _ _ he ih
    obtain ⟨p, c, q, h1, h2, _⟩ := eraseRparen_split _ _ _ _ he
    refine ih.trans ?_
    subst h1; subst h2
    refine List.Sublist.cons_cons _ (List.Sublist.cons _ ?_)
    exact List.Sublist.append (List.Sublist.refl _) (List.Sublist.cons _ (List.Sublist.refl _))
  · intro a b r ih
    exact List.Sublist.cons_cons _ ih

/-- Each erased opening parenthesis has an erased closing one, nothing else is erased. -/
theorem removeAll_counts (l : List PEntry) :
    (removeAll l).filter (fun e => e.ch ≠ '(' ∧ e.ch ≠ ')') = l.filter (fun e => e.ch ≠ '(' ∧ e.ch ≠ ')')
    ∧ ∃ k, (removeAll l).countP (fun e => e.ch = '(') + k = l.countP (fun e => e.ch = '(')
      ∧ (removeAll l).countP (fun e => e.ch = ')') + k = l.countP (fun e => e.ch = ')') := by
  refine removeAll_induct (P := fun l r =>
    r.filter (fun e => e.ch ≠ '(' ∧ e.ch ≠ ')') = l.filter (fun e => e.ch ≠ '(' ∧ e.ch ≠ ')')
    ∧ ∃ k, r.countP (fun e => e.ch = '(') + k = l.countP (fun e => e.ch = '(')
      ∧ r.countP (fun e => e.ch = ')') + k = l.countP (fun e => e.ch = ')'))
    ⟨rfl, 0, rfl, rfl⟩ (fun _ => ⟨rfl, 0, rfl, rfl⟩) ?_ ?_ l
  · intro a b r r' ha hb he ih
    obtain ⟨p, c, q, h1, h2, h3⟩ := eraseRparen_split _ _ _ _ he
    obtain ⟨i1, k, i2, i3⟩ := ih
    subst h1; subst h2
    refine ⟨?_, k + 1, ?_, ?_⟩
    · rw [i1]
      simp [List.filter_cons, ha, hb, h3]
    · simp [List.countP_cons, List.countP_append, ha, hb, h3] at i2 ⊢
      omega
    · simp [List.countP_cons, List.countP_append, ha, hb, h3] at i3 ⊢
      omega
  · intro a b r ih
    obtain ⟨i1, k, i2, i3⟩ := ih
    refine ⟨?_, k, ?_, ?_⟩
    · rw [List.filter_cons, List.filter_cons, i1]
    · rw [List.countP_cons, List.countP_cons, ← i2]; omega
    · rw [List.countP_cons, List.countP_cons, ← i3]; omega

theorem toEntries_map_str (n : Int) (v : Toks) : (toEntries n v).map (·.str) = v := by
  induction v generalizing n with
  | nil => rfl
  | cons e v ih =>
    unfold toEntries
    split
    · simp [ih]
    · split <;> simp [ih]

theorem toEntries_ch (n : Int) (v : Toks) : ∀ e ∈ toEntries n v,
    (e.ch = '(' ↔ e.str.head? = some '(') ∧ (e.ch = ')' ↔ e.str.head? = some ')') := by
  induction v generalizing n with
  | nil => simp [toEntries]
  | cons e v ih =>
    have hfront : ∀ c : Char, c ≠ '\x00' → (strFront e = c ↔ e.head? = some c) := by
      intro c hc
      cases e with
      | nil => simp [strFront]; exact fun h => hc h.symm
      | cons x xs => simp [strFront]
    have h1 := hfront '(' (by decide)
    have h2 := hfront ')' (by decide)
    unfold toEntries
    split
    · rename_i h
      have := h1.mp h
      simp only [List.mem_cons, forall_eq_or_imp]
      exact ⟨⟨by simp [this], by simp [this]⟩, ih _⟩
    · rename_i ha
      split
      · rename_i h
        have := h2.mp h
        simp only [List.mem_cons, forall_eq_or_imp]
        exact ⟨⟨by simp [this], by simp [this]⟩, ih _⟩
      · rename_i hb
        simp only [List.mem_cons, forall_eq_or_imp]
        refine ⟨⟨?_, ?_⟩, ih _⟩
        · constructor
          · intro h; exact absurd h (by decide)
          · intro h; exact absurd (h1.mpr h) ha
        · constructor
          · intro h; exact absurd h (by decide)
          · intro h; exact absurd (h2.mpr h) hb

theorem removeAll_short (l : List PEntry) (h : l.length < 4) : removeAll l = l := by
  match l with
  | [] => rfl
  | [a] => rfl
  | [a, b] => rw [removeAll_keep a b [] (Or.inr rfl)]; rfl
  | [a, b, c] => rw [removeAll_keep a b [c] (Or.inr rfl), removeAll_keep b c [] (Or.inr rfl)]; rfl
  | _ :: _ :: _ :: _ :: _ => simp at h; omega

theorem removeAll_noOpen (l : List PEntry) (h : ∀ e ∈ l, e.ch ≠ '(') : removeAll l = l := by
  induction l with
  | nil => rfl
  | cons a l ih =>
    rw [removeAll_skip a l (h a (by simp)), ih (fun e he => h e (by simp [he]))]

/-- `remove_superfluous_parentheses` without its shortcuts, if parenthesis tokens are
    single characters. -/
theorem removeSuperfluous_eq (v : Toks) (h : ∀ t ∈ v, t.head? = some '(' → t = ['(']) :
    removeSuperfluous v = (removeAll (toEntries 0 v)).map (·.str) := by
  have hlen : (toEntries 0 v).length = v.length := by
    have := congrArg List.length (toEntries_map_str 0 v)
    simpa using this
  unfold removeSuperfluous
  split
  · rw [removeAll_short _ (by omega), toEntries_map_str]
  · split
    · rename_i hc
      rw [removeAll_noOpen, toEntries_map_str]
      intro e he hch
      have h1 := ((toEntries_ch 0 v e he).1).mp hch
      have hmem : e.str ∈ v := by
        rw [← toEntries_map_str 0 v]; exact List.mem_map_of_mem he
      have := h _ hmem h1
      simp at hc
      exact hc (this ▸ hmem)
    · unfold removeAll
      rw [hlen]

/-! ### Trees -/

/-- The entries of a tree with parentheses numbered by depth. -/
def ents (d : Int) : Forest → List PEntry
  | .nil => []
  | .tok t r => ⟨t, '\x00', 0⟩ :: ents d r
  | .grp i r => ⟨['('], '(', d + 1⟩ :: (ents (d + 1) i ++ ⟨[')'], ')', d + 1⟩ :: ents d r)

theorem toEntries_print (d : Int) (f : Forest) (hv : f.Valid) (tail : Toks) :
    toEntries d (f.print ++ tail) = ents d f ++ toEntries d tail := by
  induction f generalizing d tail with
  | nil => rfl
  | tok t r ih =>
    obtain ⟨h, hr⟩ := hv
    have h1 : strFront t ≠ '(' := by
      intro h'; apply h.1; cases t <;> simp_all [strFront]
    have h2 : strFront t ≠ ')' := by
      intro h'; apply h.2; cases t <;> simp_all [strFront]
    simp [Forest.print, toEntries, h1, h2, ents, ih d hr]
  | grp i r ihi ihr =>
    obtain ⟨h1, h2⟩ := hv
    simp only [Forest.print, List.cons_append, List.append_assoc, ents]
    simp only [toEntries, strFront, if_true]
    rw [ihi (d + 1) h1]
    simp only [toEntries, strFront]
    rw [if_neg (by decide)]
    simp [ihr d h2]

theorem ents_num (d : Int) (f : Forest) : ∀ e ∈ ents d f, e.ch = ')' → d < e.num := by
  induction f generalizing d with
  | nil => simp [ents]
  | tok t r ih =>
    intro e he hc
    simp [ents] at he
    rcases he with rfl | he
    · simp at hc
    · exact ih d e he hc
  | grp i r ihi ihr =>
    intro e he hc
    simp [ents] at he
    rcases he with rfl | he | rfl | he
    · simp at hc
    · have := ihi (d + 1) e he hc; omega
    · simp; omega
    · exact ihr d e he hc

theorem eraseRparen_find (i o : Int) (p : List PEntry) (c d : PEntry) (q : List PEntry)
    (hp : ∀ e ∈ p, e.ch = ')' → i ≠ e.num) (hc : c.ch = ')') (hd : d.ch = ')')
    (hci : c.num = i) (hdo : d.num = o) :
    eraseRparen i o (p ++ c :: d :: q) = some (p ++ d :: q) := by
  induction p with
  | nil => simp [eraseRparen, hc, hd, hci, hdo]
  | cons x p ih =>
    have ih := ih (fun e he => hp e (by simp [he]))
    have hx := hp x (by simp)
    cases hpq : p ++ c :: d :: q with
    | nil => simp at hpq
    | cons y z =>
      simp only [List.cons_append, hpq]
      unfold eraseRparen
      rw [if_neg (fun h => hx h.1 h.2.2.1)]
      rw [← hpq, ih]
      simp

theorem collapse_grp (i r : Forest) :
    ∃ j, (Forest.grp i r).collapse = .grp j r.collapse ∧ (Forest.grp i .nil).collapse = .grp j .nil := by
  cases h : i.collapse with
  | nil => exact ⟨.nil, by simp [Forest.collapse, h], by simp [Forest.collapse, h]⟩
  | tok t k => exact ⟨.tok t k, by simp [Forest.collapse, h], by simp [Forest.collapse, h]⟩
  | grp j k =>
    cases k with
    | nil => exact ⟨j, by simp [Forest.collapse, h], by simp [Forest.collapse, h]⟩
    | tok t k => exact ⟨.grp j (.tok t k), by simp [Forest.collapse, h], by simp [Forest.collapse, h]⟩
    | grp t k => exact ⟨.grp j (.grp t k), by simp [Forest.collapse, h], by simp [Forest.collapse, h]⟩

theorem collapse_print_grp (i r : Forest) :
    (Forest.grp i r).collapse.print = (Forest.grp i .nil).collapse.print ++ r.collapse.print := by
  obtain ⟨j, h1, h2⟩ := collapse_grp i r
  simp [h1, h2, Forest.print]

theorem collapse_grp_grp (i : Forest) :
    (Forest.grp (.grp i .nil) .nil).collapse = (Forest.grp i .nil).collapse := by
  obtain ⟨j, h1, h2⟩ := collapse_grp i .nil
  rw [h2, Forest.collapse, h2]
  rfl

theorem removeAll_forest : ∀ (f : Forest), f.Simple →
    (∀ d tail, (removeAll (ents d f ++ tail)).map (·.str)
      = f.collapse.print ++ (removeAll tail).map (·.str))
    ∧ ((∀ j k, f = .grp j k → k = .nil) → ∀ lo d tail, lo ≤ d →
        (removeAll (⟨['('], '(', lo⟩ :: (ents d f ++ ⟨[')'], ')', lo⟩ :: tail))).map (·.str)
          = (Forest.grp f .nil).collapse.print ++ (removeAll tail).map (·.str)) := by
  intro f
  induction f with
  | nil =>
    intro _
    refine ⟨fun _ _ => rfl, fun _ lo d tail _ => ?_⟩
    show (removeAll (_ :: _ :: tail)).map _ = _
    rw [removeAll_keep _ _ _ (Or.inl (fun h => by simp at h)), removeAll_skip _ _ (by simp)]
    rfl
  | tok t r ih =>
    intro hs
    have ih := ih hs
    refine ⟨fun d tail => ?_, fun _ lo d tail _ => ?_⟩
    · simp only [ents, List.cons_append]
      rw [removeAll_skip _ _ (by simp), List.map_cons, ih.1]
      rfl
    · simp only [ents, List.cons_append]
      rw [removeAll_keep _ _ _ (Or.inl (fun h => by simp at h)),
        removeAll_skip _ _ (by simp), List.map_cons, List.map_cons, ih.1, removeAll_skip _ _ (by simp)]
      simp [Forest.collapse, Forest.print]
  | grp i r ihi ihr =>
    intro hs
    obtain ⟨h1, h2, h3⟩ := hs
    have ihi := ihi h2
    have ihr := ihr h3
    have hA : ∀ d tail, (removeAll (ents d (.grp i r) ++ tail)).map (·.str)
        = (Forest.grp i r).collapse.print ++ (removeAll tail).map (·.str) := by
      intro d tail
      rw [collapse_print_grp]
      simp only [ents, List.cons_append, List.append_assoc]
      rw [ihi.2 h1 _ _ _ (Int.le_refl _), ihr.1]
    refine ⟨hA, fun hr lo d tail hlo => ?_⟩
    have hr := hr i r rfl
    subst hr
    rw [collapse_grp_grp]
    have he : eraseRparen (d + 1) lo (ents (d + 1) i ++ ⟨[')'], ')', d + 1⟩ :: ⟨[')'], ')', lo⟩ :: tail)
        = some (ents (d + 1) i ++ ⟨[')'], ')', lo⟩ :: tail) := by
      refine eraseRparen_find _ _ _ _ _ _ ?_ rfl rfl rfl rfl
      intro e he hc
      have := ents_num _ _ e he hc
      omega
    simp only [ents, List.cons_append, List.append_assoc, List.nil_append]
    rw [removeAll_erase ⟨['('], '(', lo⟩ ⟨['('], '(', d + 1⟩ _ _ rfl rfl he]
    exact ihi.2 h1 lo (d + 1) tail (by omega)

theorem noDouble_collapse (f : Forest) : f.collapse.NoDouble := by
  induction f with
  | nil => trivial
  | tok t r ih => exact ih
  | grp i r ihi ihr =>
    simp only [Forest.collapse]
    split
    · rename_i j h
      rw [h] at ihi
      exact ⟨ihi.1, ihi.2.1, ihr⟩
    · rename_i h
      exact ⟨h, ihi, ihr⟩

end Gdo
