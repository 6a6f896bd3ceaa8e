import Verif.Lemmas.Paren
import Verif.Lemmas.Text
import Verif.Lemmas.CText

/-!
Property theorems C17 (superfluous parentheses), C18 (formatting of prototypes) and
C19 (typedefs).
-/

namespace Gdo.Props
open Gdo Spec

/-! ### C17 -/

/-- Whatever the tokens are, the removal of parentheses keeps all other tokens in their
    order, and deletes as many opening as closing parentheses. -/
theorem C17_other_tokens_kept (v : Toks) (h : ∀ t ∈ v, t.head? = some '(' → t = ['(']) :
    (removeSuperfluous v).Sublist v
    ∧ (removeSuperfluous v).filter (fun t => decide (NotParen t)) = v.filter (fun t => decide (NotParen t))
    ∧ ∃ k, (removeSuperfluous v).countP (fun t => t.head? = some '(') + k = v.countP (fun t => t.head? = some '(')
      ∧ (removeSuperfluous v).countP (fun t => t.head? = some ')') + k = v.countP (fun t => t.head? = some ')') := by
  rw [removeSuperfluous_eq v h]
  have hsub := removeAll_sublist (toEntries 0 v)
  obtain ⟨hf, k, h1, h2⟩ := removeAll_counts (toEntries 0 v)
  have hch := toEntries_ch 0 v
  have hch' : ∀ e ∈ removeAll (toEntries 0 v),
      (e.ch = '(' ↔ e.str.head? = some '(') ∧ (e.ch = ')' ↔ e.str.head? = some ')') :=
    fun e he => hch e (hsub.subset he)
  refine ⟨?_, ?_, k, ?_, ?_⟩
  · have := hsub.map (·.str)
    rwa [toEntries_map_str] at this
  · conv => rhs; rw [← toEntries_map_str 0 v]
    rw [List.filter_map, List.filter_map]
    have e1 : ∀ l : List PEntry, (∀ e ∈ l, (e.ch = '(' ↔ e.str.head? = some '(') ∧ (e.ch = ')' ↔ e.str.head? = some ')')) →
        l.filter ((fun t => decide (NotParen t)) ∘ (·.str)) = l.filter (fun e => e.ch ≠ '(' ∧ e.ch ≠ ')') := by
      intro l hl
      apply List.filter_congr
      intro e he
      have := hl e he
      exact decide_eq_decide.mpr (by simp only [NotParen, this.1, this.2, ne_eq])
    rw [e1 _ hch', e1 _ hch, hf]
  · conv => rhs; rw [← toEntries_map_str 0 v]
    rw [List.countP_map, List.countP_map]
    have e1 : ∀ l : List PEntry, (∀ e ∈ l, (e.ch = '(' ↔ e.str.head? = some '(') ∧ (e.ch = ')' ↔ e.str.head? = some ')')) →
        l.countP ((fun t => decide (t.head? = some '(')) ∘ (·.str)) = l.countP (fun e => e.ch = '(') := by
      intro l hl
      apply List.countP_congr
      intro e he
      have := hl e he
      simp [this.1]
    rw [e1 _ hch', e1 _ hch, h1]
  · conv => rhs; rw [← toEntries_map_str 0 v]
    rw [List.countP_map, List.countP_map]
    have e1 : ∀ l : List PEntry, (∀ e ∈ l, (e.ch = '(' ↔ e.str.head? = some '(') ∧ (e.ch = ')' ↔ e.str.head? = some ')')) →
        l.countP ((fun t => decide (t.head? = some ')')) ∘ (·.str)) = l.countP (fun e => e.ch = ')') := by
      intro l hl
      apply List.countP_congr
      intro e he
      have := hl e he
      simp [this.2]
    rw [e1 _ hch', e1 _ hch, h2]

example : ∃ v : Toks, (∀ t ∈ v, t.head? = some '(' → t = ['(']) ∧ removeSuperfluous v ≠ v :=
  ⟨[str% "f", str% "(", str% "(", str% "a", str% ")", str% ")"], by decide, by decide⟩

/-- For balanced tokens in which a group that begins with a group consists of that group
    only, exactly the doubled parentheses are removed, and none are left.  (Missing for the
    full property: other groups that begin with a group, see `C17_violated` and
    `C17_violated_double`.) -/
theorem C17_doubled_removed_partial (f : Forest) (hv : f.Valid) (hs : f.Simple) :
    removeSuperfluous f.print = f.collapse.print ∧ f.collapse.NoDouble := by
  refine ⟨?_, noDouble_collapse f⟩
  have hpar : ∀ (f : Forest), f.Valid → ∀ t ∈ f.print, t.head? = some '(' → t = ['('] := by
    intro f hv
    induction f with
    | nil => simp [Forest.print]
    | tok t r ih =>
      intro x hx hh
      simp [Forest.print] at hx
      rcases hx with rfl | hx
      · exact absurd hh hv.1.1
      · exact ih hv.2 x hx hh
    | grp i r ihi ihr =>
      intro x hx hh
      simp [Forest.print] at hx
      rcases hx with rfl | hx | rfl | hx
      · rfl
      · exact ihi hv.1 x hx hh
      · simp at hh
      · exact ihr hv.2 x hx hh
  rw [removeSuperfluous_eq _ (hpar f hv)]
  have h1 := toEntries_print 0 f hv []
  simp only [List.append_nil, toEntries] at h1
  rw [h1]
  have h2 := (removeAll_forest f hs).1 0 []
  simpa [removeAll_nil] using h2

/-- `f ( ( ( a ) ) , b )` -/
def exDoubled : Forest :=
  .tok (str% "f") (.grp (.grp (.grp (.tok (str% "a") .nil) .nil) .nil) (.tok (str% "b") .nil))

example : exDoubled.Valid ∧ exDoubled.Simple
    ∧ removeSuperfluous exDoubled.print = [str% "f", str% "(", str% "a", str% ")", str% "b"] := by
  refine ⟨by simp [exDoubled, Forest.Valid, NotParen], by simp [exDoubled, Forest.Simple], by decide⟩

/-- The parentheses do not stay balanced for
    `int x [ ( ( A ) * B ) * ( ( C ) ) ]`. -/
theorem C17_violated : ∃ v : Toks, (∀ t ∈ v, t.head? = some '(' → t = ['(']) ∧
    balanced 0 v = true ∧ balanced 0 (removeSuperfluous v) = false :=
  ⟨[str% "int", str% "x", str% "[", str% "(", str% "(", str% "A", str% ")", str% "*", str% "B",
    str% ")", str% "*", str% "(", str% "(", str% "C", str% ")", str% ")", str% "]"],
    by decide, by decide, by decide⟩

/-- A doubled pair is left in `( ( a ) , ( ( b ) ) )`. -/
theorem C17_violated_double : ∃ f : Forest, f.Valid ∧
    ∃ g : Forest, removeSuperfluous f.print = g.print ∧ g.Valid ∧ ¬ g.NoDouble := by
  refine ⟨.grp (.grp (.tok (str% "a") .nil) (.tok (str% ",") (.grp (.grp (.tok (str% "b") .nil) .nil) .nil))) .nil,
    by simp [Forest.Valid, NotParen],
    .grp (.tok (str% "a") .nil) (.tok (str% ",") (.grp (.grp (.tok (str% "b") .nil) .nil) .nil)),
    by decide, by simp [Forest.Valid, NotParen], by simp [Forest.NoDouble]⟩

/-! ### C18 -/

/-- The unwanted blank patterns. -/
def unwanted : List Str :=
  [str% "( ", str% ") ", str% " )", str% " [", str% " ]", str% "[ ", str% "] ", str% " ,", str% "* "]

theorem replaceAll_blank {y : Char} {pat : Str} (hp : BlankPattern y pat) (s : Str) :
    Replaces pat [y] s (replaceAll pat [y] s) ∧ DelBlanks y s (replaceAll pat [y] s)
      ∧ ¬ Contains pat (replaceAll pat [y] s) := by
  obtain ⟨r, h1, h2, h3⟩ := replaceFuel_blank hp (s.length + 1) s (by omega)
  have : replaceAll pat [y] s = r := by simp [replaceAll, h1]
  rw [this]
  exact ⟨⟨_, h1⟩, h2, h3⟩

/-- The replacements of `format_prototype` end and are what `replaceAll` computes. -/
theorem C18_terminates (s : Str) (pat : Str) (hp : pat ∈ unwanted) :
    Replaces pat (pat.filter (· ≠ ' ')) s (replaceAll pat (pat.filter (· ≠ ' ')) s) := by
  have key : ∀ (y : Char) (pat : Str), y ≠ ' ' → BlankPattern y pat →
      Replaces pat (pat.filter (· ≠ ' ')) s (replaceAll pat (pat.filter (· ≠ ' ')) s) := by
    intro y pat hy hb
    have : pat.filter (· ≠ ' ') = [y] := by
      rcases hb with rfl | rfl <;> simp [hy]
    rw [this]
    exact (replaceAll_blank hb s).1
  simp [unwanted] at hp
  rcases hp with rfl | rfl | rfl | rfl | rfl | rfl | rfl | rfl | rfl
  · exact key '(' _ (by decide) (Or.inl rfl)
  · exact key ')' _ (by decide) (Or.inl rfl)
  · exact key ')' _ (by decide) (Or.inr rfl)
  · exact key '[' _ (by decide) (Or.inr rfl)
  · exact key ']' _ (by decide) (Or.inr rfl)
  · exact key '[' _ (by decide) (Or.inl rfl)
  · exact key ']' _ (by decide) (Or.inl rfl)
  · exact key ',' _ (by decide) (Or.inr rfl)
  · exact key '*' _ (by decide) (Or.inl rfl)

/-- Blank patterns that are absent and the property to be stripped: everything that one
    replacement keeps. -/
theorem format_steps (P : Str → Prop) (s : Str) (h0 : P (stripSpaces s))
    (hP : ∀ y pat s, y ∈ ['(', ')', '[', ']', ',', '*'] → BlankPattern y pat → P s → P (replaceAll pat [y] s)) :
    P (formatPrototype s) := by
  unfold formatPrototype
  simp only
  repeat (refine hP _ _ _ (by decide) (by first | exact Or.inl rfl | exact Or.inr rfl) ?_)
  exact h0

theorem punct_ne {y : Char} (h : y ∈ ['(', ')', '[', ']', ',', '*']) :
    y ≠ ' ' ∧ isSpace y = false ∧ isWord y = false := by
  simp at h
  rcases h with rfl | rfl | rfl | rfl | rfl | rfl <;> decide

/-- No two C tokens grow together and none is lost: the formatted text has the same C
    tokens. -/
theorem C18_tokens_kept (s : Str) : ctokens (formatPrototype s) = ctokens s := by
  refine format_steps (fun t => ctokens t = ctokens s) s (ctokens_stripSpaces s) ?_
  intro y pat t hy hp ht
  have h := punct_ne hy
  rw [ctokens_delBlanks h.2.1 h.2.2 (replaceAll_blank hp t).2.1, ht]

/-- All characters but white space at the ends and blanks are kept in their order. -/
theorem C18_spaces_only (s : Str) :
    (formatPrototype s).Sublist s ∧
    ∃ p q t, s = p ++ t ++ q ∧ (∀ c ∈ p ++ q, isSpace c = true) ∧
      (formatPrototype s).filter (· ≠ ' ') = t.filter (· ≠ ' ') := by
  obtain ⟨_, p, q, h, hp, hq⟩ := stripSpaces_spec s
  have hst : (stripSpaces s).Sublist s := by
    conv => rhs; rw [h]
    exact (List.sublist_append_right _ _).trans (List.sublist_append_left _ _)
  refine ⟨?_, p, q, stripSpaces s, h, ?_, ?_⟩
  · refine format_steps (fun t => t.Sublist s) s hst ?_
    intro y pat t _ hb ht
    exact (delBlanks_kept (replaceAll_blank hb t).2.1).2.trans ht
  · intro c hc
    simp at hc
    rcases hc with hc | hc
    · exact hp c hc
    · exact hq c hc
  · refine format_steps (fun t => t.filter (· ≠ ' ') = (stripSpaces s).filter (· ≠ ' ')) s rfl ?_
    intro y pat t _ hb ht
    exact (delBlanks_kept (replaceAll_blank hb t).2.1).1.trans ht

theorem absent_kept {y x : Char} {pat q t : Str} (hy : y ∈ ['(', ')', '[', ']', ',', '*']) (hb : BlankPattern y pat)
    (hx : x ≠ ' ') (hq : BlankPattern x q) (h : ¬ Contains q t) : ¬ Contains q (replaceAll pat [y] t) := by
  have := delBlanks_absent (punct_ne hy).1 hx (replaceAll_blank hb t).2.1
  rcases hq with rfl | rfl
  · exact this.1 h
  · exact this.2 h

/-- The replacements of `format_prototype` in order. -/
def formatList : List (Str × Char) :=
  [(str% "( ", '('), (str% ") ", ')'), (str% " )", ')'), (str% " [", '['), (str% " ]", ']'),
   (str% "[ ", '['), (str% "] ", ']'), (str% " ,", ','), (str% "* ", '*')]

def formatFold (l : List (Str × Char)) (s : Str) : Str := l.foldl (fun s x => replaceAll x.1 [x.2] s) s

theorem formatPrototype_fold (s : Str) : formatPrototype s = formatFold formatList (stripSpaces s) := by
  simp only [formatPrototype, formatFold, formatList, List.foldl]

theorem formatFold_keeps (l : List (Str × Char))
    (hl : ∀ x ∈ l, x.2 ∈ ['(', ')', '[', ']', ',', '*'] ∧ BlankPattern x.2 x.1) (q : Str) (x : Char)
    (hx : x ≠ ' ') (hq : BlankPattern x q) (s : Str) (h : ¬ Contains q s) : ¬ Contains q (formatFold l s) := by
  induction l generalizing s with
  | nil => exact h
  | cons a l ih =>
    obtain ⟨h1, h2⟩ := hl a (by simp)
    exact ih (fun y hy => hl y (by simp [hy])) _ (absent_kept h1 h2 hx hq h)

theorem formatFold_absent (l : List (Str × Char))
    (hl : ∀ x ∈ l, x.2 ∈ ['(', ')', '[', ']', ',', '*'] ∧ BlankPattern x.2 x.1) (s : Str) :
    ∀ x ∈ l, ¬ Contains x.1 (formatFold l s) := by
  induction l generalizing s with
  | nil => simp
  | cons a l ih =>
    intro x hx
    simp only [List.mem_cons] at hx
    have hl' : ∀ x ∈ l, x.2 ∈ ['(', ')', '[', ']', ',', '*'] ∧ BlankPattern x.2 x.1 :=
      fun y hy => hl y (by simp [hy])
    rcases hx with rfl | hx
    · obtain ⟨h1, h2⟩ := hl x (by simp)
      exact formatFold_keeps l hl' _ x.2 (punct_ne h1).1 h2 _ (replaceAll_blank h2 s).2.2
    · exact ih hl' _ x hx

/-- The formatted text has none of the unwanted patterns and no white space at its ends. -/
theorem C18_no_unwanted (s : Str) :
    (∀ pat ∈ unwanted, ¬ Contains pat (formatPrototype s)) ∧ Stripped (formatPrototype s) := by
  constructor
  · intro pat hp
    rw [formatPrototype_fold]
    have hp' : pat ∈ formatList.map (·.1) := hp
    rw [List.mem_map] at hp'
    obtain ⟨x, hx, rfl⟩ := hp'
    refine formatFold_absent formatList ?_ _ x hx
    intro x hx
    simp only [formatList, List.mem_cons, List.not_mem_nil, or_false] at hx
    rcases hx with rfl | rfl | rfl | rfl | rfl | rfl | rfl | rfl | rfl <;>
      exact ⟨by decide, by first | exact Or.inl rfl | exact Or.inr rfl⟩
  · refine format_steps Stripped s (stripSpaces_spec s).1 ?_
    intro y pat t _ hb ht
    exact delBlanks_stripped (replaceAll_blank hb t).2.1 ht

theorem replaceAll_absent {pat dst s : Str} (h : ¬ Contains pat s) : replaceAll pat dst s = s := by
  have : replaceFuel pat dst (s.length + 1) s = some s := by
    unfold replaceFuel
    rw [replaceStep_none.mpr h]
  simp [replaceAll, this]

/-- Formatting again changes nothing. -/
theorem C18_idempotent (s : Str) : formatPrototype (formatPrototype s) = formatPrototype s := by
  obtain ⟨h1, h2⟩ := C18_no_unwanted s
  generalize formatPrototype s = t at h1 h2
  simp only [unwanted, List.mem_cons, forall_eq_or_imp, List.not_mem_nil, false_imp_iff, implies_true, and_true] at h1
  obtain ⟨a1, a2, a3, a4, a5, a6, a7, a8, a9⟩ := h1
  unfold formatPrototype
  simp only [stripSpaces_eq t h2]
  rw [replaceAll_absent a1, replaceAll_absent a2, replaceAll_absent a3, replaceAll_absent a4,
    replaceAll_absent a5, replaceAll_absent a6, replaceAll_absent a7, replaceAll_absent a8,
    replaceAll_absent a9]

example : formatPrototype (str% " char * ( * ) ( int [ 3 ] , char * ) ") = str% "char *(*)(int[3], char *)" := by
  decide

/-! ### C19 -/

/-- The object read for a declaration. -/
def Reads (p : Proto) (d : Decl) : Prop := p.kind = d.kind ∧ p.type = d.typeText ∧ p.symbol = d.name

/-- The name of the type made for a symbol. -/
def typeName (pfx symbol : Str) : Str := pfx ++ str% "_" ++ symbol ++ str% "__t"

/-- A function pointer or an array. -/
def NeedsTypedef (d : Decl) : Bool :=
  match d with
  | .funPtrVar .. | .array .. => true
  | _ => false

theorem typeToks_no {T : Toks} (h : TypeToks T) (c : Char) (hc : isWord c = false) (hs : c ≠ '*') (hb : c ≠ ' ') :
    c ∉ spaced T := by
  intro hm
  simp only [spaced, List.mem_flatten, List.mem_map] at hm
  obtain ⟨_, ⟨t, ht, rfl⟩, hm⟩ := hm
  rw [List.mem_append] at hm
  obtain ⟨h0, r, rfl, hh, hr⟩ := h
  have : IdentTok t ∨ t = ['*'] := by
    simp at ht
    rcases ht with rfl | ht
    · exact Or.inl hh
    · exact hr t ht
  rcases hm with hm | hm
  · rcases this with h | rfl
    · have := h.2 c hm; rw [hc] at this; exact absurd this (by decide)
    · simp at hm; exact hs hm
  · simp at hm; exact hb hm

theorem first_char {a b : Str} {c : Char} {pat : Str} (h : c ∉ a) (p q : Str)
    (he : a ++ (c :: pat) ++ b = p ++ (c :: pat) ++ q) : a.length ≤ p.length := by
  rw [List.append_assoc, List.append_assoc, List.append_eq_append_iff] at he
  rcases he with ⟨w, h1, _⟩ | ⟨w, h1, h2⟩
  · rw [h1]; simp
  · cases w with
    | nil => simp at h1; simp [h1]
    | cons x w =>
      simp only [List.cons_append, List.cons.injEq] at h2
      exact absurd (by rw [h1, ← h2.1]; simp) h

theorem fptrTypedef_text (T ps : Toks) (name : Str) (hT : TypeToks T) :
    fptrTypedef (spaced T ++ ['(', '*', ')'] ++ spaced ([['(']] ++ ps ++ [[')']])) name
      = spaced T ++ ['(', '*'] ++ name ++ [')'] ++ spaced ([['(']] ++ ps ++ [[')']]) := by
  have hno := typeToks_no hT '(' (by decide) (by decide) (by decide)
  generalize spaced ([['(']] ++ ps ++ [[')']]) = R
  have h1 : findPos (str% "(*)") (spaced T ++ ['(', '*', ')'] ++ R) = some (spaced T).length :=
    findPos_eq (fun p q h => first_char (pat := ['*', ')']) hno p q h)
  have h2 : findPos ['('] (spaced T ++ ['(', '*', ')'] ++ R) = some (spaced T).length := by
    have := findPos_eq (pat := ['(']) (a := spaced T) (b := ['*', ')'] ++ R)
      (fun p q h => first_char (pat := []) hno p q h)
    simpa using this
  unfold fptrTypedef
  rw [h1]
  simp only [h2]
  have e1 : List.take ((spaced T).length + 2) (spaced T ++ ['(', '*', ')'] ++ R) = spaced T ++ ['(', '*'] := by
    rw [List.append_assoc, List.take_length_add_append]; rfl
  have e2 : List.drop ((spaced T).length + 2) (spaced T ++ ['(', '*', ')'] ++ R) = [')'] ++ R := by
    rw [List.append_assoc, List.drop_length_add_append]; rfl
  simp only [insertAt, e1, e2]
  simp

theorem arrayTypedef_text (T s : Toks) (name : Str) (hT : TypeToks T) :
    arrayTypedef (spaced (T ++ [['[']] ++ s ++ [[']']])) name
      = spaced T ++ name ++ spaced ([['[']] ++ s ++ [[']']]) := by
  have hno := typeToks_no hT '[' (by decide) (by decide) (by decide)
  have e : spaced (T ++ [['[']] ++ s ++ [[']']]) = spaced T ++ ['['] ++ (' ' :: spaced (s ++ [[']']])) := by
    simp [spaced]
  have e2 : spaced ([['[']] ++ s ++ [[']']]) = '[' :: (' ' :: spaced (s ++ [[']']])) := by
    simp [spaced]
  rw [e, e2]
  generalize (' ' :: spaced (s ++ [[']']])) = R
  have h1 : findPos ['['] (spaced T ++ ['['] ++ R) = some (spaced T).length :=
    findPos_eq (fun p q h => first_char (pat := []) hno p q h)
  obtain ⟨Y, hY⟩ : ∃ Y, spaced T = Y ++ [' '] := by
    obtain ⟨h0, r, rfl, _⟩ := hT
    rcases List.eq_nil_or_concat (h0 :: r) with h | ⟨a, b, h⟩
    · simp at h
    · rw [h, List.concat_eq_append, spaced_append]
      exact ⟨spaced a ++ b, by simp [spaced]⟩
  unfold arrayTypedef
  rw [h1]
  have h2 : strAt (spaced T ++ ['['] ++ R) ((spaced T).length - 1) = ' ' := by
    rw [hY]; simp [strAt]
  simp only [h2]
  simp [insertAt, List.take_append, List.drop_append]

/-- The typedefs are, in order, the declarations of the function pointers and arrays with
    the name replaced, also after formatting; these objects get the new type name and all
    others are left alone. -/
theorem C19_typedefs (pfx : Str) (l : List (Proto × Decl)) (hr : ∀ x ∈ l, Reads x.1 x.2)
    (hv : ∀ x ∈ l, x.2.Valid) :
    ∃ ds, createTypedefs pfx (l.map (·.1))
        = .ok (l.map fun x => if NeedsTypedef x.2 then { x.1 with type := typeName pfx x.2.name } else x.1, ds)
      ∧ ds.map (fun t => ctokens (formatPrototype t))
        = ((l.map (·.2)).filter NeedsTypedef).map fun d => (d.rename (typeName pfx d.name)).ctoks := by
  induction l with
  | nil => exact ⟨[], rfl, rfl⟩
  | cons x l ih =>
    obtain ⟨p, d⟩ := x
    obtain ⟨ds, h1, h2⟩ := ih (fun x hx => hr x (by simp [hx])) (fun x hx => hv x (by simp [hx]))
    obtain ⟨k1, k2, k3⟩ : Reads p d := hr (p, d) (by simp)
    have hvd : d.Valid := hv (p, d) (by simp)
    have hname : pfx ++ ['_'] ++ p.symbol ++ str% "__t" = typeName pfx d.name := by rw [k3]; rfl
    cases d with
    | funPtrVar T n ps =>
      have k1 : p.kind = .functionPointer := k1
      have k2 : p.type = spaced T ++ ['(', '*', ')'] ++ spaced ([['(']] ++ ps ++ [[')']]) := k2
      have ht := fptrTypedef_text T ps (typeName pfx n) hvd.1
      rw [← k2] at ht
      have hne : (fptrTypedef p.type (typeName pfx n)).isEmpty = false := by rw [ht]; simp
      refine ⟨fptrTypedef p.type (typeName pfx n) :: ds, ?_, ?_⟩
      · simp only [List.map_cons, createTypedefs, hname, k1, h1, if_true]
        simp only [Decl.name, hne]
        rfl
      · simp only [List.map_cons, C18_tokens_kept, NeedsTypedef, List.filter_cons, if_true]
        rw [← h2]
        congr 1
        · rw [ht]
          simp only [List.append_assoc]
          rw [ctokens_spaced]
          simp only [Decl.ctoks, Decl.rename, Decl.print, List.append_assoc, List.flatMap_append, Decl.name]
          congr 1
          rw [show ['(', '*'] ++ (typeName pfx n ++ ([')'] ++ spaced ([['(']] ++ (ps ++ [[')']]))))
              = '(' :: '*' :: (typeName pfx n ++ (')' :: spaced ([['(']] ++ (ps ++ [[')']])))) from by simp,
            ctokens_punct _ _ (by decide) (by decide), ctokens_punct _ _ (by decide) (by decide),
            ctokens_append _ _ (Or.inr (by simp; rfl)), ctokens_punct _ _ (by decide) (by decide)]
          have := ctokens_spaced ([['(']] ++ (ps ++ [[')']])) []
          rw [List.append_nil] at this
          rw [this]
          simp only [List.flatMap_append, List.flatMap_cons, List.flatMap_nil]
          rw [show ctokens ['('] = [['(']] from by decide, show ctokens ['*'] = [['*']] from by decide,
            show ctokens [')'] = [[')']] from by decide]
          simp [ctokens]
        · simp [C18_tokens_kept]
    | array T n s =>
      have k1 : p.kind = .objectArray := k1
      have k2 : p.type = spaced (T ++ [['[']] ++ s ++ [[']']]) := k2
      have ht := arrayTypedef_text T s (typeName pfx n) hvd.1
      rw [← k2] at ht
      have hne : (arrayTypedef p.type (typeName pfx n)).isEmpty = false := by rw [ht]; simp [typeName]
      refine ⟨arrayTypedef p.type (typeName pfx n) :: ds, ?_, ?_⟩
      · simp only [List.map_cons, createTypedefs, hname, k1, h1, if_true]
        simp only [Decl.name, hne]
        rfl
      · simp only [List.map_cons, C18_tokens_kept, NeedsTypedef, List.filter_cons, if_true]
        rw [← h2]
        congr 1
        · rw [ht]
          simp only [List.append_assoc]
          rw [ctokens_spaced]
          simp only [Decl.ctoks, Decl.rename, Decl.print, List.append_assoc, List.flatMap_append, Decl.name]
          congr 1
          rw [ctokens_append _ _ (Or.inr (by simp [spaced]; rfl))]
          have := ctokens_spaced ([['[']] ++ (s ++ [[']']])) []
          rw [List.append_nil] at this
          rw [this]
          simp [ctokens]
        · simp [C18_tokens_kept]
    | func | funcParen | funcPtr1 | funcPtr2 | var =>
      refine ⟨ds, ?_, ?_⟩
      · simp [createTypedefs, k1, Decl.kind, h1, NeedsTypedef]
      · simp [NeedsTypedef, h2]

/-- A function pointer variable, an array and a plain variable. -/
def exObjects : List (Proto × Decl) :=
  let d1 := Decl.funPtrVar [str% "char", str% "*"] (str% "cb") [str% "int"]
  let d2 := Decl.array [str% "int"] (str% "tab") [str% "4"]
  let d3 := Decl.var [str% "int"] (str% "n")
  [(d1.meaning, d1), (d2.meaning, d2), (d3.meaning, d3)]

example : (∀ x ∈ exObjects, Reads x.1 x.2) ∧ (∀ x ∈ exObjects, x.2.Valid)
    ∧ (createTypedefs (str% "gdo") (exObjects.map (·.1))).map (fun r => r.2.map formatPrototype)
      = .ok [str% "char *(*gdo_cb__t)(int)", str% "int gdo_tab__t[4]"] := by
  refine ⟨?_, ?_, by decide⟩
  · simp [exObjects, Reads, Decl.meaning]
  · simp only [exObjects, List.mem_cons, forall_eq_or_imp, List.not_mem_nil, false_imp_iff, implies_true, and_true]
    exact ⟨⟨⟨_, _, rfl, by decide, by decide⟩, by decide⟩, ⟨⟨_, _, rfl, by decide, by decide⟩, by decide⟩,
      ⟨⟨_, _, rfl, by decide, by decide⟩, by decide⟩⟩

end Gdo.Props
