import Verif.Lemmas.Ast
import Verif.Props.Filter

/-!
Property theorems C14 and C16 (Clang AST input), C57, C58 and C59: reading declarations
from a Clang AST dump.
-/

namespace Gdo.Ast
open Gdo Spec Lex

/-! ### The declarations -/

theorem splitFirst_char {c : Char} {s : Str} :
    (∃ a b, splitFirst [c] s = some (a, b) ∧ s = a ++ c :: b ∧ c ∉ a) ∨ (splitFirst [c] s = none ∧ c ∉ s) := by
  cases h : splitFirst [c] s with
  | some r =>
    left
    obtain ⟨a, b⟩ := r
    obtain ⟨h1, h2⟩ := splitFirst_some h
    refine ⟨a, b, rfl, by simpa using h1, ?_⟩
    intro hc
    obtain ⟨p, q, rfl⟩ := List.append_of_mem hc
    have := h2 p (q ++ c :: b) (by simp [h1])
    simp at this
    omega
  | none =>
    right
    refine ⟨rfl, ?_⟩
    intro hc
    obtain ⟨p, q, rfl⟩ := List.append_of_mem hc
    exact splitFirst_none.mp h ⟨p, q, by simp⟩

theorem trimmed_stripSpaces (s : Str) : Trimmed s (stripSpaces s) := by
  obtain ⟨⟨h1, h2⟩, p, q, h3, h4, h5⟩ := stripSpaces_spec s
  exact ⟨⟨p, q, by rw [← List.append_assoc]; exact h3, h4, h5⟩, h1, h2⟩

theorem itemProto_reads {i : Item} {p : Proto} (h : itemProto i = some p) : i.Reads p := by
  cases i with
  | func symbol type params =>
    simp only [itemProto, Option.map_eq_some_iff] at h
    obtain ⟨⟨a, b⟩, hs, rfl⟩ := h
    rcases splitFirst_char (c := '(') (s := type) with ⟨a', b', h1, h2, h3⟩ | ⟨h1, -⟩
    · rw [h1] at hs
      simp at hs
      obtain ⟨rfl, rfl⟩ := hs
      exact ⟨rfl, rfl, ⟨a', b', h2, h3, trimmed_stripSpaces _⟩, rfl, rfl⟩
    · rw [h1] at hs; simp at hs
  | var symbol type =>
    simp only [itemProto, Option.some.injEq] at h
    subst h
    have hp : (findPos (str% "(*)") type).isSome = true ↔ HasPtr type := by
      cases h : findPos (str% "(*)") type with
      | none =>
        have := findPos_none.mp h
        simp only [Option.isSome_none, Bool.false_eq_true, false_iff]
        rintro ⟨a, b, hab⟩
        exact this ⟨a, b, by rw [hab]; simp⟩
      | some n =>
        obtain ⟨a, b, hab, -⟩ := findPos_some h
        simp only [Option.isSome_some, true_iff]
        exact ⟨a, b, by rw [hab]; simp⟩
    have hb : (findPos ['['] type).isSome = true ↔ '[' ∈ type := by
      unfold findPos
      rcases splitFirst_char (c := '[') (s := type) with ⟨a', b', h1, h2, h3⟩ | ⟨h1, h2⟩
      · rw [h1, h2]; simp
      · rw [h1]; simp [h2]
    refine ⟨?_, ?_, ?_, rfl, trimmed_stripSpaces _, rfl, rfl⟩
    · intro h; simp [hp.mpr h]
    · intro h h'; simp only [hp, h, hb, h', if_true, if_false]
    · intro h h'; simp only [hp, h, hb, h', if_false]

theorem reads_symbol {i : Item} {p : Proto} (h : i.Reads p) : p.symbol = i.symbol := by
  cases i with
  | func => exact h.2.1
  | var => exact h.2.2.2.1

theorem itemProto_isSome {i : Item} (h : ∀ s t ps, i = .func s t ps → '(' ∈ t) : ∃ p, itemProto i = some p := by
  cases i with
  | func symbol type params =>
    have := h _ _ _ rfl
    rcases splitFirst_char (c := '(') (s := type) with ⟨a, b, h1, -⟩ | ⟨-, h2⟩
    · exact ⟨_, by simp only [itemProto, h1]; rfl⟩
    · exact absurd this h2
  | var symbol type => exact ⟨_, rfl⟩

/-- What the declarations of a list are read as. -/
def protosOf (is : List Item) : List Proto := is.filterMap itemProto

theorem fns_cons (p : Proto) (l : List Proto) : fns (p :: l) = fns [p] ++ fns l := fns_append [p] l
theorem obs_cons (p : Proto) (l : List Proto) : obs (p :: l) = obs [p] ++ obs l := obs_append [p] l

theorem fold_none (P : List Str) (is : List Item) : ∀ st : State,
    is.foldl (foldItem .none P) st =
      { list := st.list, protos := st.protos ++ fns (protosOf is), objs := st.objs ++ obs (protosOf is) } := by
  induction is with
  | nil => intro st; simp [protosOf, fns, obs]
  | cons i is ih =>
    intro st
    rw [List.foldl_cons, ih]
    unfold foldItem astFilter protosOf
    cases h : itemProto i with
    | none => simp [h]
    | some p =>
      simp only [List.filterMap_cons, h]
      rw [fns_cons p (is.filterMap itemProto), obs_cons p (is.filterMap itemProto)]
      simp

/-- The tokens of a dump behind the first one. -/
theorem astTokens_dump (codes : Codes) (hc : codes.Valid) (head : Str) (hh : '\n' ∉ head) (ls : List ALine)
    (hv : ∀ l ∈ ls, l.Valid) : astTokens (dumpText codes head ls) = some (toks ls) := by
  unfold astTokens
  rw [run_dump codes hc head hh ls hv]
  rfl

theorem fns_obs_empty (c : List Proto) : ((fns c).isEmpty && (obs c).isEmpty) = decide (c = []) := by
  cases c with
  | nil => rfl
  | cons p c => by_cases h : p.kind = .function <;> simp [fns, obs, h]

theorem parse_all (P S : List Str) (ls : List ALine) (hv : ∀ l ∈ ls, l.Valid) :
    parseClangAst true P S (toks ls) =
      if protosOf (itemsOf ls) = [] then .error .nothingFound
      else .ok ⟨fns (protosOf (itemsOf ls)), obs (protosOf (itemsOf ls))⟩ := by
  unfold parseClangAst
  simp only [if_true, Bool.not_true, Bool.false_and, Bool.false_eq_true, if_false]
  rw [astLoop_lines .none P _ ls hv false _ (by simp) (by omega), fold_none]
  simp only [reduceCtorEq, false_or, false_and, if_false, List.nil_append, fns_obs_empty, decide_eq_true_eq]

/-- C57: with `-ast-all-symbols` the symbols are the declarations of the dump, in its
    order, functions with their parameters named a1, a2 and so on.  Colours and the kind
    of line ends do not matter.  (The part of the property that does not hold is in the
    `C57_violated` theorems: the type in front of the first parenthesis is the return type
    only if that is no pointer to a function, and a name is put into the first `(*)` of a
    parameter type only.) -/
theorem C57_declarations_read_partial (codes : Codes) (hc : codes.Valid) (head : Str) (hh : '\n' ∉ head)
    (lines : List ALine) (hv : ∀ l ∈ lines, l.Valid)
    (hf : ∀ s t ps, Item.func s t ps ∈ itemsOf lines → '(' ∈ t) (P S : List Str) :
    ∃ ts, astTokens (dumpText codes head lines) = some ts ∧
    ∃ f : Item → Proto, (∀ i ∈ itemsOf lines, i.Reads (f i)) ∧
      parseClangAst true P S ts =
        if itemsOf lines = [] then .error .nothingFound
        else .ok ⟨((itemsOf lines).map f).filter (fun p => p.kind = .function),
                  ((itemsOf lines).map f).filter (fun p => p.kind ≠ .function)⟩ := by
  refine ⟨toks lines, astTokens_dump codes hc head hh lines hv, fun i => (itemProto i).getD { kind := .object }, ?_, ?_⟩
  · intro i hi
    obtain ⟨p, hp⟩ := itemProto_isSome (i := i) (by rintro s t ps rfl; exact hf _ _ _ hi)
    show i.Reads ((itemProto i).getD { kind := .object })
    rw [hp]
    exact itemProto_reads hp
  · have he : protosOf (itemsOf lines) = (itemsOf lines).map fun i => (itemProto i).getD { kind := .object } := by
      generalize itemsOf lines = is at hf
      induction is with
      | nil => rfl
      | cons i is ih =>
        obtain ⟨p, hp⟩ := itemProto_isSome (i := i) (by rintro s t ps rfl; exact hf s t ps (by simp))
        have := ih (fun s t ps h => hf s t ps (by simp [h]))
        simp only [protosOf, List.filterMap_cons, hp, List.map_cons, Option.getD_some] at this ⊢
        rw [this]
    rw [parse_all P S lines hv, he]
    simp only [List.map_eq_nil_iff, fns, obs]

/-! ### Filters -/

theorem protosOf_cons {i : Item} {p : Proto} (h : itemProto i = some p) (is : List Item) :
    protosOf (i :: is) = p :: protosOf is := by simp [protosOf, h]

theorem fold_prefix (P : List Str) (is : List Item) (hs : ∀ i ∈ is, ∃ p, itemProto i = some p) : ∀ st : State,
    is.foldl (foldItem .prefix P) st =
      { list := st.list
        protos := st.protos ++ fns ((protosOf is).filter fun p => isPrefixed p.symbol P)
        objs := st.objs ++ obs ((protosOf is).filter fun p => isPrefixed p.symbol P) } := by
  induction is with
  | nil => intro st; simp [protosOf, fns, obs]
  | cons i is ih =>
    intro st
    obtain ⟨p, hp⟩ := hs i (by simp)
    have hsym := reads_symbol (itemProto_reads hp)
    rw [List.foldl_cons, ih (fun i hi => hs i (by simp [hi])), protosOf_cons hp]
    unfold foldItem astFilter
    rw [← hsym]
    by_cases h : isPrefixed p.symbol P
    · simp only [h, if_true, hp, List.filter_cons]
      rw [fns_cons p (List.filter _ _), obs_cons p (List.filter _ _)]
      simp
    · simp [h]

/-- The filter of the modes with a list, where `f` tells whether a prefix matches. -/
theorem fold_list (mode : FilterMode) (P : List Str) (f : Str → Bool)
    (hm : ∀ list symbol, astFilter mode P list symbol =
      if f symbol then some list
      else if (eraseAll list symbol).length < list.length then some (eraseAll list symbol) else none)
    (is : List Item) (hs : ∀ i ∈ is, ∃ p, itemProto i = some p) (hn : ((protosOf is).map Proto.symbol).Nodup) :
    ∀ st : State, is.foldl (foldItem mode P) st =
      { list := st.list.filter fun s => decide (s ∉ ((protosOf is).filter fun p => !f p.symbol).map Proto.symbol)
        protos := st.protos ++ fns ((protosOf is).filter fun p => f p.symbol || decide (p.symbol ∈ st.list))
        objs := st.objs ++ obs ((protosOf is).filter fun p => f p.symbol || decide (p.symbol ∈ st.list)) } := by
  induction is with
  | nil =>
    intro st
    have : (st.list.filter fun s => true) = st.list := List.filter_eq_self.mpr (by simp)
    simp [protosOf, fns, obs, this]
  | cons i is ih =>
    intro st
    obtain ⟨p, hp⟩ := hs i (by simp)
    have hsym := reads_symbol (itemProto_reads hp)
    rw [protosOf_cons hp] at hn ⊢
    simp only [List.map_cons, List.nodup_cons] at hn
    rw [List.foldl_cons, ih (fun i hi => hs i (by simp [hi])) hn.2]
    have hne : ∀ q ∈ protosOf is, q.symbol ≠ p.symbol := by
      intro q hq he
      exact hn.1 (he ▸ List.mem_map_of_mem hq)
    unfold foldItem
    rw [hm, ← hsym]
    by_cases h : f p.symbol
    · simp only [h, if_true, hp, List.filter_cons, Bool.not_true, Bool.false_eq_true, if_false, Bool.true_or]
      rw [fns_cons p (List.filter _ _), obs_cons p (List.filter _ _)]
      simp
    · simp only [h, Bool.false_eq_true, if_false]
      by_cases hl : p.symbol ∈ st.list
      · rw [if_pos ((eraseAll_lt _ _).mpr hl)]
        simp only [hp]
        have e1 : (protosOf is).filter (fun q => f q.symbol || decide (q.symbol ∈ eraseAll st.list p.symbol))
            = (protosOf is).filter (fun q => f q.symbol || decide (q.symbol ∈ st.list)) := by
          apply List.filter_congr
          intro q hq
          have := hne q hq
          simp [mem_eraseAll, this]
        have e2 : ((p :: protosOf is).filter fun q => f q.symbol || decide (q.symbol ∈ st.list))
            = p :: (protosOf is).filter fun q => f q.symbol || decide (q.symbol ∈ st.list) := by
          rw [List.filter_cons, if_pos (by simp [hl])]
        rw [e1, e2, fns_cons p (List.filter _ _), obs_cons p (List.filter _ _)]
        simp only [State.mk.injEq, List.append_assoc, and_true]
        unfold eraseAll
        rw [List.filter_filter]
        apply List.filter_congr
        intro s hsl
        by_cases hsp : s = p.symbol
        · subst hsp; simp [h]
        · have hsp' : ¬ p.symbol = s := fun h => hsp h.symm
          simp [hsp, h, List.filter_cons, hsp']
      · rw [if_neg (fun h' => hl ((eraseAll_lt _ _).mp h'))]
        have e2 : ((p :: protosOf is).filter fun q => f q.symbol || decide (q.symbol ∈ st.list))
            = (protosOf is).filter fun q => f q.symbol || decide (q.symbol ∈ st.list) := by
          rw [List.filter_cons, if_neg (by simp [hl, h])]
        rw [e2]
        simp only [State.mk.injEq, and_true]
        apply List.filter_congr
        intro s hsl
        have hsp : ¬ p.symbol = s := fun h => hl (h ▸ hsl)
        have hsp' : ¬ s = p.symbol := fun h => hsp h.symm
        simp [h, List.filter_cons, hsp, hsp']

theorem eraseAll_nil (s : Str) : eraseAll [] s = [] := rfl

open Classical in
/-- The result with filters, if every declaration can be read. -/
theorem parse_filter (P S : List Str) (hPS : P ≠ [] ∨ S ≠ []) (ls : List ALine) (hv : ∀ l ∈ ls, l.Valid)
    (hs : ∀ i ∈ itemsOf ls, ∃ p, itemProto i = some p) (hn : ((protosOf (itemsOf ls)).map Proto.symbol).Nodup) :
    parseClangAst false P S (toks ls) =
      if S.filter (fun s => decide (s ∉ ((protosOf (itemsOf ls)).filter fun p => !isPrefixed p.symbol P).map Proto.symbol)) ≠ [] then
        .error (.notFound (S.filter fun s => decide (s ∉ ((protosOf (itemsOf ls)).filter fun p => !isPrefixed p.symbol P).map Proto.symbol)))
      else if ((protosOf (itemsOf ls)).filter fun p => isPrefixed p.symbol P || decide (p.symbol ∈ S)) = [] then .error .nothingFound
      else .ok ⟨fns ((protosOf (itemsOf ls)).filter fun p => isPrefixed p.symbol P || decide (p.symbol ∈ S)),
                obs ((protosOf (itemsOf ls)).filter fun p => isPrefixed p.symbol P || decide (p.symbol ∈ S))⟩ := by
  have hloop : ∀ mode, astLoop mode P ((toks ls).length + 1) false (toks ls) { list := S } =
      (itemsOf ls).foldl (foldItem mode P) { list := S } :=
    fun mode => astLoop_lines mode P _ ls hv false _ (by simp) (by omega)
  unfold parseClangAst
  simp only [Bool.false_eq_true, if_false, Bool.not_false, Bool.true_and, hloop]
  unfold getFilterMode
  by_cases hP : P = []
  · have hS : S ≠ [] := by rcases hPS with h | h; exact absurd hP h; exact h
    have hlen : 0 < S.length := List.length_pos_iff.mpr hS
    subst hP
    have hnp : ∀ s : Str, isPrefixed s [] = false := by intro s; simp [isPrefixed]
    have hf := fold_list .list [] (fun _ => false) (by intro l s; simp [astFilter]) (itemsOf ls) hs hn { list := S }
    simp only [List.nil_append, Bool.not_false, Bool.false_or] at hf
    simp only [List.length_nil, Nat.lt_irrefl, decide_false, Bool.false_and, Bool.false_eq_true, if_false, gt_iff_lt,
      hlen, if_true, hf, hnp, Bool.not_false, Bool.false_or, reduceCtorEq, true_or, true_and, fns_obs_empty,
      decide_eq_true_eq]
  · have hPl : 0 < P.length := List.length_pos_iff.mpr hP
    by_cases hS : S = []
    · subst hS
      have hf := fold_prefix P (itemsOf ls) hs { list := [] }
      simp only [List.nil_append] at hf
      simp only [List.length_nil, Nat.lt_irrefl, decide_false, Bool.and_false, Bool.false_eq_true, if_false, gt_iff_lt,
        hPl, if_true, hf, reduceCtorEq, or_self, false_and, fns_obs_empty, decide_eq_true_eq, List.filter_nil, ne_eq,
        not_true_eq_false, List.not_mem_nil, Bool.or_false]
    · have hSl : 0 < S.length := List.length_pos_iff.mpr hS
      have hf := fold_list .pfxList P (fun s => isPrefixed s P) (by intro l s; simp [astFilter]) (itemsOf ls) hs hn { list := S }
      simp only [List.nil_append] at hf
      simp only [gt_iff_lt, hPl, hSl, decide_true, Bool.and_self, if_true, hf, reduceCtorEq, or_true, true_and,
        if_false, fns_obs_empty, decide_eq_true_eq]

theorem protosOf_symbols {is : List Item} (hs : ∀ i ∈ is, ∃ p, itemProto i = some p) :
    (protosOf is).map Proto.symbol = is.map Item.symbol := by
  induction is with
  | nil => rfl
  | cons i is ih =>
    obtain ⟨p, hp⟩ := hs i (by simp)
    rw [protosOf_cons hp, List.map_cons, List.map_cons, ih (fun i hi => hs i (by simp [hi])),
      reads_symbol (itemProto_reads hp)]

theorem item_symbol_ne {ls : List ALine} (hv : ∀ l ∈ ls, l.Valid) : ∀ i ∈ itemsOf ls, i.symbol ≠ [] := by
  induction ls with
  | nil => simp [itemsOf]
  | cons l ls ih =>
    have ih := ih (fun l hl => hv l (by simp [hl]))
    cases l with
    | decl fn bar c raw cr symbol type =>
      have hne := (hv _ (List.mem_cons_self ..)).2.2.2.1
      intro i hi
      simp only [itemsOf, List.mem_cons] at hi
      rcases hi with rfl | hi
      · cases fn <;> exact hne
      · exact ih i hi
    | parm => simpa [itemsOf] using ih
    | other => simpa [itemsOf] using ih

open Classical in
/-- C16: with `-P` and `-S` the symbols are those of a run with `-ast-all-symbols` that
    the options select, and a listed symbol that is not declared is an error.  This is
    what the options do for text input (`C15_filters_select`).  Missing: dumps where a
    listed symbol also begins with one of the prefixes (`C16_violated`), and repeated
    declarations (`C14_violated_ast`). -/
theorem C16_filters_select_partial (codes : Codes) (hc : codes.Valid) (head : Str) (hh : '\n' ∉ head)
    (lines : List ALine) (hv : ∀ l ∈ lines, l.Valid)
    (hf : ∀ s t ps, Item.func s t ps ∈ itemsOf lines → '(' ∈ t)
    (hn : ((itemsOf lines).map Item.symbol).Nodup) (hi : itemsOf lines ≠ [])
    (P S : List Str) (hPS : P ≠ [] ∨ S ≠ [])
    (hd : ∀ s ∈ S, s ∈ (itemsOf lines).map Item.symbol → ¬ ∃ e ∈ P, e <+: s) :
    ∃ ts A, astTokens (dumpText codes head lines) = some ts ∧
      parseClangAst true P S ts = .ok A ∧
      parseClangAst false P S ts =
        if S.filter (fun s => decide (s ∉ (itemsOf lines).map Item.symbol)) ≠ [] then
          .error (.notFound (S.filter fun s => decide (s ∉ (itemsOf lines).map Item.symbol)))
        else if ¬ ∃ i ∈ itemsOf lines, Selected P S i.symbol then .error .nothingFound
        else .ok ⟨A.protos.filter (fun p => decide (Selected P S p.symbol)),
                  A.objs.filter (fun p => decide (Selected P S p.symbol))⟩ := by
  have hs : ∀ i ∈ itemsOf lines, ∃ p, itemProto i = some p := by
    intro i hi
    exact itemProto_isSome (by rintro s t ps rfl; exact hf _ _ _ hi)
  have hsym := protosOf_symbols hs
  have hne := item_symbol_ne hv
  have hPS' : ¬ (P = [] ∧ S = []) := by rintro ⟨h1, h2⟩; rcases hPS with h | h; exact h h1; exact h h2
  have hpne : ∀ p ∈ protosOf (itemsOf lines), p.symbol ≠ [] := by
    intro p hp
    have : p.symbol ∈ (itemsOf lines).map Item.symbol := hsym ▸ List.mem_map_of_mem hp
    obtain ⟨i, hi, he⟩ := List.mem_map.mp this
    rw [← he]; exact hne i hi
  have hv0 : protosOf (itemsOf lines) ≠ [] := by
    intro h
    rw [h] at hsym
    exact hi (List.map_eq_nil_iff.mp hsym.symm)
  have hsel : ((protosOf (itemsOf lines)).filter fun p => isPrefixed p.symbol P || decide (p.symbol ∈ S))
      = (protosOf (itemsOf lines)).filter fun p => decide (Selected P S p.symbol) := by
    apply List.filter_congr
    intro p hp
    have := isPrefixed_iff (hpne p hp) P
    by_cases h1 : isPrefixed p.symbol P <;> simp [Selected, hPS', h1, ← this]
  have hnf : (S.filter fun s => decide (s ∉ ((protosOf (itemsOf lines)).filter fun p => !isPrefixed p.symbol P).map Proto.symbol))
      = S.filter fun s => decide (s ∉ (itemsOf lines).map Item.symbol) := by
    apply List.filter_congr
    intro s hsS
    rw [decide_eq_decide, ← hsym]
    apply not_congr
    constructor
    · intro h
      obtain ⟨p, hp, he⟩ := List.mem_map.mp h
      exact List.mem_map.mpr ⟨p, (List.mem_filter.mp hp).1, he⟩
    · intro h
      have hds := hd s hsS (hsym ▸ h)
      obtain ⟨p, hp, he⟩ := List.mem_map.mp h
      refine List.mem_map.mpr ⟨p, List.mem_filter.mpr ⟨hp, ?_⟩, he⟩
      subst he
      cases hb : isPrefixed p.symbol P with
      | false => rfl
      | true => exact absurd ((isPrefixed_iff (hpne p hp) P).mp hb) hds
  have hex : ((protosOf (itemsOf lines)).filter fun p => decide (Selected P S p.symbol)) = [] ↔
      ¬ ∃ i ∈ itemsOf lines, Selected P S i.symbol := by
    rw [List.filter_eq_nil_iff]
    constructor
    · rintro h ⟨i, hi, hsl⟩
      have : i.symbol ∈ (protosOf (itemsOf lines)).map Proto.symbol := hsym ▸ List.mem_map_of_mem hi
      obtain ⟨p, hp, he⟩ := List.mem_map.mp this
      exact h p hp (by simpa [he] using hsl)
    · intro h p hp hsl
      have : p.symbol ∈ (itemsOf lines).map Item.symbol := hsym ▸ List.mem_map_of_mem hp
      obtain ⟨i, hi, he⟩ := List.mem_map.mp this
      exact h ⟨i, hi, by simpa [he] using hsl⟩
  refine ⟨toks lines, ⟨fns (protosOf (itemsOf lines)), obs (protosOf (itemsOf lines))⟩,
    astTokens_dump codes hc head hh lines hv, ?_, ?_⟩
  · rw [parse_all P S lines hv, if_neg hv0]
  · rw [parse_filter P S hPS lines hv hs (hsym ▸ hn)]
    rw [hsel]
    rw [hnf]
    simp only [hex, fns, obs, List.filter_filter, Bool.and_comm]

/-! ### Duplicates -/

/-- The collected symbols are different and no longer on the list. -/
structure Distinct (st : State) : Prop where
  nodup : ((st.protos ++ st.objs).map Proto.symbol).Nodup
  gone : ∀ p ∈ st.protos ++ st.objs, p.symbol ∉ st.list

theorem distinct_add {st : State} (h : Distinct st) {s : Str} (hs : s ∈ st.list) (p : Proto) (hp : p.symbol = s) :
    Distinct { st with list := eraseAll st.list s, protos := st.protos ++ [p] } ∧
    Distinct { st with list := eraseAll st.list s, objs := st.objs ++ [p] } := by
  obtain ⟨h1, h2⟩ := h
  have hnew : p.symbol ∉ (st.protos ++ st.objs).map Proto.symbol := by
    intro hm
    obtain ⟨q, hq, he⟩ := List.mem_map.mp hm
    exact h2 q hq (by rw [he, hp]; exact hs)
  have hall : ∀ q, q = p ∨ q ∈ st.protos ++ st.objs → q.symbol ∉ eraseAll st.list s := by
    rintro q (rfl | hq) hm
    · exact (mem_eraseAll.mp hm).2 hp
    · exact h2 q hq (mem_eraseAll.mp hm).1
  refine ⟨⟨?_, ?_⟩, ⟨?_, ?_⟩⟩
  · show ((st.protos ++ [p] ++ st.objs).map Proto.symbol).Nodup
    have : (st.protos ++ [p] ++ st.objs).Perm (p :: (st.protos ++ st.objs)) := by
      rw [List.append_assoc]; exact List.perm_middle
    rw [(this.map _).nodup_iff, List.map_cons, List.nodup_cons]
    exact ⟨hnew, h1⟩
  · intro q hq
    apply hall
    simp at hq ⊢
    grind
  · show ((st.protos ++ (st.objs ++ [p])).map Proto.symbol).Nodup
    have : (st.protos ++ (st.objs ++ [p])).Perm (p :: (st.protos ++ st.objs)) := by
      rw [← List.append_assoc]; exact List.perm_append_comm
    rw [(this.map _).nodup_iff, List.map_cons, List.nodup_cons]
    exact ⟨hnew, h1⟩
  · intro q hq
    apply hall
    simp at hq ⊢
    grind

theorem distinct_less {st : State} (h : Distinct st) (s : Str) : Distinct { st with list := eraseAll st.list s } :=
  ⟨h.nodup, fun p hp hm => h.gone p hp (mem_eraseAll.mp hm).1⟩

theorem getDeclarations_distinct (P : List Str) (text : Str) (ts : List Tok) (st : State) (h : Distinct st) :
    Distinct (getDeclarations .list P text ts st).1 := by
  unfold getDeclarations
  simp only []
  split
  · exact h
  · rename_i symbol type _
    split
    · exact h
    · rename_i list hl
      simp only [astFilter] at hl
      split at hl
      · rename_i hlt
        simp at hl
        subst hl
        have hmem := (eraseAll_lt _ _).mp hlt
        split
        · split
          · exact distinct_less h _
          · exact (distinct_add h hmem _ rfl).1
        · exact (distinct_add h hmem _ rfl).2
      · simp at hl

theorem astLoop_distinct (P : List Str) (n : Nat) : ∀ (inner : Bool) (ts : List Tok) (st : State), Distinct st →
    Distinct (astLoop .list P n inner ts st) := by
  induction n with
  | zero => intro _ _ st h; exact h
  | succ n ih =>
    intro inner ts st h
    cases ts with
    | nil => exact h
    | cons t ts =>
      rw [astLoop]
      split
      · exact ih _ _ _ h
      · split
        · exact h
        · have := getDeclarations_distinct P t.text ts st h
          split
          · rename_i heq
            rw [heq] at this
            exact ih _ _ _ this
          · rename_i heq
            rw [heq] at this
            split
            · exact this
            · exact ih _ _ _ this

/-- C14 for Clang AST input with `-S` only: whatever the scanner returns, no two symbols
    of a successful run have the same name. -/
theorem C14_no_duplicates_ast_partial (S : List Str) (ts : List Tok) (st : FilterState)
    (h : parseClangAst false [] S ts = .ok st) : ((st.protos ++ st.objs).map Proto.symbol).Nodup := by
  unfold parseClangAst at h
  simp only [Bool.false_eq_true, if_false, Bool.not_false, Bool.true_and, getFilterMode, List.length_nil,
    gt_iff_lt, Nat.lt_irrefl, decide_false, Bool.false_and] at h
  by_cases hS : 0 < S.length
  · simp only [hS, if_true, reduceCtorEq, decide_false, Bool.false_eq_true, if_false, true_or, true_and] at h
    have := astLoop_distinct [] (ts.length + 1) false ts { list := S } ⟨by simp, by simp⟩
    split at h
    · simp at h
    · split at h
      · simp at h
      · simp at h
        rw [← h]
        exact this.nodup
  · simp [hS] at h

/-! ### Concrete dumps -/

/-- A declaration line. -/
def exDecl (fn : Bool) (symbol type : Str) : ALine :=
  .decl fn '|' {} (str% "55d0c8 <a.h:1:1, col:20> col:5" ++ (' ' :: (symbol ++ (' ' :: '\'' :: (type ++ str% "'")))))
    false symbol type

/-- A parameter line. -/
def exParm (type : Str) : ALine :=
  .parm (str% "| `-") {} (str% "55d0c8 <col:9> col:12" ++ (' ' :: '\'' :: (type ++ str% "'"))) false type

/-- A text as it appears in the quotes. -/
def PlainText (s : Str) : Prop := '\'' ∉ s ∧ '\x1b' ∉ s ∧ '\r' ∉ s ∧ '\n' ∉ s

instance (s : Str) : Decidable (PlainText s) := inferInstanceAs (Decidable (_ ∧ _))

theorem noCodes : Codes.Valid {} := ⟨Or.inl rfl, Or.inl rfl, Or.inl rfl, Or.inl rfl, Or.inl rfl⟩

theorem exDecl_valid {fn : Bool} {symbol type : Str} (hs : ∀ c ∈ symbol, isWord c = true) (hne : symbol ≠ [])
    (ht : PlainText type) : (exDecl fn symbol type).Valid := by
  obtain ⟨h1, h2, h3, h4⟩ := ht
  refine ⟨Or.inl rfl, noCodes, hs, hne, h1, str% "55d0c8 <a.h:1:1, col:20> col:5", [], by decide,
    ⟨by decide, by decide⟩, ⟨h3, h4⟩, ⟨by simp, by simp⟩, ?_⟩
  apply plain_self
  have : '\x1b' ∉ symbol := fun h => absurd (hs _ h) (by decide)
  simp [h2, this]

theorem exParm_valid {type : Str} (ht : PlainText type) : (exParm type).Valid := by
  obtain ⟨h1, h2, h3, h4⟩ := ht
  refine ⟨by simp [parmMarks], noCodes, h1, str% "55d0c8 <col:9> col:12", [], by decide,
    ⟨by decide, by decide⟩, ⟨h3, h4⟩, ⟨by simp, by simp⟩, ?_⟩
  apply plain_self
  simp [h2]

/-- The dump of a list of lines. -/
def exDump (lines : List ALine) : Str := dumpText {} (str% "55d0b0 <<invalid sloc>> <invalid sloc>") lines

theorem exDump_tokens {lines : List ALine} (hv : ∀ l ∈ lines, l.Valid) :
    astTokens (exDump lines) = some (toks lines) :=
  astTokens_dump {} noCodes _ (by decide) lines hv

/-- `int foo(int, void (*)(int));`, `extern int bar[3];` -/
def exLines : List ALine :=
  [exDecl true (str% "foo") (str% "int (int, void (*)(int))"), exParm (str% "int"), exParm (str% "void (*)(int)"),
   .other (str% "| `-NonNullAttr 0x55d0c8"), exDecl false (str% "bar") (str% "int [3]")]

theorem exLines_valid : ∀ l ∈ exLines, l.Valid := by
  intro l hl
  simp only [exLines, List.mem_cons, List.not_mem_nil, or_false] at hl
  rcases hl with rfl | rfl | rfl | rfl | rfl
  · exact exDecl_valid (by decide) (by decide) (by decide)
  · exact exParm_valid (by decide)
  · exact exParm_valid (by decide)
  · exact ⟨by decide, _, plain_self (by decide), by decide⟩
  · exact exDecl_valid (by decide) (by decide) (by decide)

/-- The premises of `C57_declarations_read_partial` hold for a dump with a function and an
    object, also with coloured lines that end in CR LF, and this is the result. -/
example : (∀ l ∈ exLines, l.Valid) ∧ (∀ s t ps, Item.func s t ps ∈ itemsOf exLines → '(' ∈ t) ∧
    parseClangAst true [] [] (toks exLines) = .ok
      ⟨[{ kind := .function, type := str% "int", symbol := str% "foo", args := str% "int a1, void (*a2)(int)"
          paramNames := str% "a1, a2" }],
       [{ kind := .objectArray, type := str% "int [3]", symbol := str% "bar" }]⟩ := by
  refine ⟨exLines_valid, ?_, by decide⟩
  intro s t ps h
  simp [exLines, itemsOf, exDecl, exParm] at h
  rw [h.2.1]; decide

example : (ALine.decl true '|' ⟨str% "\x1b[0;34m", str% "\x1b[0m", str% "\x1b[0;1;32m", str% "\x1b[0m", str% "\x1b[0;33m"⟩
    (str% "5\x1b[0m <a.h> \x1b[0;1;36m foo\x1b[0m \x1b[0;32m'int (void)'\x1b[0m") true (str% "foo") (str% "int (void)")).Valid := by
  have code : ∀ k : Str, (∀ x ∈ k, isColor x = true) → IsCode ('\x1b' :: '[' :: (k ++ ['m'])) := fun k h => Or.inr ⟨k, rfl, h⟩
  refine ⟨Or.inl rfl, ⟨code (str% "0;34") (by decide), code (str% "0") (by decide), code (str% "0;1;32") (by decide),
    code (str% "0") (by decide), code (str% "0;33") (by decide)⟩, by decide, by decide, by decide,
    str% "5 <a.h> ", [], by decide, ⟨by decide, by decide⟩, ⟨by decide, by decide⟩, ⟨by decide, by decide⟩, ?_⟩
  have plainCode : ∀ (k s p : Str), (∀ x ∈ k, isColor x = true) → Plain s p → Plain ('\x1b' :: '[' :: (k ++ 'm' :: s)) p :=
    fun k s p => Plain.code k s p
  have h1 := plain_append (plain_self (s := str% "5") (by decide)) (plainCode (str% "0") _ _ (by decide)
    (plain_append (plain_self (s := str% " <a.h> ") (by decide)) (plainCode (str% "0;1;36") _ _ (by decide)
    (plain_append (plain_self (s := str% " foo") (by decide)) (plainCode (str% "0") _ _ (by decide)
    (plain_append (plain_self (s := str% " ") (by decide)) (plainCode (str% "0;32") _ _ (by decide)
    (plain_append (plain_self (s := str% "'int (void)'") (by decide)) (plainCode (str% "0") _ _ (by decide) .nil)))))))))
  exact h1

/-- The premises of `C16_filters_select_partial` with a prefix and a listed symbol. -/
example : ((itemsOf exLines).map Item.symbol).Nodup ∧ itemsOf exLines ≠ [] ∧
    (∀ s ∈ [str% "bar"], s ∈ (itemsOf exLines).map Item.symbol → ¬ ∃ e ∈ [str% "fo"], e <+: s) ∧
    parseClangAst false [str% "zz"] [str% "bar"] (toks exLines) =
      .ok ⟨[], [{ kind := .objectArray, type := str% "int [3]", symbol := str% "bar" }]⟩ := by
  refine ⟨by decide, by decide, by simp, by decide⟩

/-- The premise of `C14_no_duplicates_ast_partial`: a dump with a repeated declaration. -/
example : ∃ st, parseClangAst false [] [str% "bar"] (toks (exLines ++ exLines)) = .ok st := ⟨_, by rfl⟩

/-- C14 does not hold for Clang AST input: with `-ast-all-symbols` or a prefix a function
    that the header declares twice is there twice. -/
theorem C14_violated_ast : ∃ lines : List ALine, (∀ l ∈ lines, l.Valid) ∧ ∃ ts st,
    astTokens (exDump lines) = some ts ∧
    parseClangAst true [] [] ts = .ok st ∧ parseClangAst false [str% "fo"] [] ts = .ok st ∧
    ¬ ((st.protos ++ st.objs).map Proto.symbol).Nodup := by
  let ls := [exDecl true (str% "foo") (str% "int (void)"), exDecl true (str% "foo") (str% "int (void)")]
  have hv : ∀ l ∈ ls, l.Valid := by
    intro l hl
    simp only [ls, List.mem_cons, List.not_mem_nil, or_false, or_self] at hl
    subst hl
    exact exDecl_valid (by decide) (by decide) (by decide)
  exact ⟨ls, hv, toks ls,
    ⟨[{ kind := .function, type := str% "int", symbol := str% "foo" },
      { kind := .function, type := str% "int", symbol := str% "foo" }], []⟩,
    exDump_tokens hv, by decide, by decide, by decide⟩

/-- C16 does not hold when a listed symbol also begins with a prefix: it is reported as
    not found although it is declared. -/
theorem C16_violated : ∃ lines : List ALine, (∀ l ∈ lines, l.Valid) ∧ ∃ ts,
    astTokens (exDump lines) = some ts ∧
    str% "foo" ∈ (itemsOf lines).map Item.symbol ∧
    parseClangAst false [str% "fo"] [str% "foo"] ts = .error (.notFound [str% "foo"]) ∧
    parseClangAst false [] [str% "foo"] ts = parseClangAst true [] [] ts := by
  let ls := [exDecl true (str% "foo") (str% "int (void)")]
  have hv : ∀ l ∈ ls, l.Valid := by
    intro l hl
    simp only [ls, List.mem_cons, List.not_mem_nil, or_false] at hl
    subst hl
    exact exDecl_valid (by decide) (by decide) (by decide)
  exact ⟨ls, hv, toks ls, exDump_tokens hv, by decide, by decide, by decide⟩

/-- C57 does not hold for a function that returns a pointer to a function,
    `void (*sig(int))(int)`: the return type becomes `void`. -/
theorem C57_violated_return : ∃ lines : List ALine, (∀ l ∈ lines, l.Valid) ∧ ∃ ts,
    astTokens (exDump lines) = some ts ∧
    itemsOf lines = [.func (str% "sig") (str% "void (*(int))(int)") [str% "int"]] ∧
    parseClangAst true [] [] ts = .ok ⟨[{ kind := .function, type := str% "void", symbol := str% "sig"
                                          args := str% "int a1", paramNames := str% "a1" }], []⟩ := by
  let ls := [exDecl true (str% "sig") (str% "void (*(int))(int)"), exParm (str% "int")]
  have hv : ∀ l ∈ ls, l.Valid := by
    intro l hl
    simp only [ls, List.mem_cons, List.not_mem_nil, or_false] at hl
    rcases hl with rfl | rfl
    · exact exDecl_valid (by decide) (by decide) (by decide)
    · exact exParm_valid (by decide)
  exact ⟨ls, hv, toks ls, exDump_tokens hv, by decide, by decide⟩

/-- C57 does not hold for a parameter that is a pointer to a function pointer: the name
    is put behind the type. -/
theorem C57_violated_parameter : ∃ lines : List ALine, (∀ l ∈ lines, l.Valid) ∧ ∃ ts,
    astTokens (exDump lines) = some ts ∧
    itemsOf lines = [.func (str% "f") (str% "void (void (**)(int))") [str% "void (**)(int)"]] ∧
    parseClangAst true [] [] ts = .ok ⟨[{ kind := .function, type := str% "void", symbol := str% "f"
                                          args := str% "void (**)(int) a1", paramNames := str% "a1" }], []⟩ := by
  let ls := [exDecl true (str% "f") (str% "void (void (**)(int))"), exParm (str% "void (**)(int)")]
  have hv : ∀ l ∈ ls, l.Valid := by
    intro l hl
    simp only [ls, List.mem_cons, List.not_mem_nil, or_false] at hl
    rcases hl with rfl | rfl
    · exact exDecl_valid (by decide) (by decide) (by decide)
    · exact exParm_valid (by decide)
  exact ⟨ls, hv, toks ls, exDump_tokens hv, by decide, by decide⟩

/-! ### Variadic functions -/

/-- The function type ends in `, ...)`. -/
def Variadic (type : Str) : Prop := (str% ", ...)") <:+ type

/-- C58 does not hold: the parameters of a variadic function are read without the `...`,
    for every dump with such a function. -/
theorem C58_violated (codes : Codes) (hc : codes.Valid) (head : Str) (hh : '\n' ∉ head)
    (lines : List ALine) (hv : ∀ l ∈ lines, l.Valid) (P S : List Str)
    (symbol front rest : Str) (params : List Str)
    (hi : Item.func symbol (front ++ '(' :: rest) params ∈ itemsOf lines) (_ : Variadic (front ++ '(' :: rest))
    (ts : List Tok) (ht : astTokens (dumpText codes head lines) = some ts) :
    ∃ st p, parseClangAst true P S ts = .ok st ∧ p ∈ st.protos ∧ p.symbol = symbol ∧
      p.args = commaList (parmDecls 1 params) := by
  rw [astTokens_dump codes hc head hh lines hv] at ht
  simp at ht
  subst ht
  obtain ⟨p, hp⟩ := itemProto_isSome (i := .func symbol (front ++ '(' :: rest) params)
    (by rintro s t ps h; simp at h; rw [← h.2.1]; simp)
  have hm : p ∈ protosOf (itemsOf lines) := List.mem_filterMap.mpr ⟨_, hi, hp⟩
  have hr := itemProto_reads hp
  refine ⟨⟨fns (protosOf (itemsOf lines)), obs (protosOf (itemsOf lines))⟩, p, ?_, ?_, hr.2.1, hr.2.2.2.1⟩
  · rw [parse_all P S lines hv, if_neg (List.ne_nil_of_mem hm)]
  · exact List.mem_filter.mpr ⟨hm, by simp [hr.1]⟩

/-- `printf` becomes a function with one parameter. -/
example : parseClangAst true [] [] (toks [exDecl true (str% "printf") (str% "int (const char *, ...)"), exParm (str% "const char *")])
    = .ok ⟨[{ kind := .function, type := str% "int", symbol := str% "printf", args := str% "const char *a1"
              paramNames := str% "a1" }], []⟩ := by decide

/-! ### Listed symbols -/

/-- A symbol is still on the list or was read. -/
def Kept (s : Str) (st : State) : Prop := s ∈ st.list ∨ s ∈ (st.protos ++ st.objs).map Proto.symbol

theorem foldItem_kept {mode : FilterMode} {P : List Str} {s : Str} {i : Item} (hi : ∃ p, itemProto i = some p) (st : State)
    (h : Kept s st) : Kept s (foldItem mode P st i) := by
  obtain ⟨p, hp⟩ := hi
  have hsym := reads_symbol (itemProto_reads hp)
  have hfo : p ∈ fns [p] ∨ p ∈ obs [p] := by by_cases h : p.kind = .function <;> simp [fns, obs, h]
  have hlist : ∀ l, astFilter mode P st.list i.symbol = some l → ∀ x ∈ st.list, x ∈ l ∨ x = i.symbol := by
    intro l hl x hx
    have her : x ∈ eraseAll st.list i.symbol ∨ x = i.symbol := by
      by_cases hxs : x = i.symbol
      · exact Or.inr hxs
      · exact Or.inl (mem_eraseAll.mpr ⟨hx, hxs⟩)
    unfold astFilter at hl
    split at hl
    · split at hl <;> simp at hl; subst hl; exact Or.inl hx
    · split at hl <;> simp at hl; subst hl; exact her
    · split at hl
      · simp at hl; subst hl; exact Or.inl hx
      · split at hl <;> simp at hl; subst hl; exact her
    · simp at hl; subst hl; exact Or.inl hx
  unfold foldItem
  split
  · exact h
  · rename_i l hl
    simp only [hp]
    rcases h with h | h
    · rcases hlist l hl s h with h' | h'
      · exact Or.inl h'
      · right
        rw [h', ← hsym]
        apply List.mem_map_of_mem
        rcases hfo with h | h <;> simp [h]
    · right
      obtain ⟨q, hq, he⟩ := List.mem_map.mp h
      rw [← he]
      apply List.mem_map_of_mem
      simp at hq ⊢
      rcases hq with h | h <;> simp [h]

/-- C59: a successful run has every symbol given with `-S`, if every function type has its
    parameter list in it. -/
theorem C59_listed_symbols_read_partial (codes : Codes) (hc : codes.Valid) (head : Str) (hh : '\n' ∉ head)
    (lines : List ALine) (hv : ∀ l ∈ lines, l.Valid)
    (hf : ∀ s t ps, Item.func s t ps ∈ itemsOf lines → '(' ∈ t) (P S : List Str)
    (ts : List Tok) (ht : astTokens (dumpText codes head lines) = some ts)
    (st : FilterState) (h : parseClangAst false P S ts = .ok st) :
    ∀ s ∈ S, s ∈ (st.protos ++ st.objs).map Proto.symbol := by
  rw [astTokens_dump codes hc head hh lines hv] at ht
  simp at ht
  subst ht
  intro s hs
  have hall : ∀ is : List Item, (∀ i ∈ is, ∃ p, itemProto i = some p) → ∀ mode st, Kept s st →
      Kept s (is.foldl (foldItem mode P) st) := by
    intro is
    induction is with
    | nil => intro _ _ _ h; exact h
    | cons i is ih =>
      intro hi mode st h
      exact ih (fun i h => hi i (by simp [h])) mode _ (foldItem_kept (hi i (by simp)) st h)
  have hk := hall (itemsOf lines) (fun i hi => itemProto_isSome (by rintro s t ps rfl; exact hf _ _ _ hi))
    (getFilterMode P S) { list := S } (Or.inl hs)
  have hS : 0 < S.length := List.length_pos_iff.mpr (List.ne_nil_of_mem hs)
  have hmode : getFilterMode P S = .list ∨ getFilterMode P S = .pfxList := by
    unfold getFilterMode
    by_cases hP : 0 < P.length <;> simp [hP, hS]
  unfold parseClangAst at h
  simp only [Bool.false_eq_true, if_false, Bool.not_false, Bool.true_and, hmode, true_and] at h
  rw [astLoop_lines _ P _ lines hv false _ (by simp) (by omega)] at h
  have hnn : getFilterMode P S ≠ .none := by rcases hmode with h | h <;> rw [h] <;> simp
  rw [if_neg (by simpa using hnn)] at h
  split at h
  · simp at h
  · rename_i hl
    simp at hl
    split at h
    · simp at h
    · simp at h
      rw [← h]
      rcases hk with hk | hk
      · rw [hl] at hk; simp at hk
      · exact hk

/-- The premises of `C59_listed_symbols_read_partial`. -/
example : ∃ st, parseClangAst false [str% "zz"] [str% "bar", str% "foo"] (toks exLines) = .ok st := ⟨_, by rfl⟩

/-- C59 does not hold: a function that is declared with a type name, `typedef int fn_t(void); fn_t f;`,
    is taken off the list and left out without an error. -/
theorem C59_violated : ∃ lines : List ALine, (∀ l ∈ lines, l.Valid) ∧ ∃ ts st,
    astTokens (exDump lines) = some ts ∧
    (itemsOf lines).map Item.symbol = [str% "f", str% "g"] ∧
    parseClangAst false [] [str% "f", str% "g"] ts = .ok st ∧
    (st.protos ++ st.objs).map Proto.symbol = [str% "g"] := by
  let ls := [exDecl true (str% "f") (str% "fn_t"), exDecl true (str% "g") (str% "int (void)")]
  have hv : ∀ l ∈ ls, l.Valid := by
    intro l hl
    simp only [ls, List.mem_cons, List.not_mem_nil, or_false] at hl
    rcases hl with rfl | rfl
    · exact exDecl_valid (by decide) (by decide) (by decide)
    · exact exDecl_valid (by decide) (by decide) (by decide)
  exact ⟨ls, hv, toks ls, ⟨[{ kind := .function, type := str% "int", symbol := str% "g" }], []⟩,
    exDump_tokens hv, by decide, by decide, by decide⟩

end Gdo.Ast
