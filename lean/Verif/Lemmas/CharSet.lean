import Verif.Props.Filter
import Verif.Lemmas.Text
import Verif.Model.Tokenize
import Verif.Props.Prefix

/-!
The characters in the data of symbols that are read from declarations.
-/

namespace Gdo
open Spec

/-- The characters of declarations: letters, digits, underscores, punctuation and blanks. -/
def DeclChar (c : Char) : Prop := isWord c = true ∨ c ∈ ['*', ',', '(', ')', '[', ']', '.', ' ']

instance (c : Char) : Decidable (DeclChar c) := inferInstanceAs (Decidable (_ ∨ _))

/-- A text of such characters. -/
def DeclText (s : Str) : Prop := ∀ c ∈ s, DeclChar c

instance (s : Str) : Decidable (DeclText s) := inferInstanceAs (Decidable (∀ c ∈ s, DeclChar c))

/-- All texts of an entry are such texts, and the name is an identifier (or a number). -/
structure DeclData (p : Proto) : Prop where
  type : DeclText p.type
  symbol : IdentTok p.symbol
  args : DeclText p.args
  names : DeclText p.paramNames
  vec : ∀ v ∈ p.argsVec, ∀ t ∈ v, DeclText t

theorem declText_nil : DeclText [] := fun _ h => by cases h

theorem DeclText.append {a b : Str} (h1 : DeclText a) (h2 : DeclText b) : DeclText (a ++ b) := by
  intro c hc
  rcases List.mem_append.mp hc with h | h
  · exact h1 c h
  · exact h2 c h

theorem DeclText.sub {a b : Str} (h : DeclText b) (hs : ∀ c ∈ a, c ∈ b) : DeclText a := fun c hc => h c (hs c hc)

theorem declText_ident {t : Str} (h : IdentTok t) : DeclText t := fun c hc => Or.inl (h.2 c hc)

theorem declText_lexTok {t : Str} (h : LexTok t) : DeclText t := by
  rcases h with h | h | h | h | h | h | h | h
  · exact declText_ident h
  all_goals subst h; decide

theorem declText_appendStrings {b : Str} (v : Toks) (hb : DeclText b) (hv : ∀ t ∈ v, DeclText t) : DeclText (appendStrings b v) := by
  unfold appendStrings
  induction v generalizing b with
  | nil => exact hb
  | cons t v ih =>
    rw [List.foldl_cons]
    exact ih ((hb.append (hv t List.mem_cons_self)).append (by decide)) fun x hx => hv x (List.mem_cons_of_mem _ hx)

theorem declText_spaced (v : Toks) (hv : ∀ t ∈ v, DeclText t) : DeclText (spaced v) := by
  unfold spaced
  induction v with
  | nil => exact declText_nil
  | cons t v ih =>
    rw [List.map_cons, List.flatten_cons]
    exact ((hv t List.mem_cons_self).append (by decide)).append (ih fun x hx => hv x (List.mem_cons_of_mem _ hx))

/-! ### The declarations -/

theorem segments_mem {d : Int} {ts : Toks} : ∀ s ∈ segments d ts, ∀ t ∈ s, t ∈ ts := by
  induction ts generalizing d with
  | nil =>
    intro s hs t ht
    simp only [segments, List.mem_singleton] at hs
    subst hs
    cases ht
  | cons x ts ih =>
    intro s hs t ht
    unfold segments at hs
    split at hs
    · rcases List.mem_cons.mp hs with rfl | hs
      · cases ht
      · exact List.mem_cons_of_mem _ (ih s hs t ht)
    · generalize he : segments (d + delta x) ts = r at hs
      cases r with
      | nil =>
        simp only [consHead, List.mem_singleton] at hs
        subst hs
        rw [List.mem_singleton.mp ht]
        exact List.mem_cons_self
      | cons y r =>
        rcases List.mem_cons.mp hs with rfl | hs
        · rcases List.mem_cons.mp ht with rfl | ht
          · exact List.mem_cons_self
          · exact List.mem_cons_of_mem _ (ih y (by rw [he]; exact List.mem_cons_self) t ht)
        · exact List.mem_cons_of_mem _ (ih s (by rw [he]; exact List.mem_cons_of_mem _ hs) t ht)

theorem paramSegments_mem {ts : Toks} : ∀ s ∈ paramSegments ts, ∀ t ∈ s, t ∈ ts := by
  intro s hs
  unfold paramSegments at hs
  split at hs
  · exact segments_mem s (List.dropLast_subset _ hs)
  · exact segments_mem s hs

theorem declData_meaning {d : Decl} (hv : d.Valid) (h : ∀ t ∈ d.print, DeclText t) : DeclData d.meaning := by
  have par : ∀ ps : Toks, (∀ t ∈ ps, DeclText t) → ∀ v ∈ paramSegments ps, ∀ t ∈ v, DeclText t :=
    fun ps hp v hv t ht => hp t (paramSegments_mem v hv t ht)
  have hn := hv.2
  have none : ∀ v ∈ ([] : List Toks), ∀ t ∈ v, DeclText t := fun v hv => by cases hv
  cases d with
  | func T n ps =>
    have h1 : ∀ t ∈ T, DeclText t := fun t ht => h t (by simp [Decl.print, ht])
    exact ⟨declText_spaced T h1, hn, declText_nil, declText_nil, par ps fun t ht => h t (by simp [Decl.print, ht])⟩
  | funcParen T n ps =>
    have h1 : ∀ t ∈ T, DeclText t := fun t ht => h t (by simp [Decl.print, ht])
    exact ⟨declText_spaced T h1, hn, declText_nil, declText_nil, par ps fun t ht => h t (by simp [Decl.print, ht])⟩
  | funcPtr1 T n ps =>
    refine ⟨declText_spaced _ fun t ht => ?_, hn, declText_nil, declText_nil, par ps fun t ht => h t (by simp [Decl.print, ht])⟩
    apply h
    simp only [List.mem_append, List.mem_singleton] at ht
    simp only [Decl.print, List.mem_append, List.mem_cons]
    rcases ht with ht | ht <;> simp [ht]
  | funcPtr2 T n ps =>
    refine ⟨declText_spaced _ fun t ht => ?_, hn, declText_nil, declText_nil, par ps fun t ht => h t (by simp [Decl.print, ht])⟩
    apply h
    simp only [List.mem_append, List.mem_cons, List.not_mem_nil, or_false, or_self] at ht
    simp only [Decl.print, List.mem_append, List.mem_cons]
    rcases ht with ht | ht <;> simp [ht]
  | funPtrVar T n ps =>
    refine ⟨?_, hn, declText_nil, declText_nil, none⟩
    refine ((declText_spaced T fun t ht => h t (by simp [Decl.print, ht])).append (by decide)).append (declText_spaced _ fun t ht => ?_)
    simp only [List.mem_append, List.mem_singleton] at ht
    apply h
    simp only [Decl.print, List.mem_append, List.mem_cons]
    rcases ht with (ht | ht) | ht <;> simp [ht]
  | var T n =>
    exact ⟨declText_spaced T fun t ht => h t (by simp [Decl.print, ht]), hn, declText_nil, declText_nil, none⟩
  | array T n s =>
    refine ⟨declText_spaced _ fun t ht => ?_, hn, declText_nil, declText_nil, none⟩
    simp only [List.mem_append, List.mem_singleton] at ht
    apply h
    simp only [Decl.print, List.mem_append, List.mem_cons]
    rcases ht with ((ht | ht) | ht) | ht <;> simp [ht]

/-! ### Parameters -/

theorem declText_digits (n : Nat) : DeclText (natDigits n) := by
  intro c hc
  have hd := Nat.isDigit_of_mem_toDigits (b := 10) (n := n) (c := c) (by omega) (by omega) hc
  have : isDigit c = true := by
    simp only [Char.isDigit, Bool.and_eq_true, decide_eq_true_eq] at hd
    simp only [isDigit, Bool.and_eq_true, decide_eq_true_eq]
    exact hd
  exact Or.inl (by simp [isWord, isAlnum, this])

theorem declText_deleteSuffix {s suf : Str} (h : DeclText s) : DeclText (deleteSuffix s suf) := by
  unfold deleteSuffix
  split
  · exact h.sub fun c hc => List.mem_of_mem_take hc
  · exact h

theorem declText_strip {s : Str} (h : DeclText s) : DeclText (stripSpaces s) := by
  obtain ⟨-, a, b, he, -⟩ := stripSpaces_spec s
  rw [he] at h
  exact h.sub fun c hc => by simp [hc]

theorem declData_appendName {p : Proto} (h : DeclData p) (count : Nat) {sep : Str} (hs : DeclText sep) : DeclData (appendName p count sep).1 := by
  have hn : DeclText ('a' :: natDigits count) := DeclText.append (a := ['a']) (by decide) (declText_digits count)
  exact ⟨h.type, h.symbol, (h.args.append hn).append hs, (h.names.append hn).append (by decide), h.vec⟩

theorem slice_mem {v r : Toks} {i j : Nat} (h : slice v i j = some r) : ∀ t ∈ r, t ∈ v := by
  unfold slice at h
  split at h
  · cases h
    intro t ht
    exact List.mem_of_mem_drop (List.mem_of_mem_take ht)
  · cases h

theorem declData_array {v : Toks} {it : Nat} {p q : Proto} {count k : Nat} (hp : DeclData p) (hv : ∀ t ∈ v, DeclText t)
    (h : getArrayType v it p count = some (some (q, k))) : DeclData q := by
  unfold getArrayType at h
  simp only [Option.bind_eq_bind, Option.bind_eq_some_iff] at h
  obtain ⟨b, -, h⟩ := h
  cases b with
  | false => simp at h
  | true =>
    simp only [Bool.not_true, Bool.false_eq_true, if_false, Option.bind_eq_some_iff] at h
    obtain ⟨t1, h1, t2, h2, h⟩ := h
    simp only [Option.pure_def, Option.some.injEq, Prod.mk.injEq] at h
    obtain ⟨rfl, -⟩ := h
    have d1 : DeclData { p with args := appendStrings p.args t1 } :=
      ⟨hp.type, hp.symbol, declText_appendStrings t1 hp.args fun t ht => hv t (slice_mem h1 t ht), hp.names, hp.vec⟩
    have d2 := declData_appendName d1 count (sep := [' ']) (by decide)
    exact ⟨d2.type, d2.symbol, (declText_appendStrings t2 d2.args fun t ht => hv t (slice_mem h2 t ht)).append (by decide), d2.names, d2.vec⟩

theorem declData_fptr {v : Toks} {it : Nat} {p q : Proto} {count k : Nat} (hp : DeclData p) (hv : ∀ t ∈ v, DeclText t)
    (h : getFunctionPointerType v it p count = some (some (q, k))) : DeclData q := by
  unfold getFunctionPointerType at h
  simp only [Option.bind_eq_bind] at h
  rw [Option.bind_eq_some_iff] at h
  obtain ⟨b, -, h⟩ := h
  cases b with
  | none => simp at h
  | some offset =>
    simp only [Option.bind_eq_some_iff] at h
    obtain ⟨t1, h1, t2, h2, h⟩ := h
    simp only [Option.pure_def, Option.some.injEq, Prod.mk.injEq] at h
    obtain ⟨rfl, -⟩ := h
    have d1 : DeclData { p with args := appendStrings p.args t1 } :=
      ⟨hp.type, hp.symbol, declText_appendStrings t1 hp.args fun t ht => hv t (slice_mem h1 t ht), hp.names, hp.vec⟩
    have d2 := declData_appendName d1 count (sep := [' ']) (by decide)
    exact ⟨d2.type, d2.symbol, (declText_appendStrings t2 d2.args fun t ht => hv t (slice_mem h2 t ht)).append (by decide), d2.names, d2.vec⟩

theorem declData_create {v : Toks} {p q : Proto} {count k : Nat} (hp : DeclData p) (hv : ∀ t ∈ v, DeclText t)
    (h : createParameterName v p count = some (.ok (q, k))) : DeclData q := by
  unfold createParameterName at h
  cases v with
  | nil => simp at h
  | cons f rest =>
    simp only [Option.bind_eq_bind] at h
    split at h
    · simp at h
    · split at h
      · simp only [Option.pure_def, Option.some.injEq, Except.ok.injEq, Prod.mk.injEq] at h
        obtain ⟨rfl, -⟩ := h
        exact ⟨hp.type, hp.symbol, hp.args.append (by decide), hp.names.append (by decide), hp.vec⟩
      · split at h
        · simp only [Option.pure_def, Option.some.injEq, Except.ok.injEq] at h
          have d1 : DeclData { p with args := appendStrings p.args (f :: rest) } :=
            ⟨hp.type, hp.symbol, declText_appendStrings _ hp.args hv, hp.names, hp.vec⟩
          have d2 := declData_appendName d1 count (sep := str% ", ") (by decide)
          rw [h] at d2
          exact d2
        · rw [Option.bind_eq_some_iff] at h
          obtain ⟨r, hr, h⟩ := h
          cases r with
          | some r =>
            simp only [Option.pure_def, Option.some.injEq, Except.ok.injEq] at h
            subst h
            exact declData_fptr hp hv hr
          | none =>
            simp only [Option.bind_eq_some_iff] at h
            obtain ⟨r, hr, h⟩ := h
            cases r with
            | some r =>
              simp only [Option.pure_def, Option.some.injEq, Except.ok.injEq] at h
              subst h
              exact declData_array hp hv hr
            | none => simp at h

theorem declData_createLoop (vs : List Toks) : ∀ {p q : Proto} {count : Nat}, DeclData p → (∀ v ∈ vs, ∀ t ∈ v, DeclText t) →
    createParameterNamesLoop vs p count = some (.ok q) → DeclData q := by
  induction vs with
  | nil => intro p q count hp _ h; simp only [createParameterNamesLoop, Option.some.injEq, Except.ok.injEq] at h; subst h; exact hp
  | cons v vs ih =>
    intro p q count hp hv h
    simp only [createParameterNamesLoop, Option.bind_eq_bind, Option.bind_eq_some_iff] at h
    obtain ⟨x, hx, h⟩ := h
    cases x with
    | error e => simp at h
    | ok x =>
      obtain ⟨p1, c1⟩ := x
      exact ih (declData_create hp (hv v List.mem_cons_self) hx) (fun u hu => hv u (List.mem_cons_of_mem _ hu)) h

theorem declData_void {p : Proto} (h : DeclData p) : DeclData (paramVoidOrEmpty p).2 := by
  unfold paramVoidOrEmpty
  split
  · exact h
  · rename_i t ht
    split
    · exact ⟨h.type, h.symbol, h.vec [t] (by rw [ht]; simp) t (by simp), h.names, h.vec⟩
    · exact h
  · exact h

theorem declData_createNames {p q : Proto} (hp : DeclData p) (h : createParameterNames p = some (.ok q)) : DeclData q := by
  unfold createParameterNames at h
  split at h
  · simp only [Option.some.injEq, Except.ok.injEq] at h; subst h; exact hp
  · have hv := declData_void hp
    split at h
    · rename_i r hr
      rw [hr] at hv
      simp only [Option.some.injEq, Except.ok.injEq] at h
      subst h
      exact hv
    · rename_i r hr
      rw [hr] at hv
      simp only [Option.bind_eq_bind, Option.bind_eq_some_iff] at h
      obtain ⟨x, hx, h⟩ := h
      cases x with
      | error e => simp at h
      | ok x =>
        have hd := declData_createLoop r.argsVec hv hv.vec hx
        simp only [Option.pure_def, Option.some.injEq, Except.ok.injEq] at h
        subst h
        exact ⟨hd.type, hd.symbol, declText_deleteSuffix hd.args, declText_deleteSuffix hd.names, hd.vec⟩

theorem deref_mem {v : Toks} {i : Nat} {t : Str} (h : deref v i = some t) : t ∈ v := List.mem_of_getElem? h

theorem derefBack_mem {v : Toks} {i k : Nat} {t : Str} (h : derefBack v i k = some t) : t ∈ v := by
  unfold derefBack at h
  split at h
  · exact List.mem_of_getElem? h
  · cases h

theorem declText_readName {sym n : Str} {v : Toks} (hv : ∀ t ∈ v, DeclText t) (h : readParameterName sym v = some (.ok (some n))) : DeclText n := by
  unfold readParameterName at h
  split at h
  · simp at h
  · split at h <;> simp at h
  · simp only [Option.bind_eq_bind, Option.bind_eq_some_iff] at h
    obtain ⟨f, hf, b, hb, h⟩ := h
    split at h
    · simp at h
    · split at h
      · simp at h
      · rw [Option.bind_eq_some_iff] at h
        obtain ⟨c1, -, h⟩ := h
        split at h
        · simp only [Option.pure_def, Option.some.injEq, Except.ok.injEq] at h
          subst h
          exact hv _ (derefBack_mem hb)
        · rw [Option.bind_eq_some_iff] at h
          obtain ⟨c2, -, h⟩ := h
          split at h
          · rw [Option.bind_eq_some_iff] at h
            obtain ⟨x, hx, h⟩ := h
            simp only [Option.pure_def, Option.some.injEq, Except.ok.injEq] at h
            subst h
            exact hv _ (deref_mem hx)
          · rw [Option.bind_eq_some_iff] at h
            obtain ⟨c3, -, h⟩ := h
            split at h
            · rw [Option.bind_eq_some_iff] at h
              obtain ⟨x, hx, h⟩ := h
              simp only [Option.pure_def, Option.some.injEq, Except.ok.injEq] at h
              subst h
              exact hv _ (derefBack_mem hx)
            · simp at h

theorem declText_readLoop {sym : Str} (vs : List Toks) : ∀ {a b : Str}, DeclText a → (∀ v ∈ vs, ∀ t ∈ v, DeclText t) →
    readParameterNamesLoop sym vs a = some (.ok b) → DeclText b := by
  induction vs with
  | nil => intro a b ha _ h; simp only [readParameterNamesLoop, Option.some.injEq, Except.ok.injEq] at h; subst h; exact ha
  | cons v vs ih =>
    intro a b ha hv h
    simp only [readParameterNamesLoop, Option.bind_eq_bind, Option.bind_eq_some_iff] at h
    obtain ⟨x, hx, h⟩ := h
    have hr := fun u hu => hv u (List.mem_cons_of_mem _ hu)
    cases x with
    | error e => simp at h
    | ok x =>
      cases x with
      | none => exact ih ha hr h
      | some n => exact ih ((ha.append (declText_readName (hv v List.mem_cons_self) hx)).append (by decide)) hr h

theorem declData_copyArgs {p : Proto} (hp : DeclData p) : DeclData (copyArgs p) := by
  have key : ∀ (vs : List Toks) (b : Str), DeclText b → (∀ v ∈ vs, ∀ t ∈ v, DeclText t) →
      DeclText (vs.foldl (fun b v => appendStrings b v ++ str% ", ") b) := by
    intro vs
    induction vs with
    | nil => exact fun b hb _ => hb
    | cons v vs ih =>
      intro b hb hv
      exact ih _ ((declText_appendStrings v hb (hv v List.mem_cons_self)).append (by decide)) fun u hu => hv u (List.mem_cons_of_mem _ hu)
  exact ⟨hp.type, hp.symbol, declText_strip (declText_deleteSuffix (key p.argsVec p.args hp.args hp.vec)), hp.names, hp.vec⟩

theorem declData_getNames {p q : Proto} {mode : ParamNames} (hp : DeclData p) (h : getParameterNames p mode = some (.ok q)) : DeclData q := by
  unfold getParameterNames at h
  split at h
  · simp only [Option.some.injEq, Except.ok.injEq] at h; subst h; exact hp
  · have hv := declData_void hp
    split at h
    · rename_i r hr
      rw [hr] at hv
      simp only [Option.some.injEq, Except.ok.injEq] at h
      subst h
      exact hv
    · rename_i r hr
      rw [hr] at hv
      have hc := declData_copyArgs hv
      split at h
      · simp only [Option.some.injEq, Except.ok.injEq] at h
        subst h
        exact hc
      · unfold readParameterNames at h
        simp only [Option.bind_eq_bind, Option.bind_eq_some_iff] at h
        obtain ⟨x, hx, h⟩ := h
        cases x with
        | error e => simp at h
        | ok x =>
          simp only [Option.pure_def, Option.some.injEq, Except.ok.injEq] at h
          subst h
          exact ⟨hc.type, hc.symbol, hc.args, declText_deleteSuffix (declText_readLoop _ hc.names hc.vec hx), hc.vec⟩

theorem declData_doParameters {mode : ParamNames} (ps : List Proto) : ∀ {rs : List Proto}, (∀ p ∈ ps, DeclData p) →
    doParameters mode ps = some (.ok rs) → ∀ p ∈ rs, DeclData p := by
  induction ps with
  | nil => intro rs _ h; simp only [doParameters, Option.some.injEq, Except.ok.injEq] at h; subst h; intro p hp; cases hp
  | cons p ps ih =>
    intro rs hp h
    simp only [doParameters, Option.bind_eq_bind, Option.bind_eq_some_iff] at h
    obtain ⟨x, hx, h⟩ := h
    cases x with
    | error e => simp at h
    | ok x =>
      simp only [Option.bind_eq_some_iff] at h
      obtain ⟨y, hy, h⟩ := h
      cases y with
      | error e => simp at h
      | ok y =>
        simp only [Option.pure_def, Option.some.injEq, Except.ok.injEq] at h
        subst h
        intro q hq
        rcases List.mem_cons.mp hq with rfl | hq
        · split at hx
          · exact declData_createNames (hp p List.mem_cons_self) hx
          · exact declData_getNames (hp p List.mem_cons_self) hx
        · exact ih (fun q hq => hp q (List.mem_cons_of_mem _ hq)) hy q hq

/-! ### The parser -/

theorem declData_parse {vt : List Toks} (hlex : ∀ v ∈ vt, ∀ t ∈ v, LexTok t) {mode : ParamNames} {P S : List Str} {st : FilterState}
    (h : gendlopenParse vt mode P S = some (.ok st)) : ∀ p ∈ st.protos ++ st.objs, DeclData p := by
  rcases parse_cases_from vt hlex mode with ⟨e, he⟩ | ⟨ps, v, h1, h2, hv, -, hf⟩
  · rw [he] at h
    cases h
  · have hps : ∀ p ∈ ps, DeclData p := by
      intro p hp
      obtain ⟨t, ht, hc⟩ := parseTokens_mem vt h1 p hp
      obtain ⟨d, hd, rfl, rfl⟩ := C54_reading_is_a_declaration t p (hlex t ht) hc
      exact declData_meaning hd fun x hx => declText_lexTok (hlex _ ht x hx)
    have hvs := declData_doParameters ps hps h2
    rw [hf, filterSymbols_eq v hv] at h
    split at h
    · cases h
    · split at h
      · cases h
      · simp only [Option.some.injEq, Except.ok.injEq] at h
        subst h
        intro p hp
        have : p ∈ chosen P S v := by
          rcases List.mem_append.mp hp with hp | hp
          · exact (List.mem_filter.mp hp).1
          · exact (List.mem_filter.mp hp).1
        exact hvs p ((mem_chosen hv).mp this).1

/-! ### Formatting and typedefs -/

theorem declText_replace {src dst : Str} (hd : DeclText dst) (n : Nat) : ∀ {s r : Str}, DeclText s → replaceFuel src dst n s = some r → DeclText r := by
  induction n with
  | zero => intro s r _ h; cases h
  | succ n ih =>
    intro s r hs h
    rw [replaceFuel] at h
    cases hx : splitFirst src s with
    | none => simp only [replaceStep, hx, Option.map_none, Option.some.injEq] at h; subst h; exact hs
    | some x =>
      obtain ⟨a, b⟩ := x
      simp only [replaceStep, hx, Option.map_some] at h
      have he := (splitFirst_some hx).1
      rw [he] at hs
      exact ih (((hs.sub fun c hc => by simp [hc]).append hd).append (hs.sub fun c hc => by simp [hc])) h

theorem declText_replaceAll {src dst s : Str} (hd : DeclText dst) (hs : DeclText s) : DeclText (replaceAll src dst s) := by
  unfold replaceAll
  split
  · rename_i r hr
    exact declText_replace hd _ hs hr
  · exact hs

theorem declText_format {s : Str} (h : DeclText s) : DeclText (formatPrototype s) := by
  unfold formatPrototype
  have := declText_strip h
  repeat' first
    | exact this
    | apply declText_replaceAll (by decide)

theorem declText_insert {s t : Str} (hs : DeclText s) (ht : DeclText t) (n : Nat) : DeclText (insertAt s n t) :=
  ((hs.sub fun c hc => List.mem_of_mem_take hc).append ht).append (hs.sub fun c hc => List.mem_of_mem_drop hc)

theorem declText_lower (s : Str) : DeclText (toLower s) := by
  intro c hc
  left
  simp only [toLower, List.mem_map, if_true] at hc
  obtain ⟨x, -, rfl⟩ := hc
  split
  · rename_i h
    exact Pfx.toLowerC_word h
  · rfl

/-- The name of the typedef of an object. -/
def typedefName (pfx : Str) (p : Proto) : Str := pfx ++ ['_'] ++ p.symbol ++ str% "__t"

/-- The text of the typedef of an object if there is one. -/
def typedefOf (pfx : Str) (p : Proto) : Option Str :=
  if p.kind = .functionPointer then some (fptrTypedef p.type (typedefName pfx p))
  else if p.kind = .objectArray then some (arrayTypedef p.type (typedefName pfx p))
  else none

/-- The object with its new type. -/
def retyped (pfx : Str) (p : Proto) : Proto := if (typedefOf pfx p).isSome then { p with type := typedefName pfx p } else p

theorem createTypedefs_ok {pfx : Str} {ps : List Proto} (h : ∀ p ∈ ps, typedefOf pfx p ≠ some []) :
    createTypedefs pfx ps = .ok (ps.map (retyped pfx), ps.filterMap (typedefOf pfx)) := by
  induction ps with
  | nil => rfl
  | cons p ps ih =>
    have ih := ih fun q hq => h q (List.mem_cons_of_mem _ hq)
    have h0 := h p List.mem_cons_self
    unfold createTypedefs
    dsimp only
    rw [ih]
    by_cases hk : p.kind = .functionPointer
    · have e : typedefOf pfx p = some (fptrTypedef p.type (typedefName pfx p)) := by simp [typedefOf, hk]
      rw [if_pos hk]
      rw [e] at h0
      rw [if_neg (by
        intro hx
        exact h0 (congrArg some (List.isEmpty_iff.mp hx)))]
      simp [retyped, e, typedefName]
    · rw [if_neg hk]
      by_cases ha : p.kind = .objectArray
      · have e : typedefOf pfx p = some (arrayTypedef p.type (typedefName pfx p)) := by simp [typedefOf, ha]
        rw [if_pos ha]
        rw [e] at h0
        rw [if_neg (by
          intro hx
          exact h0 (congrArg some (List.isEmpty_iff.mp hx)))]
        simp [retyped, e, typedefName]
      · have e : typedefOf pfx p = none := by simp [typedefOf, hk, ha]
        rw [if_neg ha]
        simp [retyped, e]

theorem createTypedefs_inv {pfx : Str} {ps : List Proto} {x : List Proto × List Str} (h : createTypedefs pfx ps = .ok x) :
    ∀ p ∈ ps, typedefOf pfx p ≠ some [] := by
  induction ps generalizing x with
  | nil => intro p hp; cases hp
  | cons p ps ih =>
    unfold createTypedefs at h
    dsimp only at h
    cases hc : createTypedefs pfx ps with
    | error e =>
      rw [hc] at h
      split at h
      · split at h <;> cases h
      · split at h
        · split at h <;> cases h
        · cases h
    | ok y =>
      rw [hc] at h
      intro q hq
      rcases List.mem_cons.mp hq with rfl | hq
      · unfold typedefOf
        split at h
        · rename_i hk
          rw [if_pos hk]
          split at h
          · cases h
          · rename_i hx
            intro he
            apply hx
            simp only [Option.some.injEq] at he
            unfold typedefName at he
            rw [he]
            rfl
        · rename_i hk
          rw [if_neg hk]
          split at h
          · rename_i ha
            rw [if_pos ha]
            split at h
            · cases h
            · rename_i hx
              intro he
              apply hx
              simp only [Option.some.injEq] at he
              unfold typedefName at he
              rw [he]
              rfl
          · rename_i ha
            rw [if_neg ha]
            intro he
            cases he
      · exact ih hc q hq

theorem retyped_symbol (pfx : Str) (p : Proto) : (retyped pfx p).symbol = p.symbol := by
  unfold retyped
  split <;> rfl

theorem createTypedefs_symbols {pfx : Str} {ps os : List Proto} {ts : List Str} (h : createTypedefs pfx ps = .ok (os, ts)) :
    os.map Proto.symbol = ps.map Proto.symbol := by
  rw [createTypedefs_ok (createTypedefs_inv h)] at h
  cases h
  rw [List.map_map]
  exact List.map_congr_left fun p _ => retyped_symbol pfx p

theorem declData_typedefs {pfx : Str} (hpfx : DeclText pfx) (ps : List Proto) : ∀ {os : List Proto} {ts : List Str}, (∀ p ∈ ps, DeclData p) →
    createTypedefs pfx ps = .ok (os, ts) → (∀ p ∈ os, DeclData p) ∧ ∀ t ∈ ts, DeclText t := by
  induction ps with
  | nil =>
    intro os ts _ h
    simp only [createTypedefs, Except.ok.injEq, Prod.mk.injEq] at h
    obtain ⟨rfl, rfl⟩ := h
    exact ⟨fun p hp => (by cases hp), fun t ht => by cases ht⟩
  | cons p ps ih =>
    intro os ts hp h
    have h0 := hp p List.mem_cons_self
    have hr := fun q hq => hp q (List.mem_cons_of_mem _ hq)
    have hname : DeclText (pfx ++ ['_'] ++ p.symbol ++ str% "__t") :=
      ((hpfx.append (by decide)).append (declText_ident h0.symbol)).append (by decide)
    have h1 : DeclData { p with type := pfx ++ ['_'] ++ p.symbol ++ str% "__t" } := ⟨hname, h0.symbol, h0.args, h0.names, h0.vec⟩
    have made : ∀ mk : Str, DeclText mk →
        (if mk.isEmpty then (.error p.symbol : Except Str (List Proto × List Str))
         else match createTypedefs pfx ps with
          | .error e => .error e
          | .ok (os, ds) => .ok ({ p with type := pfx ++ ['_'] ++ p.symbol ++ str% "__t" } :: os, mk :: ds)) = .ok (os, ts) →
        (∀ p ∈ os, DeclData p) ∧ ∀ t ∈ ts, DeclText t := by
      intro mk hmk h
      split at h
      · cases h
      · cases hc : createTypedefs pfx ps with
        | error e => rw [hc] at h; cases h
        | ok x =>
          obtain ⟨os', ds⟩ := x
          rw [hc] at h
          cases h
          obtain ⟨i1, i2⟩ := ih hr hc
          exact ⟨fun q hq => (List.mem_cons.mp hq).elim (fun e => e ▸ h1) (i1 q),
            fun q hq => (List.mem_cons.mp hq).elim (fun e => e ▸ hmk) (i2 q)⟩
    unfold createTypedefs at h
    dsimp only at h
    split at h
    · refine made _ ?_ h
      unfold fptrTypedef
      split
      · exact declText_nil
      · split
        · exact declText_nil
        · exact declText_insert h0.type hname _
    · split at h
      · refine made _ ?_ h
        unfold arrayTypedef
        split
        · exact declText_nil
        · split
          · exact declText_insert (declText_insert h0.type (by decide) _) hname _
          · exact declText_insert h0.type hname _
      · cases hc : createTypedefs pfx ps with
        | error e => rw [hc] at h; cases h
        | ok x =>
          obtain ⟨os', ds⟩ := x
          rw [hc] at h
          cases h
          obtain ⟨i1, i2⟩ := ih hr hc
          exact ⟨fun q hq => (List.mem_cons.mp hq).elim (fun e => e ▸ h0) (i1 q), i2⟩

/-- All data of the symbols of a text input. -/
theorem declData_tokenize {vec : List Toks} (hlex : ∀ v ∈ vec.map removeSuperfluous, ∀ t ∈ v, LexTok t) {pfx : Str} (hpfx : DeclText pfx)
    {mode : ParamNames} {P S : List Str} {sy : Symbols} (h : tokenizeDecls vec pfx mode P S = some (.ok sy)) :
    (∀ p ∈ sy.protos ++ sy.objs, DeclData p) ∧ ∀ t ∈ sy.typedefs, DeclText t := by
  unfold tokenizeDecls at h
  simp only [Option.bind_eq_bind, Option.bind_eq_some_iff] at h
  obtain ⟨r, hr, h⟩ := h
  cases r with
  | error e => simp at h
  | ok st =>
    simp only at h
    have hd := declData_parse hlex hr
    cases hc : createTypedefs pfx st.objs with
    | error e => simp [hc] at h
    | ok x =>
      obtain ⟨objs, tds⟩ := x
      simp [hc] at h
      subst h
      obtain ⟨h1, h2⟩ := declData_typedefs hpfx st.objs (fun p hp => hd p (List.mem_append_right _ hp)) hc
      have hf : ∀ p : Proto, DeclData p → DeclData (formatProto p) := fun p hp =>
        ⟨declText_format hp.type, hp.symbol, declText_format hp.args, hp.names, hp.vec⟩
      constructor
      · intro p hp
        simp only [List.mem_append, List.mem_map] at hp
        rcases hp with ⟨q, hq, rfl⟩ | ⟨q, hq, rfl⟩
        · exact hf q (hd q (List.mem_append_left _ hq))
        · exact hf q (h1 q hq)
      · intro t ht
        obtain ⟨q, hq, rfl⟩ := List.mem_map.mp ht
        exact declText_format (h2 q hq)

end Gdo
