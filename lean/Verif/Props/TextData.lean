import Verif.Lemmas.CharSet
import Verif.Lemmas.ScanTok
import Verif.Props.SubstituteLines
import Verif.Props.Output

/-!
Properties C84 (the characters in the data of symbols) and C14, C15, C20 to C28 for the text
of any file.
-/

namespace Gdo.Props
open Gdo Spec

/-- The symbols have been read from the declarations of a text file, with whatever options. -/
def FromText (sy : Symbols) : Prop :=
  ∃ ro text pfx mode P S, tokenizeDecls (tokenizeStream ro text).1 (toLower pfx) mode P S = some (.ok sy)

/-- The characters that C text can have between string literals in declarations. -/
def Harmless (s : Str) : Prop := ∀ c ∈ s, (c.isAlphanum = true ∨ c = '_') ∨ c ∈ ['*', ',', '(', ')', '[', ']', '.', ' ']

theorem isWord_alphanum {c : Char} (h : isWord c = true) : c.isAlphanum = true ∨ c = '_' := by
  simp only [isWord, isAlnum, isAlpha, isUpper, isLower, isDigit, Bool.or_eq_true, Bool.and_eq_true, decide_eq_true_eq, beq_iff_eq] at h
  simp only [Char.isAlphanum, Char.isAlpha, Char.isUpper, Char.isLower, Char.isDigit, Bool.or_eq_true, Bool.and_eq_true, decide_eq_true_eq]
  rcases h with ((h | h) | h) | h
  · exact Or.inl (Or.inl (Or.inl h))
  · exact Or.inl (Or.inl (Or.inr h))
  · exact Or.inl (Or.inr h)
  · exact Or.inr h

theorem harmless_of {s : Str} (h : DeclText s) : Harmless s := fun c hc => (h c hc).imp isWord_alphanum id

/-- C84.  Whatever text is read, the data of its symbols are made of letters, digits,
    underscores, some punctuation and blanks.  Missing: the name can begin with a digit. -/
theorem C84_characters_partial (sy : Symbols) (h : FromText sy) :
    (∀ p ∈ sy.protos ++ sy.objs,
      (p.symbol ≠ [] ∧ ∀ c ∈ p.symbol, c.isAlphanum = true ∨ c = '_') ∧
      Harmless p.type ∧ Harmless p.args ∧ Harmless p.paramNames) ∧
    ∀ t ∈ sy.typedefs, Harmless t := by
  obtain ⟨ro, text, pfx, mode, P, S, h⟩ := h
  obtain ⟨h1, h2⟩ := declData_tokenize (stream_lexTok ro text) (declText_lower pfx) h
  refine ⟨fun p hp => ?_, fun t ht => harmless_of (h2 t ht)⟩
  have hd := h1 p hp
  exact ⟨⟨hd.symbol.1, fun c hc => isWord_alphanum (hd.symbol.2 c hc)⟩, harmless_of hd.type, harmless_of hd.args, harmless_of hd.names⟩

/-- A number or a keyword is accepted as the name of an object. -/
theorem C84_violated :
    (∃ sy, tokenizeDecls (tokenizeStream true (str% "int 3;\nunsigned int;\n")).1 (str% "gdo") .skip [] [] = some (.ok sy) ∧
      sy.objs.map (·.symbol) = [str% "3", str% "int"]) := ⟨_, rfl, rfl⟩

theorem harmless_not {s : Str} (h : Harmless s) {c : Char} (h1 : c.isAlphanum = false) (h2 : c ∉ ['_', '*', ',', '(', ')', '[', ']', '.', ' ']) :
    c ∉ s := by
  intro hc
  rcases h c hc with (h | h) | h
  · rw [h1] at h; cases h
  · exact h2 (by rw [h]; decide)
  · exact h2 (List.mem_cons_of_mem _ h)

theorem name_harmless {s : Str} (h : ∀ c ∈ s, c.isAlphanum = true ∨ c = '_') : Harmless s := fun c hc => Or.inl (h c hc)

/-- The data have no percent sign and no zero byte: the theorems about templates apply. -/
theorem C84_plain (sy : Symbols) (h : FromText sy) : ∀ p ∈ sy.protos ++ sy.objs, Sub.PlainData p := by
  intro p hp
  obtain ⟨⟨h0, h1⟩, h2, h3, h4⟩ := (C84_characters_partial sy h).1 p hp
  exact ⟨⟨harmless_not h2 (by decide) (by decide), harmless_not h2 (by decide) (by decide)⟩,
    ⟨harmless_not (name_harmless h1) (by decide) (by decide), h0⟩,
    harmless_not h3 (by decide) (by decide), harmless_not h4 (by decide) (by decide)⟩

/-- The data have no line end. -/
theorem C84_one_line (sy : Symbols) (h : FromText sy) : ∀ p ∈ sy.protos ++ sy.objs, Sub.OneLine p := by
  intro p hp
  obtain ⟨⟨h0, h1⟩, h2, h3, h4⟩ := (C84_characters_partial sy h).1 p hp
  exact ⟨harmless_not h2 (by decide) (by decide), harmless_not (name_harmless h1) (by decide) (by decide),
    harmless_not h3 (by decide) (by decide), harmless_not h4 (by decide) (by decide)⟩

/-- Template processing of symbols from declarations always ends. -/
theorem C28_text (cfg : Sub.Config) (sy : Symbols) (h : FromText sy) (h1 : cfg.prototypes = sy.protos) (h2 : cfg.objects = sy.objs)
    (vec : List (List Tpl.Entry)) : ∃ n r, (∀ m, n ≤ m → Sub.substitute m cfg vec = r) ∧ r ≠ .error .more :=
  Sub.C28_partial cfg (by rw [h1, h2]; exact fun p hp => Sub.noPairs_of_plain (C84_plain sy h p hp)) vec

/-- The same for a template given as a file. -/
theorem C28_custom_text (cfg : Sub.Config) (sy : Symbols) (h : FromText sy) (h1 : cfg.prototypes = sy.protos) (h2 : cfg.objects = sy.objs)
    (t : Str) : ∃ n r, (∀ m, n ≤ m → Sub.customTemplate m cfg t = r) ∧ r ≠ .error .more :=
  Sub.C28_custom_partial cfg (by rw [h1, h2]; exact fun p hp => Sub.noPairs_of_plain (C84_plain sy h p hp)) t

/-- The number of lines that `substitute` returns for symbols from declarations. -/
theorem C25_text_partial (n : Nat) (cfg : Sub.Config) (sy : Symbols) (h : FromText sy) (h1 : cfg.prototypes = sy.protos)
    (h2 : cfg.objects = sy.objs) (vec : List (List Tpl.Entry)) (he : ∀ l ∈ vec, ∀ e ∈ l, Sub.NotDropped cfg e)
    (csss : List (List (List Sub.Chunk))) (k : Nat) (hs : Sub.substitute n cfg vec = .ok (csss, k)) :
    k = nlCount (Sub.bytes csss.flatten.flatten) :=
  Sub.C25_partial n cfg vec (by rw [h1, h2]; exact C84_one_line sy h) he csss k hs

example : ∃ sy, FromText sy ∧ sy.protos.map (·.args) = [str% "const char *s, int (*cb)(void *), ..."] ∧
    sy.objs.map (·.type) = [str% "gdo_table__t"] ∧ sy.typedefs = [str% "int gdo_table__t[4]"] :=
  ⟨_, ⟨true, str% "extern int log_it(const char *s, int (*cb)(void *), ...);\nextern int table[4];\n", str% "gdo", .skip, [], [], rfl⟩,
    rfl, rfl, rfl⟩

/-! ### C14 and C15 for the text of any file -/

/-- C14 for every text file: no two entries for the same symbol. -/
theorem C14_text (ro : Bool) (text pfx : Str) (mode : ParamNames) (P S : List Str) (sy : Symbols)
    (h : tokenizeDecls (tokenizeStream ro text).1 pfx mode P S = some (.ok sy)) : ((sy.protos ++ sy.objs).map Proto.symbol).Nodup := by
  unfold tokenizeDecls at h
  simp only [Option.bind_eq_bind, Option.bind_eq_some_iff] at h
  obtain ⟨r, hr, h⟩ := h
  cases r with
  | error e => simp at h
  | ok st =>
    simp only at h
    have hn := C14_no_duplicates_partial _ (stream_lexTok ro text) mode P S st hr
    cases hc : createTypedefs pfx st.objs with
    | error e => simp [hc] at h
    | ok x =>
      obtain ⟨objs, tds⟩ := x
      simp [hc] at h
      subst h
      have : objs.map Proto.symbol = st.objs.map Proto.symbol := createTypedefs_symbols hc
      simp only [List.map_append, List.map_map] at hn ⊢
      have e : ∀ l : List Proto, l.map (Proto.symbol ∘ formatProto) = l.map Proto.symbol := fun l => rfl
      rw [e, e, this]
      exact hn

theorem formatProto_symbol (p : Proto) : (formatProto p).symbol = p.symbol := by
  unfold formatProto
  rfl

/-- C15 for every text file: if reading without filters succeeds then reading with filters
    succeeds if and only if every listed symbol exists and something is selected, and the
    result has exactly the selected symbols, with the same data and typedefs. -/
theorem C15_text (ro : Bool) (text pfx : Str) (mode : ParamNames) (P S : List Str) (all : Symbols)
    (hall : tokenizeDecls (tokenizeStream ro text).1 pfx mode [] [] = some (.ok all)) :
    ((∃ sy, tokenizeDecls (tokenizeStream ro text).1 pfx mode P S = some (.ok sy)) ↔
      (∀ s ∈ S, s ∈ (all.protos ++ all.objs).map Proto.symbol) ∧
      ∃ s ∈ (all.protos ++ all.objs).map Proto.symbol, Selected P S s) ∧
    ∀ sy, tokenizeDecls (tokenizeStream ro text).1 pfx mode P S = some (.ok sy) →
      (∀ p, p ∈ sy.protos ↔ p ∈ all.protos ∧ Selected P S p.symbol) ∧
      (∀ p, p ∈ sy.objs ↔ p ∈ all.objs ∧ Selected P S p.symbol) ∧
      (∀ t ∈ sy.typedefs, t ∈ all.typedefs) := by
  unfold tokenizeDecls at hall
  simp only [Option.bind_eq_bind, Option.bind_eq_some_iff] at hall
  obtain ⟨r, hr, h⟩ := hall
  cases r with
  | error e => simp at h
  | ok st =>
    simp only at h
    cases hc : createTypedefs pfx st.objs with
    | error e => simp [hc] at h
    | ok x =>
      have hne := createTypedefs_inv hc
      rw [createTypedefs_ok hne] at hc
      cases hc
      rw [createTypedefs_ok hne] at h
      simp only [Option.pure_def, Option.some.injEq, Except.ok.injEq] at h
      subst h
      have hs : ∀ l : List Proto, (l.map (retyped pfx)).map (Proto.symbol ∘ formatProto) = l.map Proto.symbol := fun l => by
        rw [List.map_map]
        exact List.map_congr_left fun p _ => retyped_symbol pfx p
      have hsym : ((st.protos.map formatProto ++ (st.objs.map (retyped pfx)).map formatProto).map Proto.symbol) = (st.protos ++ st.objs).map Proto.symbol := by
        rw [List.map_append, List.map_append, List.map_map, List.map_map, hs]
        rfl
      rw [hsym]
      obtain ⟨c1, c2⟩ := C15_filters_select _ (stream_lexTok ro text) mode P S st hr
      have run : ∀ st' : FilterState, gendlopenParse ((tokenizeStream ro text).1.map removeSuperfluous) mode P S = some (.ok st') →
          tokenizeDecls (tokenizeStream ro text).1 pfx mode P S =
            some (.ok ⟨st'.protos.map formatProto, (st'.objs.map (retyped pfx)).map formatProto, (st'.objs.filterMap (typedefOf pfx)).map formatPrototype⟩) := by
        intro st' h'
        have hn' : ∀ p ∈ st'.objs, typedefOf pfx p ≠ some [] := fun p hp => hne p (((c2 st' h').2.1 p).mp hp).1
        unfold tokenizeDecls
        rw [h']
        show (match createTypedefs pfx st'.objs with
          | .error s => (some (.error (.typedef s)) : Ub (Except TokenizeErr Symbols))
          | .ok (objs, tds) => some (.ok ⟨st'.protos.map formatProto, objs.map formatProto, tds.map formatPrototype⟩)) = _
        rw [createTypedefs_ok hn']
      constructor
      · rw [← c1]
        constructor
        · rintro ⟨sy, h⟩
          cases hg : gendlopenParse ((tokenizeStream ro text).1.map removeSuperfluous) mode P S with
          | none => unfold tokenizeDecls at h; rw [hg] at h; cases h
          | some x =>
            cases x with
            | error e => unfold tokenizeDecls at h; rw [hg] at h; cases h
            | ok st' => exact ⟨st', rfl⟩
        · rintro ⟨st', h'⟩
          exact ⟨_, run st' h'⟩
      · intro sy h
        cases hg : gendlopenParse ((tokenizeStream ro text).1.map removeSuperfluous) mode P S with
        | none => unfold tokenizeDecls at h; rw [hg] at h; cases h
        | some x =>
          cases x with
          | error e => unfold tokenizeDecls at h; rw [hg] at h; cases h
          | ok st' =>
            rw [run st' hg] at h
            simp only [Option.some.injEq, Except.ok.injEq] at h
            subst h
            obtain ⟨d1, d2, -⟩ := c2 st' hg
            refine ⟨fun p => ?_, fun p => ?_, fun t ht => ?_⟩
            · simp only [List.mem_map]
              constructor
              · rintro ⟨q, hq, rfl⟩
                rw [formatProto_symbol]
                exact ⟨⟨q, ((d1 q).mp hq).1, rfl⟩, ((d1 q).mp hq).2⟩
              · rintro ⟨⟨q, hq, rfl⟩, hsel⟩
                rw [formatProto_symbol] at hsel
                exact ⟨q, (d1 q).mpr ⟨hq, hsel⟩, rfl⟩
            · simp only [List.mem_map]
              constructor
              · rintro ⟨q, ⟨q0, hq, rfl⟩, rfl⟩
                refine ⟨⟨_, ⟨q0, ((d2 q0).mp hq).1, rfl⟩, rfl⟩, ?_⟩
                rw [formatProto_symbol, retyped_symbol]
                exact ((d2 q0).mp hq).2
              · rintro ⟨⟨q, ⟨q0, hq, rfl⟩, rfl⟩, hsel⟩
                refine ⟨_, ⟨q0, (d2 q0).mpr ⟨hq, ?_⟩, rfl⟩, rfl⟩
                rw [formatProto_symbol, retyped_symbol] at hsel
                exact hsel
            · simp only [List.mem_map, List.mem_filterMap] at ht ⊢
              obtain ⟨u, ⟨q, hq, hu⟩, rfl⟩ := ht
              exact ⟨u, ⟨q, ((d2 q).mp hq).1, hu⟩, rfl⟩

example : ∃ all sy,
    tokenizeDecls (tokenizeStream true (str% "int a_1(void);\nint (*b_1)(int);\nint c_1[2];\n")).1 (str% "gdo") .skip [] [] = some (.ok all) ∧
    tokenizeDecls (tokenizeStream true (str% "int a_1(void);\nint (*b_1)(int);\nint c_1[2];\n")).1 (str% "gdo") .skip [str% "a_"] [str% "c_1"] = some (.ok sy) ∧
    all.typedefs.length = 2 ∧ sy.protos.map (·.symbol) = [str% "a_1"] ∧ sy.objs.map (·.symbol) = [str% "c_1"] ∧ sy.typedefs = [str% "int gdo_c_1__t[2]"] :=
  ⟨_, _, rfl, rfl, rfl, rfl, rfl, rfl⟩

end Gdo.Props
