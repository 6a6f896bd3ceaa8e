import Verif.Props.Program
import Verif.Props.Ast

/-! Property C83: the message about symbols that do not exist. -/

namespace Gdo.Program
open Gdo Opt Gen Cmd Spec Props

theorem decls_symbols {vec : List Toks} {pfx : Str} {mode : ParamNames} {P S : List Str} {all : Symbols}
    (h : tokenizeDecls vec pfx mode P S = some (.ok all)) :
    ∃ st, gendlopenParse (vec.map removeSuperfluous) mode P S = some (.ok st) ∧
      (all.protos ++ all.objs).map Proto.symbol = (st.protos ++ st.objs).map Proto.symbol := by
  unfold tokenizeDecls at h
  simp only [Option.bind_eq_bind, Option.bind_eq_some_iff] at h
  obtain ⟨r, hr, h⟩ := h
  cases r with
  | error e => simp at h
  | ok st =>
    refine ⟨st, hr, ?_⟩
    simp only at h
    cases hc : createTypedefs pfx st.objs with
    | error e => simp [hc] at h
    | ok x =>
      obtain ⟨objs, tds⟩ := x
      simp only [hc, Option.pure_def, Option.some.injEq, Except.ok.injEq] at h
      subst h
      have : objs.map Proto.symbol = st.objs.map Proto.symbol := createTypedefs_symbols hc
      have e : ∀ l : List Proto, (l.map formatProto).map Proto.symbol = l.map Proto.symbol := fun l => by
        rw [List.map_map]
        rfl
      rw [List.map_append, List.map_append, e, e, this]

/-- Symbols given with `-S` that the input does not declare: the message lists each of them
    once, in alphabetical order, and no others. -/
theorem C83_missing (ro : Bool) (text pfx : Str) (mode : ParamNames) (P S : List Str) (all : Symbols) (names : List Str)
    (hall : tokenizeDecls (tokenizeStream ro text).1 pfx mode [] [] = some (.ok all))
    (hord : names.Pairwise Before) (hmem : ∀ s, s ∈ names ↔ s ∈ S ∧ s ∉ (all.protos ++ all.objs).map Proto.symbol) (hne : names ≠ []) :
    ∃ l, tokenizeDecls (tokenizeStream ro text).1 pfx mode P S = some (.error (.parse (.notFound l))) ∧
      notFoundMsg l = str% "the following symbols were not found:" ++ (names.map (' ' :: ·)).flatten := by
  obtain ⟨st, hst, hsym⟩ := decls_symbols hall
  rw [hsym] at hmem
  rcases parse_cases _ (stream_lexTok ro text) mode with ⟨e, he⟩ | ⟨v, hv, hvne, hf⟩
  · rw [he] at hst; simp at hst
  · have hch0 : chosen [] [] v = v := by simp [chosen]
    rw [hf, filterSymbols_eq v hv, hch0] at hst
    simp [hvne] at hst
    subst hst
    have hnames : ∀ s, s ∈ (fns v ++ obs v).map Proto.symbol ↔ s ∈ v.map Proto.symbol := by
      intro s
      simp only [List.mem_map, List.mem_append, fns, obs, List.mem_filter]
      grind
    simp only [hnames] at hmem
    have hl : ∀ s, s ∈ S.filter (fun s => decide (s ∉ v.map Proto.symbol)) ↔ s ∈ names := by
      intro s
      rw [List.mem_filter, hmem]
      simp only [decide_eq_true_eq]
    have hl1 : S.filter (fun s => decide (s ∉ v.map Proto.symbol)) ≠ [] := by
      intro h
      obtain ⟨x, hx⟩ := List.exists_mem_of_ne_nil names hne
      have := (hl x).mpr hx
      rw [h] at this
      cases this
    refine ⟨S.filter (fun s => decide (s ∉ v.map Proto.symbol)), ?_, ?_⟩
    · have hg := hf P S
      rw [filterSymbols_eq v hv, if_pos hl1] at hg
      unfold tokenizeDecls
      rw [hg]
      rfl
    · have : sortDedup (S.filter (fun s => decide (s ∉ v.map Proto.symbol))) = names :=
        strict_unique (sortDedup_strict _) hord fun x => by rw [sortDedup_mem, hl]
      unfold notFoundMsg
      rw [this]

/-- The same for the program: status 1, the message, and nothing written. -/
theorem C83_program (w : World) (win : Bool) (argv : List Str) (node : Nat → Option Node) (s s' : Settings) (ws : List Str) (text : Str)
    (hp : parseCmdline win argv = some (some (.settings s ws))) (hin : s.input ≠ []) (hstd : ¬ (s.input = str% "-" ∧ s.customTemplate = str% "-"))
    (hread : w.env.read s.input = some text) (heof : (tokenizeStream s.readOptions text).2.2 = .eof)
    (hopt : applyOptions s (tokenizeStream s.readOptions text).2.1 = .ok s') (all : Symbols) (names : List Str)
    (hall : tokenizeDecls (tokenizeStream s.readOptions text).1 (toLower s'.pfx) s'.names [] [] = some (.ok all))
    (hord : names.Pairwise Before) (hmem : ∀ x, x ∈ names ↔ x ∈ s.symbolList ∧ x ∉ (all.protos ++ all.objs).map Proto.symbol)
    (hne : names ≠ []) :
    main w win argv node =
      .exit 1 (w.prog ++ str% ": error: the following symbols were not found:" ++ (names.map (' ' :: ·)).flatten ++ str% "\n") (start node) := by
  have hsame := applyOptions_same hopt
  rw [← hsame.symbolList] at hmem
  obtain ⟨l, h1, h2⟩ := C83_missing s.readOptions text (toLower s'.pfx) s'.names s'.prefixList s'.symbolList all names hall hord hmem hne
  have ht : tokenize w s = some (.error (.parse (inputName s') (.notFound l))) := by
    unfold tokenize
    rw [if_neg (by simpa [List.isEmpty_iff] using hin), if_neg hstd, hread]
    dsimp only
    generalize tokenizeStream s.readOptions text = r at heof hopt h1
    obtain ⟨a, b, c⟩ := r
    dsimp only at heof hopt h1
    subst heof
    dsimp only
    unfold readText
    rw [hopt]
    dsimp only
    rw [h1]
    rfl
  cases argv with
  | nil => cases win <;> cases hp
  | cons a r =>
    unfold main
    rw [hp]
    dsimp only
    unfold process
    rw [ht]
    dsimp only
    unfold report
    simp only [Err.what, h2, Err.isCmd]
    simp

/-- The example: `c` and `a` do not exist. -/
example : ∃ all, tokenizeDecls (tokenizeStream true (str% "int b(void);\nint d;\n")).1 (str% "gdo") .skip [] [] = some (.ok all) ∧
    [str% "a", str% "c"].Pairwise Before ∧
    (∀ x, x ∈ [str% "a", str% "c"] ↔ x ∈ [str% "c", str% "b", str% "a", str% "c"] ∧ x ∉ (all.protos ++ all.objs).map Proto.symbol) := by
  refine ⟨_, rfl, ?_, ?_⟩
  · refine List.pairwise_cons.mpr ⟨fun x hx => ?_, List.pairwise_singleton _ _⟩
    rw [List.mem_singleton] at hx
    subst hx
    exact strLt_iff.mp (by decide)
  · intro x
    show x ∈ [str% "a", str% "c"] ↔ x ∈ [str% "c", str% "b", str% "a", str% "c"] ∧ x ∉ [str% "b", str% "d"]
    simp only [List.mem_cons, List.not_mem_nil, or_false]
    constructor
    · rintro (rfl | rfl) <;> decide
    · rintro ⟨rfl | rfl | rfl | rfl, h⟩
      · exact Or.inr rfl
      · exact absurd (Or.inl rfl) h
      · exact Or.inl rfl
      · exact Or.inr rfl

/-- With a Clang AST as input and both `-P` and `-S` the message can name a symbol that
    exists. -/
theorem C83_violated : ∃ lines : List ALine, (∀ l ∈ lines, l.Valid) ∧ ∃ ts,
    Ast.astTokens (Ast.exDump lines) = some ts ∧ str% "foo" ∈ (itemsOf lines).map Item.symbol ∧
    ∃ l, Ast.parseClangAst false [str% "fo"] [str% "foo"] ts = .error (.notFound l) ∧
      notFoundMsg l = str% "the following symbols were not found: foo" := by
  obtain ⟨lines, hv, ts, h1, h2, h3, -⟩ := Ast.C16_violated
  exact ⟨lines, hv, ts, h1, h2, _, h3, by decide⟩

end Gdo.Program
