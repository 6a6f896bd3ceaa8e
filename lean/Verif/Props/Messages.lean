import Verif.Props.Missing

/-!
Property C85: a run that fails names what is wrong, and where.
-/

namespace Gdo.Program
open Gdo Opt Gen Cmd

/-- What the messages call the input. -/
def Called (s : Settings) (name : Str) : Prop :=
  (s.input = str% "-" ∧ name = str% "<STDIN>") ∨ (s.input ≠ str% "-" ∧ name = str% "file: " ++ s.input)

theorem called_iff {s : Settings} {name : Str} : Called s name ↔ name = inputName s := by
  unfold Called inputName
  split
  · rename_i h; simp [h]
  · rename_i h; simp [h]

/-- The whole text on standard error. -/
def errorText (w : World) (what : Str) : Str := w.prog ++ str% ": error: " ++ what ++ str% "\n"

theorem settings_input {win : Bool} {prog : Str} {args : List Str} (hc : CStrs args) {s : Settings} {ws : List Str}
    (hp : parseCmdline win (prog :: args) = some (some (.settings s ws))) : s.input ≠ [] := by
  obtain ⟨es, -, ho⟩ := C38_complete win prog hc hp
  unfold outcome at ho
  split at ho
  · cases ho
  · split at ho
    · cases ho; simp
    · cases ho

theorem report_plain (w : World) (a : Str) (e : Err) (st : Gen.State) (h : e.isCmd = false) : report w a e st = .exit 1 (errorText w (e.what w)) st := by
  unfold report errorText
  rw [h]
  simp

theorem main_error {w : World} {win : Bool} {a : Str} {r : List Str} {node : Nat → Option Node} {s : Settings} {ws : List Str} {e : Err}
    (hp : parseCmdline win (a :: r) = some (some (.settings s ws))) (ht : tokenize w s = some (.error e)) (he : e.isCmd = false) :
    main w win (a :: r) node = .exit 1 (errorText w (e.what w)) (start node) := by
  unfold main
  rw [hp]
  dsimp only
  unfold process
  rw [ht]
  exact report_plain w a e _ he

/-- The input cannot be read. -/
theorem C85_unreadable (w : World) (win : Bool) (prog : Str) (args : List Str) (node : Nat → Option Node) (hc : CStrs args) (s : Settings) (ws : List Str)
    (hp : parseCmdline win (prog :: args) = some (some (.settings s ws))) (hstd : ¬ (s.input = str% "-" ∧ s.customTemplate = str% "-"))
    (hread : w.env.read s.input = none) (name : Str) (hn : Called s name) :
    main w win (prog :: args) node = .exit 1 (errorText w (name ++ str% "\nfailed to open file for reading")) (start node) := by
  rw [called_iff] at hn
  subst hn
  refine main_error (e := .openInput (inputName s)) hp ?_ rfl
  unfold tokenize
  rw [if_neg (by simpa [List.isEmpty_iff] using settings_input hc hp), if_neg hstd, hread]
  rfl

/-- Input and template cannot both come from standard input. -/
theorem C85_stdin (w : World) (win : Bool) (prog : Str) (args : List Str) (node : Nat → Option Node) (s : Settings) (ws : List Str)
    (hp : parseCmdline win (prog :: args) = some (some (.settings s ws))) (h1 : s.input = str% "-") (h2 : s.customTemplate = str% "-") :
    main w win (prog :: args) node = .exit 1 (errorText w (str% "cannot read input file and custom template both from STDIN")) (start node) := by
  refine main_error (e := .bothStdin) hp ?_ rfl
  unfold tokenize
  rw [if_neg (by rw [h1]; simp), if_pos ⟨h1, h2⟩]
  rfl

/-- Either of them can. -/
theorem C85_stdin_once (w : World) (s : Settings) (h1 : s.input ≠ str% "-" ∨ s.customTemplate ≠ str% "-") :
    tokenize w s ≠ some (.error .bothStdin) := by
  intro h
  unfold tokenize at h
  split at h
  · cases h
  · split at h
    · rename_i h2
      rcases h1 with h1 | h1
      · exact h1 h2.1
      · exact h1 h2.2
    · split at h
      · cases h
      · split at h
        · unfold scanFailed at h
          split at h
          · cases h
          · rename_i x hx
            cases hx' : x.text w.signedChar with
            | none => rw [hx'] at h; cases h
            | some t => rw [hx'] at h; cases h
        · rename_i text _ _
          unfold readAst at h
          simp only [pure, Option.some.injEq] at h
          split at h
          · cases h
          · split at h <;> cases h
        · rename_i vec options e
          unfold readText at h
          split at h
          · rename_i e he
            unfold applyOptions at he
            split at he
            · split at he <;> cases he
              cases h
            · cases he
          · rename_i s1 _
            obtain ⟨r, hr⟩ := tokenizeDecls_some vec (toLower s1.pfx) s1.names s1.prefixList s1.symbolList
            rw [hr] at h
            dsimp only [Option.bind_eq_bind, Option.bind_some] at h
            split at h <;> cases h

/-- How a character is shown. -/
def shown (c : Char) : Str := if 33 ≤ c.toNat ∧ c.toNat ≤ 126 then [c] else str% "0x" ++ Lex.hexByte c

theorem illegal_text (signed : Bool) (c : Char) (l : Nat) (h : ¬ (signed = true ∧ 128 ≤ c.toNat)) :
    (Lex.ScanErr.illegal c l).text signed = some (str% "illegal character [" ++ shown c ++ str% "] at line " ++ natDigits l) := by
  have hg : Lex.isGraph c = true ↔ 33 ≤ c.toNat ∧ c.toNat ≤ 126 := by
    simp only [Lex.isGraph, Bool.and_eq_true, decide_eq_true_eq]
    exact Iff.rfl
  unfold Lex.ScanErr.text shown
  dsimp only
  rw [if_neg h]
  by_cases hc : 33 ≤ c.toNat ∧ c.toNat ≤ 126
  · rw [if_pos (hg.mpr hc), if_pos hc]
  · rw [if_neg (fun h => hc (hg.mp h)), if_neg hc]
    simp

/-- The input cannot be scanned: the message has the file, the place and the reason.  (If
    `char` is signed the message about a byte above 127 is undefined, see C82.) -/
theorem C85_scan_partial (w : World) (win : Bool) (prog : Str) (args : List Str) (node : Nat → Option Node) (hc : CStrs args) (s : Settings) (ws : List Str)
    (hp : parseCmdline win (prog :: args) = some (some (.settings s ws))) (hstd : ¬ (s.input = str% "-" ∧ s.customTemplate = str% "-"))
    (text : Str) (hread : w.env.read s.input = some text) (herr : (tokenizeStream s.readOptions text).2.2 = .error)
    (h1 : w.signedChar = false ∨ ∀ c ∈ text, c.toNat < 128) (name : Str) (hn : Called s name) :
    ∃ pre post reason, text = pre ++ post ∧
      main w win (prog :: args) node = .exit 1 (errorText w (name ++ str% "\n" ++ reason)) (start node) ∧
      ((∃ c, post.head? = some c ∧ reason = str% "illegal character [" ++ shown c ++ str% "] at line " ++ natDigits (1 + pre.count '\n')) ∨
       (Lex.DumpLine post ∧ reason = str% "begin of Clang AST found at line " ++ natDigits (1 + pre.count '\n') ++ str% " instead of line 1")) := by
  rw [called_iff] at hn
  subst hn
  have hx := (Props.C82_reported _ _).mp herr
  cases he : Lex.scanError s.readOptions text with
  | none => exact absurd he hx
  | some x =>
    have ht : ∀ t, x.text w.signedChar = some t → tokenize w s = some (.error (.scan (inputName s) (some t))) := by
      intro t ht
      unfold tokenize
      rw [if_neg (by simpa [List.isEmpty_iff] using settings_input hc hp), if_neg hstd, hread]
      dsimp only
      generalize tokenizeStream s.readOptions text = r at herr
      obtain ⟨a, b, c⟩ := r
      dsimp only at herr
      subst herr
      dsimp only
      unfold scanFailed
      rw [he]
      dsimp only
      rw [ht]
      rfl
    cases x with
    | illegal c l =>
      obtain ⟨pre, post, h2, h3, -⟩ := Props.C82_located _ _ _ _ he
      have hno : ¬ (w.signedChar = true ∧ 128 ≤ c.toNat) := by
        rintro ⟨a, b⟩
        rcases h1 with h1 | h1
        · rw [h1] at a; cases a
        · have := h1 c (by rw [h2]; simp)
          omega
      subst h3
      exact ⟨pre, c :: post, _, h2, main_error hp (ht _ (illegal_text _ _ _ hno)) rfl, Or.inl ⟨c, rfl, rfl⟩⟩
    | notFirst l =>
      obtain ⟨pre, post, h2, -, h3, h4⟩ := Props.C82_dump _ _ _ he
      subst h4
      exact ⟨pre, post, _, h2, main_error hp (ht _ rfl) rfl, Or.inr ⟨h3, rfl⟩⟩

/-- The message for an input that cannot be scanned always has a reason. -/
theorem C85_scan_reason (w : World) (s : Settings) (n : Str) : tokenize w s ≠ some (.error (.scan n none)) := by
  intro h
  unfold tokenize at h
  split at h
  · cases h
  · split at h
    · cases h
    · split at h
      · cases h
      · rename_i text _
        split at h
        · rename_i hst
          unfold scanFailed at h
          split at h
          · rename_i hx
            exact (Props.C82_reported s.readOptions text).mp (by rw [hst]) hx
          · rename_i x hx
            cases hx' : x.text w.signedChar with
            | none => rw [hx'] at h; cases h
            | some t => rw [hx'] at h; cases h
        · unfold readAst at h
          simp only [pure, Option.some.injEq] at h
          split at h
          · cases h
          · split at h <;> cases h
        · rename_i vec options e
          unfold readText at h
          split at h
          · rename_i e he
            unfold applyOptions at he
            split at he
            · split at he <;> cases he
              cases h
            · cases he
          · rename_i s1 _
            cases hr : tokenizeDecls vec (toLower s1.pfx) s1.names s1.prefixList s1.symbolList with
            | none => rw [hr] at h; cases h
            | some r =>
              rw [hr] at h
              dsimp only [Option.bind_eq_bind, Option.bind_some] at h
              split at h
              · cases h
              · cases h
              · unfold tokenizeDecls at hr
                cases hg : gendlopenParse (vec.map removeSuperfluous) s1.names s1.prefixList s1.symbolList with
                | none => rw [hg] at hr; cases hr
                | some x =>
                  rw [hg] at hr
                  dsimp only [Option.bind_eq_bind, Option.bind_some] at hr
                  split at hr
                  · cases hr
                  · split at hr <;> cases hr
              · cases h

/-- The names of `%option` entries with a value. -/
def valueOptions : List Str := [str% "D", str% "format", str% "include", str% "library", str% "param", str% "prefix"]

theorem parseOption_named (s : Settings) {tok : Str} (h : ∀ e, ¬ optionEvent tok e) :
    ((∃ n ∈ valueOptions, tok = n ++ str% "=") → parseOption s tok = .error (.error (.optionArgument tok))) ∧
    ((¬ ∃ n ∈ valueOptions, tok = n ++ str% "=") → parseOption s tok = .error (.error (.optionUnknown tok))) := by
  constructor
  · rintro ⟨n, hn, rfl⟩
    simp only [valueOptions, List.mem_cons, List.not_mem_nil, or_false] at hn
    rcases hn with rfl | rfl | rfl | rfl | rfl | rfl <;> rfl
  · intro hno
    have hf : ∀ n ∈ [str% "line", str% "no-date", str% "no-pragma-once"], tok ≠ n := by
      rintro n hn rfl
      exact h _ (.inl ⟨rfl, hn⟩)
    have hg : ∀ n ∈ valueOptions, getOption tok (n ++ str% "=") = .ok none := by
      intro n hn
      refine getOption_none ?_
      rintro ⟨v, hv⟩
      have e : tok = n ++ '=' :: v := by simp [← hv]
      by_cases hv0 : v = []
      · subst hv0; exact hno ⟨n, hn, e⟩
      · exact h _ (.inr ⟨n, v, rfl, e, hv0, hn⟩)
    simp only [valueOptions, List.mem_cons, List.not_mem_nil, or_false, forall_eq_or_imp, forall_eq] at hf hg
    obtain ⟨f1, f2, f3⟩ := hf
    obtain ⟨g1, g2, g3, g4, g5, g6⟩ := hg
    simp only [List.cons_append, List.nil_append] at g1 g2 g3 g4 g5 g6
    simp only [parseOption, f1, f2, f3, if_false, optionHandlers, optionDispatch]
    simp [g1, g2, g3, g4, g5, g6, bind, Except.bind]

/-- A `%option` entry that does not exist, or has no value. -/
theorem C85_option (w : World) (win : Bool) (prog : Str) (args : List Str) (node : Nat → Option Node) (hc : CStrs args) (s : Settings) (ws : List Str)
    (hp : parseCmdline win (prog :: args) = some (some (.settings s ws))) (hstd : ¬ (s.input = str% "-" ∧ s.customTemplate = str% "-"))
    (text : Str) (hread : w.env.read s.input = some text) (vec : List Toks) (pre post : List Str) (tok : Str)
    (ht : tokenizeStream s.readOptions text = (vec, pre ++ tok :: post, .eof)) (hro : s.readOptions = true)
    (s1 : Settings) (hs1 : parseOptions s pre = .ok s1) (h : ∀ e, ¬ optionEvent tok e) :
    ∃ reason, main w win (prog :: args) node = .exit 1 (errorText w (reason ++ tok)) (start node) ∧
      ((∃ n ∈ valueOptions, tok = n ++ str% "=") ∧ reason = str% "%option string requires an argument: " ∨
       (¬ ∃ n ∈ valueOptions, tok = n ++ str% "=") ∧ reason = str% "unknown %option string: ") := by
  have hrun : ∀ e, parseOption s1 tok = .error (.error e) → tokenize w s = some (.error (.option e)) := by
    intro e he
    rw [tokenize_text (settings_input hc hp) hstd hread ht]
    unfold readText applyOptions
    rw [if_pos hro]
    have : parseOptions s (pre ++ tok :: post) = .error (.error e) := by
      have : parseOptions s (pre ++ tok :: post) =
          (match parseOptions s pre with | .error x => .error x | .ok s => parseOptions s (tok :: post)) := by
        simp only [parseOptions, List.foldlM_append]
        cases List.foldlM parseOption s pre <;> rfl
      rw [this, hs1]
      dsimp only
      rw [parseOptions_cons, he]
    rw [this]
    rfl
  by_cases hn : ∃ n ∈ valueOptions, tok = n ++ str% "="
  · exact ⟨_, main_error hp (hrun _ ((parseOption_named s1 h).1 hn)) rfl, Or.inl ⟨hn, rfl⟩⟩
  · exact ⟨_, main_error hp (hrun _ ((parseOption_named s1 h).2 hn)) rfl, Or.inr ⟨hn, rfl⟩⟩

/-- A value of `-format` or `-param` that does not exist. -/
theorem C85_value (w : World) (win : Bool) (prog : Str) (args : List Str) (node : Nat → Option Node) (hc : CStrs args) (es post : List Event) (n v : Str)
    (hr : Reads win args (es ++ .value n v :: post)) (st : Cmd.State) (hst : eventsEffect {} es = .ok st) (reason : Str)
    (h : (n = str% "format" ∧ formatNames.lookup (lower v) = none ∧ reason = str% "unknown output format: " ++ v) ∨
      (n = str% "param" ∧ modeNames.lookup (lower v) = none ∧ reason = str% "parameter_names: unknown mode: " ++ v)) :
    main w win (prog :: args) node = .exit 1 (errorText w reason) (start node) := by
  have hpar := C38_effect win prog hc hr
  have hev : ∀ e, valueEffect n v st.settings = .error e → eventsEffect {} (es ++ .value n v :: post) = .error e := by
    intro e he
    unfold eventsEffect at hst ⊢
    rw [List.foldlM_append, hst]
    show (eventEffect st (.value n v) >>= _) = _
    unfold eventEffect
    dsimp only
    rw [he]
    rfl
  have key : ∃ e, valueEffect n v st.settings = .error (.error e) ∧ optMsg e = reason ∧ (Err.cmd e).isCmd = false := by
    rcases h with ⟨rfl, h, rfl⟩ | ⟨rfl, h, rfl⟩
    · exact ⟨.format v, by simp [valueEffect, h], rfl, rfl⟩
    · exact ⟨.mode v, by simp [valueEffect, h], rfl, rfl⟩
  obtain ⟨e, h1, h2, h3⟩ := key
  rw [hev _ h1] at hpar
  unfold main
  rw [hpar]
  show report w prog (.cmd e) (start node) = _
  rw [report_plain _ _ _ _ h3]
  unfold Err.what
  dsimp only
  rw [h2]

/-- A symbol that is declared twice is named; the first one of them that is. -/
theorem C85_duplicates (w : World) (win : Bool) (prog : Str) (args : List Str) (node : Nat → Option Node) (hc : CStrs args) (s s' : Settings) (ws : List Str)
    (hp : parseCmdline win (prog :: args) = some (some (.settings s ws))) (hstd : ¬ (s.input = str% "-" ∧ s.customTemplate = str% "-"))
    (text : Str) (hread : w.env.read s.input = some text) (vec : List Toks) (options : List Str)
    (ht : tokenizeStream s.readOptions text = (vec, options, .eof)) (hopt : applyOptions s options = .ok s')
    (ps qs : List Proto) (p : Proto) (hps : parseTokens (vec.map removeSuperfluous) = some (some (ps ++ p :: qs)))
    (h1 : (ps.map Proto.symbol).Nodup) (h2 : p.symbol ∈ ps.map Proto.symbol) (name : Str) (hn : Called s name) :
    main w win (prog :: args) node =
      .exit 1 (errorText w (name ++ str% "\nmultiple definitions of symbol `" ++ p.symbol ++ str% "' found")) (start node) := by
  rw [called_iff] at hn
  subst hn
  have hm : multipleDefinitions (ps ++ p :: qs) = some p.symbol := by
    have key : ∀ (ps e : List Proto), (ps.map Proto.symbol).Nodup → (∀ a ∈ ps, ∀ b ∈ e, a.symbol ≠ b.symbol) →
        p.symbol ∈ (e ++ ps).map Proto.symbol → multipleDefinitionsAux e (ps ++ p :: qs) = some p.symbol := by
      intro ps
      induction ps with
      | nil =>
        intro e _ _ hm
        simp only [List.append_nil, List.mem_map] at hm
        obtain ⟨q, hq, he⟩ := hm
        simp only [List.nil_append, multipleDefinitionsAux]
        rw [if_pos]
        rw [List.any_eq_true]
        exact ⟨q, hq, by simp [he]⟩
      | cons a ps ih =>
        intro e h1 h2 h3
        simp only [List.cons_append, multipleDefinitionsAux]
        rw [if_neg]
        · rw [List.map_cons, List.nodup_cons] at h1
          refine ih _ h1.2 ?_ (by simpa using h3)
          intro b hb c hcm
          rw [List.mem_append, List.mem_singleton] at hcm
          rcases hcm with hcm | rfl
          · exact h2 b (List.mem_cons_of_mem _ hb) c hcm
          · intro he
            exact h1.1 (he ▸ List.mem_map_of_mem hb)
        · rw [List.any_eq_true]
          rintro ⟨q, hq, he⟩
          exact h2 a List.mem_cons_self q hq (by simpa using he)
    exact key ps [] h1 (by simp) (by simpa using h2)
  have hsame := applyOptions_same hopt
  refine main_error (e := .parse (inputName s) (.multipleDefinitions p.symbol)) hp ?_ rfl
  rw [tokenize_text (settings_input hc hp) hstd hread ht]
  unfold readText
  rw [hopt]
  dsimp only
  unfold tokenizeDecls gendlopenParse
  rw [hps]
  simp only [Option.bind_eq_bind, Option.bind_some]
  rw [show (ps ++ p :: qs).isEmpty = false by cases ps <;> rfl, hm]
  have : inputName s' = inputName s := by unfold inputName; rw [hsame.input]
  rw [← this]
  rfl

/-- The file that is written first: the output file, or the header. -/
def firstPath (s : Settings) : Str := if s.customTemplate = [] then (outputPaths s).1 else s.output

/-- The templates that are used can be read. -/
def Templates (w : World) (s : Settings) : Prop :=
  if s.customTemplate = [] then Readable w.env s else (w.env.read s.customTemplate).isSome

/-- An output file that cannot be opened ends the run. -/
theorem run_open_error {w : World} {s : Settings} {sy : Symbols} {node : Nat → Option Node} {e : Fail} (h2 : s.printSymbols = false) (ht : Templates w s)
    (hopen : ∀ st : Gen.State, st.node = node → ∃ st', openOut { w.env with symbols := sy } (firstPath s) s.force st = .error e st' ∧ st'.node = node) :
    ∃ st, Gen.run { w.env with symbols := sy } s (printSymbols sy) (start node) = .error e st ∧ st.node = node := by
  unfold Gen.run
  rw [if_neg (by simp [h2])]
  unfold Templates at ht
  unfold firstPath at hopen
  by_cases hct : s.customTemplate = []
  · rw [if_pos hct] at ht hopen
    rw [if_neg (by simp [hct])]
    have hr : Readable { w.env with symbols := sy } s := ht
    obtain ⟨c, hc, ec⟩ := commonPrefix_run { w.env with symbols := sy } (start node)
    obtain ⟨hs', bs, st1, e1, io, _⟩ := createLists_run hr (start_fresh node)
    obtain ⟨st', ho, hn⟩ := hopen st1 io.node
    refine ⟨st', ?_, hn⟩
    unfold generate
    rw [bind_ok ec, bind_ok e1]
    dsimp only
    refine bind_error ?_
    unfold writeHeader
    exact bind_error ho
  · rw [if_neg hct] at ht hopen
    rw [if_pos (by simpa [List.isEmpty_iff] using hct)]
    obtain ⟨text, hr⟩ := Option.isSome_iff_exists.mp ht
    obtain ⟨st', ho, hn⟩ := hopen (start node) rfl
    refine ⟨st', ?_, hn⟩
    unfold Gen.customTemplate
    dsimp only
    rw [hr]
    exact bind_error ho

/-- The output file exists and `-force` was not given. -/
theorem C85_exists (w : World) (win : Bool) (prog : Str) (args : List Str) (node : Nat → Option Node) (s s' : Settings) (ws : List Str) (sy : Symbols)
    (hp : parseCmdline win (prog :: args) = some (some (.settings s ws))) (ht : tokenize w s = some (.ok (s', sy)))
    (h1 : s'.force = false) (h2 : s'.printSymbols = false) (h3 : Templates w s')
    (hpath : firstPath s' ≠ [] ∧ firstPath s' ≠ str% "-") (l : Nat) (hl : w.env.res (firstPath s') = .at l) (hx : (node l).isSome) :
    ∃ st, main w win (prog :: args) node = .exit 1 (errorText w (str% "file already exists: " ++ firstPath s')) st ∧ st.node = node := by
  rw [main_eq hp ht]
  obtain ⟨st', e, hn⟩ := run_open_error (sy := sy) (node := node) (e := .exists (firstPath s')) h2 h3 (by
    intro st hst
    refine ⟨st, ?_, hst⟩
    unfold openOut
    rw [if_neg (by simpa [List.isEmpty_iff] using hpath), h1]
    simp only [Bool.false_eq_true, if_false]
    unfold openNew
    simp only [hl]
    rw [bind_ok (show (get : M Gen.State) st = .ok st st from rfl), if_pos (by rw [hst]; exact hx)]
    rfl)
  refine ⟨st', ?_, hn⟩
  rw [e]
  exact report_plain w prog (.exists _) st' rfl

/-- The output file cannot be created: there is no such directory, or no permission. -/
theorem C85_write (w : World) (win : Bool) (prog : Str) (args : List Str) (node : Nat → Option Node) (s s' : Settings) (ws : List Str) (sy : Symbols)
    (hp : parseCmdline win (prog :: args) = some (some (.settings s ws))) (ht : tokenize w s = some (.ok (s', sy)))
    (h2 : s'.printSymbols = false) (h3 : Templates w s')
    (hpath : firstPath s' ≠ [] ∧ firstPath s' ≠ str% "-")
    (hl : w.env.res (firstPath s') = .missing ∨ ∃ l, w.env.res (firstPath s') = .at l ∧ node l = none ∧ w.env.canCreate l = false) :
    ∃ st, main w win (prog :: args) node = .exit 1 (errorText w (str% "failed to open file for writing: " ++ firstPath s')) st ∧ st.node = node := by
  rw [main_eq hp ht]
  obtain ⟨st', e, hn⟩ := run_open_error (sy := sy) (node := node) (e := .write (firstPath s')) h2 h3 (by
    intro st hst
    refine ⟨{ st with out := none }, ?_, hst⟩
    have hnew : openNew { w.env with symbols := sy } (firstPath s') st = .error (.write (firstPath s')) { st with out := none } := by
      unfold openNew
      rcases hl with hl | ⟨l, hl, hx, hcc⟩
      · simp only [hl]
        rfl
      · simp only [hl]
        rw [bind_ok (show (get : M Gen.State) st = .ok st st from rfl), if_neg (by rw [hst, hx]; simp)]
        unfold createOut
        rw [bind_ok (show closeOut st = .ok () { st with out := none } from rfl), if_neg (by simp [hcc])]
        rfl
    have hrem : remove { w.env with symbols := sy } (firstPath s') st = .ok () st := by
      unfold remove
      rcases hl with hl | ⟨l, hl, hx, -⟩
      · simp only [hl]
        rfl
      · simp only [hl]
        rw [bind_ok (show (get : M Gen.State) st = .ok st st from rfl), hst, hx]
        rfl
    unfold openOut
    rw [if_neg (by simpa [List.isEmpty_iff] using hpath)]
    split
    · rw [bind_ok hrem]; exact hnew
    · exact hnew)
  refine ⟨st', ?_, hn⟩
  rw [e]
  exact report_plain w prog (.write _) st' rfl

/-- The template of `-template` cannot be read. -/
theorem C85_template (w : World) (win : Bool) (prog : Str) (args : List Str) (node : Nat → Option Node) (s s' : Settings) (ws : List Str) (sy : Symbols)
    (hp : parseCmdline win (prog :: args) = some (some (.settings s ws))) (ht : tokenize w s = some (.ok (s', sy)))
    (h2 : s.printSymbols = false) (h3 : s.customTemplate ≠ []) (hread : w.env.read s.customTemplate = none) :
    main w win (prog :: args) node = .exit 1 (errorText w (str% "failed to open file for reading: " ++ s.customTemplate)) (start node) := by
  rw [main_eq hp ht]
  have hsame := tokenize_same ht
  unfold Gen.run
  rw [hsame.printSymbols, hsame.customTemplate, if_neg (by simp [h2]), if_pos (by simpa [List.isEmpty_iff] using h3)]
  unfold Gen.customTemplate
  rw [hsame.customTemplate]
  dsimp only
  rw [hread]
  exact report_plain w prog (.read _) _ rfl

/-! ### Witnesses -/

/-- A file that cannot be scanned, one with a wrong option and one with two definitions. -/
def wrongWorld : World where
  env := { demoEnv with
    n := 50
    read := fun p =>
      if p = str% "scan.txt" then some (str% "int a;\nint b = 1;\n")
      else if p = str% "option.txt" then some (str% "%option format=c nonsense\nint a;\n")
      else if p = str% "twice.txt" then some (str% "int a;\nint b;\nint a(void);\n")
      else none }
  prog := str% "gendlopen"
  version := []
  signedChar := true
  paramMsg _ := []

example : main wrongWorld false [str% "gendlopen", str% "gone.txt"] demoNodes =
    .exit 1 (str% "gendlopen: error: file: gone.txt\nfailed to open file for reading\n") (start demoNodes) :=
  C85_unreadable wrongWorld false (str% "gendlopen") [str% "gone.txt"] demoNodes (by unfold CStrs CStr; decide) { input := str% "gone.txt" } [] rfl (by decide) rfl _ (Or.inr ⟨by decide, rfl⟩)

example : main wrongWorld false [str% "gendlopen", str% "-", str% "-template=-"] demoNodes =
    .exit 1 (str% "gendlopen: error: cannot read input file and custom template both from STDIN\n") (start demoNodes) :=
  C85_stdin wrongWorld false (str% "gendlopen") [str% "-", str% "-template=-"] demoNodes { input := str% "-", customTemplate := str% "-" } [] rfl rfl rfl

example : ∃ pre post reason, str% "int a;\nint b = 1;\n" = pre ++ post ∧
    main wrongWorld false [str% "gendlopen", str% "scan.txt"] demoNodes =
      .exit 1 (errorText wrongWorld (str% "file: scan.txt" ++ str% "\n" ++ reason)) (start demoNodes) ∧
    ((∃ c, post.head? = some c ∧ reason = str% "illegal character [" ++ shown c ++ str% "] at line " ++ natDigits (1 + pre.count '\n')) ∨
     (Lex.DumpLine post ∧ reason = str% "begin of Clang AST found at line " ++ natDigits (1 + pre.count '\n') ++ str% " instead of line 1")) :=
  C85_scan_partial wrongWorld false (str% "gendlopen") [str% "scan.txt"] demoNodes (by unfold CStrs CStr; decide) { input := str% "scan.txt" } [] rfl (by decide) _ rfl rfl (Or.inr (by decide)) _ (Or.inr ⟨by decide, rfl⟩)

example : ∃ reason, main wrongWorld false [str% "gendlopen", str% "option.txt"] demoNodes =
      .exit 1 (errorText wrongWorld (reason ++ str% "nonsense")) (start demoNodes) ∧
      ((∃ n ∈ valueOptions, str% "nonsense" = n ++ str% "=") ∧ reason = str% "%option string requires an argument: " ∨
       (¬ ∃ n ∈ valueOptions, str% "nonsense" = n ++ str% "=") ∧ reason = str% "unknown %option string: ") := by
  refine C85_option wrongWorld false (str% "gendlopen") [str% "option.txt"] demoNodes (by unfold CStrs CStr; decide) { input := str% "option.txt" } [] rfl (by decide) _ rfl [[str% "int", str% "a"]] [str% "format=c"] [] _
    rfl rfl _ rfl ?_
  rintro e (⟨-, h⟩ | ⟨n, v, -, h, -, -⟩)
  · exact absurd h (by decide)
  · have : '=' ∈ str% "nonsense" := by rw [h]; simp
    exact absurd this (by decide)

example : main wrongWorld false [str% "gendlopen", str% "-format=d", str% "x"] demoNodes =
    .exit 1 (str% "gendlopen: error: unknown output format: d\n") (start demoNodes) :=
  C85_value wrongWorld false (str% "gendlopen") [str% "-format=d", str% "x"] demoNodes (by unfold CStrs CStr; decide) [] [.input (str% "x")] (str% "format") (str% "d")
    (.separated (n := str% "format") (sep := '=') (v := str% "d") (l := false) rfl (by decide) (by decide) (Or.inl rfl) (by decide) (.input (by decide) .nil))
    _ rfl _ (Or.inl ⟨rfl, rfl, rfl⟩)

example : main wrongWorld false [str% "gendlopen", str% "twice.txt"] demoNodes =
    .exit 1 (str% "gendlopen: error: file: twice.txt\nmultiple definitions of symbol `a' found\n") (start demoNodes) :=
  C85_duplicates wrongWorld false (str% "gendlopen") [str% "twice.txt"] demoNodes (by unfold CStrs CStr; decide) { input := str% "twice.txt" } { input := str% "twice.txt" } [] rfl (by decide) _ rfl
    [[str% "int", str% "a"], [str% "int", str% "b"], [str% "int", str% "a", str% "(", str% "void", str% ")"]] [] rfl rfl
    [_, _] [] _ rfl (by decide) (by decide) _ (Or.inr ⟨by decide, rfl⟩)

example : ∃ st, main demoWorld false (demoArgs [str% "-out=x.h"]) demoNodes =
    .exit 1 (str% "gendlopen: error: file already exists: x.h\n") st ∧ st.node = demoNodes :=
  C85_exists demoWorld false (str% "gendlopen") [str% "in.txt", str% "-out=x.h"] demoNodes { input := str% "in.txt", output := str% "x.h" } _ [] _ rfl (demoRead _ rfl rfl rfl rfl rfl rfl) rfl rfl (fun h => by cases h) (by decide) 0 rfl rfl

/-- The same with a template. -/
example : ∃ st, main demoWorld false (demoArgs [str% "-template=good.t", str% "-out=x.h"]) demoNodes =
    .exit 1 (str% "gendlopen: error: file already exists: x.h\n") st ∧ st.node = demoNodes :=
  C85_exists demoWorld false (str% "gendlopen") [str% "in.txt", str% "-template=good.t", str% "-out=x.h"] demoNodes
    { input := str% "in.txt", customTemplate := str% "good.t", output := str% "x.h" } _ [] _ rfl (demoRead _ rfl rfl rfl rfl rfl rfl) rfl rfl
    (show (demoWorld.env.read (str% "good.t")).isSome from rfl) (by decide) 0 rfl rfl

example : ∃ st, main { demoWorld with env := { demoWorld.env with canCreate := fun _ => false } } false (demoArgs [str% "-out=x.h"]) (fun _ => none) =
    .exit 1 (str% "gendlopen: error: failed to open file for writing: x.h\n") st ∧ st.node = fun _ => none :=
  C85_write { demoWorld with env := { demoWorld.env with canCreate := fun _ => false } } false (str% "gendlopen") [str% "in.txt", str% "-out=x.h"] (fun _ => none)
    { input := str% "in.txt", output := str% "x.h" } _ [] _ rfl (demoRead _ rfl rfl rfl rfl rfl rfl) rfl (fun h => by cases h) (by decide) (Or.inr ⟨0, rfl, rfl, rfl⟩)

example : main demoWorld false (demoArgs [str% "-template=gone.t"]) demoNodes =
    .exit 1 (str% "gendlopen: error: failed to open file for reading: gone.t\n") (start demoNodes) :=
  C85_template demoWorld false (str% "gendlopen") [str% "in.txt", str% "-template=gone.t"] demoNodes { input := str% "in.txt", customTemplate := str% "gone.t" } _ [] _ rfl (demoRead _ rfl rfl rfl rfl rfl rfl) rfl (by decide) rfl

end Gdo.Program
