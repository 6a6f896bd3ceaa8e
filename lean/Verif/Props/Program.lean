import Verif.Lemmas.ProgramCmd
import Verif.Lemmas.GenerateInv
import Verif.Props.Generate
import Verif.Props.Dump
import Verif.Props.Parse
import Verif.Props.ScanError
import Verif.Props.TextData

/-!
Properties C81 (the program from the command line to the files it writes) and C83 (the
message about symbols that do not exist).
-/

namespace Gdo.Program
open Gdo Opt Gen Cmd

/-- The state that a run leaves, or in which it goes on forever. -/
def Result.after : Result → Option Gen.State
  | .exit _ _ st => some st
  | .terminate st => some st
  | .runs st => some st
  | .ub => none

theorem ended_after {w : World} {a : Str} {r : EStateM.Result Fail Gen.State Unit} {st' : Gen.State} (h : (ended w a r).after = some st') :
    st' = final r := by
  unfold ended at h
  split at h <;> (cases h; try rfl)

theorem report_after (w : World) (a : Str) (e : Err) (st : Gen.State) : (report w a e st).after = some st := rfl

theorem stopped_same {w : World} {win : Bool} {a : Str} {st st' : Gen.State} {x : Stop} (hx : ∀ d, x ≠ .exit (.dump d))
    (h : (stopped w win a st x).after = some st') : st'.node = st.node := by
  cases x with
  | error e => cases h; rfl
  | exit e =>
    cases e with
    | help => cases h; rfl
    | fullHelp => cases h; rfl
    | version => cases h; rfl
    | dump d => exact absurd rfl (hx d)

/-- The ways through `main`. -/
theorem main_cases (w : World) (win : Bool) (prog : Str) (args : List Str) (node : Nat → Option Node) (hc : CStrs args) :
    (∃ e, parseCmdline win (prog :: args) = some (some (.stop e)) ∧
      main w win (prog :: args) node = stopped w win prog (start node) e) ∨
    (∃ s ws es st, parseCmdline win (prog :: args) = some (some (.settings s ws)) ∧
      main w win (prog :: args) node = process w prog s (start node) ∧
      Reads win args es ∧ eventsEffect {} es = .ok st ∧ s = { st.settings with input := s.input }) := by
  have hp : ∃ o, parseCmdline win (prog :: args) = some (some o) := ⟨_, parseCmdline_eq win prog args hc⟩
  obtain ⟨o, ho⟩ := hp
  cases o with
  | stop e =>
    left
    exact ⟨e, ho, by unfold main; rw [ho]⟩
  | settings s ws =>
    right
    obtain ⟨es, hr, hout⟩ := C38_complete win prog hc ho
    cases hev : eventsEffect {} es with
    | error x => rw [hev] at hout; cases hout
    | ok st =>
      refine ⟨s, ws, es, st, ho, by unfold main; rw [ho], hr, hev, ?_⟩
      rw [hev] at hout
      unfold outcome at hout
      dsimp only at hout
      split at hout
      · cases hout; rfl
      · cases hout

/-! ### C81 -/

/-- The exit status is 0, with no message, or 1, with a message. -/
theorem C81_status (w : World) (win : Bool) (argv : List Str) (node : Nat → Option Node) (status : Nat) (m : Str) (st : Gen.State)
    (h : main w win argv node = .exit status m st) :
    (status = 0 ∧ m = []) ∨
    (status = 1 ∧ ∃ text hint, m = w.prog ++ str% ": error: " ++ text ++ str% "\n" ++ hint ∧
      (hint = [] ∨ ∃ a, argv.head? = some a ∧ hint = str% "Try `" ++ a ++ str% " -help' for more information.\n")) := by
  have hrep : ∀ a e st1, argv.head? = some a → report w a e st1 = .exit status m st →
      (status = 0 ∧ m = []) ∨
      (status = 1 ∧ ∃ text hint, m = w.prog ++ str% ": error: " ++ text ++ str% "\n" ++ hint ∧
        (hint = [] ∨ ∃ a, argv.head? = some a ∧ hint = str% "Try `" ++ a ++ str% " -help' for more information.\n")) := by
    intro a e st1 ha h
    unfold report at h
    simp only [Result.exit.injEq] at h
    obtain ⟨h1, h2, -⟩ := h
    refine Or.inr ⟨h1.symm, e.what w, _, h2.symm, ?_⟩
    split
    · exact Or.inr ⟨a, ha, rfl⟩
    · exact Or.inl rfl
  have hend : ∀ a r, argv.head? = some a → ended w a r = .exit status m st →
      (status = 0 ∧ m = []) ∨
      (status = 1 ∧ ∃ text hint, m = w.prog ++ str% ": error: " ++ text ++ str% "\n" ++ hint ∧
        (hint = [] ∨ ∃ a, argv.head? = some a ∧ hint = str% "Try `" ++ a ++ str% " -help' for more information.\n")) := by
    intro a r ha h
    unfold ended at h
    split at h
    · simp only [Result.exit.injEq] at h
      exact Or.inl ⟨h.1.symm, h.2.1.symm⟩
    · exact hrep a _ _ ha h
    · exact hrep a _ _ ha h
    · exact hrep a _ _ ha h
    · exact hrep a _ _ ha h
    · exact hrep a _ _ ha h
    · cases h
    · cases h
    · cases h
  unfold main at h
  split at h
  · cases h
  · rename_i a r
    split at h
    · cases h
    · cases h
    · rename_i e _
      cases e with
      | error e => exact hrep a _ _ rfl h
      | exit e =>
        cases e with
        | dump d => exact hend a _ rfl h
        | help => simp only [stopped, Result.exit.injEq] at h; exact Or.inl ⟨h.1.symm, h.2.1.symm⟩
        | fullHelp => simp only [stopped, Result.exit.injEq] at h; exact Or.inl ⟨h.1.symm, h.2.1.symm⟩
        | version => simp only [stopped, Result.exit.injEq] at h; exact Or.inl ⟨h.1.symm, h.2.1.symm⟩
    · unfold process at h
      split at h
      · cases h
      · exact hrep a _ _ rfl h
      · exact hend a _ rfl h

/-- An option of the command line, with one or two dashes. -/
def Given (win : Bool) (args : List Str) (opt : Str) : Prop := ∃ a ∈ args, ∃ n l, nameOf win a = some (n, l) ∧ opt <+: n

theorem given_flag {win : Bool} {pre post : List Str} {es : List Event} {n : Str} (h : Reads win pre es) (hn : .flag n ∈ es) :
    Given win (pre ++ post) n := by
  obtain ⟨a, ha, l, hl⟩ := reads_flag h hn
  exact ⟨a, List.mem_append_left _ ha, n, l, hl, List.prefix_refl _⟩

theorem given_value {win : Bool} {pre post : List Str} {es : List Event} {n v : Str} (h : Reads win pre es) (hn : .value n v ∈ es) :
    Given win (pre ++ post) n := by
  obtain ⟨a, ha, m, l, hl, hp⟩ := reads_value h hn
  exact ⟨a, List.mem_append_left _ ha, m, l, hl, hp⟩

/-- Unless `-force` or `-dump-templates` is among the arguments, a run of the program
    changes and removes nothing that exists, also if it fails or does not end. -/
theorem C81_existing (w : World) (win : Bool) (prog : Str) (args : List Str) (node : Nat → Option Node) (hc : CStrs args)
    (h1 : ¬ Given win args (str% "force")) (h2 : ¬ Given win args (str% "dump-templates")) (st' : Gen.State)
    (h : (main w win (prog :: args) node).after = some st') (l : Nat) (x : Node) (hx : node l = some x) : st'.node l = some x := by
  rcases main_cases w win prog args node hc with ⟨e, hp, hm⟩ | ⟨s, ws, es, st, hp, hm, hr, hev, hs⟩
  · rw [hm] at h
    have : st'.node = (start node).node := by
      refine stopped_same ?_ h
      rintro d rfl
      obtain ⟨pre, es, post, rfl, hr, he⟩ := parseCmdline_exit hc hp
      exact h2 (given_value hr (events_dump es he))
    rw [this]
    exact hx
  · rw [hm] at h
    unfold process at h
    split at h
    · cases h
    · cases h
      exact hx
    · rename_i s' sy ht
      rw [ended_after h]
      refine C33_untouched _ s' _ (start node) rfl ?_ l x hx
      rw [(tokenize_same ht).force]
      have hf := (events_flags es hev).1
      rw [hs]
      rw [Bool.eq_false_iff]
      intro ht
      rcases hf.mp ht with h | h
      · cases h
      · exact h1 (by simpa using given_flag (post := []) hr h)

/-- With `-force` and without `-dump-templates`, a file changes only if its path is the one
    of `-out`, or the one of the header or body made from it. -/
theorem C81_only_output (w : World) (win : Bool) (prog : Str) (args : List Str) (node : Nat → Option Node) (hc : CStrs args)
    (h2 : ¬ Given win args (str% "dump-templates")) (st' : Gen.State)
    (h : (main w win (prog :: args) node).after = some st') (l : Nat) (hl : st'.node l ≠ node l) :
    ∃ s ws s' sy, parseCmdline win (prog :: args) = some (some (.settings s ws)) ∧ tokenize w s = some (.ok (s', sy)) ∧
      ∃ p ∈ [s'.output, (outputPaths s').1, (outputPaths s').2], w.env.res p = .at l := by
  rcases main_cases w win prog args node hc with ⟨e, hp, hm⟩ | ⟨s, ws, es, st, hp, hm, hr, hev, hs⟩
  · rw [hm] at h
    have : st'.node = (start node).node := by
      refine stopped_same ?_ h
      rintro d rfl
      obtain ⟨pre, es, post, rfl, hr, he⟩ := parseCmdline_exit hc hp
      exact h2 (given_value hr (events_dump es he))
    exact absurd (by rw [this]; rfl) hl
  · rw [hm] at h
    unfold process at h
    split at h
    · cases h
    · cases h
      exact absurd rfl hl
    · rename_i s' sy ht
      refine ⟨s, ws, s', sy, hp, ht, ?_⟩
      refine Classical.byContradiction fun hno => hl ?_
      rw [ended_after h]
      exact C33_force _ s' _ (start node) rfl l fun p hp' hq => hno ⟨p, hp', hq⟩

/-- If the command line or the input is not accepted, nothing is written. -/
theorem C81_nothing (w : World) (win : Bool) (prog : Str) (args : List Str) (node : Nat → Option Node) (hc : CStrs args)
    (status : Nat) (m : Str) (st' : Gen.State) (h : main w win (prog :: args) node = .exit status m st') (hs : status ≠ 0) :
    (st' = start node) ∨
    (∃ d, parseCmdline win (prog :: args) = some (some (.stop (.exit (.dump d))))) ∨
    ∃ s ws s' sy, parseCmdline win (prog :: args) = some (some (.settings s ws)) ∧ tokenize w s = some (.ok (s', sy)) := by
  rcases main_cases w win prog args node hc with ⟨e, hp, hm⟩ | ⟨s, ws, es, st, hp, hm, hr, hev, -⟩
  · rw [hm] at h
    cases e with
    | error e => cases h; exact Or.inl rfl
    | exit e =>
      cases e with
      | dump d => exact Or.inr (Or.inl ⟨d, hp⟩)
      | help => cases h; exact absurd rfl hs
      | fullHelp => cases h; exact absurd rfl hs
      | version => cases h; exact absurd rfl hs
  · rw [hm] at h
    unfold process at h
    split at h
    · cases h
    · cases h
      exact Or.inl rfl
    · rename_i s' sy ht
      exact Or.inr (Or.inr ⟨s, ws, s', sy, hp, ht⟩)

/-- `-print-symbols` writes no file. -/
theorem C81_print (w : World) (win : Bool) (prog : Str) (args : List Str) (es : List Event) (node : Nat → Option Node) (hc : CStrs args)
    (hr : Reads win args es) (hp : .flag (str% "print-symbols") ∈ es) (hd : ∀ d, .value (str% "dump-templates") d ∉ es) (st' : Gen.State)
    (h : (main w win (prog :: args) node).after = some st') : st'.node = node := by
  have hpar := C38_effect win prog hc hr
  have hmain : main w win (prog :: args) node = (match outcome (eventsEffect {} es) with
      | .stop e => stopped w win prog (start node) e
      | .settings s _ => process w prog s (start node)) := by
    unfold main
    rw [hpar]
    cases outcome (eventsEffect {} es) <;> rfl
  rw [hmain] at h
  cases hev : eventsEffect {} es with
  | error e =>
    rw [hev] at h
    have := stopped_same (x := e) (by rintro d rfl; exact hd d (events_dump es hev)) h
    exact this
  | ok st =>
    rw [hev] at h
    unfold outcome at h
    dsimp only at h
    have hps := ((events_flags es hev).2).mpr (Or.inr hp)
    split at h
    · rename_i x e1
      split at e1
      · cases e1
      · cases e1
        exact stopped_same (by simp) h
    · rename_i s ws e1
      have hs : s.printSymbols = true := by
        split at e1
        · cases e1; exact hps
        · cases e1
      unfold process at h
      split at h
      · cases h
      · cases h
        rfl
      · rename_i s' sy ht
        rw [ended_after h]
        unfold Gen.run
        rw [(tokenize_same ht).printSymbols, hs]
        rfl

theorem start_fresh (node : Nat → Option Node) : ∀ t, Fresh (start node).mem t := fun _ => ⟨rfl, rfl⟩

theorem dumpAll_error (env : Env) (d : Str) (ts : List TName) : ∀ st st' e, dumpAll env d ts st = .error e st' → ∃ p, e = .write p := by
  induction ts with
  | nil => intro st st' e h; cases h
  | cons t ts ih =>
    intro st st' e h
    have h : ((dumpOne env d t >>= fun _ => dumpAll env d ts) : M Unit) st = .error e st' := h
    cases h1 : dumpOne env d t st with
    | ok a st1 => rw [bind_ok h1] at h; exact ih _ _ _ h
    | error e1 st1 =>
      rw [bind_error h1] at h
      cases h
      unfold dumpOne at h1
      cases hres : env.res (dumpPath d t) with
      | denied => rw [hres] at h1; (cases h1; exact ⟨_, rfl⟩)
      | missing => rw [hres] at h1; (cases h1; exact ⟨_, rfl⟩)
      | «at» k =>
        rw [hres] at h1
        dsimp only at h1
        rw [bind_ok (show (get : M Gen.State) st = .ok st st from rfl)] at h1
        cases hnd : st.node k with
        | none => rw [hnd] at h1; dsimp only at h1; split at h1 <;> cases h1; exact ⟨_, rfl⟩
        | some y =>
          rw [hnd] at h1
          cases y <;> dsimp only at h1
          · split at h1 <;> cases h1; exact ⟨_, rfl⟩
          all_goals (cases h1; exact ⟨_, rfl⟩)

theorem tokenizeDecls_some (vec : List Toks) (pfx : Str) (mode : ParamNames) (P S : List Str) : ∃ r, tokenizeDecls vec pfx mode P S = some r := by
  unfold tokenizeDecls
  cases h : gendlopenParse (vec.map removeSuperfluous) mode P S with
  | none => exact absurd h (C07_parser_memory_safe _ mode P S)
  | some x =>
    cases x with
    | error e => exact ⟨_, rfl⟩
    | ok st =>
      dsimp only [Option.bind_eq_bind, Option.bind_some]
      split <;> exact ⟨_, rfl⟩

/-- No undefined behaviour: provided that there is a first argument, that `char` is
    unsigned or the input is ASCII text, and that not both `-separate` and
    `-templates-path` are given. -/
theorem C81_safe_partial (w : World) (win : Bool) (prog : Str) (args : List Str) (node : Nat → Option Node) (hc : CStrs args)
    (h1 : w.signedChar = false ∨ ∀ p text, w.env.read p = some text → ∀ c ∈ text, c.toNat < 128)
    (h2 : ¬ Given win args (str% "separate") ∨ ¬ Given win args (str% "templates-path")) :
    main w win (prog :: args) node ≠ .ub := by
  have hend : ∀ r, (∀ st, r ≠ .error .ub st) → ended w prog r ≠ .ub := by
    intro r hr h
    unfold ended at h
    split at h
    all_goals first | (cases h; done) | exact hr _ rfl
  rcases main_cases w win prog args node hc with ⟨e, hp, hm⟩ | ⟨s, ws, es, st, hp, hm, hr, hev, hs⟩
  · rw [hm]
    cases e with
    | error e => intro h; cases h
    | exit e =>
      cases e with
      | dump d => exact hend _ fun st h => by obtain ⟨_, h⟩ := dumpAll_error _ d _ _ st _ h; cases h
      | help => intro h; cases h
      | fullHelp => intro h; cases h
      | version => intro h; cases h
  · rw [hm]
    unfold process
    cases ht : tokenize w s with
    | none =>
      exfalso
      unfold tokenize at ht
      split at ht
      · cases ht
      · split at ht
        · cases ht
        · split at ht
          · cases ht
          · rename_i text htext
            split at ht
            · unfold scanFailed at ht
              split at ht
              · cases ht
              · rename_i x hx
                cases x with
                | notFirst l => cases ht
                | illegal c l =>
                  obtain ⟨pre, post, he, -, -⟩ := Props.C82_located _ _ _ _ hx
                  have hcm : c ∈ text := by rw [he]; simp
                  have hno : ¬ (w.signedChar ∧ 128 ≤ c.toNat) := by
                    rintro ⟨a, b⟩
                    rcases h1 with h1 | h1
                    · rw [h1] at a; cases a
                    · have := h1 _ _ htext c hcm
                      omega
                  have : ∃ t, (Lex.ScanErr.illegal c l).text w.signedChar = some t := by
                    unfold Lex.ScanErr.text
                    dsimp only
                    rw [if_neg hno]
                    split <;> exact ⟨_, rfl⟩
                  obtain ⟨t, ht'⟩ := this
                  rw [ht'] at ht
                  cases ht
            · cases ht
            · unfold readText at ht
              split at ht
              · cases ht
              · rename_i s1 _
                obtain ⟨r, hr⟩ := tokenizeDecls_some _ (toLower s1.pfx) s1.names s1.prefixList s1.symbolList
                rw [hr] at ht
                dsimp only [Option.bind_eq_bind, Option.bind_some] at ht
                split at ht <;> cases ht
    | some x =>
      cases x with
      | error e => intro h; cases h
      | ok y =>
        obtain ⟨s', sy⟩ := y
        refine hend _ fun st => C35_safe_partial _ s' _ (start node) st ?_ (start_fresh node)
        have hsame := tokenize_same ht
        obtain ⟨e1, e2⟩ := events_path es hev
        rcases h2 with h2 | h2
        · left
          unfold isSeparate
          have : s'.separate = false := by
            rw [hsame.separate, hs, Bool.eq_false_iff]
            intro h
            rcases e2.mp h with h | h
            · cases h
            · exact h2 (by simpa using given_flag (post := []) hr h)
          rw [this]
          rfl
        · right
          rw [hsame.templatesPath, hs]
          rcases e1 with h | ⟨v, h⟩
          · exact h
          · exact absurd (by simpa using given_value (post := []) hr h) h2

/-- Symbols come from a text file, or from a Clang AST. -/
theorem tokenize_source {w : World} {s s' : Settings} {sy : Symbols} (h : tokenize w s = some (.ok (s', sy))) :
    ∃ text, w.env.read s.input = some text ∧ ((tokenizeStream s.readOptions text).2.2 = .ast ∨ Props.FromText sy) := by
  unfold tokenize at h
  split at h
  · cases h
  · split at h
    · cases h
    · split at h
      · cases h
      · rename_i text htext
        refine ⟨text, htext, ?_⟩
        split at h
        · exfalso
          unfold scanFailed at h
          split at h
          · cases h
          · rename_i x hx
            cases hx' : x.text w.signedChar with
            | none => rw [hx'] at h; cases h
            | some t => rw [hx'] at h; cases h
        · rename_i e
          left
          rw [e]
        · rename_i vec options e
          right
          unfold readText at h
          split at h
          · cases h
          · rename_i s1 _
            obtain ⟨r, hr⟩ := tokenizeDecls_some vec (toLower s1.pfx) s1.names s1.prefixList s1.symbolList
            rw [hr] at h
            dsimp only [Option.bind_eq_bind, Option.bind_some] at h
            split at h
            · cases h
            · cases h
            · cases h
            · rename_i sy1 _
              cases h
              have hv : vec = (tokenizeStream s.readOptions text).1 := by rw [e]
              rw [hv] at hr
              exact ⟨_, text, _, _, _, _, hr⟩

/-- With declarations as input and the built-in templates, or any custom template, every run
    ends. -/
theorem C81_ends_partial (w : World) (win : Bool) (prog : Str) (args : List Str) (node : Nat → Option Node) (hc : CStrs args)
    (h1 : ∀ s ws, parseCmdline win (prog :: args) = some (some (.settings s ws)) → ∀ text, w.env.read s.input = some text →
      (tokenizeStream s.readOptions text).2.2 ≠ .ast)
    (h2 : ¬ Given win args (str% "templates-path")) :
    ∃ N, ∀ n, N ≤ n → ∀ st, main { w with env := { w.env with n := n } } win (prog :: args) node ≠ .runs st := by
  have hend : ∀ (w : World) r, (∀ st, r ≠ .error (.subst .more) st) → ∀ st, ended w prog r ≠ .runs st := by
    intro w r hr st h
    unfold ended at h
    split at h
    all_goals first | (cases h; done) | exact hr _ rfl
  have hpar : ∀ n o, parseCmdline win (prog :: args) = some (some o) →
      main { w with env := { w.env with n := n } } win (prog :: args) node = (match o with
        | .stop e => stopped { w with env := { w.env with n := n } } win prog (start node) e
        | .settings s _ => process { w with env := { w.env with n := n } } prog s (start node)) := by
    intro n o h
    unfold main
    rw [h]
    cases o <;> rfl
  rcases main_cases w win prog args node hc with ⟨e, hp, -⟩ | ⟨s, ws, es, st, hp, -, hr, hev, hs⟩
  · refine ⟨0, fun n _ st => ?_⟩
    rw [hpar n _ hp]
    dsimp only
    cases e with
    | error e => intro h; cases h
    | exit e =>
      cases e with
      | dump d => exact hend _ _ (fun st h => by obtain ⟨_, h⟩ := dumpAll_error _ d _ _ st _ h; cases h) st
      | help => intro h; cases h
      | fullHelp => intro h; cases h
      | version => intro h; cases h
  · cases ht : tokenize w s with
    | none =>
      refine ⟨0, fun n _ st => ?_⟩
      rw [hpar n _ hp]
      dsimp only
      have : tokenize { w with env := { w.env with n := n } } s = none := ht
      unfold process
      rw [this]
      intro h
      cases h
    | some x =>
      cases x with
      | error e =>
        refine ⟨0, fun n _ st => ?_⟩
        rw [hpar n _ hp]
        dsimp only
        have : tokenize { w with env := { w.env with n := n } } s = some (.error e) := ht
        unfold process
        rw [this]
        intro h
        cases h
      | ok y =>
        obtain ⟨s', sy⟩ := y
        have hsame := tokenize_same ht
        have hft : Props.FromText sy := by
          obtain ⟨text, hread, h⟩ := tokenize_source ht
          exact h.resolve_left (h1 s ws hp text hread)
        have htp : s'.templatesPath = [] := by
          rw [hsame.templatesPath, hs]
          rcases (events_path es hev).1 with h | ⟨v, h⟩
          · exact h
          · exact absurd (by simpa using given_value (post := []) hr h) h2
        let env : Env := { w.env with symbols := sy }
        obtain ⟨N1, r1, e1, n1⟩ := Props.C28_text (subConfig env s') sy hft rfl rfl ((listNames s').1.map (srcList env s'))
        obtain ⟨N2, r2, e2, n2⟩ := Props.C28_text (subConfig env s') sy hft rfl rfl ((listNames s').2.map (srcList env s'))
        obtain ⟨N3, r3, e3, n3⟩ := Props.C28_custom_text (subConfig env s') sy hft rfl rfl ((w.env.read s'.customTemplate).getD [])
        refine ⟨max N1 (max N2 N3), fun n hn st => ?_⟩
        rw [hpar n _ hp]
        dsimp only
        have ht' : tokenize { w with env := { w.env with n := n } } s = some (.ok (s', sy)) := ht
        unfold process
        rw [ht']
        refine hend _ _ (fun st h => ?_) st
        unfold Gen.run at h
        split at h
        · cases h
        · split at h
          · obtain ⟨text, hx, hy⟩ := custom_more h
            have hx : w.env.read s'.customTemplate = some text := hx
            rw [hx] at e3
            have := e3 n (by omega)
            rw [← this] at n3
            exact n3 hy
          · rcases generate_more (by intro hx; rw [htp] at hx; cases hx) (start_fresh node) (Or.inr htp) h with h | h
            · have := e1 n (by omega)
              rw [← this] at n1
              exact n1 h
            · have := e2 n (by omega)
              rw [← this] at n2
              exact n2 h

/-- A successful run has written everything: the listing of the symbols, the processed
    template, or the header and the body. -/
theorem C81_success (w : World) (win : Bool) (argv : List Str) (node : Nat → Option Node) (s : Settings) (ws : List Str)
    (hp : parseCmdline win argv = some (some (.settings s ws))) (m : Str) (st' : Gen.State) (h : main w win argv node = .exit 0 m st') :
    ∃ s' sy, tokenize w s = some (.ok (s', sy)) ∧ s'.output = s.output ∧
      ((s.printSymbols = true ∧ st'.stdout = printSymbols sy ∧ st'.node = node) ∨
       (s.printSymbols = false ∧ s.customTemplate ≠ [] ∧ ∃ text css k b, w.env.read s.customTemplate = some text ∧
          Sub.customTemplate w.env.n (subConfig { w.env with symbols := sy } s') text = .ok (css, k, b) ∧
          Written w.env s.output (start node) (customLine s' ++ Sub.bytes css.flatten) st') ∨
       (s.printSymbols = false ∧ s.customTemplate = [] ∧ (s.templatesPath = [] →
          (isSeparate s' = false ∧ ∃ css k, headerSubst { w.env with symbols := sy } s' = .ok (css, k) ∧
            Written w.env (outputPaths s').1 (start node)
              (headerText { w.env with symbols := sy } s' (allDefines { w.env with symbols := sy } s') (Sub.bytes css.flatten.flatten) k) st') ∨
          (isSeparate s' = true ∧ ∃ css k bss j st1, headerSubst { w.env with symbols := sy } s' = .ok (css, k) ∧
            bodySubst { w.env with symbols := sy } s' = .ok (bss, j) ∧
            Written w.env (outputPaths s').1 (start node)
              (headerText { w.env with symbols := sy } s' (allDefines { w.env with symbols := sy } s') (Sub.bytes css.flatten.flatten) k) st1 ∧
            Written w.env (outputPaths s').2 st1 (bodyText { w.env with symbols := sy } s' (Sub.bytes bss.flatten.flatten)) st')))) := by
  have hok : ∀ a r, ended w a r = .exit 0 m st' → r = .ok () st' := by
    intro a r h
    unfold ended at h
    split at h
    · cases h; rfl
    all_goals (first | (cases h; done) | (unfold report at h; cases h))
  unfold main at h
  split at h
  · cases h
  · rw [hp] at h
    dsimp only at h
    unfold process at h
    split at h
    · cases h
    · unfold report at h; cases h
    · rename_i s' sy ht
      have hsame := tokenize_same ht
      have h := hok _ _ h
      refine ⟨s', sy, ht, hsame.output, ?_⟩
      unfold Gen.run at h
      split at h
      · rename_i hps
        left
        rw [hsame.printSymbols] at hps
        cases h
        exact ⟨hps, rfl, rfl⟩
      · rename_i hps
        have hps : s.printSymbols = false := by
          rw [hsame.printSymbols] at hps
          simpa using hps
        split at h
        · rename_i hct
          right; left
          rw [hsame.customTemplate] at hct
          obtain ⟨text, css, k, b, h1, h2, h3⟩ := custom_ok h
          rw [hsame.customTemplate] at h1
          rw [hsame.output] at h3
          refine ⟨hps, by simpa [List.isEmpty_iff] using hct, text, css, k, b, h1, h2, h3⟩
        · rename_i hct
          right; right
          rw [hsame.customTemplate] at hct
          refine ⟨hps, by simpa [List.isEmpty_iff] using hct, fun htp => ?_⟩
          rw [← hsame.templatesPath] at htp
          cases hsep : isSeparate s' with
          | false =>
            left
            obtain ⟨css, k, h1, h2⟩ := generate_ok_single (by intro hx; rw [htp] at hx; cases hx) (start_fresh node) hsep h
            exact ⟨rfl, css, k, h1, h2⟩
          | true =>
            right
            obtain ⟨css, k, bss, j, st1, h1, h2, h3, h4⟩ := generate_ok_separate htp (start_fresh node) hsep h
            exact ⟨rfl, css, k, bss, j, st1, h1, h2, h3, h4⟩

/-- `-help`, `-full-help` and `-version` end the program successfully, with the text and
    without reading or writing a file, whatever follows them. -/
theorem C81_help (w : World) (win : Bool) (prog : Str) (pre post : List Str) (a n text : Str) (l : Bool) (es : List Event)
    (node : Nat → Option Node) (hc : CStrs (pre ++ a :: post)) (hr : Reads win pre es) (st : Cmd.State) (hst : eventsEffect {} es = .ok st)
    (hn : nameOf win a = some (n, l))
    (ht : (n, text) ∈ [(str% "?", Help.brief win w.prog), (str% "help", Help.brief win w.prog), (str% "full-help", Help.full win w.prog), (str% "version", w.version)]) :
    main w win (prog :: (pre ++ a :: post)) node = .exit 0 [] { start node with stdout := text } := by
  have hp : parseCmdline win (prog :: (pre ++ a :: post)) = some (some (loopL win (pre ++ a :: post) {} none [])) :=
    parseCmdline_eq win prog _ hc
  have hl : loopL win (pre ++ a :: post) {} none [] = loopS win (a :: post) st := by
    have := loopS_reads hr (a :: post) {}
    rw [hst] at this
    exact this
  have hf : n ∈ flagNames := by
    simp only [List.mem_cons, Prod.mk.injEq, List.not_mem_nil, or_false] at ht
    rcases ht with ⟨rfl, -⟩ | ⟨rfl, -⟩ | ⟨rfl, -⟩ | ⟨rfl, -⟩ <;> decide
  have hd := dispatch_flag win a n l post.head? st.settings hf
  rw [hl, loopS_option st hn hd] at hp
  have key : ∃ e, flagEffect n st.settings = .error (.exit e) ∧ stopped w win prog (start node) (.exit e) = .exit 0 [] { start node with stdout := text } := by
    simp only [List.mem_cons, Prod.mk.injEq, List.not_mem_nil, or_false] at ht
    rcases ht with ⟨rfl, rfl⟩ | ⟨rfl, rfl⟩ | ⟨rfl, rfl⟩ | ⟨rfl, rfl⟩
    · exact ⟨.help, rfl, rfl⟩
    · exact ⟨.help, rfl, rfl⟩
    · exact ⟨.fullHelp, rfl, rfl⟩
    · exact ⟨.version, rfl, rfl⟩
  obtain ⟨e, h1, h2⟩ := key
  rw [h1] at hp
  unfold main
  rw [hp]
  exact h2

/-- An unknown option: status 1, a message with the option and the hint, nothing written. -/
theorem C81_unknown (w : World) (win : Bool) (prog : Str) (pre post : List Str) (a n : Str) (l : Bool) (es : List Event)
    (node : Nat → Option Node) (hc : CStrs (pre ++ a :: post)) (hr : Reads win pre es) (st : Cmd.State) (hst : eventsEffect {} es = .ok st)
    (hn : nameOf win a = some (n, l)) (h1 : n ∉ flagNames) (h2 : ∀ o ∈ argNames, ¬ o <+: n) :
    main w win (prog :: (pre ++ a :: post)) node =
      .exit 1 (w.prog ++ str% ": error: unknown option: " ++ a ++ str% "\nTry `" ++ prog ++ str% " -help' for more information.\n") (start node) := by
  unfold main
  rw [C38_unknown win prog hc hr hst hn h1 h2]
  simp [stopped, report, Err.what, optMsg, Err.isCmd]

/-! ### Witnesses -/

/-- An input file, a template and one that is wrong, and the output file `x.h`. -/
def demoWorld : World where
  env := { demoEnv with
    n := 50
    read := fun p =>
      if p = str% "in.txt" then some (str% "%option format=c++\nint f(int a);\nextern char *x;\n")
      else if p = str% "good.t" then some (str% "%%func_symbol%%;\n")
      else if p = str% "bad.t" then some (str% "%%func_symbol%% %%obj_symbol%%\nnext\n")
      else none }
  prog := str% "gendlopen"
  version := str% "version\n"
  signedChar := true
  paramMsg _ := []

/-- Only `x.h` exists. -/
def demoNodes (l : Nat) : Option Node := if l = 0 then some (.file (str% "precious")) else none

theorem main_eq {w : World} {win : Bool} {a : Str} {r : List Str} {node : Nat → Option Node} {s s' : Settings} {ws : List Str} {sy : Symbols}
    (hp : parseCmdline win (a :: r) = some (some (.settings s ws))) (ht : tokenize w s = some (.ok (s', sy))) :
    main w win (a :: r) node = ended w a (Gen.run { w.env with symbols := sy } s' (printSymbols sy) (start node)) := by
  unfold main
  rw [hp]
  dsimp only
  unfold process
  rw [ht]

def demoSymbols : Symbols where
  protos := [{ kind := .function, type := str% "int", symbol := str% "f", args := str% "int a", argsVec := [[str% "int", str% "a"]], paramNames := str% "a" }]
  objs := [{ kind := .object, type := str% "char *", symbol := str% "x" }]
  typedefs := []

def demoArgs (more : List Str) : List Str := str% "gendlopen" :: str% "in.txt" :: more

theorem tokenize_text {w : World} {s : Settings} {text : Str} {vec : List Toks} {options : List Str} (h1 : s.input ≠ [])
    (h2 : ¬ (s.input = str% "-" ∧ s.customTemplate = str% "-")) (h3 : w.env.read s.input = some text)
    (h4 : tokenizeStream s.readOptions text = (vec, options, .eof)) : tokenize w s = readText s vec options := by
  unfold tokenize
  rw [if_neg (by simpa [List.isEmpty_iff] using h1), if_neg h2, h3]
  dsimp only
  rw [h4]

theorem readText_ok {s s' : Settings} {vec : List Toks} {options : List Str} {sy : Symbols} (h1 : applyOptions s options = .ok s')
    (h2 : tokenizeDecls vec (toLower s'.pfx) s'.names s'.prefixList s'.symbolList = some (.ok sy)) : readText s vec options = some (.ok (s', sy)) := by
  unfold readText
  rw [h1]
  dsimp only
  rw [h2]
  rfl

theorem demoRead (s : Settings) (h1 : s.input = str% "in.txt") (h2 : s.readOptions = true) (h3 : s.names = .read) (h4 : s.prefixList = [])
    (h5 : s.symbolList = []) (h6 : s.pfx = str% "gdo") : tokenize demoWorld s = some (.ok ({ s with format := .cxx }, demoSymbols)) := by
  have ht : tokenizeStream true (str% "%option format=c++\nint f(int a);\nextern char *x;\n") =
    ([[str% "int", str% "f", str% "(", str% "int", str% "a", str% ")"], [str% "char", str% "*", str% "x"]], [str% "format=c++"], .eof) := rfl
  have hd : tokenizeDecls [[str% "int", str% "f", str% "(", str% "int", str% "a", str% ")"], [str% "char", str% "*", str% "x"]]
    (str% "gdo") .read [] [] = some (.ok demoSymbols) := rfl
  rw [tokenize_text (text := str% "%option format=c++\nint f(int a);\nextern char *x;\n") (by rw [h1]; simp) (by rw [h1]; simp) (by rw [h1]; rfl)
    (by rw [h2]; exact ht)]
  refine readText_ok ?_ ?_
  · unfold applyOptions
    rw [if_pos h2]
    rfl
  · dsimp only
    rw [h3, h4, h5, h6]
    exact hd

theorem demo_run {more : List Str} {s : Settings} (node : Nat → Option Node) (hp : parseCmdline false (demoArgs more) = some (some (.settings s [])))
    (h1 : s.input = str% "in.txt") (h2 : s.readOptions = true) (h3 : s.names = .read) (h4 : s.prefixList = [])
    (h5 : s.symbolList = []) (h6 : s.pfx = str% "gdo") : main demoWorld false (demoArgs more) node =
      ended demoWorld (str% "gendlopen") (Gen.run { demoWorld.env with symbols := demoSymbols } { s with format := .cxx } (printSymbols demoSymbols) (start node)) :=
  main_eq hp (demoRead s h1 h2 h3 h4 h5 h6)

/-- A run that fails with status 1 has nevertheless replaced the output file: the old one is
    lost, the new one is not complete. -/
theorem C81_violated : ∃ m st, main demoWorld false (demoArgs [str% "-template=bad.t", str% "-out=x.h", str% "-force"]) demoNodes = .exit 1 m st ∧
    st.node 0 = some (.file []) ∧ demoNodes 0 = some (.file (str% "precious")) := ⟨_, _, (demo_run _ rfl rfl rfl rfl rfl rfl rfl).trans rfl, rfl, rfl⟩

/-- Not every failure is a message and status 1: an output path that cannot be removed ends
    the program with an exception that nobody catches. -/
theorem C81_violated_terminate :
    ∃ st, main demoWorld false (demoArgs [str% "-out=x.h", str% "-force"]) (fun _ => some (.dir false)) = .terminate st :=
  ⟨_, (demo_run _ rfl rfl rfl rfl rfl rfl rfl).trans rfl⟩

/-- A run of each kind. -/
example : ∃ st, main demoWorld false (demoArgs [str% "-template=good.t", str% "-out=x.c"]) demoNodes = .exit 0 [] st ∧
    st.node 1 = some (.file (str% "f;\n\n")) ∧ st.node 0 = demoNodes 0 :=
  ⟨_, (demo_run _ rfl rfl rfl rfl rfl rfl rfl).trans rfl, rfl, rfl⟩

example : ∃ st, main demoWorld false (demoArgs [str% "-out=x.h"]) demoNodes =
    .exit 1 (str% "gendlopen: error: file already exists: x.h\n") st :=
  ⟨_, (demo_run _ rfl rfl rfl rfl rfl rfl rfl).trans rfl⟩

example : ∃ st, main demoWorld false (demoArgs [str% "-print-symbols", str% "-out=x.h"]) demoNodes = .exit 0 [] st ∧
    st.stdout = str% "/* prototypes */\nchar *x;\nint f(int a);\n\n/***  2 matches  ***/\n" ∧ st.node 0 = demoNodes 0 :=
  ⟨_, (demo_run _ rfl rfl rfl rfl rfl rfl rfl).trans rfl, rfl, rfl⟩

example : main demoWorld false (demoArgs [str% "-help", str% "-nonsense"]) demoNodes = .exit 0 [] { start demoNodes with stdout := Help.brief false (str% "gendlopen") } :=
  C81_help demoWorld false (str% "gendlopen") [str% "in.txt"] [str% "-nonsense"] (str% "-help") (str% "help") _ false
    [.input (str% "in.txt")] demoNodes (by unfold CStrs CStr; decide) (.input (by decide) .nil) _ rfl (by decide) (.tail _ (.head _))

example : ∃ st, main demoWorld false (demoArgs [str% "--nonsense"]) demoNodes =
    .exit 1 (str% "gendlopen: error: unknown option: --nonsense\nTry `gendlopen -help' for more information.\n") st := ⟨_, rfl⟩

example : ¬ Given false (demoArgs [str% "-out=x.h"]) (str% "force") ∧ ¬ Given false (demoArgs [str% "-out=x.h"]) (str% "dump-templates") ∧
    ¬ Given false (demoArgs [str% "-out=x.h"]) (str% "templates-path") ∧ Given false (demoArgs [str% "--force"]) (str% "force") := by
  have h : ∀ opt : Str, opt ≠ [] → opt.head? ≠ some 'o' → ¬ Given false (demoArgs [str% "-out=x.h"]) opt := by
    rintro opt h0 h1 ⟨a, ha, n, l, hn, hp⟩
    simp only [demoArgs, List.mem_cons, List.not_mem_nil, or_false] at ha
    rcases ha with rfl | rfl | rfl
    · cases hn
    · cases hn
    · cases hn
      cases opt with
      | nil => exact h0 rfl
      | cons c r => exact h1 (by rw [(List.cons_prefix_cons.mp hp).1]; rfl)
  exact ⟨h _ (by decide) (by decide), h _ (by decide) (by decide), h _ (by decide) (by decide),
    ⟨str% "--force", by decide, _, _, rfl, List.prefix_refl _⟩⟩

end Gdo.Program
