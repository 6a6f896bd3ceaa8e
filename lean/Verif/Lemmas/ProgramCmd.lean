import Verif.Lemmas.Program
import Verif.Props.Options

/-! Which arguments stop the program, and which settings they leave. -/

namespace Gdo.Opt
open Gdo Cmd

theorem dispatch_exit {win : Bool} {w n : Str} {l : Bool} {next : Option Str} {s : Settings} {e : Exit}
    (hs : List Handler) (hk : ∀ x ∈ hs, x.Known) (h : dispatchL win w n l next s hs = .error (.exit e)) :
    n ∈ flagNames ∨ ∃ opt ∈ argNames, ∃ used v, argL win w n l next opt = .ok (some (used, v)) := by
  induction hs with
  | nil => simp [dispatchL] at h
  | cons x r ih =>
    have ih := ih fun x hx => hk x (List.mem_cons_of_mem _ hx)
    have hx := hk x List.mem_cons_self
    cases x with
    | flag name f =>
      simp only [dispatchL] at h
      split at h
      · rename_i e
        have e : n = name := by simpa using e
        subst e
        exact .inl hx
      · exact ih h
    | arg name f =>
      simp only [dispatchL] at h
      split at h
      · cases h
      · rename_i u v e
        exact .inr ⟨name, hx, u, v, e⟩
      · exact ih h

/-- An argument that is an option, and the next one if it is its value. -/
theorem reads_first {win : Bool} {w n : Str} {l : Bool} {rest : List Str} {opt v : Str} {used : Bool} (hn : nameOf win w = some (n, l))
    (ho : opt ∈ argNames) (ha : argL win w n l rest.head? opt = .ok (some (used, v))) :
    ∃ pre post, w :: rest = pre ++ post ∧ (if used then rest.tail else rest) = post ∧
      ∀ (r : List Str) (es : List Event), Reads win r es → Reads win (pre ++ r) (.value opt v :: es) := by
  obtain ⟨hv, ⟨rfl, hnext, rfl, hl⟩ | ⟨rfl, rfl, c, rfl, rfl⟩ | ⟨rfl, hl, sep, rfl, hs⟩⟩ := argL_inv (argNames_ne ho) ha
  · cases rest with
    | nil => simp at hnext
    | cons x r =>
      simp only [List.head?_cons, Option.some.injEq] at hnext
      subst hnext
      exact ⟨[w, x], r, rfl, rfl, fun r es hr => .next hn ho hl hv hr⟩
  · exact ⟨[w], rest, rfl, rfl, fun r es hr => .joined hn ho hv hr⟩
  · exact ⟨[w], rest, rfl, rfl, fun r es hr => .separated hn ho hl hs hv hr⟩

/-- The loop stops with an exit behind arguments that have a meaning, because of the last
    one of them. -/
theorem loopS_exit {win : Bool} {e : Exit} (args : List Str) : ∀ {st : State}, loopS win args st = .stop (.exit e) →
    ∃ pre es post, args = pre ++ post ∧ Reads win pre es ∧ eventsEffect st es = .error (.exit e) := by
  induction hk : args.length using Nat.strongRecOn generalizing args with
  | ind k ih =>
    intro st h
    cases args with
    | nil =>
      obtain ⟨s, i, ws⟩ := st
      cases i with
      | none => cases h
      | some i => cases i <;> cases h
    | cons w rest =>
      simp only [List.length_cons] at hk
      cases hn : nameOf win w with
      | none =>
        obtain ⟨s, i, ws⟩ := st
        simp only [loopS, loopL_none hn] at h
        have step : ∀ i' ws', eventEffect ⟨s, i, ws⟩ (.input w) = .ok ⟨s, i', ws'⟩ → loopS win rest ⟨s, i', ws'⟩ = .stop (.exit e) →
            ∃ pre es post, w :: rest = pre ++ post ∧ Reads win pre es ∧ eventsEffect ⟨s, i, ws⟩ es = .error (.exit e) := by
          intro i' ws' h1 h2
          obtain ⟨pre, es, post, e1, hr, he⟩ := ih rest.length (by omega) rest rfl h2
          exact ⟨w :: pre, _, post, by rw [e1]; rfl, .input hn hr, by rw [eventsEffect_cons, h1]; exact he⟩
        cases i with
        | none => exact step _ _ rfl h
        | some x => exact step _ _ rfl h
      | some p =>
        obtain ⟨n, l⟩ := p
        have hflag : n ∈ flagNames → ∃ pre es post, w :: rest = pre ++ post ∧ Reads win pre es ∧ eventsEffect st es = .error (.exit e) := by
          intro hf
          have hd := dispatch_flag win w n l rest.head? st.settings hf
          rw [loopS_option st hn hd] at h
          cases hx : flagEffect n st.settings with
          | error y =>
            rw [hx] at h
            refine ⟨[w], [.flag n], rest, rfl, .flag hn hf .nil, ?_⟩
            rw [eventsEffect_cons]
            simp only [eventEffect, hx]
            cases h
            rfl
          | ok s1 =>
            rw [hx] at h
            obtain ⟨pre, es, post, e1, hr, he⟩ := ih rest.length (by omega) rest rfl h
            refine ⟨w :: pre, .flag n :: es, post, by rw [e1]; rfl, .flag hn hf hr, ?_⟩
            rw [eventsEffect_cons]
            simp only [eventEffect, hx]
            exact he
        have hvalue : (∃ opt ∈ argNames, ∃ used v, argL win w n l rest.head? opt = .ok (some (used, v))) →
            ∃ pre es post, w :: rest = pre ++ post ∧ Reads win pre es ∧ eventsEffect st es = .error (.exit e) := by
          rintro ⟨opt, ho, used, v, ha⟩
          have hd := dispatch_value ha ho st.settings
          rw [loopS_option st hn hd] at h
          obtain ⟨p1, p2, e1, e2, hr1⟩ := reads_first hn ho ha
          rw [e2] at h
          cases hx : valueEffect opt v st.settings with
          | error y =>
            rw [hx] at h
            refine ⟨p1, [.value opt v], p2, e1, by simpa using hr1 [] [] .nil, ?_⟩
            rw [eventsEffect_cons]
            simp only [eventEffect, hx]
            cases h
            rfl
          | ok s1 =>
            rw [hx] at h
            have hlen : p2.length < k := by
              rw [← e2]
              split
              · rw [List.length_tail]; omega
              · omega
            obtain ⟨pre, es, post, e3, hr, he⟩ := ih p2.length hlen p2 rfl h
            refine ⟨p1 ++ pre, .value opt v :: es, post, by rw [e1, e3, List.append_assoc], hr1 _ _ hr, ?_⟩
            rw [eventsEffect_cons]
            simp only [eventEffect, hx]
            exact he
        cases hd : dispatchL win w n l rest.head? st.settings handlers with
        | error y =>
          have h' : loopL win (w :: rest) st.settings st.input st.warnings = .stop (.exit e) := h
          rw [loopL_error hn hd] at h'
          cases h'
          rcases dispatch_exit handlers handlers_known hd with hf | hv
          · exact hflag hf
          · exact hvalue hv
        | ok r =>
          obtain ⟨used, s1⟩ := r
          rcases dispatch_ok handlers handlers_known hd with ⟨hf, -⟩ | ⟨opt, ho, v, ha⟩
          · exact hflag hf
          · exact hvalue ⟨opt, ho, used, v, ha⟩

theorem parseCmdline_exit {win : Bool} {prog : Str} {args : List Str} {e : Exit} (hc : CStrs args)
    (h : parseCmdline win (prog :: args) = some (some (.stop (.exit e)))) :
    ∃ pre es post, args = pre ++ post ∧ Reads win pre es ∧ eventsEffect {} es = .error (.exit e) := by
  rw [parseCmdline_eq win prog args hc, Option.some.injEq, Option.some.injEq] at h
  exact loopS_exit args h

theorem reads_flag {win : Bool} {args : List Str} {es : List Event} (h : Reads win args es) {n : Str} (hn : .flag n ∈ es) :
    ∃ w ∈ args, ∃ l, nameOf win w = some (n, l) := by
  induction h with
  | nil => cases hn
  | input _ _ ih =>
    rcases List.mem_cons.mp hn with h | h
    · cases h
    · obtain ⟨w, hw, x⟩ := ih h; exact ⟨w, List.mem_cons_of_mem _ hw, x⟩
  | flag h1 _ _ ih =>
    rcases List.mem_cons.mp hn with h | h
    · cases h; exact ⟨_, List.mem_cons_self, _, h1⟩
    · obtain ⟨w, hw, x⟩ := ih h; exact ⟨w, List.mem_cons_of_mem _ hw, x⟩
  | next _ _ _ _ _ ih =>
    rcases List.mem_cons.mp hn with h | h
    · cases h
    · obtain ⟨w, hw, x⟩ := ih h; exact ⟨w, List.mem_cons_of_mem _ (List.mem_cons_of_mem _ hw), x⟩
  | joined _ _ _ _ ih =>
    rcases List.mem_cons.mp hn with h | h
    · cases h
    · obtain ⟨w, hw, x⟩ := ih h; exact ⟨w, List.mem_cons_of_mem _ hw, x⟩
  | separated _ _ _ _ _ _ ih =>
    rcases List.mem_cons.mp hn with h | h
    · cases h
    · obtain ⟨w, hw, x⟩ := ih h; exact ⟨w, List.mem_cons_of_mem _ hw, x⟩

theorem reads_value {win : Bool} {args : List Str} {es : List Event} (h : Reads win args es) {n v : Str} (hn : .value n v ∈ es) :
    ∃ w ∈ args, ∃ m l, nameOf win w = some (m, l) ∧ n <+: m := by
  induction h with
  | nil => cases hn
  | input _ _ ih =>
    rcases List.mem_cons.mp hn with h | h
    · cases h
    · obtain ⟨w, hw, x⟩ := ih h; exact ⟨w, List.mem_cons_of_mem _ hw, x⟩
  | flag h1 _ _ ih =>
    rcases List.mem_cons.mp hn with h | h
    · cases h
    · obtain ⟨w, hw, x⟩ := ih h; exact ⟨w, List.mem_cons_of_mem _ hw, x⟩
  | next h1 _ _ _ _ ih =>
    rcases List.mem_cons.mp hn with h | h
    · cases h; exact ⟨_, List.mem_cons_self, _, _, h1, List.prefix_refl _⟩
    · obtain ⟨w, hw, x⟩ := ih h; exact ⟨w, List.mem_cons_of_mem _ (List.mem_cons_of_mem _ hw), x⟩
  | joined h1 _ _ _ ih =>
    rcases List.mem_cons.mp hn with h | h
    · cases h; exact ⟨_, List.mem_cons_self, _, _, h1, ⟨_, rfl⟩⟩
    · obtain ⟨w, hw, x⟩ := ih h; exact ⟨w, List.mem_cons_of_mem _ hw, x⟩
  | separated h1 _ _ _ _ _ ih =>
    rcases List.mem_cons.mp hn with h | h
    · cases h; exact ⟨_, List.mem_cons_self, _, _, h1, ⟨_, rfl⟩⟩
    · obtain ⟨w, hw, x⟩ := ih h; exact ⟨w, List.mem_cons_of_mem _ hw, x⟩

/-! ### Settings -/

theorem addDef_print (d : Str) (s : Settings) : (addDef d s).force = s.force ∧ (addDef d s).printSymbols = s.printSymbols :=
  ⟨(Program.addDef_same d s).force, (Program.addDef_same d s).printSymbols⟩

theorem valueEffect_keeps {n v : Str} {s s' : Settings} (h : valueEffect n v s = .ok s') :
    s'.force = s.force ∧ s'.printSymbols = s.printSymbols := by
  unfold valueEffect at h
  split at h
  · cases h
  · split at h
    · split at h <;> cases h
      exact ⟨rfl, rfl⟩
    · split at h
      · split at h <;> cases h
        exact ⟨rfl, rfl⟩
      · split at h
        · cases h; exact addDef_print v s
        · split at h <;> cases h
          · unfold addInc; split <;> exact ⟨rfl, rfl⟩
          · exact ⟨rfl, rfl⟩

theorem flagEffect_sets {n : Str} {s s' : Settings} (h : flagEffect n s = .ok s') :
    (s'.force = true ↔ s.force = true ∨ n = str% "force") ∧ (s'.printSymbols = true ↔ s.printSymbols = true ∨ n = str% "print-symbols") := by
  unfold flagEffect at h
  split at h
  · cases h
  · split at h
    · cases h
    · split at h
      · cases h
      · cases h
        simp

/-- `-force` and `-print-symbols` are set if and only if they are given. -/
theorem events_flags (es : List Event) : ∀ {st st' : State}, eventsEffect st es = .ok st' →
    (st'.settings.force = true ↔ st.settings.force = true ∨ .flag (str% "force") ∈ es) ∧
    (st'.settings.printSymbols = true ↔ st.settings.printSymbols = true ∨ .flag (str% "print-symbols") ∈ es) := by
  induction es with
  | nil => intro st st' h; cases h; simp
  | cons e es ih =>
    intro st st' h
    rw [eventsEffect_cons] at h
    cases e with
    | input w =>
      cases hi : st.input with
      | none => simp only [eventEffect, hi] at h; simpa using ih h
      | some x => simp only [eventEffect, hi] at h; simpa using ih h
    | flag n =>
      cases hf : flagEffect n st.settings with
      | error e => simp only [eventEffect, hf] at h; cases h
      | ok s1 =>
        simp only [eventEffect, hf] at h
        obtain ⟨a, b⟩ := flagEffect_sets hf
        obtain ⟨c, d⟩ := ih h
        refine ⟨c.trans ?_, d.trans ?_⟩
        · simp only [a, List.mem_cons, Event.flag.injEq, or_assoc, eq_comm]
        · simp only [b, List.mem_cons, Event.flag.injEq, or_assoc, eq_comm]
    | value n v =>
      cases hf : valueEffect n v st.settings with
      | error e => simp only [eventEffect, hf] at h; cases h
      | ok s1 =>
        simp only [eventEffect, hf] at h
        obtain ⟨a, b⟩ := valueEffect_keeps hf
        obtain ⟨c, d⟩ := ih h
        refine ⟨c.trans ?_, d.trans ?_⟩
        · simp [a]
        · simp [b]

theorem valueEffect_path {n v : Str} {s s' : Settings} (h : valueEffect n v s = .ok s') :
    s'.separate = s.separate ∧ (s'.templatesPath = s.templatesPath ∨ n = str% "templates-path") := by
  unfold valueEffect at h
  split at h
  · cases h
  · split at h
    · split at h <;> cases h
      exact ⟨rfl, Or.inl rfl⟩
    · split at h
      · split at h <;> cases h
        exact ⟨rfl, Or.inl rfl⟩
      · split at h
        · cases h; exact ⟨(Program.addDef_same v s).separate, Or.inl (Program.addDef_same v s).templatesPath⟩
        · split at h <;> cases h
          · unfold addInc; split <;> exact ⟨rfl, Or.inl rfl⟩
          · refine ⟨rfl, ?_⟩
            dsimp only
            by_cases h : n = str% "templates-path"
            · exact Or.inr h
            · rw [if_neg h]; exact Or.inl rfl

theorem flagEffect_path {n : Str} {s s' : Settings} (h : flagEffect n s = .ok s') :
    s'.templatesPath = s.templatesPath ∧ (s'.separate = true ↔ s.separate = true ∨ n = str% "separate") := by
  unfold flagEffect at h
  split at h
  · cases h
  · split at h
    · cases h
    · split at h
      · cases h
      · cases h
        simp

/-- The directory of templates and `-separate` are set only if they are given. -/
theorem events_path (es : List Event) : ∀ {st st' : State}, eventsEffect st es = .ok st' →
    (st'.settings.templatesPath = st.settings.templatesPath ∨ ∃ v, .value (str% "templates-path") v ∈ es) ∧
    (st'.settings.separate = true ↔ st.settings.separate = true ∨ .flag (str% "separate") ∈ es) := by
  induction es with
  | nil => intro st st' h; cases h; simp
  | cons e es ih =>
    intro st st' h
    rw [eventsEffect_cons] at h
    cases e with
    | input w =>
      cases hi : st.input with
      | none => simp only [eventEffect, hi] at h; simpa using ih h
      | some x => simp only [eventEffect, hi] at h; simpa using ih h
    | flag n =>
      cases hf : flagEffect n st.settings with
      | error e => simp only [eventEffect, hf] at h; cases h
      | ok s1 =>
        simp only [eventEffect, hf] at h
        obtain ⟨a, b⟩ := flagEffect_path hf
        obtain ⟨c, d⟩ := ih h
        refine ⟨?_, d.trans ?_⟩
        · rcases c with c | ⟨v, c⟩
          · exact Or.inl (c.trans a)
          · exact Or.inr ⟨v, List.mem_cons_of_mem _ c⟩
        · simp only [b, List.mem_cons, Event.flag.injEq, or_assoc, eq_comm]
    | value n v =>
      cases hf : valueEffect n v st.settings with
      | error e => simp only [eventEffect, hf] at h; cases h
      | ok s1 =>
        simp only [eventEffect, hf] at h
        obtain ⟨a, b⟩ := valueEffect_path hf
        obtain ⟨c, d⟩ := ih h
        refine ⟨?_, d.trans ?_⟩
        · rcases c with c | ⟨v, c⟩
          · rcases b with b | rfl
            · exact Or.inl (c.trans b)
            · exact Or.inr ⟨v, List.mem_cons_self⟩
          · exact Or.inr ⟨v, List.mem_cons_of_mem _ c⟩
        · simp [a]

/-- Only `-dump-templates` writes templates. -/
theorem events_dump (es : List Event) : ∀ {st : State} {d : Str}, eventsEffect st es = .error (.exit (.dump d)) →
    .value (str% "dump-templates") d ∈ es := by
  induction es with
  | nil => intro st d h; cases h
  | cons e es ih =>
    intro st d h
    rw [eventsEffect_cons] at h
    cases e with
    | input w =>
      cases hi : st.input with
      | none => simp only [eventEffect, hi] at h; exact List.mem_cons_of_mem _ (ih h)
      | some x => simp only [eventEffect, hi] at h; exact List.mem_cons_of_mem _ (ih h)
    | flag n =>
      cases hf : flagEffect n st.settings with
      | error e =>
        simp only [eventEffect, hf] at h
        cases h
        unfold flagEffect at hf
        split at hf
        · cases hf
        · split at hf
          · cases hf
          · split at hf <;> cases hf
      | ok s1 => simp only [eventEffect, hf] at h; exact List.mem_cons_of_mem _ (ih h)
    | value n v =>
      cases hf : valueEffect n v st.settings with
      | error e =>
        simp only [eventEffect, hf] at h
        cases h
        unfold valueEffect at hf
        split at hf
        · rename_i hn
          cases hf
          rw [hn]
          exact List.mem_cons_self
        · split at hf
          · split at hf <;> cases hf
          · split at hf
            · split at hf <;> cases hf
            · split at hf
              · cases hf
              · split at hf <;> cases hf
      | ok s1 => simp only [eventEffect, hf] at h; exact List.mem_cons_of_mem _ (ih h)

end Gdo.Opt
