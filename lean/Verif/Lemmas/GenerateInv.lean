import Verif.Lemmas.GenerateAll

/-! Runs of `generate` that fail, and what a successful run must have done. -/

namespace Gdo.Gen
open Gdo Tpl Opt

theorem createOut_fail {env : Env} {path : Str} {l : Nat} {st : State} (hc : env.canCreate l = false) :
    ∃ st', createOut env path l st = .error (.write path) st' := by
  refine ⟨{ st with out := none }, ?_⟩
  unfold createOut
  rw [bind_ok (show closeOut st = .ok () { st with out := none } from rfl), if_neg (by simp [hc])]
  rfl

theorem openNew_fail {env : Env} {path : Str} {st : State}
    (h : ∀ l, env.res path = .at l → (st.node l).isSome ∨ env.canCreate l = false) :
    ∃ e st', openNew env path st = .error e st' := by
  unfold openNew
  cases hr : env.res path with
  | denied => exact ⟨_, _, rfl⟩
  | missing => exact ⟨_, _, rfl⟩
  | «at» l =>
    simp only []
    rw [bind_ok (show (get : M State) st = .ok st st from rfl)]
    rcases h l hr with h | h
    · rw [if_pos h]
      exact ⟨_, _, rfl⟩
    · by_cases hs : (st.node l).isSome
      · rw [if_pos hs]
        exact ⟨_, _, rfl⟩
      · rw [if_neg hs]
        obtain ⟨st', e⟩ := createOut_fail (path := path) (st := st) h
        exact ⟨_, _, e⟩

theorem remove_node {env : Env} {path : Str} {st st' : State} (h : remove env path st = .ok () st') :
    (∀ l, env.res path = .at l → st'.node l = none) ∧ (∀ l, env.res path = .at l → replaceable env true l (st.node l) = true) := by
  unfold remove at h
  cases hr : env.res path with
  | denied => rw [hr] at h; cases h
  | missing => exact ⟨fun l hl => (by cases hl), fun l hl => by cases hl⟩
  | «at» l =>
    rw [hr] at h
    simp only [] at h
    rw [bind_ok (show (get : M State) st = .ok st st from rfl)] at h
    have fin : (∀ x, st.node l = some x → env.canRemove l = true ∧ x ≠ .dir false) → st'.node l = none →
        (∀ k, Res.at l = .at k → st'.node k = none) ∧ ∀ k, Res.at l = .at k → replaceable env true k (st.node k) = true := by
      intro h1 h2
      constructor
      · intro k hk
        cases hk
        exact h2
      · intro k hk
        cases hk
        cases hn : st.node l with
        | none => rfl
        | some x =>
          obtain ⟨hc, hx⟩ := h1 x hn
          cases x with
          | file d => simp [replaceable, hc]
          | link => simp [replaceable, hc]
          | dir e =>
            cases e with
            | true => simp [replaceable, hc]
            | false => exact absurd rfl hx
    cases hn : st.node l with
    | none =>
      rw [hn] at h
      cases h
      exact fin (by rw [hn]; exact fun x hx => by cases hx) hn
    | some x =>
      rw [hn] at h
      have key : ∀ (x : Node), st.node l = some x → x ≠ .dir false →
          ((if env.canRemove l then modify fun st => { st with node := fun k => if k = l then none else st.node k }
            else throw .terminate : M Unit) st = .ok () st') →
          (∀ k, Res.at l = .at k → st'.node k = none) ∧ ∀ k, Res.at l = .at k → replaceable env true k (st.node k) = true := by
        intro x hn hx h
        by_cases hc : env.canRemove l = true
        · rw [if_pos hc] at h
          cases h
          refine fin (fun y hy => ?_) (by simp)
          rw [hn] at hy
          cases hy
          exact ⟨hc, hx⟩
        · rw [if_neg hc] at h
          cases h
      cases x with
      | file d => exact key _ hn (by simp) h
      | link => exact key _ hn (by simp) h
      | dir e =>
        cases e with
        | true => exact key _ hn (by simp) h
        | false => cases h

theorem open_fail {env : Env} {path : Str} {force : Bool} {st : State} (h : opened env path force st.node = none) :
    ∃ e st', openOut env path force st = .error e st' := by
  unfold opened at h
  unfold openOut
  by_cases hp : path = [] ∨ path = str% "-"
  · rw [if_pos hp] at h
    cases h
  · rw [if_neg hp] at h
    have hp' : ¬ (path.isEmpty = true ∨ path = str% "-") := by
      simpa [List.isEmpty_iff] using hp
    rw [if_neg hp']
    cases force with
    | false =>
      simp only [Bool.false_eq_true, if_false]
      apply openNew_fail
      intro l hl
      rw [hl] at h
      simp only [] at h
      split at h
      · cases h
      · rename_i hc
        cases hn : st.node l with
        | some x => exact Or.inl rfl
        | none =>
          rw [hn] at hc
          right
          simpa [replaceable] using hc
    | true =>
      simp only [if_true]
      cases hr : remove env path st with
      | error e st' => exact ⟨e, st', bind_error hr⟩
      | ok u st' =>
        rw [bind_ok hr]
        obtain ⟨h1, h2⟩ := remove_node hr
        apply openNew_fail
        intro l hl
        rw [hl] at h
        simp only [] at h
        split at h
        · cases h
        · rename_i hc
          right
          rw [h2 l hl] at hc
          simpa using hc

/-- The step does not fail because of a template. -/
def NoSubst {α : Type} (m : M α) : Prop := ∀ st e st', m st = .error e st' → ∀ x, e ≠ .subst x

theorem noSubst_bind {α β : Type} {m : M α} {f : α → M β} (h1 : NoSubst m) (h2 : ∀ a, NoSubst (f a)) : NoSubst (m >>= f) := by
  intro st e st' h
  cases hm : m st with
  | ok a st1 => rw [bind_ok hm] at h; exact h2 a st1 e st' h
  | error e1 st1 => rw [bind_error hm] at h; cases h; exact h1 st e st' hm

theorem noSubst_get : NoSubst (get : M State) := fun _ _ _ h => by cases h

theorem noSubst_modify (f : State → State) : NoSubst (modify f : M Unit) := fun _ _ _ h => by cases h

theorem noSubst_pure {α : Type} (a : α) : NoSubst (pure a : M α) := fun _ _ _ h => by cases h

theorem noSubst_throw {α : Type} {e : Fail} (h : ∀ x, e ≠ .subst x) : NoSubst (throw e : M α) := fun _ _ _ h' => by cases h'; exact h

theorem noSubst_open (env : Env) (path : Str) (force : Bool) : NoSubst (openOut env path force) := by
  have hnew : NoSubst (openNew env path) := by
    unfold openNew
    split
    · exact noSubst_throw (by simp)
    · exact noSubst_bind (noSubst_modify _) fun _ => noSubst_throw (by simp)
    · refine noSubst_bind noSubst_get fun _ => ?_
      split
      · exact noSubst_throw (by simp)
      · unfold createOut
        refine noSubst_bind (noSubst_modify _) fun _ => ?_
        split
        · exact noSubst_modify _
        · exact noSubst_throw (by simp)
  unfold openOut
  split
  · exact noSubst_modify _
  · split
    · refine noSubst_bind ?_ fun _ => hnew
      unfold remove
      split
      · exact noSubst_throw (by simp)
      · exact noSubst_pure _
      · refine noSubst_bind noSubst_get fun _ => ?_
        split
        · exact noSubst_pure _
        · exact noSubst_throw (by simp)
        · split
          · exact noSubst_modify _
          · exact noSubst_throw (by simp)
    · exact hnew

theorem runSubstitute_fail {env : Env} {s : Settings} {ps : List (TName × Ptr)} {st : State} {e : Sub.SubErr}
    (h : ∀ p ∈ ps, PtrOK env s st.mem p)
    (hs : Sub.substitute env.n (subConfig env s) (ps.map fun p => srcList env s p.1) = .error e) :
    runSubstitute env s ps st = .error (.subst e) st := by
  unfold runSubstitute
  rw [bind_ok (derefAll_run h), hs]
  rfl

/-- The header if its templates cannot be processed. -/
theorem writeHeader_fail {env : Env} {s : Settings} {defines : Str} {ps : List (TName × Ptr)} {st st1 : State}
    {e : Sub.SubErr} (hr : Readable env s)
    (hopen : openOut env (outputPaths s).1 s.force st = .ok () st1) (hg : Good st1)
    (hf1 : Fresh st1.mem .license) (hf2 : Fresh st1.mem .filenameMacros)
    (hp : ∀ p ∈ ps, PtrOK env s st1.mem p ∧ p.1 ≠ .license ∧ p.1 ≠ .filenameMacros)
    (hs : Sub.substitute env.n (subConfig env s) (ps.map fun p => srcList env s p.1) = .error e) :
    ∃ st2, writeHeader env s defines ps st = .error (.subst e) st2 := by
  obtain ⟨a1, e1, s1, m1⟩ := writeCounted_run (noteText s.printDate env.date) hg
  obtain ⟨a2, e2, s2, o2, p2⟩ := saveData_builtin (env := env) (s := s) (t := .license) hr (by rw [m1]; exact hf1) s1.good
  obtain ⟨a3, e3, s3, m3⟩ := write_run (lineDirectiveText (headLines env s) s.lineDirective (headerName s)).1 s2.good
  obtain ⟨a4, e4, s4, m4⟩ :=
    writeCounted_run (guardBegin (headerName s) (toUpper s.pfx) s.pragmaOnce (Format.isCxx s.format)) s3.good
  have hf2' : Fresh a4.mem .filenameMacros := by
    rw [m4, m3]
    exact o2.fresh (by decide) (by rw [m1]; exact hf2)
  obtain ⟨a5, e5, s5, o5, p5⟩ := saveData_builtin (env := env) (s := s) (t := .filenameMacros) hr hf2' s4.good
  obtain ⟨a6, e6, s6, m6⟩ := writeCounted_run (extraDefines defines) s5.good
  obtain ⟨a7, e7, s7, m7⟩ := writeCounted_run (includesText s.includes (Format.isCxx s.format)) s6.good
  obtain ⟨a8, e8, s8, m8⟩ := writeCounted_run (typedefsText env.symbols.typedefs) s7.good
  have m8' : a8.mem = a5.mem := m8.trans (m7.trans m6)
  have m4' : a4.mem = a2.mem := m4.trans m3
  have hps : ∀ p ∈ ps, PtrOK env s a8.mem p := by
    intro p hp'
    obtain ⟨h1, h2, h3⟩ := hp p hp'
    rw [m8']
    refine o5.ptrOK h3 ?_
    rw [m4']
    exact o2.ptrOK h2 (by rw [m1]; exact h1)
  refine ⟨a8, ?_⟩
  unfold writeHeader
  dsimp only
  rw [bind_ok hopen, bind_ok e1, bind_ok (getPtr_run _ _)]
  rw [show a1.mem.ptr .license = .builtin by rw [m1]; exact hf1.2, bind_ok e2]
  rw [show countLinefeed (noteText s.printDate env.date) + savedLines s (env.builtin TName.license) = headLines env s from rfl,
    bind_ok e3, bind_ok e4, bind_ok (getPtr_run _ _)]
  rw [show a4.mem.ptr .filenameMacros = .builtin from hf2'.2, bind_ok e5, bind_ok e6, bind_ok e7, bind_ok e8]
  exact bind_error (runSubstitute_fail hps hs)

/-- A run whose header cannot be opened or whose templates cannot be processed fails. -/
theorem generate_fail {env : Env} {s : Settings} {st : State} (hr : Readable env s) (hf : ∀ t, Fresh st.mem t)
    (h : opened env (outputPaths s).1 s.force st.node = none ∨ ∃ e, headerSubst env s = .error e) :
    ∃ e st', generate env s st = .error e st' ∧ ((∀ x, e ≠ .subst x) ∨ ∃ x, e = .subst x ∧ headerSubst env s = .error x) := by
  obtain ⟨c, hc, ec⟩ := commonPrefix_run env st
  obtain ⟨hs', bs, st1, e1, io, n1, n2, hp, f1, f2⟩ := createLists_run hr hf
  have hgen : generate env s st = (writeHeader env s (s.defines ++ addedDefines s (isSeparate s) c env.symbols.protos) hs' >>= fun _ =>
      if bs.isEmpty then pure () else writeBody env s bs) st1 := by
    unfold generate
    rw [bind_ok ec, bind_ok e1]
  rw [hgen]
  have first : opened env (outputPaths s).1 s.force st.node = none → ∃ e st',
      (writeHeader env s (s.defines ++ addedDefines s (isSeparate s) c env.symbols.protos) hs' >>= fun _ =>
      if bs.isEmpty then pure () else writeBody env s bs : M Unit) st1 = .error e st' ∧ ∀ x, e ≠ .subst x := by
    intro h
    have hopen : opened env (outputPaths s).1 s.force st1.node = none := by rw [io.node]; exact h
    obtain ⟨e, st', ho⟩ := open_fail hopen
    refine ⟨e, st', bind_error ?_, noSubst_open _ _ _ _ _ _ ho⟩
    unfold writeHeader
    dsimp only
    exact bind_error ho
  have first' := fun h => (first h).imp fun e h => h.imp fun st' h => And.intro h.1
    (Or.inl h.2 : (∀ x, e ≠ .subst x) ∨ ∃ x, e = .subst x ∧ headerSubst env s = .error x)
  rcases h with h | ⟨e, h⟩
  · exact first' h
  · cases hopen : opened env (outputPaths s).1 s.force st.node with
    | none => exact first' hopen
    | some x =>
      obtain ⟨o, nd⟩ := x
      have hopen' : opened env (outputPaths s).1 s.force st1.node = some (o, nd) := by rw [io.node]; exact hopen
      have hsub : Sub.substitute env.n (subConfig env s) (hs'.map fun p => srcList env s p.1) = .error e := by
        rw [← h, headerSubst, ← n1, List.map_map]
        rfl
      obtain ⟨st2, e2⟩ := writeHeader_fail
        (defines := s.defines ++ addedDefines s (isSeparate s) c env.symbols.protos) (ps := hs') hr (open_run hopen')
        (open_good hopen' _ _) f1 f2 (fun p h => hp p (List.mem_append_left _ h)) hsub
      exact ⟨_, _, bind_error e2, Or.inr ⟨e, rfl, h⟩⟩

/-- The body if it cannot be opened or its templates cannot be processed. -/
theorem writeBody_fail {env : Env} {s : Settings} {bs : List (TName × Ptr)} {st : State} (he : s.templatesPath.isEmpty = true)
    (hl : PtrOK env s st.mem (.license, st.mem.ptr .license)) (hp : ∀ p ∈ bs, PtrOK env s st.mem p)
    (h : opened env (outputPaths s).2 s.force st.node = none ∨
      ∃ e, Sub.substitute env.n (subConfig env s) (bs.map fun p => srcList env s p.1) = .error e) :
    ∃ e st', writeBody env s bs st = .error e st' ∧ ((∀ x, e ≠ .subst x) ∨
      ∃ x, e = .subst x ∧ Sub.substitute env.n (subConfig env s) (bs.map fun p => srcList env s p.1) = .error x) := by
  cases hopen : opened env (outputPaths s).2 s.force st.node with
  | none =>
    obtain ⟨e, st', ho⟩ := open_fail hopen
    refine ⟨e, st', ?_, Or.inl (noSubst_open _ _ _ _ _ _ ho)⟩
    unfold writeBody
    exact bind_error ho
  | some x =>
    obtain ⟨o, nd⟩ := x
    rcases h with h | ⟨e, hs⟩
    · rw [hopen] at h
      cases h
    obtain ⟨a1, e1, s1, m1⟩ := write_run (noteText s.printDate env.date) (open_good hopen st.mem st.stdout)
    have hb : st.mem.ptr .license = .builtin := by
      rcases hl with ⟨_, h⟩ | ⟨h, _⟩
      · exact h
      · rw [he] at h; cases h
    have hload : loadTemplate env s .license a1 = .ok () a1 := by
      unfold loadTemplate
      rw [if_pos he]
      rfl
    obtain ⟨a2, e2, s2, m2⟩ := write_run (savedText s (env.builtin .license)) s1.good
    obtain ⟨a3, e3, s3, m3⟩ := write_run (includeHeader (headerName s) (toUpper s.pfx)) s2.good
    have e4 := runSubstitute_fail (ps := bs) (st := a3) (by rw [m3, m2, m1]; exact hp) hs
    refine ⟨.subst e, a3, ?_, Or.inr ⟨e, rfl, hs⟩⟩
    unfold writeBody
    rw [bind_ok (open_run hopen), bind_ok e1, bind_ok (getPtr_run _ _)]
    have e5 : saveData env s (.license, .builtin) a1 = .ok (savedLines s (env.builtin .license)) a2 := by
      unfold saveData
      rw [bind_ok hload, bind_ok (deref_builtin env _ _)]
      show (write (savedText s (env.builtin .license)) >>= fun _ => pure (savedLines s (env.builtin .license))) a1 = _
      rw [bind_ok e2]
      rfl
    rw [show a1.mem.ptr .license = .builtin by rw [m1]; exact hb, bind_ok e5, bind_ok e3]
    exact bind_error e4

/-- A text has been written to a path: to standard output, or it is the whole content of the
    file.  Nothing else has changed. -/
def Written (env : Env) (path : Str) (st : State) (text : Str) (st' : State) : Prop :=
  ((path = [] ∨ path = str% "-") ∧ st'.stdout = st.stdout ++ text ∧ st'.node = st.node) ∨
  (path ≠ [] ∧ path ≠ str% "-" ∧ st'.stdout = st.stdout ∧
    ∃ l, env.res path = .at l ∧ st'.node l = some (.file text) ∧ ∀ k, k ≠ l → st'.node k = st.node k)

theorem written_of_step {env : Env} {path : Str} {force : Bool} {st st' : State} {o : Option Nat} {nd : Nat → Option Node} {m : Mem} {text : Str}
    (hopen : opened env path force st.node = some (o, nd)) (w : Step { st with node := nd, out := o, mem := m } text st') :
    Written env path st text st' := by
  unfold opened at hopen
  by_cases hp : path = [] ∨ path = str% "-"
  · rw [if_pos hp] at hopen
    simp only [Option.some.injEq, Prod.mk.injEq] at hopen
    obtain ⟨rfl, rfl⟩ := hopen
    refine Or.inl ⟨hp, ?_, ?_⟩
    · have h1 := w.text
      have h2 : st'.out = none := w.out
      simpa [cur, h2] using h1
    · funext l
      exact w.frame l (by simp)
  · rw [if_neg hp] at hopen
    right
    refine ⟨fun h => hp (Or.inl h), fun h => hp (Or.inr h), ?_⟩
    split at hopen
    · rename_i l hl
      split at hopen
      · simp only [Option.some.injEq, Prod.mk.injEq] at hopen
        obtain ⟨rfl, rfl⟩ := hopen
        refine ⟨w.std l rfl, l, hl, ?_, ?_⟩
        · have h1 := w.text
          have h2 : st'.out = some l := w.out
          rcases w.good with hg | ⟨l', d, hl', hd⟩
          · rw [h2] at hg; cases hg
          · rw [h2] at hl'
            cases hl'
            simp only [cur, h2, hd, if_true, List.nil_append] at h1
            rw [hd, h1]
        · intro k hk
          rw [w.frame k (by simp [hk.symm])]
          simp [hk]
      · cases hopen
    · cases hopen

/-- A successful run that writes a single file has written the whole text. -/
theorem generate_ok_single {env : Env} {s : Settings} {st st' : State} (hr : Readable env s) (hf : ∀ t, Fresh st.mem t)
    (h1 : isSeparate s = false) (h : generate env s st = .ok () st') :
    ∃ css k, headerSubst env s = .ok (css, k) ∧
      Written env (outputPaths s).1 st (headerText env s (allDefines env s) (Sub.bytes css.flatten.flatten) k) st' := by
  cases hs : headerSubst env s with
  | error e =>
    obtain ⟨_, _, hx, -⟩ := generate_fail (st := st) hr hf (Or.inr ⟨e, hs⟩)
    rw [h] at hx
    cases hx
  | ok x =>
    obtain ⟨css, k⟩ := x
    cases ho : opened env (outputPaths s).1 s.force st.node with
    | none =>
      obtain ⟨_, _, hx, -⟩ := generate_fail (st := st) hr hf (Or.inl ho)
      rw [h] at hx
      cases hx
    | some y =>
      obtain ⟨o, nd⟩ := y
      obtain ⟨st2, e2, m, w⟩ := generate_single hr hf h1 ho hs
      rw [h] at e2
      cases e2
      refine ⟨css, k, rfl, ?_⟩
      rcases written_of_step ho w with ⟨a, b, c⟩ | ⟨a, b, c, l, d⟩
      · exact Or.inl ⟨a, b, c⟩
      · exact Or.inr ⟨a, b, c, l, d⟩

/-- A successful run that writes two files has written both, one after the other. -/
theorem generate_ok_separate {env : Env} {s : Settings} {st st' : State} (ht : s.templatesPath = []) (hf : ∀ t, Fresh st.mem t)
    (h1 : isSeparate s = true) (h : generate env s st = .ok () st') :
    ∃ css k bss j st1, headerSubst env s = .ok (css, k) ∧ bodySubst env s = .ok (bss, j) ∧
      Written env (outputPaths s).1 st (headerText env s (allDefines env s) (Sub.bytes css.flatten.flatten) k) st1 ∧
      Written env (outputPaths s).2 st1 (bodyText env s (Sub.bytes bss.flatten.flatten)) st' := by
  have hr : Readable env s := by
    intro h
    rw [ht] at h
    cases h
  have he : s.templatesPath.isEmpty = true := by rw [ht]; rfl
  cases hs : headerSubst env s with
  | error e =>
    obtain ⟨_, _, hx, -⟩ := generate_fail (st := st) hr hf (Or.inr ⟨e, hs⟩)
    rw [h] at hx
    cases hx
  | ok x =>
    obtain ⟨css, k⟩ := x
    cases ho : opened env (outputPaths s).1 s.force st.node with
    | none =>
      obtain ⟨_, _, hx, -⟩ := generate_fail (st := st) hr hf (Or.inl ho)
      rw [h] at hx
      cases hx
    | some y =>
      obtain ⟨o, nd⟩ := y
      obtain ⟨bs, st2, e, ⟨m, w⟩, n, hlic, hbp, _⟩ := generate_split hr hf ho hs
      have hne : bs.isEmpty = false := by
        rw [separate_body h1] at n
        cases bs with
        | nil => cases n
        | cons _ _ => rfl
      rw [h, hne] at e
      have e : EStateM.Result.ok () st' = writeBody env s bs { st2 with out := none } := e
      have hsubst : bodySubst env s = Sub.substitute env.n (subConfig env s) (bs.map fun p => srcList env s p.1) := by
        rw [bodySubst, ← n, List.map_map]
        rfl
      have hw1 : Written env (outputPaths s).1 st (headerText env s (allDefines env s) (Sub.bytes css.flatten.flatten) k) { st2 with out := none } := by
        rcases written_of_step ho w with ⟨a, b, c⟩ | ⟨a, b, c, l, d⟩
        · exact Or.inl ⟨a, b, c⟩
        · exact Or.inr ⟨a, b, c, l, d⟩
      cases hb : bodySubst env s with
      | error x =>
        obtain ⟨_, _, hx, -⟩ := writeBody_fail (st := { st2 with out := none }) he hlic (fun p hp => (hbp p hp).1)
          (Or.inr ⟨x, by rw [← hsubst]; exact hb⟩)
        rw [hx] at e
        cases e
      | ok x =>
        obtain ⟨bss, j⟩ := x
        cases ho2 : opened env (outputPaths s).2 s.force ({ st2 with out := none } : State).node with
        | none =>
          obtain ⟨_, _, hx, -⟩ := writeBody_fail (st := { st2 with out := none }) he hlic (fun p hp => (hbp p hp).1) (Or.inl ho2)
          rw [hx] at e
          cases e
        | some y =>
          obtain ⟨o2, nd2⟩ := y
          obtain ⟨st3, e3, w3⟩ := writeBody_run (st := { st2 with out := none }) he ho2 hlic (fun p hp => (hbp p hp).1)
            (by rw [← hsubst]; exact hb)
          rw [e3] at e
          cases e
          exact ⟨css, k, bss, j, _, rfl, rfl, hw1, written_of_step ho2 w3⟩

theorem single_body {s : Settings} (h : isSeparate s = false) : (listNames s).2 = [] := by
  unfold listNames
  dsimp only
  split
  · rfl
  · simp [h]

/-- A run that fails in the templates has a template that cannot be processed. -/
theorem generate_subst {env : Env} {s : Settings} {st st' : State} {err : Sub.SubErr} (hr : Readable env s) (hf : ∀ t, Fresh st.mem t)
    (h1 : isSeparate s = false ∨ s.templatesPath = []) (h : generate env s st = .error (.subst err) st') :
    headerSubst env s = .error err ∨ bodySubst env s = .error err := by
  cases hs : headerSubst env s with
  | error e =>
    obtain ⟨e', _, hx, hy⟩ := generate_fail (st := st) hr hf (Or.inr ⟨e, hs⟩)
    rw [h] at hx
    cases hx
    rcases hy with hy | ⟨x, hx, hy⟩
    · exact absurd rfl (hy _)
    · cases hx
      rw [hs] at hy
      exact Or.inl hy
  | ok x =>
    obtain ⟨css, k⟩ := x
    cases ho : opened env (outputPaths s).1 s.force st.node with
    | none =>
      obtain ⟨e', _, hx, hy⟩ := generate_fail (st := st) hr hf (Or.inl ho)
      rw [h] at hx
      cases hx
      rcases hy with hy | ⟨x, hx, hy⟩
      · exact absurd rfl (hy _)
      · rw [hs] at hy
        cases hy
    | some y =>
      obtain ⟨o, nd⟩ := y
      obtain ⟨bs, st2, e, ⟨m, w⟩, n, hlic, hbp, _⟩ := generate_split hr hf ho hs
      cases hne : bs.isEmpty with
      | true =>
        rw [h, hne] at e
        cases e
      | false =>
        rw [h, hne] at e
        have e : EStateM.Result.error (.subst err) st' = writeBody env s bs { st2 with out := none } := e
        have he : s.templatesPath.isEmpty = true := by
          rcases h1 with h1 | h1
          · rw [single_body h1] at n
            cases bs with
            | nil => cases hne
            | cons _ _ => cases n
          · rw [h1]
            rfl
        have hsubst : bodySubst env s = Sub.substitute env.n (subConfig env s) (bs.map fun p => srcList env s p.1) := by
          rw [bodySubst, ← n, List.map_map]
          rfl
        have step : (opened env (outputPaths s).2 s.force ({ st2 with out := none } : State).node = none ∨
            ∃ e, Sub.substitute env.n (subConfig env s) (bs.map fun p => srcList env s p.1) = .error e) → bodySubst env s = .error err := by
          intro hor
          obtain ⟨e', _, hx, hy⟩ := writeBody_fail (st := { st2 with out := none }) he hlic (fun p hp => (hbp p hp).1) hor
          rw [hx] at e
          cases e
          rcases hy with hy | ⟨x, hx, hy⟩
          · exact absurd rfl (hy _)
          · cases hx
            rw [hsubst, hy]
        right
        cases ho2 : opened env (outputPaths s).2 s.force ({ st2 with out := none } : State).node with
        | none => exact step (Or.inl ho2)
        | some y =>
          obtain ⟨o2, nd2⟩ := y
          cases hb : bodySubst env s with
          | error x => rw [← hb]; exact step (Or.inr ⟨x, by rw [← hsubst]; exact hb⟩)
          | ok x =>
            obtain ⟨bss, j⟩ := x
            obtain ⟨st3, e3, w3⟩ := writeBody_run (st := { st2 with out := none }) he ho2 hlic (fun p hp => (hbp p hp).1)
              (by rw [← hsubst]; exact hb)
            rw [e3] at e
            cases e

/-- A run that does not end has a template whose processing does not end. -/
theorem generate_more {env : Env} {s : Settings} {st st' : State} (hr : Readable env s) (hf : ∀ t, Fresh st.mem t)
    (h1 : isSeparate s = false ∨ s.templatesPath = []) (h : generate env s st = .error (.subst .more) st') :
    headerSubst env s = .error .more ∨ bodySubst env s = .error .more := generate_subst hr hf h1 h

/-- The same with a custom template. -/
theorem custom_more {env : Env} {s : Settings} {st st' : State} (h : customTemplate env s st = .error (.subst .more) st') :
    ∃ text, env.read s.customTemplate = some text ∧ Sub.customTemplate env.n (subConfig env s) text = .error .more := by
  unfold customTemplate at h
  cases hr : env.read s.customTemplate with
  | none => rw [hr] at h; cases h
  | some text =>
    refine ⟨text, rfl, ?_⟩
    rw [hr] at h
    dsimp only at h
    cases ho : opened env s.output s.force st.node with
    | none =>
      obtain ⟨e, x, hx⟩ := open_fail ho
      rw [bind_error hx] at h
      cases h
      exact absurd rfl (noSubst_open _ _ _ _ _ _ hx _)
    | some y =>
      obtain ⟨o, nd⟩ := y
      obtain ⟨a1, e1, s1, m1⟩ := write_run (customLine s) (open_good ho st.mem st.stdout)
      rw [bind_ok (open_run ho), bind_ok e1] at h
      cases hs : Sub.customTemplate env.n (subConfig env s) text with
      | error e => rw [hs] at h; cases h; rfl
      | ok x =>
        obtain ⟨css, k, b⟩ := x
        obtain ⟨a2, e2, s2, m2⟩ := write_run (Sub.bytes css.flatten) s1.good
        rw [hs] at h
        have h : write (Sub.bytes css.flatten) a1 = .error (.subst .more) st' := h
        rw [e2] at h
        cases h

/-- A successful run with a custom template has written the processed template. -/
theorem custom_ok {env : Env} {s : Settings} {st st' : State} (h : customTemplate env s st = .ok () st') :
    ∃ text css k b, env.read s.customTemplate = some text ∧ Sub.customTemplate env.n (subConfig env s) text = .ok (css, k, b) ∧
      Written env s.output st (customLine s ++ Sub.bytes css.flatten) st' := by
  unfold customTemplate at h
  cases hr : env.read s.customTemplate with
  | none => rw [hr] at h; cases h
  | some text =>
    rw [hr] at h
    dsimp only at h
    cases ho : opened env s.output s.force st.node with
    | none =>
      obtain ⟨e, x, hx⟩ := open_fail ho
      rw [bind_error hx] at h
      cases h
    | some y =>
      obtain ⟨o, nd⟩ := y
      obtain ⟨a1, e1, s1, m1⟩ := write_run (customLine s) (open_good ho st.mem st.stdout)
      rw [bind_ok (open_run ho), bind_ok e1] at h
      cases hs : Sub.customTemplate env.n (subConfig env s) text with
      | error e => rw [hs] at h; cases h
      | ok x =>
        obtain ⟨css, k, b⟩ := x
        obtain ⟨a2, e2, s2, m2⟩ := write_run (Sub.bytes css.flatten) s1.good
        rw [hs] at h
        have h : write (Sub.bytes css.flatten) a1 = .ok () st' := h
        rw [e2] at h
        cases h
        exact ⟨text, css, k, b, rfl, hs, written_of_step ho (s1.trans s2)⟩

end Gdo.Gen
