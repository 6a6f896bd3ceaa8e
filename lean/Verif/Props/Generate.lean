import Verif.Lemmas.GenerateSafe

/-!
Properties C33 to C35: the files written and the templates used.
-/

namespace Gdo.Gen
open Gdo Tpl Opt

/-! ### C33 -/

/-- Without `-force` nothing that exists is changed or removed, also if the run fails. -/
theorem C33_untouched (env : Env) (s : Settings) (printed : Str) (st : State) (hout : st.out = none) (hforce : s.force = false)
    (l : Nat) (x : Node) (hx : st.node l = some x) : (final (run env s printed st)).node l = some x := by
  have hi : Untouched st st := ⟨fun _ _ h => h, fun l hl => by rw [hout] at hl; cases hl⟩
  have ho : ∀ p, Keeps (Untouched st) (openOut env p s.force) := by rw [hforce]; exact keeps_open st env
  have hk : Keeps (Untouched st) (run env s printed) := by
    unfold run
    split
    · exact keeps_modify fun _ h => h
    · split
      · exact keeps_custom (keeps_write st) ho
      · exact keeps_generate (keeps_write st) (keeps_load st env s) ho (keeps_close st)
  exact (hk st hi).1 l x hx

/-- Writing to standard output leaves the file system as it is, with `-force`, too. -/
theorem C33_stdout (env : Env) (s : Settings) (printed : Str) (st : State) (hout : st.out = none) (h : s.output = str% "-") :
    (final (run env s printed st)).node = st.node := by
  let I : State → Prop := fun t => t.node = st.node ∧ t.out = none
  have hw : ∀ t, Keeps I (write t) := by
    intro t
    apply keeps_modify
    rintro a ⟨h1, h2⟩
    simp only [h2]
    exact ⟨h1, rfl⟩
  have hl : ∀ t, Keeps I (loadTemplate env s t) := by
    intro t
    unfold loadTemplate
    split
    · exact keeps_pure _
    · split
      · exact keeps_throw _
      · exact keeps_modify fun _ h => h
  have hc : Keeps I closeOut := keeps_modify fun _ h => ⟨h.1, rfl⟩
  have hopen : ∀ p, p = [] ∨ p = str% "-" → Keeps I (openOut env p s.force) := by
    intro p hp
    unfold openOut
    rw [if_pos (by rcases hp with h | h <;> simp [h])]
    exact hc
  have hp : outputPaths s = ([], []) := by simp [outputPaths, h]
  have hk : Keeps I (run env s printed) := by
    unfold run
    split
    · exact keeps_modify fun _ h => h
    · split
      · unfold customTemplate
        split
        · exact keeps_throw _
        · refine keeps_bind (hopen _ (.inr h)) fun _ => keeps_bind (hw _) fun _ => ?_
          unfold writeCustom
          split
          · exact keeps_throw _
          · exact hw _
      · unfold generate
        refine keeps_bind ?_ fun common => keeps_bind (keeps_createLists hl _) fun r => keeps_bind ?_ fun _ => ?_
        · unfold commonPrefix
          split
          · exact keeps_throw _
          · exact keeps_pure _
        · unfold writeHeader
          rw [hp]
          exact keeps_bind (hopen _ (.inl rfl)) fun _ => keeps_bind (keeps_writeCounted hw _) fun _ => keeps_bind (keeps_getPtr _) fun _ =>
            keeps_bind (keeps_saveData hw hl _) fun _ => keeps_bind (hw _) fun _ => keeps_bind (keeps_writeCounted hw _) fun _ =>
            keeps_bind (keeps_getPtr _) fun _ => keeps_bind (keeps_saveData hw hl _) fun _ => keeps_bind (keeps_writeCounted hw _) fun _ =>
            keeps_bind (keeps_writeCounted hw _) fun _ => keeps_bind (keeps_writeCounted hw _) fun _ =>
            keeps_bind (keeps_substitute hw _) fun _ => keeps_bind (hw _) fun _ => keeps_bind (hw _) fun _ => hc
        · split
          · exact keeps_pure _
          · unfold writeBody
            rw [hp]
            exact keeps_bind (hopen _ (.inl rfl)) fun _ => keeps_bind (hw _) fun _ => keeps_bind (keeps_getPtr _) fun _ =>
              keeps_bind (keeps_saveData hw hl _) fun _ => keeps_bind (hw _) fun _ => keeps_bind (keeps_substitute hw _) fun _ => keeps_pure _
  exact (hk st ⟨rfl, hout⟩).1

/-- With `-force` only the directory entries of the output paths can change. -/
theorem C33_force (env : Env) (s : Settings) (printed : Str) (st : State) (hout : st.out = none) (l : Nat)
    (h : ∀ p ∈ [s.output, (outputPaths s).1, (outputPaths s).2], env.res p ≠ .at l) :
    (final (run env s printed st)).node l = st.node l := by
  let I : State → Prop := fun t => t.node l = st.node l ∧ t.out ≠ some l
  have hw : ∀ t, Keeps I (write t) := by
    intro t
    apply keeps_modify
    rintro a ⟨h1, h2⟩
    split
    · exact ⟨h1, h2⟩
    · rename_i k hk
      split
      · refine ⟨?_, h2⟩
        have : l ≠ k := by rintro rfl; exact h2 hk
        simp [this, h1]
      · exact ⟨h1, h2⟩
  have hl : ∀ t, Keeps I (loadTemplate env s t) := by
    intro t
    unfold loadTemplate
    split
    · exact keeps_pure _
    · split
      · exact keeps_throw _
      · exact keeps_modify fun _ h => h
  have hc : Keeps I closeOut := keeps_modify fun _ h => ⟨h.1, by simp⟩
  have hopen : ∀ p, env.res p ≠ .at l → Keeps I (openOut env p s.force) := by
    intro p hp
    have hnew : Keeps I (openNew env p) := by
      unfold openNew
      split
      · exact keeps_throw _
      · exact keeps_bind hc fun _ => keeps_throw _
      · rename_i k hk
        have hkl : k ≠ l := by rintro rfl; exact hp hk
        refine keeps_bind keeps_get fun _ => ?_
        split
        · exact keeps_throw _
        · unfold createOut
          refine keeps_bind hc fun _ => ?_
          split
          · exact keeps_modify fun a ha => ⟨by simp [hkl.symm, ha.1], by simp [hkl]⟩
          · exact keeps_throw _
    unfold openOut
    split
    · exact hc
    · split
      · refine keeps_bind ?_ fun _ => hnew
        unfold remove
        split
        · exact keeps_throw _
        · exact keeps_pure _
        · rename_i k hk
          have hkl : k ≠ l := by rintro rfl; exact hp hk
          refine keeps_bind keeps_get fun _ => ?_
          split
          · exact keeps_pure _
          · exact keeps_throw _
          · split
            · exact keeps_modify fun a ha => ⟨by simp [hkl.symm, ha.1], ha.2⟩
            · exact keeps_throw _
      · exact hnew
  have h0 := hopen _ (h s.output (by simp))
  have h1 := hopen _ (h (outputPaths s).1 (by simp))
  have h2 := hopen _ (h (outputPaths s).2 (by simp))
  have hk : Keeps I (run env s printed) := by
    unfold run
    split
    · exact keeps_modify fun _ h => h
    · split
      · unfold customTemplate
        split
        · exact keeps_throw _
        · refine keeps_bind h0 fun _ => keeps_bind (hw _) fun _ => ?_
          unfold writeCustom
          split
          · exact keeps_throw _
          · exact hw _
      · unfold generate
        refine keeps_bind ?_ fun common => keeps_bind (keeps_createLists hl _) fun r => keeps_bind ?_ fun _ => ?_
        · unfold commonPrefix
          split
          · exact keeps_throw _
          · exact keeps_pure _
        · unfold writeHeader
          exact keeps_bind h1 fun _ => keeps_bind (keeps_writeCounted hw _) fun _ => keeps_bind (keeps_getPtr _) fun _ =>
            keeps_bind (keeps_saveData hw hl _) fun _ => keeps_bind (hw _) fun _ => keeps_bind (keeps_writeCounted hw _) fun _ =>
            keeps_bind (keeps_getPtr _) fun _ => keeps_bind (keeps_saveData hw hl _) fun _ => keeps_bind (keeps_writeCounted hw _) fun _ =>
            keeps_bind (keeps_writeCounted hw _) fun _ => keeps_bind (keeps_writeCounted hw _) fun _ =>
            keeps_bind (keeps_substitute hw _) fun _ => keeps_bind (hw _) fun _ => keeps_bind (hw _) fun _ => hc
        · split
          · exact keeps_pure _
          · unfold writeBody
            exact keeps_bind h2 fun _ => keeps_bind (hw _) fun _ => keeps_bind (keeps_getPtr _) fun _ =>
              keeps_bind (keeps_saveData hw hl _) fun _ => keeps_bind (hw _) fun _ => keeps_bind (keeps_substitute hw _) fun _ => keeps_pure _
  exact (hk st ⟨rfl, by rw [hout]; simp⟩).1

/-! The witnesses below use this environment: built-in templates of one line, and the files
`x.h` and `x.c`. -/

def demoEntry (d : Str) : Entry := { data := d, maybeKeyword := false, lineCount := 1 }

def demoEnv : Env where
  n := 10
  date := []
  builtin t := [demoEntry (str% "built-in " ++ t.file), terminator]
  read p := if p = str% "t/minimal.h" ∨ p = str% "t/license.h" ∨ p = str% "t/filename_macros.h" ∨ p = str% "t/common.h" ∨ p = str% "t/common.c" ∨
      p = str% "t/c.h" ∨ p = str% "t/c.c" then some (str% "own " ++ p ++ str% "\n") else none
  res p := if p = str% "x.h" then .at 0 else if p = str% "x.c" then .at 1 else .missing
  canCreate _ := true
  canRemove _ := true
  canWrite _ := true
  grow := doubling
  symbols := { protos := [{ kind := .function, type := str% "int", symbol := str% "f", args := str% "void" }], objs := [], typedefs := [] }

/-- Neither file, or only the body. -/
def demoState (body : Bool) : State where
  node l := if l = 1 ∧ body = true then some (.file (str% "precious")) else none

example : ∃ st, run demoEnv { output := str% "x.c", separate := true } [] (demoState false) = .ok () st ∧
    (st.node 0).isSome ∧ (st.node 1).isSome := ⟨_, rfl, by decide, by decide⟩

example : (demoState true).out = none ∧ (demoState true).node 1 = some (.file (str% "precious")) := ⟨rfl, rfl⟩

/-! ### C34 -/

/-- If the header exists, a run without `-force` fails and changes nothing. -/
theorem C34_partial (env : Env) (s : Settings) (st : State) (hforce : s.force = false) (hr : Readable env s) (hf : ∀ t, Fresh st.mem t)
    (hp : (outputPaths s).1 ≠ [] ∧ (outputPaths s).1 ≠ str% "-") (l : Nat) (hl : env.res (outputPaths s).1 = .at l)
    (hx : (st.node l).isSome) :
    ∃ st', generate env s st = .error (.exists (outputPaths s).1) st' ∧ st'.node = st.node ∧ st'.stdout = st.stdout := by
  obtain ⟨c, hc, ec⟩ := commonPrefix_run env st
  obtain ⟨hs', bs, st1, e1, io, _⟩ := createLists_run hr hf
  refine ⟨st1, ?_, io.node, io.stdout⟩
  have ho : openOut env (outputPaths s).1 s.force st1 = .error (.exists (outputPaths s).1) st1 := by
    unfold openOut
    rw [if_neg (by simpa [List.isEmpty_iff] using hp), hforce]
    simp only [Bool.false_eq_true, if_false]
    unfold openNew
    simp only [hl]
    rw [bind_ok (show (get : M State) st1 = .ok st1 st1 from rfl), io.node, if_pos hx]
    rfl
  unfold generate
  rw [bind_ok ec, bind_ok e1]
  dsimp only
  refine bind_error ?_
  unfold writeHeader
  exact bind_error ho

example : ∃ st, run demoEnv { output := str% "x.h" } [] { demoState true with node := fun _ => some .link } = .error (.exists (str% "x.h")) st :=
  ⟨_, rfl⟩

theorem separate_paths {s : Settings} (hsep : isSeparate s = true) :
    ¬ ((outputPaths s).1 = [] ∨ (outputPaths s).1 = str% "-") ∧ ¬ ((outputPaths s).2 = [] ∨ (outputPaths s).2 = str% "-") := by
  have hout : s.output ≠ str% "-" := by
    unfold isSeparate at hsep
    simp only [Bool.and_eq_true] at hsep
    simpa using hsep.1.2
  have hpaths : ∀ ext : Str, ∀ p : Str, (replaceExtension p ext ≠ [] ∧ (ext ≠ [] → replaceExtension p ext ≠ str% "-")) := by
    intro ext p
    unfold replaceExtension
    refine ⟨by simp, fun he h => ?_⟩
    have := congrArg (fun l : Str => '.' ∈ l) h
    simp at this
  have h1 : ¬ ((outputPaths s).1 = [] ∨ (outputPaths s).1 = str% "-") := by
    unfold outputPaths
    rw [if_neg hout, if_pos hsep]
    dsimp only
    rintro (h | h)
    · exact (hpaths _ _).1 h
    · exact (hpaths _ _).2 (by split <;> simp) h
  have h2 : ¬ ((outputPaths s).2 = [] ∨ (outputPaths s).2 = str% "-") := by
    unfold outputPaths
    rw [if_neg hout, if_pos hsep]
    dsimp only
    rintro (h | h)
    · exact (hpaths _ _).1 h
    · exact (hpaths _ _).2 (by split <;> simp) h
  exact ⟨h1, h2⟩

/-- Whenever the header can be created and the body exists, the header is written
    completely before the run fails. -/
theorem C34_violated (env : Env) (s : Settings) (st : State) (hforce : s.force = false) (hr : Readable env s) (hf : ∀ t, Fresh st.mem t)
    (hsep : isSeparate s = true) (a b : Nat) (hab : a ≠ b)
    (ha : env.res (outputPaths s).1 = .at a) (hb : env.res (outputPaths s).2 = .at b)
    (hc : env.canCreate a = true) (hna : st.node a = none) (hnb : (st.node b).isSome)
    (css : List (List (List Sub.Chunk))) (k : Nat) (hs : headerSubst env s = .ok (css, k)) :
    ∃ st', generate env s st = .error (.exists (outputPaths s).2) st' ∧
      st'.node a = some (.file (headerText env s (allDefines env s) (Sub.bytes css.flatten.flatten) k)) := by
  obtain ⟨h1, h2⟩ := separate_paths hsep
  have hopen : opened env (outputPaths s).1 s.force st.node = some (some a, fun k => if k = a then some (.file []) else st.node k) := by
    unfold opened
    rw [if_neg h1, ha]
    simp [hna, replaceable, hc]
  obtain ⟨bs, st2, e, ⟨m, w⟩, n, _, _, _⟩ := generate_split hr hf hopen hs
  have hbs : bs.isEmpty = false := by
    rw [separate_body hsep] at n
    cases bs with
    | nil => cases n
    | cons _ _ => rfl
  refine ⟨{ st2 with out := none }, ?_, ?_⟩
  · rw [e, hbs]
    simp only [Bool.false_eq_true, if_false]
    unfold writeBody
    refine bind_error ?_
    unfold openOut
    rw [if_neg (by simpa [List.isEmpty_iff] using h2), hforce]
    simp only [Bool.false_eq_true, if_false]
    unfold openNew
    simp only [hb]
    rw [bind_ok (show (get : M State) { st2 with out := none } = .ok _ _ from rfl)]
    have : st2.node b = st.node b := by
      rw [w.frame b (by simp [hab])]
      simp [hab.symm]
    dsimp only
    rw [this, if_pos hnb]
    rfl
  · have ht := w.text
    have ho := w.out
    have hg := w.good
    dsimp only at ho ⊢
    rcases hg with hg | ⟨l, d, hl, hd⟩
    · rw [ho] at hg; cases hg
    · rw [ho] at hl
      simp only [Option.some.injEq] at hl
      subst hl
      simp only [cur, ho, hd, if_true, List.nil_append] at ht
      rw [hd, ht]

example : ∃ st h, run demoEnv { output := str% "x.c", separate := true } [] (demoState true) = .error (.exists (str% "x.c")) st ∧
    st.node 0 = some (.file h) ∧ (str% "// Do not edit this file!").isPrefixOf h ∧ (demoState true).node 0 = none :=
  ⟨_, _, rfl, rfl, by decide, rfl⟩

/-! ### C35 -/

/-- Written to a single file, or without `-templates-path`, no list is used after its
    storage has been released. -/
theorem C35_safe_partial (env : Env) (s : Settings) (printed : Str) (st st' : State)
    (hs : isSeparate s = false ∨ s.templatesPath = []) (hf : ∀ t, Fresh st.mem t) : run env s printed st ≠ .error .ub st' := by
  intro h
  have hi : Inv [] (fun _ => True) st.mem := ⟨fun t => .inl (hf t).2, by simp, fun t _ => hf t⟩
  have ht : Tri (Inv [] fun _ => True) (run env s printed) (fun _ _ => True) := by
    unfold run
    split
    · intro a _; trivial
    · split
      · unfold customTemplate
        split
        · exact tri_throw (by simp)
        · refine tri_bind (tri_open _ _ _) fun _ => tri_bind (tri_write _) fun _ => ?_
          unfold writeCustom
          split
          · exact tri_throw (by simp)
          · exact tri_weaken (tri_write _) (fun _ h => h) (fun _ _ _ => trivial)
      · exact generate_safe (by simpa [List.isEmpty_iff] using hs)
  have := ht st hi
  rw [h] at this
  exact this rfl

/-- Written to a single file, the processed templates are those of the directory, the
    license text and the file name macros are the built-in ones. -/
theorem C35_partial (env : Env) (s : Settings) (st : State) (o : Option Nat) (nd : Nat → Option Node) (css : List (List (List Sub.Chunk))) (k : Nat)
    (hr : Readable env s) (hf : ∀ t, Fresh st.mem t) (h1 : isSeparate s = false) (hd : s.templatesPath ≠ [])
    (hopen : opened env (outputPaths s).1 s.force st.node = some (o, nd))
    (hs : Sub.substitute env.n (subConfig env s) ((listNames s).1.map fun t =>
      loadFromFile t.file false s.lineDirective ((env.read (s.templatesPath ++ t.file)).getD [])) = .ok (css, k)) :
    ∃ st2 m, generate env s st = .ok () { st2 with out := none } ∧
      Step { st with node := nd, out := o, mem := m } (headerText env s (allDefines env s) (Sub.bytes css.flatten.flatten) k) st2 := by
  have hs' : headerSubst env s = .ok (css, k) := by
    rw [← hs, headerSubst]
    congr 1
    apply List.map_congr_left
    intro t _
    simp [srcList, hd]
  obtain ⟨st2, e, m, w⟩ := generate_single hr hf h1 hopen hs'
  exact ⟨st2, m, e, w⟩

/-- The license text written with `-templates-path` does not come from the directory. -/
theorem C35_violated_license : ∃ st h, run demoEnv { output := str% "x.h", format := .minimal, templatesPath := str% "t/", printDate := false } [] (demoState false) = .ok () st ∧
    st.node 0 = some (.file h) ∧
    (str% "// Do not edit this file!\n// It was automatically generated by gendlopen.\n// All changes made will be lost.\n\nbuilt-in license.h\n").isPrefixOf h :=
  ⟨_, _, rfl, rfl, by decide⟩

/-- With `-templates-path` and separate files the license text of the body is read from
    released storage, whatever the size of the file. -/
theorem C35_violated_dangling (env : Env) (s : Settings) (st : State) (a b : Nat) (hab : a ≠ b)
    (css : List (List (List Sub.Chunk))) (k : Nat)
    (hr : Readable env s) (hf : ∀ t, Fresh st.mem t) (hsep : isSeparate s = true) (hd : s.templatesPath ≠ []) (hg : Growth env.grow)
    (ha : env.res (outputPaths s).1 = .at a) (hb : env.res (outputPaths s).2 = .at b)
    (hca : env.canCreate a = true) (hcb : env.canCreate b = true) (hna : st.node a = none) (hnb : st.node b = none)
    (hs : headerSubst env s = .ok (css, k)) : ∃ st', generate env s st = .error .ub st' := by
  obtain ⟨h1, h2⟩ := separate_paths hsep
  have hopen : opened env (outputPaths s).1 s.force st.node = some (some a, fun k => if k = a then some (.file []) else st.node k) := by
    unfold opened
    rw [if_neg h1, ha]
    simp [hna, replaceable, hca]
  obtain ⟨bs, st2, e, ⟨m, w⟩, n, hlic, _, htight⟩ := generate_split hr hf hopen hs
  have hnb2 : st2.node b = none := by
    rw [w.frame b (by simp [hab])]
    simp [hab.symm, hnb]
  have ho : opened env (outputPaths s).2 s.force st2.node = some (some b, fun k => if k = b then some (.file []) else st2.node k) := by
    unfold opened
    rw [if_neg h2, hb]
    simp [hnb2, replaceable, hcb]
  have hbs : bs.isEmpty = false := by
    rw [separate_body hsep] at n
    cases bs with
    | nil => cases n
    | cons _ _ => rfl
  have hd' : s.templatesPath.isEmpty = false := by simpa [List.isEmpty_iff] using hd
  obtain ⟨text, ht⟩ := Option.isSome_iff_exists.mp (hr hd' .license)
  rcases hlic with ⟨h, _⟩ | ⟨_, hptr, hdata⟩
  · rw [hd'] at h; cases h
  dsimp only at hptr hdata
  have hlist : srcList env s .license = loadFromFile TName.license.file false s.lineDirective text := by simp [srcList, hd', ht]
  obtain ⟨a1, e1, s1, m1⟩ := write_run (noteText s.printDate env.date)
    (open_good (st := { st2 with out := none }) ho st2.mem st2.stdout)
  rw [e, hbs]
  simp only [Bool.false_eq_true, if_false]
  unfold writeBody
  rw [bind_ok (open_run (st := { st2 with out := none }) ho), bind_ok e1, bind_ok (getPtr_run _ _)]
  refine ⟨{ a1 with mem :=
      { vec := fun k => if k = .license then (loadFromFile TName.license.file false s.lineDirective text).foldl (Vec.push env.grow) (a1.mem.vec .license) else a1.mem.vec k,
        ptr := fun k => if k = .license then .heap ((loadFromFile TName.license.file false s.lineDirective text).foldl (Vec.push env.grow) (a1.mem.vec .license)).gen else a1.mem.ptr k } },
    bind_error ?_⟩
  · unfold saveData
    have e2 : loadTemplate env s .license a1 = .ok () { a1 with mem :=
        { vec := fun k => if k = .license then (loadFromFile TName.license.file false s.lineDirective text).foldl (Vec.push env.grow) (a1.mem.vec .license) else a1.mem.vec k,
          ptr := fun k => if k = .license then .heap ((loadFromFile TName.license.file false s.lineDirective text).foldl (Vec.push env.grow) (a1.mem.vec .license)).gen else a1.mem.ptr k } } := by
      unfold loadTemplate
      rw [if_neg (by simp [hd']), ht]
      rfl
    rw [bind_ok e2]
    refine bind_error ?_
    unfold deref
    rw [bind_ok (show (get : M State) _ = .ok _ _ from rfl)]
    rw [m1]
    dsimp only
    rw [hptr]
    have hmv := reload_moves hg (htight hg .license) (by rw [hdata, hlist]; simp [loadFromFile])
    rw [hdata, hlist] at hmv
    simp only [if_true, if_neg hmv]
    rfl

example : ∃ st, run demoEnv { output := str% "x.c", separate := true, templatesPath := str% "t/" } [] (demoState false) = .error .ub st := ⟨_, rfl⟩

example : Growth doubling := fun c => by simp only [doubling]; omega

end Gdo.Gen
