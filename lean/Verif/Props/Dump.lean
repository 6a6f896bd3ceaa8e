import Verif.Model.Dump
import Verif.Props.Generate

/-! Property C61: dumping the templates. -/

namespace Gdo.Gen
open Gdo Tpl Opt

theorem dumpAll_frame (env : Env) (dir : Str) (l : Nat) (ts : List TName) (st : State) (h : ∀ t ∈ ts, env.res (dumpPath dir t) ≠ .at l) :
    (final (dumpAll env dir ts st)).node l = st.node l := by
  have : Keeps (fun a => a.node l = st.node l) (dumpAll env dir ts) := by
    induction ts with
    | nil => exact keeps_pure _
    | cons t ts ih =>
      refine keeps_bind ?_ fun _ => ih fun x hx => h x (List.mem_cons_of_mem _ hx)
      unfold dumpOne
      split
      · rename_i k hk
        have hkl : l ≠ k := by rintro rfl; exact h t List.mem_cons_self hk
        refine keeps_bind keeps_get fun _ => ?_
        split
        · split
          · exact keeps_modify fun a ha => by simp [hkl, ha]
          · exact keeps_throw _
        · split
          · exact keeps_modify fun a ha => by simp [hkl, ha]
          · exact keeps_throw _
        · exact keeps_throw _
      · exact keeps_throw _
  exact this st rfl

/-- Only the files with the names of the templates can change. -/
theorem C61_partial (env : Env) (dir : Str) (l : Nat) (st : State) (h : ∀ t, env.res (dumpPath dir t) ≠ .at l) :
    (final (dumpTemplates env dir st)).node l = st.node l := dumpAll_frame env dir l allTemplates st fun t _ => h t

theorem dumpOne_ok {env : Env} {dir : Str} {t : TName} {st st' : State} (h : dumpOne env dir t st = .ok () st') :
    ∃ l, env.res (dumpPath dir t) = .at l ∧ st'.node l = some (.file (saveToFile (env.builtin t))) := by
  unfold dumpOne at h
  cases hr : env.res (dumpPath dir t) with
  | denied => rw [hr] at h; cases h
  | missing => rw [hr] at h; cases h
  | «at» l =>
    refine ⟨l, rfl, ?_⟩
    simp only [hr] at h
    rw [bind_ok (show (get : M State) st = .ok st st from rfl)] at h
    cases hn : st.node l with
    | none =>
      simp only [hn] at h
      cases hc : env.canCreate l with
      | true => rw [if_pos hc] at h; cases h; simp
      | false => rw [if_neg (by simp [hc])] at h; cases h
    | some x =>
      cases x with
      | file d =>
        simp only [hn] at h
        cases hc : env.canWrite l with
        | true => rw [if_pos hc] at h; cases h; simp
        | false => rw [if_neg (by simp [hc])] at h; cases h
      | dir e => simp only [hn] at h; cases h
      | link => simp only [hn] at h; cases h

/-- If dumping succeeds, the files contain the built-in templates. -/
theorem C61_contents (env : Env) (dir : Str) (st st' : State) (h : dumpTemplates env dir st = .ok () st')
    (hinj : ∀ t u, t ≠ u → env.res (dumpPath dir t) ≠ env.res (dumpPath dir u)) (t : TName) :
    ∃ l, env.res (dumpPath dir t) = .at l ∧ st'.node l = some (.file (saveToFile (env.builtin t))) := by
  have key : ∀ (ts : List TName) (st : State), ts.Nodup → dumpAll env dir ts st = .ok () st' → t ∈ ts →
      ∃ l, env.res (dumpPath dir t) = .at l ∧ st'.node l = some (.file (saveToFile (env.builtin t))) := by
    intro ts
    induction ts with
    | nil => intro st _ _ h; cases h
    | cons u us ih =>
      intro st hd h hm
      rw [List.nodup_cons] at hd
      unfold dumpAll at h
      cases h1 : dumpOne env dir u st with
      | error e s => rw [bind_error h1] at h; cases h
      | ok a s1 =>
        rw [bind_ok h1] at h
        rcases List.mem_cons.mp hm with rfl | hm
        · obtain ⟨l, hl, hn⟩ := dumpOne_ok h1
          refine ⟨l, hl, ?_⟩
          have hf := dumpAll_frame env dir l us s1 fun u hu he => by
            have hne : u ≠ t := by rintro rfl; exact hd.1 hu
            exact hinj u t hne (by rw [he, hl])
          rw [h] at hf
          exact hf.trans hn
        · exact ih s1 hd.2 h hm
  exact key allTemplates st (by decide) h (by cases t <;> decide)

/-- A directory `d` whose file number `k` is the `k`-th template. -/
def dumpEnv : Env := { demoEnv with res := fun p => match allTemplates.findIdx? fun t => dumpPath (str% "d") t = p with
  | some k => .at k
  | none => .missing }

example : ∃ st, dumpTemplates dumpEnv (str% "d") { node := fun _ => none } = .ok () st ∧
    st.node 5 = some (.file (str% "built-in c.c\n")) ∧ st.node 12 = none := ⟨_, rfl, by decide, by decide⟩

/-- An existing file is replaced without a question, although `-force` was not given. -/
theorem C61_violated : ∃ st, dumpTemplates dumpEnv (str% "d/") { node := fun _ => some (.file (str% "edited by the user")) } = .ok () st ∧
    st.node 5 = some (.file (str% "built-in c.c\n")) := ⟨_, rfl, by decide⟩

end Gdo.Gen
