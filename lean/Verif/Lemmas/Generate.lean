import Verif.Model.Generate
import Verif.Props.Prefix

/-! Reasoning about runs of `generate`. -/

namespace Gdo.Gen
open Gdo Tpl Opt

/-- The state when a run has ended, with an error or without. -/
def final {α : Type} : EStateM.Result Fail State α → State
  | .ok _ st => st
  | .error _ st => st

/-- A run keeps an invariant, also if it fails. -/
def Keeps (I : State → Prop) {α : Type} (m : M α) : Prop := ∀ st, I st → I (final (m st))

section
variable {I : State → Prop} {α β : Type}

theorem keeps_pure (a : α) : Keeps I (pure a : M α) := fun _ h => h

theorem keeps_throw (e : Fail) : Keeps I (throw e : M α) := fun _ h => h

theorem keeps_get : Keeps I (get : M State) := fun _ h => h

theorem keeps_modify {f : State → State} (hf : ∀ st, I st → I (f st)) : Keeps I (modify f : M Unit) := fun st h => hf st h

theorem keeps_bind {m : M α} {f : α → M β} (hm : Keeps I m) (hf : ∀ a, Keeps I (f a)) : Keeps I (m >>= f) := by
  intro st h
  have h1 := hm st h
  show I (final (EStateM.bind m f st))
  unfold EStateM.bind
  cases hr : m st with
  | ok a st' =>
    rw [hr] at h1
    exact hf a st' h1
  | error e st' =>
    rw [hr] at h1
    exact h1

end

/-- The stream writes to standard output or to a regular file. -/
def Good (st : State) : Prop := st.out = none ∨ ∃ l d, st.out = some l ∧ st.node l = some (.file d)

/-- What has been written to the stream. -/
def cur (st : State) : Str :=
  match st.out with
  | none => st.stdout
  | some l =>
    match st.node l with
    | some (.file d) => d
    | _ => []

/-- Writing `t` to the stream, nothing else. -/
structure Step (st : State) (t : Str) (st' : State) : Prop where
  out : st'.out = st.out
  good : Good st'
  text : cur st' = cur st ++ t
  frame : ∀ l, st.out ≠ some l → st'.node l = st.node l
  std : ∀ l, st.out = some l → st'.stdout = st.stdout

theorem Step.refl {st : State} (h : Good st) : Step st [] st := ⟨rfl, h, by simp, fun _ _ => rfl, fun _ _ => rfl⟩

theorem Step.trans {a b c : State} {s t : Str} (h1 : Step a s b) (h2 : Step b t c) : Step a (s ++ t) c where
  out := h2.out.trans h1.out
  good := h2.good
  text := by rw [h2.text, h1.text, List.append_assoc]
  frame l hl := (h2.frame l (by rw [h1.out]; exact hl)).trans (h1.frame l hl)
  std l hl := (h2.std l (by rw [h1.out]; exact hl)).trans (h1.std l hl)

theorem write_run (s : Str) {st : State} (h : Good st) : ∃ st', write s st = .ok () st' ∧ Step st s st' ∧ st'.mem = st.mem := by
  rcases h with h | ⟨l, d, h, hd⟩
  · refine ⟨{ st with stdout := st.stdout ++ s }, ?_, ⟨rfl, .inl h, ?_, fun _ _ => rfl, ?_⟩, rfl⟩
    · simp [write, modify, modifyGet, MonadStateOf.modifyGet, EStateM.modifyGet, h]
    · simp [cur, h]
    · intro l hl; rw [h] at hl; cases hl
  · refine ⟨{ st with node := fun k => if k = l then some (.file (d ++ s)) else st.node k }, ?_, ⟨rfl, .inr ⟨l, d ++ s, h, ?_⟩, ?_, ?_, fun _ _ => rfl⟩, rfl⟩
    · simp [write, modify, modifyGet, MonadStateOf.modifyGet, EStateM.modifyGet, h, hd]
    · simp
    · simp [cur, h, hd]
    · intro k hk
      have : k ≠ l := by rintro rfl; exact hk h
      simp [this]

theorem bind_ok {α β : Type} {m : M α} {f : α → M β} {st st' : State} {a : α} (h : m st = .ok a st') :
    (m >>= f) st = f a st' := by
  show EStateM.bind m f st = _
  simp [EStateM.bind, h]

theorem bind_error {α β : Type} {m : M α} {f : α → M β} {st st' : State} {e : Fail} (h : m st = .error e st') :
    (m >>= f) st = .error e st' := by
  show EStateM.bind m f st = _
  simp [EStateM.bind, h]

/-! ### C33: what may change -/

/-- Nothing that existed in `st0` has changed, and the stream is not one of its files. -/
def Untouched (st0 st : State) : Prop :=
  (∀ l x, st0.node l = some x → st.node l = some x) ∧ ∀ l, st.out = some l → st0.node l = none

theorem keeps_write (st0 : State) (s : Str) : Keeps (Untouched st0) (write s) := by
  apply keeps_modify
  rintro st ⟨h1, h2⟩
  cases ho : st.out with
  | none => exact ⟨h1, fun l hl => h2 l (by simpa [ho] using hl)⟩
  | some l =>
    have hl := h2 l ho
    simp only
    split
    · refine ⟨fun k x hk => ?_, fun k hk => h2 k (by simpa [ho] using hk)⟩
      have : k ≠ l := by rintro rfl; rw [hl] at hk; cases hk
      simp [this, h1 k x hk]
    · exact ⟨h1, h2⟩

theorem keeps_close (st0 : State) : Keeps (Untouched st0) closeOut := by
  apply keeps_modify
  rintro st ⟨h1, h2⟩
  exact ⟨h1, fun l hl => by cases hl⟩

theorem keeps_create (st0 : State) (env : Env) (path : Str) (l : Nat) (h0 : st0.node l = none) :
    Keeps (Untouched st0) (createOut env path l) := by
  unfold createOut
  refine keeps_bind (keeps_close st0) fun _ => ?_
  split
  · apply keeps_modify
    rintro st ⟨h1, h2⟩
    refine ⟨fun k x hk => ?_, fun k hk => ?_⟩
    · have : k ≠ l := by rintro rfl; rw [h0] at hk; cases hk
      simp [this, h1 k x hk]
    · simp only [Option.some.injEq] at hk
      rw [← hk]; exact h0
  · exact keeps_throw _

theorem keeps_openNew (st0 : State) (env : Env) (path : Str) : Keeps (Untouched st0) (openNew env path) := by
  unfold openNew
  split
  · exact keeps_throw _
  · exact keeps_bind (keeps_close st0) fun _ => keeps_throw _
  · rename_i l _
    intro st h
    rw [bind_ok (show (get : M State) st = .ok st st from rfl)]
    cases hn : st.node l with
    | some x => exact h
    | none =>
      have h0 : st0.node l = none := by
        cases h0 : st0.node l with
        | none => rfl
        | some x => rw [h.1 l x h0] at hn; cases hn
      exact keeps_create st0 env path l h0 st h

theorem keeps_open (st0 : State) (env : Env) (path : Str) : Keeps (Untouched st0) (openOut env path false) := by
  unfold openOut
  split
  · exact keeps_close st0
  · simp only [Bool.false_eq_true, if_false]
    exact keeps_openNew st0 env path

theorem keeps_mem (st0 : State) (f : Mem → Mem) : Keeps (Untouched st0) (modify fun st => { st with mem := f st.mem }) :=
  keeps_modify fun _ h => h

theorem keeps_load (st0 : State) (env : Env) (s : Settings) (t : TName) : Keeps (Untouched st0) (loadTemplate env s t) := by
  unfold loadTemplate
  split
  · exact keeps_pure _
  · split
    · exact keeps_throw _
    · exact keeps_modify fun _ h => h

theorem keeps_getPtr {I : State → Prop} (t : TName) : Keeps I (getPtr t) :=
  keeps_bind keeps_get fun _ => keeps_pure _

theorem keeps_deref {I : State → Prop} (env : Env) (p : TName × Ptr) : Keeps I (deref env p) := by
  unfold deref
  refine keeps_bind keeps_get fun st => ?_
  split
  · exact keeps_pure _
  · split
    · exact keeps_pure _
    · exact keeps_throw _

theorem keeps_derefAll {I : State → Prop} (env : Env) (ps : List (TName × Ptr)) : Keeps I (derefAll env ps) := by
  induction ps with
  | nil => exact keeps_pure _
  | cons p ps ih => exact keeps_bind (keeps_deref env p) fun _ => keeps_bind ih fun _ => keeps_pure _

/-! The parts of a run that only use `write`, `openOut`, `closeOut` and the template store
keep an invariant that these keep. -/

section
variable {I : State → Prop} {env : Env} {s : Settings}
  (hw : ∀ t, Keeps I (write t)) (hl : ∀ t, Keeps I (loadTemplate env s t))
  (ho : ∀ p, Keeps I (openOut env p s.force)) (hc : Keeps I closeOut)
include hw hl

theorem keeps_saveData (p : TName × Ptr) : Keeps I (saveData env s p) :=
  keeps_bind (hl _) fun _ => keeps_bind (keeps_deref env p) fun _ => keeps_bind (hw _) fun _ => keeps_pure _

omit hl in
theorem keeps_writeCounted (t : Str) : Keeps I (writeCounted t) := keeps_bind (hw _) fun _ => keeps_pure _

omit hl in
theorem keeps_substitute (ps : List (TName × Ptr)) : Keeps I (runSubstitute env s ps) := by
  refine keeps_bind (keeps_derefAll env ps) fun lists => ?_
  unfold writeSubst
  split
  · exact keeps_throw _
  · exact keeps_bind (hw _) fun _ => keeps_pure _

omit hw in
theorem keeps_createLists (sep : Bool) : Keeps I (createLists env s sep) := by
  unfold createLists
  dsimp only
  refine keeps_bind (hl _) fun _ => ?_
  split
  · exact keeps_bind (keeps_getPtr _) fun _ => keeps_pure _
  · refine keeps_bind (hl _) fun _ => keeps_bind (keeps_getPtr _) fun _ => keeps_bind (keeps_getPtr _) fun _ =>
      keeps_bind (hl _) fun _ => keeps_bind (hl _) fun _ => keeps_bind (keeps_getPtr _) fun _ =>
      keeps_bind (keeps_getPtr _) fun _ => ?_
    split <;> exact keeps_pure _

include ho hc

theorem keeps_writeHeader (d : Str) (ps : List (TName × Ptr)) : Keeps I (writeHeader env s d ps) := by
  unfold writeHeader
  exact keeps_bind (ho _) fun _ => keeps_bind (keeps_writeCounted hw _) fun _ => keeps_bind (keeps_getPtr _) fun _ =>
    keeps_bind (keeps_saveData hw hl _) fun _ => keeps_bind (hw _) fun _ => keeps_bind (keeps_writeCounted hw _) fun _ =>
    keeps_bind (keeps_getPtr _) fun _ => keeps_bind (keeps_saveData hw hl _) fun _ => keeps_bind (keeps_writeCounted hw _) fun _ =>
    keeps_bind (keeps_writeCounted hw _) fun _ => keeps_bind (keeps_writeCounted hw _) fun _ =>
    keeps_bind (keeps_substitute hw _) fun _ => keeps_bind (hw _) fun _ => keeps_bind (hw _) fun _ => hc

omit hc in
theorem keeps_writeBody (ps : List (TName × Ptr)) : Keeps I (writeBody env s ps) := by
  unfold writeBody
  exact keeps_bind (ho _) fun _ => keeps_bind (hw _) fun _ => keeps_bind (keeps_getPtr _) fun _ =>
    keeps_bind (keeps_saveData hw hl _) fun _ => keeps_bind (hw _) fun _ => keeps_bind (keeps_substitute hw _) fun _ => keeps_pure _

theorem keeps_generate : Keeps I (generate env s) := by
  unfold generate
  refine keeps_bind ?_ fun common => keeps_bind (keeps_createLists hl _) fun r =>
    keeps_bind (keeps_writeHeader hw hl ho hc _ _) fun _ => ?_
  · unfold commonPrefix
    split
    · exact keeps_throw _
    · exact keeps_pure _
  · split
    · exact keeps_pure _
    · exact keeps_writeBody hw hl ho _

omit hl hc in
theorem keeps_custom : Keeps I (customTemplate env s) := by
  unfold customTemplate
  split
  · exact keeps_throw _
  · refine keeps_bind (ho _) fun _ => keeps_bind (hw _) fun _ => ?_
    unfold writeCustom
    split
    · exact keeps_throw _
    · exact hw _

end

end Gdo.Gen
