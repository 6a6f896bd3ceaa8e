import Verif.Lemmas.GenerateAll

/-! When `generate` uses no released storage. -/

namespace Gdo.Gen
open Gdo Tpl Opt

/-- A run does not end with undefined behaviour, and what holds of the template store
    if it succeeds. -/
def Tri {α : Type} (P : Mem → Prop) (m : M α) (Q : α → Mem → Prop) : Prop :=
  ∀ st, P st.mem →
    match m st with
    | .ok a st' => Q a st'.mem
    | .error e _ => e ≠ .ub

section
variable {α β : Type} {P : Mem → Prop}

theorem tri_bind {m : M α} {f : α → M β} {Q : α → Mem → Prop} {R : β → Mem → Prop} (h1 : Tri P m Q) (h2 : ∀ a, Tri (Q a) (f a) R) :
    Tri P (m >>= f) R := by
  intro st hp
  have h := h1 st hp
  cases hm : m st with
  | ok a st' =>
    rw [hm] at h
    rw [bind_ok hm]
    exact h2 a st' h
  | error e st' =>
    rw [hm] at h
    rw [bind_error hm]
    exact h

theorem tri_pure (a : α) {Q : α → Mem → Prop} (h : ∀ m, P m → Q a m) : Tri P (pure a : M α) Q := fun st hp => h st.mem hp

theorem tri_throw {e : Fail} (he : e ≠ .ub) {Q : α → Mem → Prop} : Tri P (throw e : M α) Q := fun _ _ => he

theorem tri_get : Tri P (get : M State) (fun st m => P m ∧ st.mem = m) := fun _ hp => ⟨hp, rfl⟩

theorem tri_modify {f : State → State} (h : ∀ st, (f st).mem = st.mem) : Tri P (modify f : M Unit) (fun _ => P) := by
  intro st hp
  show P (f st).mem
  rw [h]
  exact hp

theorem tri_write (s : Str) : Tri P (write s) (fun _ => P) := by
  apply tri_modify
  intro st
  split
  · rfl
  · split <;> rfl

theorem tri_close : Tri P closeOut (fun _ => P) := tri_modify fun _ => rfl

theorem tri_weaken {m : M α} {P' : Mem → Prop} {Q Q' : α → Mem → Prop} (h : Tri P m Q) (hp : ∀ m, P' m → P m)
    (hq : ∀ a m, Q a m → Q' a m) : Tri P' m Q' := by
  intro st hst
  have h1 := h st (hp _ hst)
  cases hm : m st with
  | ok a st' => rw [hm] at h1; exact hq _ _ h1
  | error e st' => rw [hm] at h1; exact h1

theorem tri_open (env : Env) (path : Str) (force : Bool) : Tri P (openOut env path force) (fun _ => P) := by
  have hcreate : ∀ l, Tri P (createOut env path l) (fun _ => P) := by
    intro l
    refine tri_bind tri_close fun _ => ?_
    split
    · exact tri_modify fun _ => rfl
    · exact tri_throw (by simp)
  have hnew : Tri P (openNew env path) (fun _ => P) := by
    unfold openNew
    split
    · exact tri_throw (by simp)
    · exact tri_bind tri_close fun _ => tri_throw (by simp)
    · refine tri_bind tri_get fun st => tri_weaken (P := P) ?_ (fun _ h => h.1) (fun _ _ h => h)
      split
      · exact tri_throw (by simp)
      · exact hcreate _
  have hrem : Tri P (remove env path) (fun _ => P) := by
    unfold remove
    split
    · exact tri_throw (by simp)
    · exact tri_pure _ fun _ h => h
    · refine tri_bind tri_get fun st => tri_weaken (P := P) ?_ (fun _ h => h.1) (fun _ _ h => h)
      split
      · exact tri_pure _ fun _ h => h
      · exact tri_throw (by simp)
      · split
        · exact tri_modify fun _ => rfl
        · exact tri_throw (by simp)
  unfold openOut
  split
  · exact tri_close
  · split
    · exact tri_bind hrem fun _ => hnew
    · exact hnew

theorem tri_writeCounted (t : Str) : Tri P (writeCounted t) (fun _ => P) := tri_bind (tri_write t) fun _ => tri_pure _ fun _ h => h

end

/-- The pointers of the template store point to the current storage, so do the pointers
    `ps`, and the templates `fr` have not been loaded. -/
structure Inv (ps : List (TName × Ptr)) (fr : TName → Prop) (m : Mem) : Prop where
  all : ∀ t, m.ptr t = .builtin ∨ m.ptr t = .heap (m.vec t).gen
  cur : ∀ p ∈ ps, p.2 = m.ptr p.1
  fresh : ∀ t, fr t → Fresh m t

theorem inv_load {env : Env} {s : Settings} {ps : List (TName × Ptr)} {fr : TName → Prop} {t : TName} (h : ∀ p ∈ ps, p.1 ≠ t) :
    Tri (Inv ps fr) (loadTemplate env s t) (fun _ => Inv ps fun k => fr k ∧ (s.templatesPath.isEmpty = false → k ≠ t)) := by
  intro st hi
  unfold loadTemplate
  cases he : s.templatesPath.isEmpty with
  | true =>
    rw [if_pos rfl]
    exact ⟨hi.all, hi.cur, fun k hk => hi.fresh k hk.1⟩
  | false =>
    rw [if_neg (by decide)]
    cases hr : env.read (s.templatesPath ++ t.file) with
    | none => exact fun h => by cases h
    | some text =>
      refine ⟨fun k => ?_, fun p hp => ?_, fun k hk => ?_⟩
      · dsimp only
        by_cases hkt : k = t
        · simp [hkt]
        · simp [hkt, hi.all k]
      · simp [h p hp, hi.cur p hp]
      · have := hk.2 rfl
        have hf := hi.fresh k hk.1
        exact ⟨by simp [this, hf.1], by simp [this, hf.2]⟩

theorem inv_getPtr {ps : List (TName × Ptr)} {fr : TName → Prop} (t : TName) :
    Tri (Inv ps fr) (getPtr t) (fun p m => p.1 = t ∧ Inv (p :: ps) fr m) := by
  intro st hi
  refine ⟨rfl, hi.all, fun p hp => ?_, hi.fresh⟩
  rcases List.mem_cons.mp hp with rfl | hp
  · rfl
  · exact hi.cur p hp

theorem inv_getFresh {ps : List (TName × Ptr)} {fr : TName → Prop} {t : TName} (ht : fr t) :
    Tri (Inv ps fr) (getPtr t) (fun p m => p = (t, .builtin) ∧ Inv ps fr m) := by
  intro st hi
  exact ⟨by rw [(hi.fresh t ht).2], hi⟩

theorem inv_deref {env : Env} {ps : List (TName × Ptr)} {fr : TName → Prop} {p : TName × Ptr} (hp : p.2 = .builtin ∨ p ∈ ps) :
    Tri (Inv ps fr) (deref env p) (fun _ => Inv ps fr) := by
  intro st hi
  unfold deref
  rw [bind_ok (show (get : M State) st = .ok st st from rfl)]
  have : p.2 = .builtin ∨ p.2 = .heap (st.mem.vec p.1).gen := by
    rcases hp with hp | hp
    · exact .inl hp
    · rw [hi.cur p hp]; exact hi.all p.1
  rcases this with h | h <;> rw [h]
  · exact hi
  · simp only [if_true]
    exact hi

theorem inv_derefAll {env : Env} {ps qs : List (TName × Ptr)} {fr : TName → Prop} (h : ∀ q ∈ qs, q ∈ ps) :
    Tri (Inv ps fr) (derefAll env qs) (fun _ => Inv ps fr) := by
  induction qs with
  | nil => exact tri_pure _ fun _ h => h
  | cons q qs ih =>
    exact tri_bind (inv_deref (.inr (h q List.mem_cons_self))) fun _ =>
      tri_bind (ih fun x hx => h x (List.mem_cons_of_mem _ hx)) fun _ => tri_pure _ fun _ h => h

theorem inv_substitute {env : Env} {s : Settings} {ps qs : List (TName × Ptr)} {fr : TName → Prop} (h : ∀ q ∈ qs, q ∈ ps) :
    Tri (Inv ps fr) (runSubstitute env s qs) (fun _ => Inv ps fr) := by
  refine tri_bind (inv_derefAll h) fun lists => ?_
  unfold writeSubst
  split
  · exact tri_throw (by simp)
  · exact tri_bind (tri_write _) fun _ => tri_pure _ fun _ h => h

theorem inv_saveData {env : Env} {s : Settings} {ps : List (TName × Ptr)} {fr : TName → Prop} {t : TName} (h : ∀ p ∈ ps, p.1 ≠ t) :
    Tri (Inv ps fr) (saveData env s (t, .builtin)) (fun _ => Inv ps fun k => fr k ∧ (s.templatesPath.isEmpty = false → k ≠ t)) :=
  tri_bind (inv_load h) fun _ => tri_bind (inv_deref (.inl rfl)) fun _ => tri_bind (tri_write _) fun _ => tri_pure _ fun _ h => h

theorem tri_eq {α β : Type} {x : β} {m : β → M α} {P : Mem → Prop} {Q : α → Mem → Prop} (h : Tri P (m x) Q) (y : β) :
    Tri (fun k => y = x ∧ P k) (m y) Q := by
  rintro st ⟨rfl, hp⟩
  exact h st hp

/-- The templates that are not used for the lists. -/
def extra (t : TName) : Prop := t = .license ∨ t = .filenameMacros

theorem tri_pre {α : Type} {φ : Prop} {P : Mem → Prop} {m : M α} {Q : α → Mem → Prop} (h : φ → Tri P m Q) :
    Tri (fun k => φ ∧ P k) m Q := fun st hp => h hp.1 st hp.2

theorem inv_createLists {env : Env} {s : Settings} (sep : Bool) :
    Tri (Inv [] fun _ => True) (createLists env s sep)
      (fun r m => (∀ p ∈ r.1 ++ r.2, ¬ extra p.1) ∧ (sep = false → r.2 = []) ∧ Inv (r.1 ++ r.2) extra m) := by
  obtain ⟨n1, n2, n3, n4, n5, n6, n7, n8, n9⟩ := pairOf_ne s.format
  have e1 : ¬ extra (pairOf s.format).1 := fun h => h.elim n1 n2
  have e2 : ¬ extra (pairOf s.format).2 := fun h => h.elim n5 n6
  have e3 : ¬ extra .commonHeader := by rintro (h | h) <;> cases h
  have e4 : ¬ extra .commonBody := by rintro (h | h) <;> cases h
  have hw : ∀ {fr : TName → Prop} {ps qs : List (TName × Ptr)} {m : Mem}, (∀ k, extra k → fr k) → (∀ q ∈ qs, q ∈ ps) → Inv ps fr m → Inv qs extra m :=
    fun h1 h2 hi => ⟨hi.all, fun p hp => hi.cur p (h2 p hp), fun k hk => hi.fresh k (h1 k hk)⟩
  unfold createLists
  dsimp only
  refine tri_bind (inv_load (by simp)) fun _ => ?_
  split
  · refine tri_bind (inv_getPtr _) fun p => tri_pre fun hp => tri_pure _ fun m hi => ⟨?_, fun _ => rfl, hw ?_ (by simp) hi⟩
    · intro q hq
      simp only [List.append_nil, List.mem_singleton] at hq
      rw [hq, hp]; exact e1
    · exact fun k hk => ⟨trivial, fun _ h => e1 (h ▸ hk)⟩
  · rename_i hmin
    have n9 := n9 (by simpa using hmin)
    refine tri_bind (inv_load (by simp)) fun _ => tri_bind (inv_getPtr _) fun ph => tri_pre fun h1 =>
      tri_bind (inv_getPtr _) fun pb => tri_pre fun h2 =>
      tri_bind (inv_load (by simp [h1, h2, n3, n7])) fun _ => tri_bind (inv_load (by simp [h1, h2, n4, n8])) fun _ =>
      tri_bind (inv_getPtr _) fun ch => tri_pre fun h3 => tri_bind (inv_getPtr _) fun cb => tri_pre fun h4 => ?_
    have hk : ∀ k, extra k →
        (((True ∧ (s.templatesPath.isEmpty = false → k ≠ (pairOf s.format).1)) ∧ (s.templatesPath.isEmpty = false → k ≠ (pairOf s.format).2)) ∧
          (s.templatesPath.isEmpty = false → k ≠ .commonHeader)) ∧ (s.templatesPath.isEmpty = false → k ≠ .commonBody) := by
      intro k hk
      exact ⟨⟨⟨⟨trivial, fun _ h => e1 (h ▸ hk)⟩, fun _ h => e2 (h ▸ hk)⟩, fun _ h => e3 (h ▸ hk)⟩, fun _ h => e4 (h ▸ hk)⟩
    split
    · rename_i hsep
      refine tri_pure _ fun m hi => ⟨?_, by simp [hsep], hw hk ?_ hi⟩
      · simp [h1, h2, h3, h4, e1, e2, e3, e4]
      · intro q hq
        simp only [List.cons_append, List.nil_append, List.mem_cons, List.not_mem_nil, or_false] at hq ⊢
        rcases hq with rfl | rfl | rfl | rfl <;> simp
    · refine tri_pure _ fun m hi => ⟨?_, by simp, hw hk ?_ hi⟩
      · simp [h1, h2, h3, h4, e1, e2, e3, e4]
      · intro q hq
        simp only [List.append_nil, List.mem_cons, List.not_mem_nil, or_false] at hq ⊢
        rcases hq with rfl | rfl | rfl | rfl <;> simp

theorem inv_writeHeader {env : Env} {s : Settings} {d : Str} {ps qs : List (TName × Ptr)} (hq : ∀ q ∈ qs, q ∈ ps) (h : ∀ p ∈ ps, ¬ extra p.1) :
    Tri (Inv ps extra) (writeHeader env s d qs) (fun _ => Inv ps fun k => extra k ∧ s.templatesPath.isEmpty = true) := by
  have l1 : ∀ p ∈ ps, p.1 ≠ .license := fun p hp h' => h p hp (.inl h')
  have l2 : ∀ p ∈ ps, p.1 ≠ .filenameMacros := fun p hp h' => h p hp (.inr h')
  unfold writeHeader
  dsimp only
  refine tri_bind (tri_open _ _ _) fun _ => tri_bind (tri_writeCounted _) fun _ => tri_bind (inv_getFresh (.inl rfl)) fun p =>
    tri_pre fun hp => ?_
  subst hp
  refine tri_bind (inv_saveData l1) fun _ => tri_bind (tri_write _) fun _ => tri_bind (tri_writeCounted _) fun _ =>
    tri_bind (inv_getFresh ⟨.inr rfl, fun _ h => by cases h⟩) fun p => tri_pre fun hp => ?_
  subst hp
  refine tri_bind (inv_saveData l2) fun _ => tri_bind (tri_writeCounted _) fun _ => tri_bind (tri_writeCounted _) fun _ =>
    tri_bind (tri_writeCounted _) fun _ => tri_bind (inv_substitute hq) fun _ => tri_bind (tri_write _) fun _ =>
    tri_bind (tri_write _) fun _ => tri_weaken tri_close (fun m hi => ?_) (fun _ _ h => h)
  refine ⟨hi.all, hi.cur, fun k hk => hi.fresh k ⟨⟨hk.1, ?_⟩, ?_⟩⟩ <;>
  · intro h'; rw [hk.2] at h'; cases h'

theorem inv_writeBody {env : Env} {s : Settings} {ps qs : List (TName × Ptr)} (he : s.templatesPath.isEmpty = true)
    (hq : ∀ q ∈ qs, q ∈ ps) (h : ∀ p ∈ ps, ¬ extra p.1) :
    Tri (Inv ps fun k => extra k ∧ s.templatesPath.isEmpty = true) (writeBody env s qs) (fun _ _ => True) := by
  have l1 : ∀ p ∈ ps, p.1 ≠ .license := fun p hp h' => h p hp (.inl h')
  unfold writeBody
  refine tri_bind (tri_open _ _ _) fun _ => tri_bind (tri_write _) fun _ => tri_bind (inv_getFresh ⟨.inl rfl, he⟩) fun p =>
    tri_pre fun hp => ?_
  subst hp
  exact tri_bind (inv_saveData l1) fun _ => tri_bind (tri_write _) fun _ => tri_bind (inv_substitute hq) fun _ =>
    tri_pure _ fun _ _ => trivial

theorem generate_safe {env : Env} {s : Settings} (hs : isSeparate s = false ∨ s.templatesPath.isEmpty = true) :
    Tri (Inv [] fun _ => True) (generate env s) (fun _ _ => True) := by
  unfold generate
  have hc : Tri (Inv [] fun _ => True) (commonPrefix env) (fun _ => Inv [] fun _ => True) := by
    intro st hi
    obtain ⟨c, _, e⟩ := commonPrefix_run env st
    rw [e]
    exact hi
  refine tri_bind hc fun c => tri_bind (inv_createLists _) fun r => tri_pre fun h1 => tri_pre fun h2 =>
    tri_bind (inv_writeHeader (fun q hq => List.mem_append_left _ hq) h1) fun _ => ?_
  split
  · exact tri_pure _ fun _ _ => trivial
  · rename_i hb
    rcases hs with hs | hs
    · rw [h2 hs] at hb
      exact absurd rfl hb
    · exact inv_writeBody hs (fun q hq => List.mem_append_right _ hq) h1

end Gdo.Gen
