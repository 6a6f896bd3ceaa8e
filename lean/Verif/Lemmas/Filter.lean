import Verif.Lemmas.Params
import Verif.Props.Accept

/-! Lemmas about the symbol filters of `gendlopen::parse`. -/

namespace Gdo
open Spec

def fns (l : List Proto) : List Proto := l.filter fun p => p.kind = .function
def obs (l : List Proto) : List Proto := l.filter fun p => p.kind ≠ .function

theorem fns_append (a b : List Proto) : fns (a ++ b) = fns a ++ fns b := by simp [fns]
theorem obs_append (a b : List Proto) : obs (a ++ b) = obs a ++ obs b := by simp [obs]

theorem saveSymbol_unsaved (p : Proto) (st : FilterState) (h : p.saved = false) :
    saveSymbol p st = ({ p with saved := true }, ⟨st.protos ++ fns [p], st.objs ++ obs [p]⟩) := by
  unfold saveSymbol
  by_cases hk : p.kind = .function <;> simp [h, hk, fns, obs]

theorem saveSymbol_saved (p : Proto) (st : FilterState) (h : p.saved = true) :
    saveSymbol p st = (p, st) := by simp [saveSymbol, h]

def mark (f : Proto → Bool) (p : Proto) : Proto := if f p then { p with saved := true } else p

theorem mark_symbol (f : Proto → Bool) (p : Proto) : (mark f p).symbol = p.symbol := by
  unfold mark; split <;> rfl

theorem mark_saved (f : Proto → Bool) (p : Proto) (h : p.saved = false) : (mark f p).saved = f p := by
  unfold mark; split <;> simp_all

theorem savePass_eq (f : Proto → Bool) (v : List Proto) (hv : ∀ p ∈ v, p.saved = false) : ∀ st,
    savePass f v st = (v.map (mark f), ⟨st.protos ++ fns (v.filter f), st.objs ++ obs (v.filter f)⟩) := by
  induction v with
  | nil => intro st; simp [savePass, fns, obs]
  | cons p v ih =>
    intro st
    have ih := ih (fun q hq => hv q (by simp [hq]))
    unfold savePass
    by_cases h : f p
    · simp [h, saveSymbol_unsaved p st (hv p (by simp)), ih, mark, fns, obs, List.filter_cons]
      constructor <;> split <;> simp_all
    · simp [h, ih, mark]

theorem eraseAll_lt (l : List Str) (s : Str) : (eraseAll l s).length < l.length ↔ s ∈ l := by
  unfold eraseAll
  rw [show ((l.filter fun e => !(e == s)).length < l.length) ↔ ¬ (l.filter fun e => !(e == s)).length = l.length by
    have := List.length_filter_le (fun e => !(e == s)) l; omega]
  rw [List.length_filter_eq_length_iff]
  simp

theorem mem_eraseAll {l : List Str} {s t : Str} : t ∈ eraseAll l s ↔ t ∈ l ∧ t ≠ s := by
  simp [eraseAll]

theorem listPass_eq (f : Proto → Bool) (v : List Proto) (hv : ∀ p ∈ v, p.saved = false)
    (hn : (v.map Proto.symbol).Nodup) : ∀ l st,
    listPass (v.map (mark f)) l st =
      (l.filter (fun s => decide (s ∉ v.map Proto.symbol)),
       ⟨st.protos ++ fns (v.filter fun p => decide (p.symbol ∈ l) && !f p),
        st.objs ++ obs (v.filter fun p => decide (p.symbol ∈ l) && !f p)⟩) := by
  induction v with
  | nil => intro l st; simp [listPass, fns, obs]; exact (List.filter_eq_self.mpr (by simp)).symm
  | cons p v ih =>
    intro l st
    simp only [List.map_cons, List.nodup_cons] at hn
    have ih := ih (fun q hq => hv q (by simp [hq])) hn.2
    have hflt : v.filter (fun q => decide (q.symbol ∈ eraseAll l p.symbol) && !f q) =
        v.filter (fun q => decide (q.symbol ∈ l) && !f q) := by
      apply List.filter_congr
      intro q hq
      have : q.symbol ≠ p.symbol := by
        intro h'; exact hn.1 (by rw [← h']; exact List.mem_map_of_mem hq)
      simp [mem_eraseAll, this]
    have hrest : (eraseAll l p.symbol).filter (fun s => decide (s ∉ v.map Proto.symbol)) =
        l.filter (fun s => decide (s ∉ (p :: v).map Proto.symbol)) := by
      unfold eraseAll
      rw [List.filter_filter]
      apply List.filter_congr
      intro s _
      by_cases h1 : s = p.symbol <;> simp [h1]
    simp only [List.map_cons, listPass, mark_symbol, eraseAll_lt]
    by_cases hm : p.symbol ∈ l
    · rw [if_pos hm]
      by_cases hf : f p
      · have : (saveSymbol (mark f p) st).2 = st := by
          rw [saveSymbol_saved _ _ (by rw [mark_saved f p (hv p (by simp)), hf])]
        rw [this, ih, hflt, hrest]
        simp [hf]
      · have hmk : mark f p = p := by simp [mark, hf]
        rw [hmk, saveSymbol_unsaved p st (hv p (by simp)), ih, hflt, hrest]
        have : (p :: v).filter (fun q => decide (q.symbol ∈ l) && !f q) =
          [p] ++ v.filter (fun q => decide (q.symbol ∈ l) && !f q) := by
          simp [hm, hf]
        rw [this, fns_append, obs_append]
        simp
    · rw [if_neg hm, ih, hflt, hrest]
      simp [hm]

theorem multipleDefinitionsAux_none (v : List Proto) : ∀ e : List Proto,
    multipleDefinitionsAux e v = none ↔
      (v.map Proto.symbol).Nodup ∧ ∀ p ∈ v, ∀ q ∈ e, p.symbol ≠ q.symbol := by
  induction v with
  | nil => intro e; simp [multipleDefinitionsAux]
  | cons p v ih =>
    intro e
    simp only [multipleDefinitionsAux]
    by_cases h : e.any (fun q => p.symbol == q.symbol)
    · simp only [h, if_true, reduceCtorEq, false_iff]
      intro hc
      simp at h
      obtain ⟨q, hq, he⟩ := h
      exact hc.2 p (by simp) q hq he
    · rw [if_neg h, ih]
      simp only [List.any_eq_true, beq_iff_eq, not_exists, not_and] at h
      simp only [List.map_cons, List.nodup_cons, List.mem_map, not_exists, not_and, List.mem_append,
        List.mem_singleton, List.mem_cons]
      grind

theorem multipleDefinitions_none (v : List Proto) :
    multipleDefinitions v = none ↔ (v.map Proto.symbol).Nodup := by
  simp [multipleDefinitions, multipleDefinitionsAux_none]

/-- What `create_parameter_names` and `get_parameter_names` do not touch. -/
def SameDecl (p p' : Proto) : Prop :=
  p'.kind = p.kind ∧ p'.saved = p.saved ∧ p'.symbol = p.symbol ∧ p'.type = p.type ∧ p'.argsVec = p.argsVec

theorem SameDecl.trans {a b c : Proto} (h1 : SameDecl a b) (h2 : SameDecl b c) : SameDecl a c := by
  unfold SameDecl at *; grind

theorem SameDecl.refl (a : Proto) : SameDecl a a := ⟨rfl, rfl, rfl, rfl, rfl⟩

theorem paramVoid_same (p : Proto) : SameDecl p (paramVoidOrEmpty p).2 := by
  unfold paramVoidOrEmpty
  split
  · exact SameDecl.refl p
  · split <;> exact ⟨rfl, rfl, rfl, rfl, rfl⟩
  · exact SameDecl.refl p

theorem appendName_same (p : Proto) (k : Nat) (s : Str) : SameDecl p (appendName p k s).1 :=
  ⟨rfl, rfl, rfl, rfl, rfl⟩

theorem getArrayType_same {v : Toks} {it : Nat} {p : Proto} {k : Nat} {r : Proto × Nat}
    (h : getArrayType v it p k = some (some r)) : SameDecl p r.1 := by
  unfold getArrayType at h
  simp only [Option.bind_eq_bind, Option.bind_eq_some_iff, Option.pure_def] at h
  obtain ⟨b, _, h⟩ := h
  split at h
  · simp at h
  · simp only [Option.bind_eq_some_iff] at h
    obtain ⟨_, _, _, _, h⟩ := h
    simp at h
    subst h
    exact ⟨rfl, rfl, rfl, rfl, rfl⟩

theorem getFunctionPointerType_same {v : Toks} {it : Nat} {p : Proto} {k : Nat} {r : Proto × Nat}
    (h : getFunctionPointerType v it p k = some (some r)) : SameDecl p r.1 := by
  unfold getFunctionPointerType at h
  rw [Option.bind_eq_bind, Option.bind_eq_some_iff] at h
  obtain ⟨o, _, h⟩ := h
  cases o with
  | none => simp at h
  | some o =>
    simp only [Option.bind_eq_bind, Option.bind_eq_some_iff, Option.pure_def] at h
    obtain ⟨_, _, _, _, h⟩ := h
    simp at h
    subst h
    exact ⟨rfl, rfl, rfl, rfl, rfl⟩

theorem createParameterName_same {v : Toks} {p : Proto} {k : Nat} {r : Proto × Nat}
    (h : createParameterName v p k = some (.ok r)) : SameDecl p r.1 := by
  unfold createParameterName at h
  split at h
  · simp at h
  · split at h
    · simp at h
    · split at h
      · simp at h; subst h; exact ⟨rfl, rfl, rfl, rfl, rfl⟩
      · dsimp only at h
        split at h
        · simp at h; subst h; exact ⟨rfl, rfl, rfl, rfl, rfl⟩
        · rw [Option.bind_eq_bind, Option.bind_eq_some_iff] at h
          obtain ⟨o, ho, h⟩ := h
          cases o with
          | some o => simp at h; subst h; exact getFunctionPointerType_same ho
          | none =>
            simp only [Option.bind_eq_bind, Option.bind_eq_some_iff] at h
            obtain ⟨o, ho, h⟩ := h
            cases o with
            | some o => simp at h; subst h; exact getArrayType_same ho
            | none => simp at h

theorem createLoop_same (vs : List Toks) : ∀ {p : Proto} {k : Nat} {r : Proto},
    createParameterNamesLoop vs p k = some (.ok r) → SameDecl p r := by
  induction vs with
  | nil => intro p k r h; simp [createParameterNamesLoop] at h; subst h; exact SameDecl.refl p
  | cons v vs ih =>
    intro p k r h
    simp only [createParameterNamesLoop, Option.bind_eq_bind, Option.bind_eq_some_iff] at h
    obtain ⟨x, hx, h⟩ := h
    cases x with
    | error e => simp at h
    | ok x => exact (createParameterName_same hx).trans (ih h)

theorem createParameterNames_same {p r : Proto} (h : createParameterNames p = some (.ok r)) : SameDecl p r := by
  unfold createParameterNames at h
  split at h
  · simp at h; subst h; exact SameDecl.refl p
  · have hs := paramVoid_same p
    split at h
    · rename_i q hq; simp at h; subst h; rw [hq] at hs; exact hs
    · rename_i q hq
      rw [hq] at hs
      simp only [Option.bind_eq_bind, Option.bind_eq_some_iff] at h
      obtain ⟨x, hx, h⟩ := h
      cases x with
      | error e => simp at h
      | ok x =>
        simp at h
        have := hs.trans (createLoop_same _ hx)
        subst h
        exact this

theorem getParameterNames_same {p r : Proto} {m : ParamNames} (h : getParameterNames p m = some (.ok r)) :
    SameDecl p r := by
  unfold getParameterNames at h
  split at h
  · simp at h; subst h; exact SameDecl.refl p
  · have hs := paramVoid_same p
    split at h
    · rename_i q hq; simp at h; subst h; rw [hq] at hs; exact hs
    · rename_i q hq
      rw [hq] at hs
      split at h
      · simp at h; subst h; exact hs
      · unfold readParameterNames at h
        simp only [Option.bind_eq_bind, Option.bind_eq_some_iff] at h
        obtain ⟨x, hx, h⟩ := h
        cases x with
        | error e => simp at h
        | ok x => simp at h; subst h; exact hs

theorem doParameters_same {m : ParamNames} (ps : List Proto) : ∀ {rs : List Proto},
    doParameters m ps = some (.ok rs) →
    rs.map Proto.symbol = ps.map Proto.symbol ∧ rs.map Proto.kind = ps.map Proto.kind ∧
    rs.map Proto.saved = ps.map Proto.saved ∧ rs.map Proto.type = ps.map Proto.type := by
  induction ps with
  | nil => intro rs h; simp [doParameters] at h; subst h; simp
  | cons p ps ih =>
    intro rs h
    simp only [doParameters, Option.bind_eq_bind, Option.bind_eq_some_iff] at h
    obtain ⟨x, hx, h⟩ := h
    cases x with
    | error e => simp at h
    | ok x =>
      simp only [Option.bind_eq_some_iff] at h
      obtain ⟨y, hy, h⟩ := h
      cases y with
      | error e => simp at h
      | ok y =>
        simp at h
        subst h
        have h1 := ih hy
        have h2 : SameDecl p x := by
          split at hx
          · exact createParameterNames_same hx
          · exact getParameterNames_same hx
        obtain ⟨a1, a2, a3, a4, a5⟩ := h2
        simp [h1, a1, a2, a3, a4]

theorem checkPrototype_unsaved {v : Toks} {p : Proto} (h : checkPrototype v = some (some p)) :
    p.saved = false := by
  unfold checkPrototype at h
  split at h
  · simp at h
  simp only [Option.bind_eq_bind, Option.bind_eq_some_iff, Option.pure_def] at h
  obtain ⟨f, _, h⟩ := h
  split at h
  · simp at h
  split at h
  · unfold checkObject at h
    simp only [Option.bind_eq_bind, Option.bind_eq_some_iff, Option.pure_def] at h
    obtain ⟨b, _, h⟩ := h
    split at h
    · simp at h
    · simp only [Option.bind_eq_some_iff] at h
      obtain ⟨_, _, _, _, _, _, h⟩ := h
      simp at h; subst h; rfl
  simp only [Option.bind_eq_some_iff] at h
  obtain ⟨e, _, h⟩ := h
  split at h
  · rcases orElseCheck_some h with h | h
    · unfold checkFunction at h
      simp only [Option.bind_eq_bind, Option.bind_eq_some_iff, Option.pure_def] at h
      obtain ⟨b, _, h⟩ := h
      split at h
      · simp at h
      · simp only [Option.bind_eq_some_iff] at h
        obtain ⟨_, _, _, _, _, _, _, _, h⟩ := h
        simp at h; subst h; rfl
    rcases orElseCheck_some h with h | h
    · unfold checkFunctionPointer at h
      simp only [Option.bind_eq_bind, Option.bind_eq_some_iff, Option.pure_def] at h
      obtain ⟨b, _, h⟩ := h
      split at h
      · simp at h
      · simp only [Option.bind_eq_some_iff] at h
        obtain ⟨_, _, _, _, _, _, h⟩ := h
        simp at h; subst h; rfl
    rcases orElseCheck_some h with h | h
    · unfold checkFunctionParen at h
      simp only [Option.bind_eq_bind, Option.bind_eq_some_iff, Option.pure_def] at h
      obtain ⟨b, _, h⟩ := h
      split at h
      · simp at h
      · simp only [Option.bind_eq_some_iff] at h
        obtain ⟨_, _, _, _, _, _, _, _, h⟩ := h
        simp at h; subst h; rfl
    · unfold checkFunctionParenPointer at h
      rw [Option.bind_eq_bind, Option.bind_eq_some_iff] at h
      obtain ⟨b, _, h⟩ := h
      cases b with
      | none => simp at h
      | some b =>
        simp only [Option.bind_eq_bind, Option.bind_eq_some_iff, Option.pure_def] at h
        obtain ⟨_, _, _, _, _, _, _, _, _, _, h⟩ := h
        simp at h; subst h; rfl
  · split at h
    · unfold checkArray at h
      simp only [Option.bind_eq_bind, Option.bind_eq_some_iff, Option.pure_def] at h
      obtain ⟨b, _, h⟩ := h
      split at h
      · simp at h
      · simp only [Option.bind_eq_some_iff] at h
        obtain ⟨_, _, _, _, _, _, h⟩ := h
        simp at h; subst h; rfl
    · simp at h

theorem parseTokens_mem (vs : List Toks) : ∀ {ps : List Proto}, parseTokens vs = some (some ps) →
    ∀ p ∈ ps, ∃ v ∈ vs, checkPrototype v = some (some p) := by
  induction vs with
  | nil => intro ps h; simp [parseTokens] at h; subst h; simp
  | cons v vs ih =>
    intro ps h
    simp only [parseTokens, Option.bind_eq_bind, Option.bind_eq_some_iff] at h
    obtain ⟨x, hx, h⟩ := h
    cases x with
    | none => simp at h
    | some x =>
      simp only [Option.bind_eq_some_iff] at h
      obtain ⟨y, hy, h⟩ := h
      cases y with
      | none => simp at h
      | some y =>
        simp at h; subst h
        intro p hp
        simp at hp
        rcases hp with rfl | hp
        · exact ⟨v, by simp, hx⟩
        · obtain ⟨w, hw, h⟩ := ih hy p hp
          exact ⟨w, by simp [hw], h⟩

end Gdo
