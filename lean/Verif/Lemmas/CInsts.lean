import Verif.Lemmas.CProgText
import Verif.Lemmas.CForm

/-!
Lemmas: the data of functions and objects can be used in code.
-/

namespace Gdo.Cc
open Gdo Tpl Tmpl Rename Builtin CForm

variable {u l : Str}

/-- A declaration whose name is a word and whose types have no quotes, comments or line
    ends. -/
structure Named (p : Proto) : Prop where
  clean : Clean p
  symbol : Word p.symbol
  type : ∀ c, p.type.head? = some c → c ≠ '<' ∧ c ≠ '='

theorem functionPointer_angle {p : Proto} (h : Named p) : Angle (functionPointer p) := by
  refine ⟨(functionPointer_value h.clean).chars, fun c hc => ?_, p.type ++ (if isPointer p.type then [] else str% " ") ++ str% "(*)(" ++ p.args, ')', rfl, .inl rfl⟩
  unfold functionPointer at hc
  cases ht : p.type with
  | nil =>
    rw [ht] at hc
    split at hc <;> (cases hc; decide)
  | cons d r =>
    rw [ht] at hc
    cases hc
    exact h.type _ (by rw [ht]; rfl)

theorem objectPointer_angle {p : Proto} (h : Named p) : Angle (objectPointer p) := by
  refine ⟨(objectPointer_value h.clean).chars, fun c hc => ?_, p.type ++ (if isPointer p.type then [] else str% " "), '*', rfl, .inr rfl⟩
  unfold objectPointer at hc
  cases ht : p.type with
  | nil =>
    rw [ht] at hc
    split at hc <;> (cases hc; decide)
  | cons d r =>
    rw [ht] at hc
    cases hc
    exact h.type _ (by rw [ht]; rfl)

theorem instsOk {protos objs : List Proto} (h : ∀ p ∈ protos ++ objs, Named p) : InstsOk (insts protos objs) := by
  intro k val hval n hn
  cases k with
  | function =>
    obtain ⟨p, hp, rfl⟩ := List.mem_map.mp hval
    have hp := h p (List.mem_append_left _ hp)
    simp only [kwsOf, List.mem_cons, List.not_mem_nil, or_false] at hn
    rcases hn with rfl | rfl | rfl | rfl
    · exact ⟨fun _ => ⟨_, rfl, hp.symbol⟩, fun h => absurd h (by decide), fun h => absurd h (by decide), fun _ h => by cases h⟩
    · exact ⟨fun h => absurd h (by decide), fun h => absurd h (by decide), fun h => absurd h (by decide), fun k' h => by cases h; exact ⟨_, _, rfl, rfl, hp.symbol⟩⟩
    · exact ⟨fun h => absurd h (by decide), fun _ => ⟨_, _, rfl, hp.clean.type.chars⟩, fun h => absurd h (by decide), fun _ h => by cases h⟩
    · exact ⟨fun h => absurd h (by decide), fun _ => ⟨_, _, rfl, hp.clean.args.chars⟩, fun h => absurd h (by decide), fun _ h => by cases h⟩
  | object =>
    obtain ⟨p, hp, rfl⟩ := List.mem_map.mp hval
    have hp := h p (List.mem_append_right _ hp)
    simp only [kwsOf, List.mem_cons, List.not_mem_nil, or_false] at hn
    rcases hn with rfl | rfl | rfl
    · exact ⟨fun _ => ⟨_, rfl, hp.symbol⟩, fun h => absurd h (by decide), fun h => absurd h (by decide), fun _ h => by cases h⟩
    · exact ⟨fun h => absurd h (by decide), fun h => absurd h (by decide), fun h => absurd h (by decide), fun k' h => by cases h; exact ⟨_, _, rfl, rfl, hp.symbol⟩⟩
    · exact ⟨fun h => absurd h (by decide), fun _ => ⟨_, _, rfl, hp.clean.type.chars⟩, fun h => absurd h (by decide), fun _ h => by cases h⟩
  | symbol =>
    have : ∃ p t, Named p ∧ Angle t ∧ val = symbolValues t p.symbol := by
      rcases List.mem_append.mp hval with hm | hm
      · obtain ⟨p, hp, rfl⟩ := List.mem_map.mp hm
        have hp := h p (List.mem_append_left _ hp)
        exact ⟨p, _, hp, functionPointer_angle hp, rfl⟩
      · obtain ⟨p, hp, rfl⟩ := List.mem_map.mp hm
        have hp := h p (List.mem_append_right _ hp)
        exact ⟨p, _, hp, objectPointer_angle hp, rfl⟩
    obtain ⟨p, t, hp, ht, rfl⟩ := this
    simp only [kwsOf, List.mem_cons, List.not_mem_nil, or_false] at hn
    rcases hn with rfl | rfl
    · exact ⟨fun _ => ⟨_, rfl, hp.symbol⟩, fun h => absurd h (by decide), fun h => absurd h (by decide), fun _ h => by cases h⟩
    · exact ⟨fun h => absurd h (by decide), fun _ => ⟨_, _, rfl, ht.chars⟩, fun _ => ⟨_, _, rfl, ht⟩, fun _ h => by cases h⟩

end Gdo.Cc
