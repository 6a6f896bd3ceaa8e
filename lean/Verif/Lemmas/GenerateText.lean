import Verif.Spec.Generate
import Verif.Lemmas.GenerateAll
import Verif.Lemmas.Text
import Verif.Props.SubstituteLines

/-! The texts that `generate` writes. -/

namespace Gdo.GenSpec
open Gdo

theorem lines_ne (s : Str) : lines s ≠ [] := by
  cases s with
  | nil => simp [lines]
  | cons c cs =>
    unfold lines
    split
    · simp
    · split <;> simp

theorem lines_line {l : Str} (h : '\n' ∉ l) (r : Str) : lines (l ++ '\n' :: r) = l :: lines r := by
  induction l with
  | nil => simp [lines]
  | cons c l ih =>
    simp only [List.mem_cons, not_or] at h
    rw [List.cons_append, lines, if_neg (Ne.symm h.1), ih h.2]

theorem lines_append (a b : Str) : lines (a ++ '\n' :: b) = lines a ++ lines b := by
  induction a with
  | nil => simp [lines]
  | cons c a ih =>
    rw [List.cons_append, lines, lines]
    split
    · rw [ih]; rfl
    · rw [ih]
      cases h : lines a with
      | nil => exact absurd h (lines_ne a)
      | cons l ls => rfl

theorem depth_append (d : Nat) (a b : List Str) : depth d (a ++ b) = (depth d a).bind fun e => depth e b := by
  induction a generalizing d with
  | nil => rfl
  | cons l a ih =>
    rw [List.cons_append, depth.eq_def, depth.eq_def]
    dsimp only
    split
    · exact ih _
    · split
      · cases d with
        | zero => rfl
        | succ d => exact ih _
      · exact ih _

theorem depth_nil_line (d : Nat) : depth d [[]] = some d := rfl

theorem depth_snoc (d : Nat) (x : Str) : depth d (lines (x ++ ['\n'])) = depth d (lines x) := by
  rw [lines_append, depth_append]
  cases depth d (lines x) with
  | none => rfl
  | some e => rfl

theorem depth_whole {t : Str} (h : Whole t) (d : Nat) (r : Str) : depth d (lines (t ++ r)) = (depth d (lines t)).bind fun e => depth e (lines r) := by
  rcases h with rfl | ⟨x, rfl⟩
  · rfl
  · rw [show (str% "\n") = ['\n'] from rfl, depth_snoc, List.append_assoc]
    show depth d (lines (x ++ '\n' :: r)) = _
    rw [lines_append, depth_append]

theorem Whole.append {a b : Str} (ha : Whole a) (hb : Whole b) : Whole (a ++ b) := by
  rcases hb with rfl | ⟨y, rfl⟩
  · simpa using ha
  · exact .inr ⟨a ++ y, by simp⟩

theorem Balanced.nil : Balanced [] := ⟨.inl rfl, fun _ => rfl⟩

theorem Balanced.append {a b : Str} (ha : Balanced a) (hb : Balanced b) : Balanced (a ++ b) :=
  ⟨ha.1.append hb.1, fun d => by rw [depth_whole ha.1, ha.2 d]; exact hb.2 d⟩

theorem Balanced.flatMap {α : Type} {l : List α} {f : α → Str} (h : ∀ x ∈ l, Balanced (f x)) : Balanced (l.flatMap f) := by
  induction l with
  | nil => exact Balanced.nil
  | cons x l ih =>
    rw [List.flatMap_cons]
    exact (h x List.mem_cons_self).append (ih fun y hy => h y (List.mem_cons_of_mem _ hy))

theorem Balanced.line {l : Str} (h : '\n' ∉ l) (h1 : opens l = false) (h2 : closes l = false) : Balanced (l ++ str% "\n") := by
  refine ⟨.inr ⟨l, rfl⟩, fun d => ?_⟩
  show depth d (lines (l ++ '\n' :: [])) = _
  rw [lines_line h]
  unfold depth
  simp only [h1, h2, Bool.false_eq_true, if_false]
  rfl

theorem depth_open {l : Str} (h : '\n' ∉ l) (h1 : opens l = true) (d : Nat) (r : Str) :
    depth d (lines (l ++ str% "\n" ++ r)) = depth (d + 1) (lines r) := by
  rw [List.append_assoc]
  show depth d (lines (l ++ '\n' :: r)) = _
  rw [lines_line h]
  conv => lhs; unfold depth
  rw [if_pos h1]

theorem Balanced.wrap {o t c : Str} (ho : '\n' ∉ o) (h1 : opens o = true) (ht : Balanced t) (hc : '\n' ∉ c) (h2 : closes c = true)
    (h3 : opens c = false) : Balanced (o ++ str% "\n" ++ t ++ c ++ str% "\n") := by
  refine ⟨.inr ⟨_, rfl⟩, fun d => ?_⟩
  rw [show o ++ str% "\n" ++ t ++ c ++ str% "\n" = o ++ str% "\n" ++ (t ++ (c ++ str% "\n")) by simp]
  rw [depth_open ho h1, depth_whole ht.1, ht.2]
  show depth (d + 1) (lines (c ++ '\n' :: [])) = _
  rw [lines_line hc]
  unfold depth
  simp only [h2, h3, Bool.false_eq_true, if_false, if_true]
  rfl

end Gdo.GenSpec

namespace Gdo.Gen
open Gdo Tpl Opt GenSpec Sub

/-! ### Stripping -/

theorem stripBack_spaces {q : Str} (h : ∀ c ∈ q, isSpace c = true) : stripBack q = [] := by
  induction q with
  | nil => rfl
  | cons c q ih =>
    unfold stripBack
    rw [ih fun x hx => h x (List.mem_cons_of_mem _ hx), h c List.mem_cons_self]
    rfl

theorem stripBack_append {q : Str} (h : ∀ c ∈ q, isSpace c = true) (n : Str) : stripBack (n ++ q) = stripBack n := by
  induction n with
  | nil => exact stripBack_spaces h
  | cons c n ih =>
    rw [List.cons_append]
    conv => lhs; unfold stripBack
    rw [ih]
    conv => rhs; unfold stripBack

theorem stripFront_append {p : Str} (h : ∀ c ∈ p, isSpace c = true) (n : Str) : stripFront (p ++ n) = stripFront n := by
  induction p with
  | nil => rfl
  | cons c p ih =>
    rw [List.cons_append]
    conv => lhs; unfold stripFront
    rw [h c List.mem_cons_self, if_pos rfl]
    exact ih fun x hx => h x (List.mem_cons_of_mem _ hx)

theorem stripBack_self {n : Str} (h : ∀ c, n.getLast? = some c → isSpace c = false) : stripBack n = n := by
  induction n with
  | nil => rfl
  | cons c n ih =>
    unfold stripBack
    cases n with
    | nil =>
      have := h c rfl
      simp [stripBack, this]
    | cons d n =>
      rw [ih (fun x hx => h x (by simpa using hx))]

theorem stripFront_self {n : Str} (h : ∀ c, n.head? = some c → isSpace c = false) : stripFront n = n := by
  cases n with
  | nil => rfl
  | cons c n =>
    unfold stripFront
    rw [h c rfl]
    rfl

theorem stripSpaces_core {p n q : Str} (hp : ∀ c ∈ p, isSpace c = true) (hq : ∀ c ∈ q, isSpace c = true)
    (h1 : ∀ c, n.head? = some c → isSpace c = false) (h2 : ∀ c, n.getLast? = some c → isSpace c = false) (hne : n ≠ []) :
    stripSpaces (p ++ n ++ q) = n := by
  unfold stripSpaces
  rw [stripBack_append hq, stripBack_self, stripFront_append hp, stripFront_self h1]
  intro c hc
  rw [List.getLast?_append] at hc
  cases hl : n.getLast? with
  | none => simp at hl; exact absurd hl hne
  | some d =>
    rw [hl] at hc
    simp at hc
    exact h2 c (by rw [hl, hc])

/-! ### Line counts -/

theorem countLinefeed_append (a b : Str) : countLinefeed (a ++ b) = countLinefeed a + countLinefeed b := by
  rw [countLinefeed_eq, countLinefeed_eq, countLinefeed_eq, nl_append]

theorem savedLines_eq (s : Settings) (l : List Entry) : savedLines s l = countLinefeed (savedText s l) := by
  unfold savedLines savedText
  induction savedBufs s l with
  | nil => rfl
  | cons b bs ih =>
    rw [List.map_cons, List.sum_cons, List.flatMap_cons, countLinefeed_append, countLinefeed_append, ih]
    rfl

theorem headLines_eq (env : Env) (s : Settings) : headLines env s = countLinefeed (headText env s) := by
  unfold headLines headText
  rw [countLinefeed_append, savedLines_eq]

theorem midLines_eq (env : Env) (s : Settings) (d : Str) : midLines env s d = countLinefeed (midText env s d) := by
  unfold midLines midText
  simp only [countLinefeed_append, savedLines_eq]

end Gdo.Gen
