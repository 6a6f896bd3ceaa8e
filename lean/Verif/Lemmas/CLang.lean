import Verif.Spec.CLang

/-!
Lemmas about code trees: instantiation and tokens commute.
-/

namespace Gdo.Cc
open Gdo Tmpl Rename

/-- What an item stands for where the keywords have the values `val`. -/
def Item.instIn (I : Insts) (val : Values) : Item → List STok
  | .tok t => [t.inst val]
  | .rep k ts => (I k).flatMap fun v => ts.map (STok.inst v)

/-- The tokens of instantiated items. -/
def instItems (I : Insts) (val : Values) (xs : List Item) : List Item := (xs.flatMap (Item.instIn I val)).map .tok

theorem instItems_nil (I : Insts) (val : Values) : instItems I val [] = [] := rfl

theorem instItems_append (I : Insts) (val : Values) (a b : List Item) : instItems I val (a ++ b) = instItems I val a ++ instItems I val b := by
  simp [instItems]

theorem instItems_cons (I : Insts) (val : Values) (a : Item) (b : List Item) :
    instItems I val (a :: b) = (a.instIn I val).map .tok ++ instItems I val b := by
  simp [instItems]

theorem instItems_punct (I : Insts) (val : Values) (p : Str) (b : List Item) : instItems I val (punct p :: b) = punct p :: instItems I val b := rfl

theorem instItems_word (I : Insts) (val : Values) (p : Str) (b : List Item) : instItems I val (word p :: b) = word p :: instItems I val b := rfl

theorem instItems_tok (I : Insts) (val : Values) (t : STok) (b : List Item) :
    instItems I val (.tok t :: b) = .tok (t.inst val) :: instItems I val b := rfl

theorem instItems_toks (I : Insts) (val : Values) (ts : List STok) : instItems I val (ts.map .tok) = (ts.map (STok.inst val)).map .tok := by
  induction ts with
  | nil => rfl
  | cons t ts ih => rw [List.map_cons, instItems_tok, ih]; rfl

theorem plain_eq {xs : List Item} {ts : List STok} (h : plain xs = some ts) : xs = ts.map .tok := by
  induction xs generalizing ts with
  | nil => cases h; rfl
  | cons x xs ih =>
    cases x with
    | tok t =>
      rw [plain] at h
      cases hx : plain xs with
      | none => rw [hx] at h; cases h
      | some ys => rw [hx] at h; cases h; rw [ih hx]; rfl
    | rep k ts => cases h

theorem plain_map (ts : List STok) : plain (ts.map .tok) = some ts := by
  induction ts with
  | nil => rfl
  | cons t ts ih => rw [List.map_cons, plain, ih]; rfl

theorem opLevel_getD {op : Str} {l : Nat} (h : opLevel op = some l) : (opLevel op).getD 0 = l := by rw [h]; rfl

theorem foldl_level {α : Type} {op : Str} {l : Nat} (ho : opLevel op = some l) (f : α → Expr) (vs : List α) :
    ∀ x : Expr, l ≤ x.level → l ≤ (vs.foldl (fun x v => .bin op x (f v)) x).level := by
  induction vs with
  | nil => intro x h; exact h
  | cons v vs ih =>
    intro x _
    rw [List.foldl_cons]
    exact ih _ (by show l ≤ (opLevel op).getD 0; rw [ho]; exact Nat.le_refl _)

theorem foldl_toks {α : Type} {op : Str} {l : Nat} (ho : opLevel op = some l) (f : α → Expr) (g : α → List Item) (vs : List α)
    (hf : ∀ v, l + 1 ≤ (f v).level ∧ (f v).toks = some (g v)) :
    ∀ (x : Expr) (a : List Item), l ≤ x.level → x.toks = some a →
      (vs.foldl (fun x v => .bin op x (f v)) x).toks = some (a ++ vs.flatMap fun v => punct op :: g v) := by
  induction vs with
  | nil => intro x a _ h; simpa using h
  | cons v vs ih =>
    intro x a hl h
    rw [List.foldl_cons]
    have := ih (.bin op x (f v)) (a ++ punct op :: g v) (by show l ≤ (opLevel op).getD 0; rw [ho]; exact Nat.le_refl _) (by
      unfold Expr.toks
      rw [ho]
      dsimp only
      rw [if_pos ⟨hl, (hf v).1⟩, h, (hf v).2]
      rfl)
    rw [this]
    simp

mutual
theorem Expr.inst_level (I : Insts) (val : Values) : ∀ (e : Expr) (xs : List Item), e.toks = some xs → e.level ≤ (e.inst I val).level
  | .id _, _, _ => Nat.le_refl _
  | .str _, _, _ => Nat.le_refl _
  | .chr _, _, _ => Nat.le_refl _
  | .cat _, _, _ => Nat.le_refl _
  | .call _ _, _, _ => Nat.le_refl _
  | .global _ _, _, _ => Nat.le_refl _
  | .rcast _ _, _, _ => Nat.le_refl _
  | .field _ _, _, _ => Nat.le_refl _
  | .member _ _, _, _ => Nat.le_refl _
  | .arrow _ _, _, _ => Nat.le_refl _
  | .index _ _, _, _ => Nat.le_refl _
  | .inc _, _, _ => Nat.le_refl _
  | .un _ _, _, _ => Nat.le_refl _
  | .cast _ _, _, _ => Nat.le_refl _
  | .sizeof _, _, _ => Nat.le_refl _
  | .sizeofType _, _, _ => Nat.le_refl _
  | .bin _ _ _, _, _ => Nat.le_refl _
  | .cond _ _ _, _, _ => Nat.le_refl _
  | .assign _ _, _, _ => Nat.le_refl _
  | .paren _, _, _ => Nat.le_refl _
  | .rep k op a e, xs, h => by
    unfold Expr.toks at h
    cases ho : opLevel op with
    | none => rw [ho] at h; cases h
    | some l =>
      rw [ho] at h
      dsimp only at h
      split at h
      · rename_i hl
        cases ha : a.toks with
        | none => rw [ha] at h; cases h
        | some ya =>
          have := Expr.inst_level I val a ya ha
          unfold Expr.inst
          show (opLevel op).getD 0 ≤ _
          rw [ho]
          exact foldl_level ho _ _ _ (Nat.le_trans hl.1 this)
      · cases h
end

theorem bind_some_eq {α β : Type} {o : Option α} {f : α → Option β} {b : β} (h : o.bind f = some b) : ∃ a, o = some a ∧ f a = some b := by
  cases o with
  | none => cases h
  | some a => exact ⟨a, rfl, h⟩

theorem map_some_eq {α β : Type} {o : Option α} {f : α → β} {b : β} (h : o.map f = some b) : ∃ a, o = some a ∧ f a = b := by
  cases o with
  | none => cases h
  | some a => cases h; exact ⟨a, rfl, rfl⟩

theorem if_some_eq {β : Type} {P : Prop} [Decidable P] {o : Option β} {b : β} (h : (if P then o else none) = some b) : P ∧ o = some b := by
  split at h
  · exact ⟨by assumption, h⟩
  · cases h

theorem Expr.instAll_isEmpty (I : Insts) (val : Values) (es : List Expr) : (Expr.instAll I val es).isEmpty = es.isEmpty := by
  cases es <;> rfl

mutual
/-- The tokens of an instance are the instance of the tokens. -/
theorem Expr.inst_toks (I : Insts) (val : Values) : ∀ (e : Expr) (xs : List Item), e.toks = some xs →
    (e.inst I val).toks = some (instItems I val xs)
  | .id n, xs, h => by cases h; rfl
  | .str n, xs, h => by cases h; rfl
  | .chr n, xs, h => by cases h; rfl
  | .cat es, xs, h => by
    unfold Expr.inst Expr.toks
    exact Expr.inst_toksCat I val es xs (by unfold Expr.toks at h; exact h)
  | .call f args, xs, h => by
    unfold Expr.toks at h
    obtain ⟨a, h1, rfl⟩ := map_some_eq h
    unfold Expr.inst Expr.toks
    rw [Expr.inst_toksArgs I val args a h1]
    simp only [Option.map_some, List.cons_append, instItems_tok, instItems_punct, instItems_append, instItems_nil]
    rfl
  | .global f args, xs, h => by
    unfold Expr.toks at h
    obtain ⟨a, h1, rfl⟩ := map_some_eq h
    unfold Expr.inst Expr.toks
    rw [Expr.inst_toksArgs I val args a h1]
    simp only [Option.map_some, List.cons_append, instItems_word, instItems_punct, instItems_append, instItems_nil]
  | .rcast ty e, xs, h => by
    unfold Expr.toks at h
    obtain ⟨a, h1, rfl⟩ := map_some_eq h
    unfold Expr.inst Expr.toks
    rw [Expr.inst_toks I val e a h1]
    simp only [Option.map_some, List.cons_append, List.append_assoc, instItems_append, instItems_word, instItems_punct, instItems_toks, instItems_nil]
  | .field e f, xs, h => by
    unfold Expr.toks at h
    obtain ⟨hl, h⟩ := if_some_eq h
    obtain ⟨a, h1, rfl⟩ := map_some_eq h
    unfold Expr.inst Expr.toks
    rw [if_pos (Nat.le_trans hl (Expr.inst_level I val e a h1)), Expr.inst_toks I val e a h1]
    simp only [Option.map_some, instItems_append, instItems_word, instItems_punct, instItems_nil]
  | .member e n, xs, h => by
    unfold Expr.toks at h
    obtain ⟨hl, h⟩ := if_some_eq h
    obtain ⟨a, h1, rfl⟩ := map_some_eq h
    unfold Expr.inst Expr.toks
    rw [if_pos (Nat.le_trans hl (Expr.inst_level I val e a h1)), Expr.inst_toks I val e a h1]
    simp only [Option.map_some, instItems_append, instItems_tok, instItems_punct, instItems_nil]
    rfl
  | .arrow e f, xs, h => by
    unfold Expr.toks at h
    obtain ⟨hl, h⟩ := if_some_eq h
    obtain ⟨a, h1, rfl⟩ := map_some_eq h
    unfold Expr.inst Expr.toks
    rw [if_pos (Nat.le_trans hl (Expr.inst_level I val e a h1)), Expr.inst_toks I val e a h1]
    simp only [Option.map_some, instItems_append, instItems_word, instItems_punct, instItems_nil]
  | .index e i, xs, h => by
    unfold Expr.toks at h
    obtain ⟨hl, h⟩ := if_some_eq h
    obtain ⟨a, h1, h⟩ := bind_some_eq h
    obtain ⟨b, h2, rfl⟩ := map_some_eq h
    unfold Expr.inst Expr.toks
    rw [if_pos (Nat.le_trans hl (Expr.inst_level I val e a h1)), Expr.inst_toks I val e a h1, Expr.inst_toks I val i b h2]
    simp only [Option.bind_some, Option.map_some, List.cons_append, List.append_assoc, instItems_append, instItems_word, instItems_punct, instItems_nil]
  | .inc e, xs, h => by
    unfold Expr.toks at h
    obtain ⟨hl, h⟩ := if_some_eq h
    obtain ⟨a, h1, rfl⟩ := map_some_eq h
    unfold Expr.inst Expr.toks
    rw [if_pos (Nat.le_trans hl (Expr.inst_level I val e a h1)), Expr.inst_toks I val e a h1]
    simp only [Option.map_some, instItems_append, instItems_word, instItems_punct, instItems_nil]
  | .un op e, xs, h => by
    unfold Expr.toks at h
    obtain ⟨hl, h⟩ := if_some_eq h
    obtain ⟨a, h1, rfl⟩ := map_some_eq h
    unfold Expr.inst Expr.toks
    rw [if_pos ⟨Nat.le_trans hl.1 (Expr.inst_level I val e a h1), hl.2⟩, Expr.inst_toks I val e a h1]
    rfl
  | .cast ty e, xs, h => by
    unfold Expr.toks at h
    obtain ⟨hl, h⟩ := if_some_eq h
    obtain ⟨a, h1, rfl⟩ := map_some_eq h
    unfold Expr.inst Expr.toks
    rw [if_pos (Nat.le_trans hl (Expr.inst_level I val e a h1)), Expr.inst_toks I val e a h1]
    simp only [Option.map_some, List.cons_append, instItems_append, instItems_punct, instItems_toks]
  | .sizeof e, xs, h => by
    unfold Expr.toks at h
    obtain ⟨a, h1, rfl⟩ := map_some_eq h
    unfold Expr.inst Expr.toks
    rw [Expr.inst_toks I val e a h1]
    simp only [Option.map_some, List.cons_append, instItems_append, instItems_word, instItems_punct, instItems_nil]
  | .sizeofType ty, xs, h => by
    unfold Expr.toks at h
    cases h
    unfold Expr.inst Expr.toks
    simp only [List.cons_append, instItems_append, instItems_word, instItems_punct, instItems_nil, instItems_toks]
  | .bin op a b, xs, h => by
    unfold Expr.toks at h
    unfold Expr.inst Expr.toks
    cases ho : opLevel op with
    | none => rw [ho] at h; cases h
    | some l =>
      rw [ho] at h
      dsimp only at h ⊢
      obtain ⟨hl, h⟩ := if_some_eq h
      obtain ⟨x, h1, h⟩ := bind_some_eq h
      obtain ⟨y, h2, rfl⟩ := map_some_eq h
      rw [if_pos ⟨Nat.le_trans hl.1 (Expr.inst_level I val a x h1), Nat.le_trans hl.2 (Expr.inst_level I val b y h2)⟩,
        Expr.inst_toks I val a x h1, Expr.inst_toks I val b y h2]
      simp only [Option.bind_some, Option.map_some, instItems_append, instItems_punct]
  | .cond c a b, xs, h => by
    unfold Expr.toks at h
    obtain ⟨hl, h⟩ := if_some_eq h
    obtain ⟨x, h1, h⟩ := bind_some_eq h
    obtain ⟨y, h2, h⟩ := bind_some_eq h
    obtain ⟨z, h3, rfl⟩ := map_some_eq h
    unfold Expr.inst Expr.toks
    rw [if_pos ⟨Nat.le_trans hl.1 (Expr.inst_level I val c x h1), Nat.le_trans hl.2 (Expr.inst_level I val b z h3)⟩,
      Expr.inst_toks I val c x h1, Expr.inst_toks I val a y h2, Expr.inst_toks I val b z h3]
    simp only [Option.bind_some, Option.map_some, List.cons_append, List.append_assoc, instItems_append, instItems_punct]
  | .assign a b, xs, h => by
    unfold Expr.toks at h
    obtain ⟨hl, h⟩ := if_some_eq h
    obtain ⟨x, h1, h⟩ := bind_some_eq h
    obtain ⟨y, h2, rfl⟩ := map_some_eq h
    unfold Expr.inst Expr.toks
    rw [if_pos ⟨Nat.le_trans hl.1 (Expr.inst_level I val a x h1), Nat.le_trans hl.2 (Expr.inst_level I val b y h2)⟩,
      Expr.inst_toks I val a x h1, Expr.inst_toks I val b y h2]
    simp only [Option.bind_some, Option.map_some, instItems_append, instItems_punct]
  | .paren e, xs, h => by
    unfold Expr.toks at h
    obtain ⟨a, h1, rfl⟩ := map_some_eq h
    unfold Expr.inst Expr.toks
    rw [Expr.inst_toks I val e a h1]
    simp only [Option.map_some, List.cons_append, instItems_append, instItems_punct, instItems_nil]
  | .rep k op a e, xs, h => by
    unfold Expr.toks at h
    unfold Expr.inst
    cases ho : opLevel op with
    | none => rw [ho] at h; cases h
    | some l =>
      rw [ho] at h
      dsimp only at h
      obtain ⟨hl, h⟩ := if_some_eq h
      obtain ⟨x, h1, h⟩ := bind_some_eq h
      obtain ⟨y, h2, rfl⟩ := map_some_eq h
      obtain ⟨z, h3, h4⟩ := bind_some_eq h2
      have hz := plain_eq h4
      subst hz
      rw [foldl_toks ho (fun v => e.inst I v) (fun v => (y.map (STok.inst v)).map .tok) (I k) (fun v => ⟨
        Nat.le_trans hl.2 (Expr.inst_level I v e _ h3), by rw [Expr.inst_toks I v e _ h3, instItems_toks]⟩) _ (instItems I val x)
        (Nat.le_trans hl.1 (Expr.inst_level I val a x h1)) (Expr.inst_toks I val a x h1)]
      rw [instItems_append]
      congr 2
      simp only [instItems, List.flatMap_cons, List.flatMap_nil, List.append_nil, Item.instIn, List.map_flatMap]
      rfl
theorem Expr.inst_toksArgs (I : Insts) (val : Values) : ∀ (es : List Expr) (xs : List Item), Expr.toksArgs es = some xs →
    Expr.toksArgs (Expr.instAll I val es) = some (instItems I val xs)
  | [], xs, h => by unfold Expr.toksArgs at h; cases h; rfl
  | e :: r, xs, h => by
    unfold Expr.toksArgs at h
    obtain ⟨hl, h⟩ := if_some_eq h
    obtain ⟨a, h1, h⟩ := bind_some_eq h
    obtain ⟨b, h2, rfl⟩ := map_some_eq h
    unfold Expr.instAll Expr.toksArgs
    rw [if_pos (Nat.le_trans hl (Expr.inst_level I val e a h1)), Expr.inst_toks I val e a h1, Expr.inst_toksArgs I val r b h2,
      Expr.instAll_isEmpty]
    simp only [Option.bind_some, Option.map_some]
    split
    · rfl
    · rw [instItems_append, instItems_punct]
theorem Expr.inst_toksCat (I : Insts) (val : Values) : ∀ (es : List Expr) (xs : List Item), Expr.toksCat es = some xs →
    Expr.toksCat (Expr.instAll I val es) = some (instItems I val xs)
  | [], xs, h => by unfold Expr.toksCat at h; cases h; rfl
  | e :: r, xs, h => by
    unfold Expr.toksCat at h
    obtain ⟨hl, h⟩ := if_some_eq h
    obtain ⟨a, h1, h⟩ := bind_some_eq h
    obtain ⟨b, h2, rfl⟩ := map_some_eq h
    unfold Expr.instAll Expr.toksCat
    rw [if_pos (Nat.le_trans hl (Expr.inst_level I val e a h1)), Expr.inst_toks I val e a h1, Expr.inst_toksCat I val r b h2]
    simp only [Option.bind_some, Option.map_some, instItems_append]
end

theorem Stmt.toksAll_append (a b : List Stmt) : Stmt.toksAll (a ++ b) = (Stmt.toksAll a).bind fun x => (Stmt.toksAll b).map (x ++ ·) := by
  induction a with
  | nil =>
    cases h : Stmt.toksAll b <;> simp [Stmt.toksAll, h]
  | cons s a ih =>
    rw [List.cons_append, Stmt.toksAll, Stmt.toksAll, ih]
    cases s.toks with
    | none => rfl
    | some x =>
      cases Stmt.toksAll a with
      | none => rfl
      | some y =>
        cases Stmt.toksAll b with
        | none => rfl
        | some z => simp

theorem Stmt.toksAll_one {s : Stmt} {x : List Item} (h : s.toks = some x) : Stmt.toksAll [s] = some x := by
  rw [Stmt.toksAll, h]
  simp [Stmt.toksAll]

theorem Stmt.toksAll_flatMap {α : Type} (vs : List α) (f : α → List Stmt) (g : α → List Item) (h : ∀ v, Stmt.toksAll (f v) = some (g v)) :
    Stmt.toksAll (vs.flatMap f) = some (vs.flatMap g) := by
  induction vs with
  | nil => rfl
  | cons v vs ih =>
    rw [List.flatMap_cons, Stmt.toksAll_append, h, ih]
    simp

theorem Stmt.inst_oneIf (I : Insts) (val : Values) {b : List Stmt} (h : Stmt.oneIf b = true) : Stmt.oneIf (Stmt.instAll I val b) = true := by
  unfold Stmt.oneIf at h
  split at h
  · simp [Stmt.instAll, Stmt.inst, Stmt.oneIf]
  · simp [Stmt.instAll, Stmt.inst, Stmt.oneIf]
  · simp [Stmt.instAll, Stmt.inst, Stmt.oneIf]
  · cases h

mutual
theorem Stmt.inst_toks (I : Insts) (val : Values) : ∀ (s : Stmt) (xs : List Item), s.toks = some xs →
    Stmt.toksAll (s.inst I val) = some (instItems I val xs)
  | .expr e, xs, h => by
    unfold Stmt.toks at h
    obtain ⟨a, h1, rfl⟩ := map_some_eq h
    unfold Stmt.inst
    apply Stmt.toksAll_one
    unfold Stmt.toks
    rw [Expr.inst_toks I val e a h1, instItems_append]
    rfl
  | .ret none, xs, h => by
    unfold Stmt.toks at h
    cases h
    unfold Stmt.inst
    apply Stmt.toksAll_one
    unfold Stmt.toks
    rfl
  | .ret (some e), xs, h => by
    unfold Stmt.toks at h
    obtain ⟨a, h1, rfl⟩ := map_some_eq h
    unfold Stmt.inst
    apply Stmt.toksAll_one
    unfold Stmt.toks
    rw [Expr.inst_toks I val e a h1]
    simp only [Option.map_some, List.cons_append, instItems_append, instItems_word, instItems_punct, instItems_nil]
  | .if1 c a, xs, h => by
    unfold Stmt.toks at h
    obtain ⟨x, h1, h⟩ := bind_some_eq h
    obtain ⟨y, h2, rfl⟩ := map_some_eq h
    unfold Stmt.inst
    apply Stmt.toksAll_one
    unfold Stmt.toks
    rw [Expr.inst_toks I val c x h1, Stmt.inst_toksAll I val a y h2]
    simp only [Option.bind_some, Option.map_some, List.cons_append, List.append_assoc, instItems_append, instItems_word, instItems_punct, instItems_nil]
  | .if2 c a b, xs, h => by
    unfold Stmt.toks at h
    obtain ⟨x, h1, h⟩ := bind_some_eq h
    obtain ⟨y, h2, h⟩ := bind_some_eq h
    obtain ⟨z, h3, rfl⟩ := map_some_eq h
    unfold Stmt.inst
    apply Stmt.toksAll_one
    unfold Stmt.toks
    rw [Expr.inst_toks I val c x h1, Stmt.inst_toksAll I val a y h2, Stmt.inst_toksAll I val b z h3]
    simp only [Option.bind_some, Option.map_some, List.cons_append, List.append_assoc, instItems_append, instItems_word, instItems_punct, instItems_nil]
  | .elif c a b, xs, h => by
    unfold Stmt.toks at h
    obtain ⟨hl, h⟩ := if_some_eq h
    obtain ⟨x, h1, h⟩ := bind_some_eq h
    obtain ⟨y, h2, h⟩ := bind_some_eq h
    obtain ⟨z, h3, rfl⟩ := map_some_eq h
    unfold Stmt.inst
    apply Stmt.toksAll_one
    unfold Stmt.toks
    rw [if_pos (Stmt.inst_oneIf I val hl), Expr.inst_toks I val c x h1, Stmt.inst_toksAll I val a y h2, Stmt.inst_toksAll I val b z h3]
    simp only [Option.bind_some, Option.map_some, List.cons_append, List.append_assoc, instItems_append, instItems_word, instItems_punct, instItems_nil]
  | .for ty x e c d a, xs, h => by
    unfold Stmt.toks at h
    obtain ⟨hl, h⟩ := if_some_eq h
    obtain ⟨v, h1, h⟩ := bind_some_eq h
    obtain ⟨w, h2, h⟩ := bind_some_eq h
    obtain ⟨y, h3, h⟩ := bind_some_eq h
    obtain ⟨z, h4, rfl⟩ := map_some_eq h
    unfold Stmt.inst
    apply Stmt.toksAll_one
    unfold Stmt.toks
    rw [if_pos (Nat.le_trans hl (Expr.inst_level I val e v h1)), Expr.inst_toks I val e v h1, Expr.inst_toks I val c w h2,
      Expr.inst_toks I val d y h3, Stmt.inst_toksAll I val a z h4]
    simp only [Option.bind_some, Option.map_some, List.cons_append, List.append_assoc, instItems_append, instItems_toks, instItems_word,
      instItems_punct, instItems_nil]
  | .while c a, xs, h => by
    unfold Stmt.toks at h
    obtain ⟨x, h1, h⟩ := bind_some_eq h
    obtain ⟨y, h2, rfl⟩ := map_some_eq h
    unfold Stmt.inst
    apply Stmt.toksAll_one
    unfold Stmt.toks
    rw [Expr.inst_toks I val c x h1, Stmt.inst_toksAll I val a y h2]
    simp only [Option.bind_some, Option.map_some, List.cons_append, List.append_assoc, instItems_append, instItems_word, instItems_punct, instItems_nil]
  | .decl ty x arr none more, xs, h => by
    unfold Stmt.toks at h
    cases h
    unfold Stmt.inst
    apply Stmt.toksAll_one
    unfold Stmt.toks
    simp only [List.cons_append, List.append_assoc, instItems_append, instItems_toks, instItems_word, instItems_punct, instItems_nil]
  | .decl ty x arr (some e) more, xs, h => by
    unfold Stmt.toks at h
    obtain ⟨hl, h⟩ := if_some_eq h
    obtain ⟨a, h1, rfl⟩ := map_some_eq h
    unfold Stmt.inst
    apply Stmt.toksAll_one
    unfold Stmt.toks
    rw [if_pos (Nat.le_trans hl (Expr.inst_level I val e a h1)), Expr.inst_toks I val e a h1]
    simp only [Option.map_some, List.cons_append, List.append_assoc, instItems_append, instItems_toks, instItems_word, instItems_punct, instItems_nil]
  | .switch e body, xs, h => by
    unfold Stmt.toks at h
    obtain ⟨x, h1, h⟩ := bind_some_eq h
    obtain ⟨y, h2, rfl⟩ := map_some_eq h
    unfold Stmt.inst
    apply Stmt.toksAll_one
    unfold Stmt.toks
    rw [Expr.inst_toks I val e x h1, Stmt.inst_toksAll I val body y h2]
    simp only [Option.bind_some, Option.map_some, List.cons_append, List.append_assoc, instItems_append, instItems_word, instItems_punct, instItems_nil]
  | .case e, xs, h => by
    unfold Stmt.toks at h
    obtain ⟨a, h1, rfl⟩ := map_some_eq h
    unfold Stmt.inst
    apply Stmt.toksAll_one
    unfold Stmt.toks
    rw [Expr.inst_toks I val e a h1]
    simp only [Option.map_some, List.cons_append, instItems_append, instItems_word, instItems_punct, instItems_nil]
  | .default, xs, h => by
    unfold Stmt.toks at h
    cases h
    unfold Stmt.inst
    apply Stmt.toksAll_one
    unfold Stmt.toks
    rfl
  | .brk, xs, h => by
    unfold Stmt.toks at h
    cases h
    unfold Stmt.inst
    apply Stmt.toksAll_one
    unfold Stmt.toks
    rfl
  | .cont, xs, h => by
    unfold Stmt.toks at h
    cases h
    unfold Stmt.inst
    apply Stmt.toksAll_one
    unfold Stmt.toks
    rfl
  | .throw x e, xs, h => by
    unfold Stmt.toks at h
    obtain ⟨a, h1, rfl⟩ := map_some_eq h
    unfold Stmt.inst
    apply Stmt.toksAll_one
    unfold Stmt.toks
    rw [Expr.inst_toks I val e a h1]
    simp only [Option.map_some, List.cons_append, instItems_append, instItems_word, instItems_punct, instItems_nil]
  | .lambda x pty p ty body, xs, h => by
    unfold Stmt.toks at h
    obtain ⟨a, h1, rfl⟩ := map_some_eq h
    unfold Stmt.inst
    apply Stmt.toksAll_one
    unfold Stmt.toks
    rw [Stmt.inst_toksAll I val body a h1]
    simp only [Option.map_some, List.cons_append, List.append_assoc, instItems_append, instItems_toks, instItems_word, instItems_punct, instItems_nil]
  | .rep k body, xs, h => by
    unfold Stmt.toks at h
    obtain ⟨y, h2, rfl⟩ := map_some_eq h
    obtain ⟨z, h3, h4⟩ := bind_some_eq h2
    have hz := plain_eq h4
    subst hz
    unfold Stmt.inst
    rw [Stmt.toksAll_flatMap (I k) (fun v => Stmt.instAll I v body) (fun v => (y.map (STok.inst v)).map .tok)
      (fun v => by rw [Stmt.inst_toksAll I v body _ h3, instItems_toks])]
    simp only [instItems, List.flatMap_cons, List.flatMap_nil, List.append_nil, Item.instIn, List.map_flatMap]
theorem Stmt.inst_toksAll (I : Insts) (val : Values) : ∀ (ss : List Stmt) (xs : List Item), Stmt.toksAll ss = some xs →
    Stmt.toksAll (Stmt.instAll I val ss) = some (instItems I val xs)
  | [], xs, h => by unfold Stmt.toksAll at h; cases h; rfl
  | s :: r, xs, h => by
    unfold Stmt.toksAll at h
    obtain ⟨a, h1, h⟩ := bind_some_eq h
    obtain ⟨b, h2, rfl⟩ := map_some_eq h
    unfold Stmt.instAll
    rw [Stmt.toksAll_append, Stmt.inst_toks I val s a h1, Stmt.inst_toksAll I val r b h2, instItems_append]
    rfl
end

/-! ### Programs -/

theorem Name.inst_noValues (n : Name) : n.inst noValues = n := by cases n <;> rfl

theorem STok.inst_noValues (t : STok) : t.inst noValues = t := by
  cases t <;> simp [STok.inst, Name.inst_noValues]

theorem instItems_noValues (I : Insts) (xs : List Item) : instItems I noValues xs = (xs.flatMap (Item.inst I)).map .tok := by
  unfold instItems
  congr 2
  funext x
  cases x with
  | tok t => simp [Item.instIn, Item.inst, STok.inst_noValues]
  | rep k ts => rfl

theorem map_tok_noValues (I : Insts) (ts : List STok) : instItems I noValues (ts.map .tok) = ts.map .tok := by
  rw [instItems_toks]
  congr 1
  induction ts with
  | nil => rfl
  | cons t ts ih => rw [List.map_cons, ih, STok.inst_noValues]

theorem paramToks_inst (I : Insts) (ps : List (List STok × Str)) : instItems I noValues (paramToks ps) = paramToks ps := by
  induction ps with
  | nil => rfl
  | cons p ps ih =>
    cases ps with
    | nil =>
      show instItems I noValues (p.1.map .tok ++ [word p.2]) = _
      rw [instItems_append, map_tok_noValues, instItems_word, instItems_nil]
      rfl
    | cons q ps =>
      show instItems I noValues (p.1.map .tok ++ word p.2 :: punct (str% ",") :: paramToks (q :: ps)) = _
      rw [instItems_append, map_tok_noValues, instItems_word, instItems_punct, ih]
      rfl

theorem Fn.inst_toks (I : Insts) {f : Fn} {xs : List Item} (h : f.toks = some xs) : (f.inst I).toks = some (instItems I noValues xs) := by
  unfold Fn.toks at h
  obtain ⟨b, h1, rfl⟩ := map_some_eq h
  unfold Fn.toks Fn.inst
  dsimp only
  rw [Stmt.inst_toksAll I noValues f.body b h1]
  have hp : instItems I noValues (if f.params.isEmpty then [word (str% "void")] else paramToks f.params) =
      (if f.params.isEmpty then [word (str% "void")] else paramToks f.params) := by
    split
    · rfl
    · exact paramToks_inst I _
  simp only [Option.map_some, List.cons_append, List.append_assoc, instItems_append, instItems_word, instItems_punct, instItems_nil, hp,
    map_tok_noValues]

theorem Fn.inst_throwing (I : Insts) {f : Fn} {xs : List Item} (h : f.throwing = some xs) : (f.inst I).throwing = some (instItems I noValues xs) := by
  unfold Fn.throwing at h
  obtain ⟨b, h1, rfl⟩ := map_some_eq h
  unfold Fn.throwing Fn.inst
  dsimp only
  rw [Stmt.inst_toksAll I noValues f.body b h1]
  simp only [Option.map_some, List.cons_append, List.append_assoc, instItems_append, instItems_word, instItems_punct, instItems_nil, paramToks_inst,
    map_tok_noValues]

theorem inst_noBrace (I : Insts) {b : List Item} (hf : b.all Item.noBrace = true) : ((b.flatMap (Item.inst I)).map Item.tok).all Item.noBrace = true := by
  rw [List.all_eq_true]
  intro x hx
  obtain ⟨t, ht, rfl⟩ := List.mem_map.mp hx
  obtain ⟨y, hy, ht⟩ := List.mem_flatMap.mp ht
  have h2 := List.all_eq_true.mp hf y hy
  cases y with
  | tok t' =>
    obtain rfl : t = t' := by simpa [Item.inst] using ht
    exact h2
  | rep k ts =>
    obtain ⟨v, _, ht⟩ := List.mem_flatMap.mp ht
    obtain ⟨t', ht', rfl⟩ := List.mem_map.mp ht
    have := List.all_eq_true.mp h2 t' ht'
    cases t' with
    | punct p => exact this
    | _ => rfl

theorem Top.inst_toks (I : Insts) {t : Top} {xs : List Item} (h : t.toks = some xs) : (t.inst I).toks = some (instItems I noValues xs) := by
  cases t with
  | fn f => exact Fn.inst_toks I h
  | decl ts =>
    unfold Top.inst
    rw [h]
    change (if STok.punct (str% ";") ∈ ts.dropLast then none else if ts.getLast? = some (.punct (str% ";")) then some (ts.map Item.tok) else none) = some xs at h
    by_cases h1 : STok.punct (str% ";") ∈ ts.dropLast
    · rw [if_pos h1] at h; cases h
    · rw [if_neg h1] at h
      obtain ⟨_, h⟩ := if_some_eq h
      cases h
      rw [map_tok_noValues]
  | struct a b d =>
    change (if flat a && flat d && b.all Item.noBrace then some (a.map Item.tok ++ punct (str% "{") :: b ++ punct (str% "}") :: d.map .tok ++ [punct (str% ";")])
      else none) = some xs at h
    obtain ⟨hf, h⟩ := if_some_eq h
    cases h
    simp only [Bool.and_eq_true] at hf
    have hb := inst_noBrace I hf.2
    show (if flat a && flat d && ((b.flatMap (Item.inst I)).map Item.tok).all Item.noBrace then some (a.map Item.tok ++ punct (str% "{") ::
      (b.flatMap (Item.inst I)).map Item.tok ++ punct (str% "}") :: d.map .tok ++ [punct (str% ";")]) else none) = _
    rw [if_pos (by simp only [Bool.and_eq_true]; exact ⟨hf.1, hb⟩)]
    simp only [List.cons_append, List.append_assoc, instItems_append, instItems_punct, instItems_nil, map_tok_noValues, instItems_noValues I b]
  | decls b =>
    change (if b.all Item.noBrace then some b else none) = some xs at h
    obtain ⟨hf, h⟩ := if_some_eq h
    obtain rfl : b = xs := Option.some.inj h
    show (if ((b.flatMap (Item.inst I)).map Item.tok).all Item.noBrace then some ((b.flatMap (Item.inst I)).map Item.tok) else none) = _
    rw [if_pos (inst_noBrace I hf), instItems_noValues]
  | throwing f => exact Fn.inst_throwing I h
  | space x => cases h; rfl
  | spaceEnd => cases h; rfl
  | exception x => cases h; rfl

theorem progToks_append (a b : List Top) : progToks (a ++ b) = (progToks a).bind fun x => (progToks b).map (x ++ ·) := by
  induction a with
  | nil => cases h : progToks b <;> simp [progToks, h]
  | cons s a ih =>
    rw [List.cons_append, progToks, progToks, ih]
    cases s.toks with
    | none => rfl
    | some x =>
      cases progToks a with
      | none => rfl
      | some y =>
        cases progToks b with
        | none => rfl
        | some z => simp

/-- The tokens of an instance of a program. -/
theorem progToks_inst (I : Insts) {ts : List Top} {xs : List Item} (h : progToks ts = some xs) :
    progToks (ts.map (Top.inst I)) = some ((xs.flatMap (Item.inst I)).map .tok) := by
  rw [← instItems_noValues]
  induction ts generalizing xs with
  | nil => cases h; rfl
  | cons t ts ih =>
    unfold progToks at h
    obtain ⟨a, h1, h⟩ := bind_some_eq h
    obtain ⟨b, h2, rfl⟩ := map_some_eq h
    rw [List.map_cons, progToks, Top.inst_toks I h1, ih h2, instItems_append]
    rfl

end Gdo.Cc
