import Verif.Lemmas.BuiltinCheck

/-!
Lemmas about what is written for the built-in templates: without `-line` it is lines of
text only, and its characters are those of the template, the prefix and the symbols.
-/

namespace Gdo.Builtin
open Gdo Tpl Gen Tmpl Sub Rename

/-! ### Without `-line` -/

/-- Texts, each with a line end. -/
def unlines (ls : List Str) : Str := ls.flatMap fun l => l ++ str% "\n"

def AllText (cs : List Chunk) : Prop := ∀ c ∈ cs, ∃ s, c = .text s

theorem bytes_allText {cs : List Chunk} (h : AllText cs) : bytes cs = unlines (Tmpl.texts cs) := by
  induction cs with
  | nil => rfl
  | cons c cs ih =>
    obtain ⟨s, rfl⟩ := h c (by simp)
    have ih := ih fun x hx => h x (by simp [hx])
    show (Chunk.text s).bytes ++ bytes cs = _
    rw [ih]
    rfl

theorem replaceLoop_allText {n : Nat} {cfg : Config} (hl : cfg.lineDirective = false) {lineno : Nat} {entry : Str}
    {ps : List (List (Str × Str))} {cs : List Chunk} {k : Nat} (h : replaceLoop n cfg lineno entry ps = .ok (cs, k)) : AllText cs := by
  induction ps generalizing cs k with
  | nil => cases h; intro c hc; cases hc
  | cons p ps ih =>
    rw [replaceLoop] at h
    cases h1 : replaceSeq n p entry with
    | error e => rw [h1] at h; cases h
    | ok copy =>
      rw [h1] at h
      cases h2 : replaceLoop n cfg lineno entry ps with
      | error e => rw [h2] at h; cases h
      | ok r =>
        rw [h2, hl] at h
        obtain ⟨r1, r2⟩ := r
        cases h
        intro c hc
        rcases List.mem_cons.mp hc with rfl | hc
        · exact ⟨_, rfl⟩
        · exact ih h2 c hc

theorem substituteLine_allText {n : Nat} {cfg : Config} (hl : cfg.lineDirective = false) {lineno : Nat} {skip skip' : Bool} {e : Entry}
    {cs : List Chunk} {k : Nat} (h : substituteLine n cfg lineno skip e = .ok (cs, k, skip')) : AllText cs := by
  have hnil : AllText [] := by intro c hc; cases hc
  have hone : ∀ s, AllText [.text s] := by intro s c hc; exact ⟨s, by simpa using hc⟩
  have hpl : ∀ buf, (printLineno cfg lineno buf).1 = [] := by intro buf; simp [printLineno, hl]
  unfold substituteLine at h
  split at h
  · split at h
    · cases h; exact hnil
    · cases h; exact hone _
  · split at h
    · rw [hl, Bool.and_false] at h
      cases h; exact hnil
    · split at h
      · cases h; exact hnil
      · dsimp only at h
        split at h
        · split at h
          · cases h
          · cases h; exact hone _
          · rename_i r hr
            cases h
            split at hr
            · cases hr
            · split at hr
              · cases hr; rw [hpl]; exact hnil
              · unfold replaceFunctions at hr
                dsimp only at hr
                split at hr <;>
                · rename_i x
                  cases hx : replaceLoop n cfg lineno (Pfx.applyPrefix cfg.pfx e.data) _ with
                  | error _ => rw [hx] at hr; cases hr
                  | ok y => rw [hx] at hr; cases hr; exact replaceLoop_allText hl hx
            · split at hr
              · cases hr; rw [hpl]; exact hnil
              · unfold replaceObjects at hr
                dsimp only at hr
                split at hr <;>
                · rename_i x
                  cases hx : replaceLoop n cfg lineno (Pfx.applyPrefix cfg.pfx e.data) _ with
                  | error _ => rw [hx] at hr; cases hr
                  | ok y => rw [hx] at hr; cases hr; exact replaceLoop_allText hl hx
            · unfold replaceSymbols at hr
              cases hx : replaceLoop n cfg lineno (Pfx.applyPrefix cfg.pfx e.data)
                ((cfg.prototypes.map fun p => symbolPasses (functionSymType p) p.symbol) ++
                  (cfg.objects.map fun p => symbolPasses (objectSymType p) p.symbol)) with
              | error _ => rw [hx] at hr; cases hr
              | ok y => rw [hx] at hr; cases hr; exact replaceLoop_allText hl hx
            · cases hr
        · cases h; exact hone _

theorem substEntries_allText {n : Nat} {cfg : Config} (hl : cfg.lineDirective = false) {es : List Entry} {lineno : Nat} {skip skip' : Bool}
    {css : List (List Chunk)} {k : Nat} (h : substEntries n cfg lineno skip es = .ok (css, k, skip')) : AllText css.flatten := by
  induction es generalizing lineno skip css k with
  | nil => cases h; intro c hc; cases hc
  | cons e es ih =>
    rw [substEntries] at h
    cases h1 : substituteLine n cfg lineno skip e with
    | error _ => rw [h1] at h; cases h
    | ok x =>
      obtain ⟨cs, k1, s1⟩ := x
      rw [h1] at h
      cases h2 : substEntries n cfg (lineno + e.lineCount) s1 es with
      | error _ => simp only [bind, Except.bind, h2] at h; cases h
      | ok y =>
        obtain ⟨css2, k2, s2⟩ := y
        simp only [bind, Except.bind, h2] at h
        cases h
        intro c hc
        rw [List.flatten_cons, List.mem_append] at hc
        rcases hc with hc | hc
        · exact substituteLine_allText hl h1 c hc
        · exact ih h2 c hc

theorem substLists_allText {n : Nat} {cfg : Config} (hl : cfg.lineDirective = false) {ls : List (List Entry)} {skip : Bool}
    {csss : List (List (List Chunk))} {k : Nat} (h : substLists n cfg skip ls = .ok (csss, k)) : AllText csss.flatten.flatten := by
  induction ls generalizing skip csss k with
  | nil => cases h; intro c hc; cases hc
  | cons l ls ih =>
    rw [substLists] at h
    cases h1 : substEntries n cfg 0 skip (processed cfg l) with
    | error _ => rw [h1] at h; cases h
    | ok x =>
      obtain ⟨css, k1, s1⟩ := x
      rw [h1] at h
      cases h2 : substLists n cfg s1 ls with
      | error _ => simp only [bind, Except.bind, h2] at h; cases h
      | ok y =>
        obtain ⟨csss2, k2⟩ := y
        simp only [bind, Except.bind, h2] at h
        cases h
        intro c hc
        rw [List.flatten_cons, List.flatten_append, List.mem_append] at hc
        rcases hc with hc | hc
        · exact substEntries_allText hl h1 c hc
        · exact ih h2 c hc

/-! ### The characters that are written -/

/-- The characters of a line with all keywords replaced. -/
theorem fillIn_chars {P : Char → Prop} {u l : Str} {val : Values} {qs : List Part} (eat : Bool)
    (hk : ∀ k, .kw k ∈ qs → ∃ v e, val k = some (v, e) ∧ ∀ c ∈ v, P c) (hw : ∀ w, .word w ∈ qs → ∀ c ∈ newName u l w, P c)
    (ho : ∀ c, .other c ∈ qs → P c) : ∀ c ∈ fillIn u l val eat qs, P c := by
  induction qs generalizing eat with
  | nil => intro c hc; cases hc
  | cons q qs ih =>
    have ih := fun eat => ih eat (fun k h => hk k (by simp [h])) (fun w h => hw w (by simp [h])) (fun c h => ho c (by simp [h]))
    intro c hc
    cases q with
    | word w =>
      rw [fillIn] at hc
      rcases List.mem_append.mp hc with hc | hc
      · exact hw w (by simp) c hc
      · exact ih _ c hc
    | other d =>
      rw [fillIn] at hc
      split at hc
      · exact ih _ c hc
      · rcases List.mem_cons.mp hc with rfl | hc
        · exact ho _ (by simp)
        · exact ih _ c hc
    | kw k =>
      obtain ⟨v, e, hv, hp⟩ := hk k (by simp)
      rw [fillIn, hv] at hc
      rcases List.mem_append.mp hc with hc | hc
      · exact hp c hc
      · exact ih _ c hc

theorem keywordsOk_mem {x : Kind} {qs : List Part} (h : keywordsOk x qs = true) :
    (∀ k, .kw k ∈ qs → kindOf k = some x) ∧ ∀ c, .other c ∈ qs → c ≠ '%' := by
  induction qs with
  | nil => exact ⟨by simp, by simp⟩
  | cons q qs ih =>
    cases q with
    | word w => simpa using ih h
    | other d =>
      simp only [keywordsOk, Bool.and_eq_true, bne_iff_ne] at h
      obtain ⟨i1, i2⟩ := ih h.2
      refine ⟨by simpa using i1, ?_⟩
      intro c hc
      rcases List.mem_cons.mp hc with hc | hc
      · cases hc; exact h.1
      · exact i2 c hc
    | kw k =>
      simp only [keywordsOk, Bool.and_eq_true, beq_iff_eq] at h
      obtain ⟨i1, i2⟩ := ih h.2
      refine ⟨?_, by simpa using i2⟩
      intro k' hk
      rcases List.mem_cons.mp hk with hk | hk
      · cases hk; exact h.1.1
      · exact i1 k' hk

/-- The values of the keywords have no other characters than the data, blanks and those
    of a pointer type. -/
theorem function_value {P : Char → Prop} (h0 : ∀ c ∈ str% "return ", P c) {w : Nat} {p : Proto} (h1 : ∀ c ∈ p.type, P c) (h2 : ∀ c ∈ p.symbol, P c)
    (h3 : ∀ c ∈ p.args, P c) (h4 : ∀ c ∈ p.paramNames, P c) {k : Str} (hk : kindOf k = some .function) :
    ∃ v e, functionValues w p k = some (v, e) ∧ ∀ c ∈ v, P c := by
  unfold kindOf at hk
  split at hk
  · rename_i hm
    simp only [List.mem_cons, List.not_mem_nil, or_false] at hm
    rcases hm with rfl | rfl | rfl | rfl | rfl | rfl
    · by_cases hv : isVoid p.type
      · exact ⟨[], true, by rw [functionValues, if_pos rfl, if_pos hv], by intro c hc; cases hc⟩
      · refine ⟨str% "return", false, by rw [functionValues, if_pos rfl, if_neg hv], fun c hc => h0 c ?_⟩
        have : str% "return " = str% "return" ++ str% " " := rfl
        rw [this]
        exact List.mem_append_left _ hc
    · exact ⟨_, _, rfl, h1⟩
    · exact ⟨_, _, rfl, h2⟩
    · refine ⟨_, _, rfl, ?_⟩
      intro c hc
      unfold fill at hc
      rcases List.mem_append.mp hc with hc | hc
      · exact h2 c hc
      · rw [List.eq_of_mem_replicate hc]; exact h0 ' ' (by decide)
    · exact ⟨_, _, rfl, h3⟩
    · exact ⟨_, _, rfl, h4⟩
  · split at hk
    · cases hk
    · split at hk <;> cases hk

theorem object_value {P : Char → Prop} (h0 : P ' ') {w : Nat} {p : Proto} (h1 : ∀ c ∈ p.type, P c) (h2 : ∀ c ∈ p.symbol, P c)
    {k : Str} (hk : kindOf k = some .object) : ∃ v e, objectValues w p k = some (v, e) ∧ ∀ c ∈ v, P c := by
  unfold kindOf at hk
  split at hk
  · cases hk
  · split at hk
    · rename_i hm
      simp only [List.mem_cons, List.not_mem_nil, or_false] at hm
      rcases hm with rfl | rfl | rfl
      · exact ⟨_, _, rfl, h1⟩
      · exact ⟨_, _, rfl, h2⟩
      · refine ⟨_, _, rfl, ?_⟩
        intro c hc
        unfold fill at hc
        rcases List.mem_append.mp hc with hc | hc
        · exact h2 c hc
        · rw [List.eq_of_mem_replicate hc]; exact h0
    · split at hk <;> cases hk

theorem symbol_value {P : Char → Prop} {type symbol : Str} (h1 : ∀ c ∈ type, P c) (h2 : ∀ c ∈ symbol, P c)
    {k : Str} (hk : kindOf k = some .symbol) : ∃ v e, symbolValues type symbol k = some (v, e) ∧ ∀ c ∈ v, P c := by
  unfold kindOf at hk
  split at hk
  · cases hk
  · split at hk
    · cases hk
    · split at hk
      · rename_i hm
        simp only [List.mem_cons, List.not_mem_nil, or_false] at hm
        rcases hm with rfl | rfl
        · exact ⟨_, _, rfl, h1⟩
        · exact ⟨_, _, rfl, h2⟩
      · cases hk

theorem functionPointer_chars {P : Char → Prop} (h0 : ∀ c ∈ str% " (*)", P c) {p : Proto} (h1 : ∀ c ∈ p.type, P c) (h3 : ∀ c ∈ p.args, P c) :
    ∀ c ∈ functionPointer p, P c := by
  intro c hc
  unfold functionPointer at hc
  simp only [List.mem_append] at hc
  rcases hc with (((hc | hc) | hc) | hc) | hc
  · exact h1 c hc
  · split at hc
    · cases hc
    · exact h0 c (by simp at hc; simp [hc])
  · refine h0 c ?_
    simp only [List.mem_cons, List.not_mem_nil, or_false] at hc ⊢
    rcases hc with h | h | h | h <;> simp [h]
  · exact h3 c hc
  · exact h0 c (by simp at hc; simp [hc])

theorem objectPointer_chars {P : Char → Prop} (h0 : ∀ c ∈ str% " (*)", P c) {p : Proto} (h1 : ∀ c ∈ p.type, P c) :
    ∀ c ∈ objectPointer p, P c := by
  intro c hc
  unfold objectPointer at hc
  simp only [List.mem_append] at hc
  rcases hc with (hc | hc) | hc
  · exact h1 c hc
  · split at hc
    · cases hc
    · exact h0 c (by simp at hc; simp [hc])
  · exact h0 c (by simp at hc; simp [hc])

/-- What is written for a line with keywords has the characters of the line, the
    prefix and the data. -/
theorem written_chars {P : Char → Prop} (h0 : ∀ c ∈ str% "return (*)", P c) (hx : ∀ c, isWord c = true → P c) {u l : Str}
    (hu : ∀ c ∈ u, isWord c = true) (hl : ∀ c ∈ l, isWord c = true) (hln : l ≠ []) {protos objs : List Proto}
    (hd : ∀ p ∈ protos ++ objs, (∀ c ∈ p.type, P c) ∧ (∀ c ∈ p.symbol, P c) ∧ (∀ c ∈ p.args, P c) ∧ ∀ c ∈ p.paramNames, P c)
    {d : Str} {x : Kind} (hk : firstKind (parts d) = some x) (ho : keywordsOk x (parts d) = true)
    (hp : ∀ c, .other c ∈ parts d → P c) : ∀ y ∈ written u l protos objs d, ∀ c ∈ y, P c := by
  obtain ⟨hks, _⟩ := keywordsOk_mem ho
  have hwords : WordsOk (parts d) := splits_words (splits _) (pieces_valid _)
  have hw : ∀ w, .word w ∈ parts d → ∀ c ∈ newName u l w, P c := by
    intro w hw c hc
    obtain ⟨h1, h2⟩ := hwords w hw
    exact hx c ((newName_word hu hl hln h2 h1).2 c hc)
  have h0r : ∀ c ∈ str% "return ", P c := by
    intro c hc
    exact h0 c (by simp only [List.mem_cons, List.not_mem_nil, or_false] at hc ⊢; rcases hc with h | h | h | h | h | h | h <;> simp [h])
  have h0p : ∀ c ∈ str% " (*)", P c := by
    intro c hc
    exact h0 c (by simp only [List.mem_cons, List.not_mem_nil, or_false] at hc ⊢; rcases hc with h | h | h | h <;> simp [h])
  intro y hy
  unfold written at hy
  dsimp only at hy
  rw [hk] at hy
  cases x with
  | function =>
    simp only [List.mem_map] at hy
    obtain ⟨p, hp', rfl⟩ := hy
    obtain ⟨h1, h2, h3, h4⟩ := hd p (by simp [hp'])
    exact fillIn_chars _ (fun k hk => function_value h0r h1 h2 h3 h4 (hks k hk)) hw hp
  | object =>
    simp only [List.mem_map] at hy
    obtain ⟨p, hp', rfl⟩ := hy
    obtain ⟨h1, h2, h3, h4⟩ := hd p (by simp [hp'])
    exact fillIn_chars _ (fun k hk => object_value (h0 ' ' (by decide)) h1 h2 (hks k hk)) hw hp
  | symbol =>
    simp only [List.mem_append, List.mem_map] at hy
    rcases hy with ⟨p, hp', rfl⟩ | ⟨p, hp', rfl⟩
    · obtain ⟨h1, h2, h3, h4⟩ := hd p (by simp [hp'])
      exact fillIn_chars _ (fun k hk => symbol_value (functionPointer_chars h0p h1 h3) h2 (hks k hk)) hw hp
    · obtain ⟨h1, h2, h3, h4⟩ := hd p (by simp [hp'])
      exact fillIn_chars _ (fun k hk => symbol_value (objectPointer_chars h0p h1) h2 (hks k hk)) hw hp

theorem shown_mem {names : ParamNames} {m : Option Marker} {ds : List Str} : ∀ d ∈ shown names m ds, d ∈ ds ∧ markerLine d = none := by
  induction ds generalizing m with
  | nil => intro d hd; cases hd
  | cons x ds ih =>
    intro d hd
    rw [shown] at hd
    cases hm : markerLine x with
    | some y =>
      rw [hm] at hd
      obtain ⟨h1, h2⟩ := ih d hd
      exact ⟨by simp [h1], h2⟩
    | none =>
      rw [hm] at hd
      dsimp only at hd
      split at hd
      · rcases List.mem_cons.mp hd with rfl | hd
        · exact ⟨by simp, hm⟩
        · obtain ⟨h1, h2⟩ := ih d hd
          exact ⟨by simp [h1], h2⟩
      · obtain ⟨h1, h2⟩ := ih d hd
        exact ⟨by simp [h1], h2⟩

theorem texts_ok (t : TName) : ∀ d ∈ texts t, markerLine d = none → lineOk d = true := by
  have hf := ok_all t
  simp only [fileOk, Bool.and_eq_true] at hf
  obtain ⟨⟨⟨⟨_, _⟩, h4⟩, _⟩, _⟩ := hf
  intro d hd hm
  have := List.all_eq_true.mp h4 d hd
  simpa [hm] using this

theorem valid_mem {w : Str} {ps : List Piece} (hv : Valid ps) (h : .word w ∈ ps) : w ≠ [] ∧ ∀ c ∈ w, isWord c = true := by
  induction ps with
  | nil => cases h
  | cons p ps ih =>
    cases p with
    | other d => exact ih hv.2 (by simpa using h)
    | word v =>
      rcases List.mem_cons.mp h with h | h
      · cases h; exact ⟨hv.1, hv.2.1⟩
      · exact ih hv.2.2.2 h

end Gdo.Builtin
