import Verif.Lemmas.Print

/-!
Property theorems C80 (the listing of the symbols can be read back).
-/

namespace Gdo.Props
open Gdo Spec Lex

/-! ### The parameters with `-param=skip` -/

/-- What `-param=skip` makes of a declaration. -/
def readSkip (p : Proto) : Proto :=
  match getParameterNames p .skip with
  | some (.ok q) => q
  | _ => p

theorem readSkip_eq (p : Proto) : getParameterNames p .skip = some (.ok (readSkip p)) := by
  unfold readSkip
  have : ∃ q, getParameterNames p .skip = some (.ok q) := by
    unfold getParameterNames
    split
    · exact ⟨_, rfl⟩
    · split
      · exact ⟨_, rfl⟩
      · exact ⟨_, rfl⟩
  obtain ⟨q, h⟩ := this
  rw [h]

theorem doParameters_skip (l : List Proto) : doParameters .skip l = some (.ok (l.map readSkip)) := by
  induction l with
  | nil => rfl
  | cons p l ih => simp [doParameters, readSkip_eq, ih]

theorem readSkip_object (p : Proto) (h : p.kind ≠ .function) : readSkip p = p := by
  have := readSkip_eq p
  rw [getParameterNames, if_pos h] at this
  simpa using this.symm

theorem readSkip_kind (p : Proto) : (readSkip p).kind = p.kind ∧ (readSkip p).type = p.type ∧ (readSkip p).symbol = p.symbol := by
  have := readSkip_eq p
  unfold getParameterNames paramVoidOrEmpty at this
  split at this
  · simp at this; rw [← this]; exact ⟨rfl, rfl, rfl⟩
  · split at this
    · rename_i hh
      split at hh
      · simp at hh this; rw [← this, ← hh]; exact ⟨rfl, rfl, rfl⟩
      · split at hh
        · simp at hh this; rw [← this, ← hh]; exact ⟨rfl, rfl, rfl⟩
        · simp at hh
      · simp at hh
    · rename_i hh
      simp [copyArgs] at this
      split at hh
      · simp at hh
      · split at hh
        · simp at hh
        · simp at hh; rw [← this, ← hh]; exact ⟨rfl, rfl, rfl⟩
      · simp at hh; rw [← this, ← hh]; exact ⟨rfl, rfl, rfl⟩

/-! ### The texts -/

theorem intercalate_consHead (t : Str) (v : List Toks) (hv : v ≠ []) :
    List.intercalate [comma] (consHead t v) = t :: List.intercalate [comma] v := by
  cases v with
  | nil => exact absurd rfl hv
  | cons a v => cases v <;> simp [consHead, List.intercalate]

theorem segments_ne (ps : Toks) : ∀ d, segments d ps ≠ [] := by
  induction ps with
  | nil => intro d; simp [segments]
  | cons t ps ih =>
    intro d
    unfold segments
    split
    · simp
    · cases h : segments (d + delta t) ps with
      | nil => exact absurd h (ih _)
      | cons a v => simp [consHead]

/-- The segments with commas between are the tokens. -/
theorem segments_join (ps : Toks) (h : ∀ t ∈ ps, t.head? = some ',' → t = comma) : ∀ d,
    List.intercalate [comma] (segments d ps) = ps := by
  induction ps with
  | nil => intro d; rfl
  | cons t ps ih =>
    intro d
    have ih := ih fun x hx => h x (by simp [hx])
    unfold segments
    split
    · rename_i hc
      rw [h t (by simp) hc.1]
      have := ih 0
      cases hs : segments 0 ps with
      | nil => exact absurd hs (segments_ne ps 0)
      | cons a v => rw [hs] at this; simp [List.intercalate, List.intersperse] at this ⊢; rw [this]
    · rw [intercalate_consHead _ _ (segments_ne ps _), ih]

theorem segments_last (ps : Toks) (h : ps.getLast? ≠ some comma) (hc : ∀ t ∈ ps, t.head? = some ',' → t = comma) (hne : ps ≠ []) :
    ∀ d, (segments d ps).getLast? ≠ some [] := by
  induction ps with
  | nil => exact absurd rfl hne
  | cons t ps ih =>
    intro d
    cases ps with
    | nil =>
      have ht : ¬ (t.head? = some ',' ∧ d = 0) := by
        rintro ⟨h1, -⟩
        exact h (by rw [hc t (by simp) h1]; rfl)
      simp [segments, ht, consHead]
    | cons u ps =>
      have ih := ih (by simpa [List.getLast?_cons_cons] using h) (fun x hx => hc x (by simp [hx])) (by simp)
      unfold segments
      split
      · rw [List.getLast?_cons]
        cases hs : segments 0 (u :: ps) with
        | nil => exact absurd hs (segments_ne _ _)
        | cons a v =>
          have := ih 0
          rw [hs] at this
          simpa [List.getLast?_cons] using this
      · cases hs : segments (d + delta t) (u :: ps) with
        | nil => exact absurd hs (segments_ne _ _)
        | cons a v =>
          have := ih (d + delta t)
          rw [hs] at this
          cases v with
          | nil => simp [consHead]
          | cons b v => simpa [consHead, List.getLast?_cons_cons] using this

/-- A parameter list as one writes it: balanced, without doubled or leading parentheses and
    without a comma at the end. -/
def PlainParams (ps : Toks) : Prop :=
  (∃ f : Forest, f.print = ps ∧ f.Valid ∧ f.Simple ∧ f.NoDouble ∧ ∀ j k, f ≠ .grp j k) ∧ ps.getLast? ≠ some comma

theorem lexeme_comma {t : Str} (h : Lexeme t) (hc : t.head? = some ',') : t = comma := by
  rcases h with ⟨h, -, -⟩ | ⟨c, -, rfl⟩ | rfl
  · cases t with
    | nil => exact absurd rfl h.1
    | cons d t => simp at hc; have := h.2 d (by simp); rw [hc] at this; exact absurd this (by decide)
  · simp at hc; rw [hc]; rfl
  · simp at hc

/-- The parameters are all tokens. -/
theorem paramSegments_join (ps : Toks) (hl : ∀ t ∈ ps, Lexeme t) (h : ps.getLast? ≠ some comma) :
    (ps = [] ∧ paramSegments ps = []) ∨ (paramSegments ps ≠ [] ∧ List.intercalate [comma] (paramSegments ps) = ps) := by
  have hc : ∀ t ∈ ps, t.head? = some ',' → t = comma := fun t ht => lexeme_comma (hl t ht)
  cases hps : ps with
  | nil => exact Or.inl ⟨rfl, rfl⟩
  | cons t r =>
    rw [← hps]
    right
    have hs := segments_last ps h hc (by rw [hps]; simp) 0
    unfold paramSegments
    rw [if_neg hs]
    exact ⟨segments_ne _ _, segments_join ps hc 0⟩

theorem spells_foldl (v : List Toks) (hl : ∀ a ∈ v, ∀ t ∈ a, Lexeme t) : ∀ (b : Str) (bt : List Str), Spells b bt →
    (∀ c, b.getLast? = some c → isWord c = false) → v ≠ [] →
    ∃ x : Str, v.foldl (fun b v => appendStrings b v ++ str% ", ") b = x ++ str% ", " ∧
      Spells x (bt ++ List.intercalate [comma] v) := by
  induction v with
  | nil => intro b bt _ _ h; exact absurd rfl h
  | cons a v ih =>
    intro b bt hb hw _
    have h1 : Spells (appendStrings b a) (bt ++ a) := by
      rw [appendStrings_eq]
      exact hb.append (spells_spaced a (hl a (by simp))) (Or.inl hw)
    cases v with
    | nil => exact ⟨appendStrings b a, rfl, by simpa [List.intercalate] using h1⟩
    | cons a' v =>
      have h2 : Spells (appendStrings b a ++ str% ", ") (bt ++ a ++ [comma]) :=
        h1.append (.punct ',' _ _ (by decide) spells_blank) (Or.inr (by simp; decide))
      obtain ⟨x, e1, e2⟩ := ih (fun y hy => hl y (by simp [hy])) _ _ h2
        (by intro c hc; rw [List.getLast?_append] at hc; simp at hc; rw [← hc]; decide) (by simp)
      exact ⟨x, e1, by simpa [List.intercalate] using e2⟩

/-- The tokens of the parameter list. -/
def Decl.params : Decl → Toks
  | .func _ _ ps | .funcParen _ _ ps | .funcPtr1 _ _ ps | .funcPtr2 _ _ ps => ps
  | _ => []

theorem segments_mem (ps : Toks) : ∀ d, ∀ a ∈ segments d ps, ∀ t ∈ a, t ∈ ps := by
  induction ps with
  | nil => intro d a ha; simp [segments] at ha; simp [ha]
  | cons t ps ih =>
    intro d a ha x hx
    unfold segments at ha
    split at ha
    · rcases List.mem_cons.mp ha with rfl | ha
      · cases hx
      · exact List.mem_cons_of_mem _ (ih 0 a ha x hx)
    · cases hs : segments (d + delta t) ps with
      | nil => exact absurd hs (segments_ne _ _)
      | cons b v =>
        rw [hs] at ha
        have ih := ih (d + delta t)
        rw [hs] at ih
        rcases List.mem_cons.mp ha with rfl | ha
        · rcases List.mem_cons.mp hx with rfl | hx
          · simp
          · exact List.mem_cons_of_mem _ (ih b (by simp) x hx)
        · exact List.mem_cons_of_mem _ (ih a (by simp [ha]) x hx)

theorem paramSegments_mem (ps : Toks) : ∀ a ∈ paramSegments ps, ∀ t ∈ a, t ∈ ps := by
  intro a ha
  unfold paramSegments at ha
  split at ha
  · exact segments_mem ps 0 a (List.dropLast_subset _ ha)
  · exact segments_mem ps 0 a ha

/-- The argument list that is read consists of the tokens of the parameters. -/
theorem spells_args (d : Decl) (hf : d.isFunction = true) (hl : ∀ t ∈ Decl.params d, Lexeme t)
    (hc : (Decl.params d).getLast? ≠ some comma) : Spells (readSkip d.meaning).args (Decl.params d) := by
  have hk : d.meaning.kind = .function := by simpa [Decl.isFunction, Decl.meaning] using hf
  have hp : d.paramList = paramSegments (Decl.params d) := by
    cases d <;> first | rfl | (simp [Decl.isFunction, Decl.kind] at hf)
  have heq := readSkip_eq d.meaning
  cases hn : noParams d.paramList with
  | true =>
    rcases noParams_cases hn with h | ⟨t, h, ht⟩
    · rw [((C12_no_parameters d.meaning .skip hk rfl).1 h).2] at heq
      simp at heq
      rw [← heq]
      rcases paramSegments_join _ hl hc with ⟨h1, -⟩ | ⟨h1, -⟩
      · rw [h1]; exact .nil
      · rw [← hp] at h1; exact absurd h h1
    · rw [((C12_no_parameters d.meaning .skip hk rfl).2 t h ht).2] at heq
      simp at heq
      rw [← heq]
      rcases paramSegments_join _ hl hc with ⟨-, h1⟩ | ⟨-, h1⟩
      · rw [← hp, h] at h1; cases h1
      · rw [← hp, h] at h1
        have h1 : [t] = Decl.params d := by simpa [List.intercalate] using h1
        rw [← h1] at hl ⊢
        exact spells_lexeme (hl t (by simp))
  | false =>
    obtain ⟨h1, h2⟩ := noParams_false hn
    have e : getParameterNames d.meaning .skip = some (.ok (copyArgs d.meaning)) := by
      unfold getParameterNames
      rw [if_neg (by simp [hk]), paramVoidOrEmpty_false (p := d.meaning) h1 h2]
      rfl
    rw [e] at heq
    simp at heq
    rw [← heq]
    rcases paramSegments_join _ hl hc with ⟨-, h3⟩ | ⟨-, h3⟩
    · rw [← hp] at h3; exact absurd h3 h1
    · obtain ⟨x, e1, e2⟩ := spells_foldl d.paramList (by
        rw [hp]; intro a ha t ht; exact hl t (paramSegments_mem _ a ha t ht)) [] [] .nil (by simp) h1
      have e1' : d.meaning.argsVec.foldl (fun b v => appendStrings b v ++ str% ", ") d.meaning.args = x ++ str% ", " := e1
      simp only [copyArgs, e1', deleteSuffix_append]
      rw [← hp] at h3
      rw [h3] at e2
      exact spells_stripSpaces (by simpa using e2)

theorem spells_printType {s : Str} {ts : List Str} (h : Spells s ts) :
    Spells (printType s) ts ∧ ∀ c, (printType s).getLast? = some c → isWord c = false := by
  unfold printType
  split
  · rename_i hs
    refine ⟨h, ?_⟩
    rw [List.isSuffixOf_iff_suffix] at hs
    obtain ⟨p, rfl⟩ := hs
    intro c hc
    rw [List.getLast?_append] at hc
    simp at hc
    rw [← hc]; decide
  · refine ⟨by simpa using h.append spells_blank (Or.inr (by simp; decide)), ?_⟩
    intro c hc
    rw [List.getLast?_append] at hc
    simp at hc
    rw [← hc]; decide

theorem spells_object {s n : Str} {ts : List Str} (h : Spells s ts) (hn : Lexeme n) :
    Spells (printType s ++ n) (ts ++ [n]) :=
  (spells_printType h).1.append (spells_lexeme hn) (Or.inl (spells_printType h).2)

theorem spells_function {s n a : Str} {ts as : List Str} (h : Spells s ts) (hn : Lexeme n) (ha : Spells a as) :
    Spells (printType s ++ n ++ ['('] ++ a ++ [')']) (ts ++ [n, ['(']] ++ as ++ [[')']]) := by
  have h1 := ((spells_object h hn).append (.punct '(' [] [] (by decide) .nil) (Or.inr (by simp; decide))).append ha
    (Or.inl (by intro c hc; rw [List.getLast?_append] at hc; simp at hc; rw [← hc]; decide))
  have := h1.append (.punct ')' [] [] (by decide) .nil) (Or.inr (by simp; decide))
  simpa using this

/-! ### The tokens of the input -/

theorem toks_lexeme (ps : List Piece) (hv : ∀ p ∈ ps, p.Valid) : ∀ t ∈ tokens ps,
    t.kind = .option ∨ t.kind = .semicolon ∨ t.kind = .curlyOpen ∨ t.kind = .curlyClose ∨ t.kind = .equal ∨
    (Lexeme t.text ∧ t = lexTok t.text) := by
  intro t ht
  simp only [tokens, List.mem_flatten, List.mem_map] at ht
  obtain ⟨_, ⟨p, hp, rfl⟩, ht⟩ := ht
  have hv := hv p hp
  cases p with
  | space | cComment | lineComment | directive => cases ht
  | option c os =>
    simp only [Piece.toks, List.mem_filterMap] at ht
    obtain ⟨o, -, ho⟩ := ht
    cases o <;> simp [OSeg.tok] at ho
    rw [← ho]; exact Or.inl rfl
  | word w =>
    simp only [Piece.toks] at ht
    split at ht
    · cases ht
    · rename_i he
      simp at ht
      have hw : IdentTok w := ⟨hv.1, hv.2.1⟩
      rw [ht]
      refine Or.inr (Or.inr (Or.inr (Or.inr (Or.inr ⟨Or.inl ⟨hw, he, hv.2.2⟩, ?_⟩))))
      unfold lexTok
      rw [if_pos hw]
  | punct c =>
    simp [Piece.toks] at ht
    simp only [Piece.Valid, List.mem_cons, List.not_mem_nil, or_false] at hv
    rw [ht]
    rcases hv with rfl | rfl | rfl | rfl | rfl | rfl | rfl | rfl | rfl | rfl <;> decide
  | dots =>
    simp [Piece.toks] at ht
    rw [ht]
    decide

theorem collapse_subset (f : Forest) : ∀ t ∈ f.collapse.print, t ∈ f.print := by
  induction f with
  | nil => simp [Forest.collapse]
  | tok u r ih =>
    intro t ht
    simp only [Forest.collapse, Forest.print, List.mem_cons] at ht ⊢
    exact ht.imp_right (ih t)
  | grp i r ihi ihr =>
    intro t ht
    have key : t ∈ (Forest.grp i r).collapse.print → t = ['('] ∨ t = [')'] ∨ t ∈ i.collapse.print ∨ t ∈ r.collapse.print := by
      intro ht
      simp only [Forest.collapse] at ht
      split at ht
      · rename_i j hj
        rw [hj]
        simp only [Forest.print, List.mem_cons, List.mem_append] at ht ⊢
        rcases ht with h | h | h | h <;> simp [h]
      · simp only [Forest.print, List.mem_cons, List.mem_append] at ht
        rcases ht with h | h | h | h <;> simp [h]
    simp only [Forest.print, List.mem_cons, List.mem_append]
    rcases key ht with h | h | h | h
    · exact Or.inl h
    · exact Or.inr (Or.inr (Or.inl h))
    · exact Or.inr (Or.inl (ihi t h))
    · exact Or.inr (Or.inr (Or.inr (ihr t h)))

theorem collapse_head (f : Forest) (t : Str) (r : Toks) (h : f.collapse.print = t :: r) (ht : t ≠ ['(']) :
    ∃ r', f.print = t :: r' := by
  cases f with
  | nil => simp [Forest.collapse, Forest.print] at h
  | tok u g => simp [Forest.collapse, Forest.print] at h; exact ⟨g.print, by simp [Forest.print, h.1]⟩
  | grp i g =>
    exfalso
    obtain ⟨j, hj, -⟩ := collapse_grp i g
    rw [hj] at h
    simp [Forest.print] at h
    exact ht h.1.symm

/-- The tokens of a declaration are those of a text. -/
structure Clean (d : Decl) : Prop where
  lexemes : ∀ t ∈ d.print, Lexeme t
  plainly : Plainly d.base

theorem declares_clean {ps : List Piece} {ds : List Decl} (h : Declares ps ds) : ∀ d ∈ ds, Clean d := by
  obtain ⟨hs, ⟨l, hl, ht, fs, hf, hdl, hcp⟩, hr, hne, hn⟩ := h
  intro d hd
  have : d.print ∈ fs.map fun f => f.collapse.print := by rw [hcp]; exact List.mem_map_of_mem hd
  rw [List.mem_map] at this
  obtain ⟨f, hfm, hfp⟩ := this
  have : f.print ∈ declsOf l := by rw [hdl]; exact List.mem_map_of_mem hfm
  unfold declsOf at this
  rw [List.mem_filterMap] at this
  obtain ⟨s, hsl, hse⟩ := this
  cases s with
  | typeDef | empty => cases hse
  | decl ts =>
    simp only [Option.some.injEq] at hse
    have hv : DeclToks ts := hl _ hsl
    have hcode : ∀ t ∈ code ts, Lexeme t.text ∧ t = lexTok t.text := by
      intro t htc
      obtain ⟨h1, h2⟩ := List.mem_filter.mp htc
      have hm : t ∈ tokens ps := by
        rw [ht]
        simp only [stmtToks, List.mem_flatten, List.mem_map]
        exact ⟨_, ⟨_, hsl, rfl⟩, by simp [Stmt.toks, h1]⟩
      rcases toks_lexeme ps hs.1 t hm with h | h | h | h | h | h
      · rw [h] at h2; cases h2
      all_goals first | exact h | (exfalso; rcases hv.1 t h1 with g | g | g | g <;> rw [h] at g <;> cases g)
    have hlex : ∀ t ∈ f.print, Lexeme t := by
      rw [← hse]
      intro t ht
      rw [List.mem_map] at ht
      obtain ⟨x, hx, rfl⟩ := ht
      exact (hcode x hx).1
    refine ⟨fun t ht => hlex t (collapse_subset f t (by rw [hfp]; exact ht)), ?_⟩
    obtain ⟨h0, r, hb, hh, -⟩ := (hr d hd).1.1
    refine ⟨h0, r, hb, ?_⟩
    have hpr : ∃ r', d.print = h0 :: r' := by
      cases d <;> (simp only [Decl.base] at hb; subst hb; exact ⟨_, rfl⟩)
    obtain ⟨r', hr'⟩ := hpr
    have hne' : h0 ≠ ['('] := by
      rintro rfl
      have := hh.2 '(' (by simp)
      exact absurd this (by decide)
    obtain ⟨r'', e⟩ := collapse_head f h0 r' (by rw [hfp, hr']) hne'
    obtain ⟨t, ts', hc, hbk⟩ := hv.2
    rw [← hse, hc] at e
    simp at e
    have := (hcode t (by rw [hc]; simp)).2
    rw [e.1] at this
    rw [← this]; exact hbk

/-! ### The symbols that are read -/

/-- The object that is read for a declaration. -/
def named (pfx : Str) (d : Decl) : Proto :=
  if NeedsTypedef d then { d.meaning with type := typeName pfx d.name } else d.meaning

theorem lexeme_typeName {pfx n : Str} (hp : ∀ c ∈ pfx, isWord c = true) (hn : IdentTok n) :
    Lexeme (typeName pfx n) ∧ IdentTok (typeName pfx n) ∧ TokKind.isBlock (lexTok (typeName pfx n)).kind = false := by
  have h1 : IdentTok (typeName pfx n) := by
    refine ⟨by simp [typeName], ?_⟩
    intro c hc
    simp only [typeName, List.mem_append, List.mem_cons, List.not_mem_nil, or_false] at hc
    rcases hc with ((hc | rfl) | hc) | rfl | rfl | rfl
    · exact hp c hc
    · decide
    · exact hn.2 c hc
    all_goals decide
  have hne : ∀ s : Str, (str% "__t").isSuffixOf s = false → typeName pfx n ≠ s := by
    rintro s hs rfl
    have : (str% "__t").isSuffixOf (typeName pfx n) = true := by
      rw [List.isSuffixOf_iff_suffix]
      exact ⟨_, rfl⟩
    rw [this] at hs; cases hs
  refine ⟨Or.inl ⟨h1, hne _ (by decide), hne _ (by decide)⟩, h1, ?_⟩
  unfold lexTok
  rw [if_pos h1]
  unfold wordKind
  rw [if_neg (hne _ (by decide)), if_neg (hne _ (by decide)), if_neg (hne _ (by decide)), if_neg (hne _ (by decide))]
  rfl

/-- The typedefs of the declarations are spelled with the tokens of the declarations. -/
theorem typedefs_spelled (pfx : Str) (hp : ∀ c ∈ pfx, isWord c = true) (os : List Decl) (hv : ∀ d ∈ os, d.Valid)
    (hl : ∀ d ∈ os, ∀ t ∈ d.print, Lexeme t) (hf : ∀ d ∈ os, d.isFunction = false) :
    ∃ tds, createTypedefs pfx (os.map Decl.meaning) = .ok (os.map (named pfx), tds) ∧
      (∀ t ∈ tds, ∃ us, Spells t us) ∧ tds.length = (os.filter NeedsTypedef).length := by
  induction os with
  | nil => exact ⟨[], rfl, by simp, rfl⟩
  | cons d os ih =>
    obtain ⟨tds, h1, h2, h3⟩ := ih (fun x hx => hv x (by simp [hx])) (fun x hx => hl x (by simp [hx])) (fun x hx => hf x (by simp [hx]))
    have hvd := hv d (by simp)
    have hld := hl d (by simp)
    have hfd := hf d (by simp)
    obtain ⟨hn, -, -⟩ := lexeme_typeName hp hvd.2
    cases d with
    | func | funcParen | funcPtr1 | funcPtr2 => simp [Decl.isFunction, Decl.kind] at hfd
    | var T n =>
      refine ⟨tds, ?_, h2, by simpa [NeedsTypedef] using h3⟩
      simp only [List.map_cons, createTypedefs, h1]
      rfl
    | funPtrVar T n ps =>
      have ht := fptrTypedef_text T ps (typeName pfx n) hvd.1
      have hne : (fptrTypedef (spaced T ++ ['(', '*', ')'] ++ spaced ([['(']] ++ ps ++ [[')']])) (typeName pfx n)).isEmpty = false := by
        rw [ht]; simp
      refine ⟨fptrTypedef (spaced T ++ ['(', '*', ')'] ++ spaced ([['(']] ++ ps ++ [[')']])) (typeName pfx n) :: tds, ?_, ?_, by rw [List.length_cons, h3]; rfl⟩
      · simp only [List.map_cons, createTypedefs, h1]
        have hk : (Decl.funPtrVar T n ps).meaning.kind = .functionPointer := rfl
        have hne' : (fptrTypedef (Decl.funPtrVar T n ps).meaning.type
          (pfx ++ ['_'] ++ (Decl.funPtrVar T n ps).meaning.symbol ++ str% "__t")).isEmpty = false := hne
        rw [if_pos hk, hne']
        rfl
      · intro t htm
        rcases List.mem_cons.mp htm with rfl | htm
        · rw [ht]
          have s1 := spells_spaced T (fun t ht => hld t (by simp [Decl.print, ht]))
          have s2 := spells_spaced ([['(']] ++ ps ++ [[')']]) (by
            intro t ht
            simp only [List.mem_append, List.mem_singleton] at ht
            rcases ht with (rfl | ht) | rfl
            · decide
            · exact hld t (by simp [Decl.print, ht])
            · decide)
          have lw : ∀ c, (spaced T).getLast? = some c → isWord c = false := by
            intro c hc
            rcases List.eq_nil_or_concat T with rfl | ⟨a, b, rfl⟩
            · simp [spaced] at hc
            · simp [spaced] at hc; rw [← hc]; decide
          have a1 := s1.append (.punct '(' _ _ (by decide) (.punct '*' [] [] (by decide) .nil)) (Or.inl lw)
          have a2 := a1.append (spells_lexeme hn) (Or.inl (by intro c hc; rw [List.getLast?_append] at hc; simp at hc; rw [← hc]; decide))
          have a3 := a2.append (.punct ')' [] [] (by decide) .nil) (Or.inr (by simp; decide))
          have a4 := a3.append s2 (Or.inl (by intro c hc; rw [List.getLast?_append] at hc; simp at hc; rw [← hc]; decide))
          exact ⟨_, a4⟩
        · exact h2 t htm
    | array T n s =>
      have ht := arrayTypedef_text T s (typeName pfx n) hvd.1
      have hne : (arrayTypedef (spaced (T ++ [['[']] ++ s ++ [[']']])) (typeName pfx n)).isEmpty = false := by
        rw [ht]; simp [typeName]
      refine ⟨arrayTypedef (spaced (T ++ [['[']] ++ s ++ [[']']])) (typeName pfx n) :: tds, ?_, ?_, by rw [List.length_cons, h3]; rfl⟩
      · simp only [List.map_cons, createTypedefs, h1]
        have hk : (Decl.array T n s).meaning.kind = .objectArray := rfl
        have hk' : ¬ (Decl.array T n s).meaning.kind = .functionPointer := by rw [hk]; decide
        have hne' : (arrayTypedef (Decl.array T n s).meaning.type
          (pfx ++ ['_'] ++ (Decl.array T n s).meaning.symbol ++ str% "__t")).isEmpty = false := hne
        rw [if_neg hk', if_pos hk, hne']
        rfl
      · intro t htm
        rcases List.mem_cons.mp htm with rfl | htm
        · rw [ht]
          have s1 := spells_spaced T (fun t ht => hld t (by simp [Decl.print, ht]))
          have s2 := spells_spaced ([['[']] ++ s ++ [[']']]) (by
            intro t ht
            simp only [List.mem_append, List.mem_singleton] at ht
            rcases ht with (rfl | ht) | rfl
            · decide
            · exact hld t (by simp [Decl.print, ht])
            · decide)
          have lw : ∀ c, (spaced T).getLast? = some c → isWord c = false := by
            intro c hc
            rcases List.eq_nil_or_concat T with rfl | ⟨a, b, rfl⟩
            · simp [spaced] at hc
            · simp [spaced] at hc; rw [← hc]; decide
          have a1 := s1.append (spells_lexeme hn) (Or.inl lw)
          have a2 := a1.append s2 (Or.inr (by intro c hc; simp [spaced] at hc; rw [← hc]; decide))
          exact ⟨_, a2⟩
        · exact h2 t htm

/-- The symbols read from declarations with `-param=skip`. -/
theorem symbols_explicit (fs : List Forest) (hf : ∀ f ∈ fs, f.Valid ∧ f.Simple) (ds : List Decl)
    (hd : (fs.map fun f => f.collapse.print) = ds.map Decl.print) (h : ∀ d ∈ ds, Readable d) (hne : ds ≠ [])
    (hn : (ds.map Decl.name).Nodup) (hl : ∀ d ∈ ds, ∀ t ∈ d.print, Lexeme t) (pfx : Str) (hp : ∀ c ∈ pfx, isWord c = true) :
    ∃ tds : List Str, tokenizeDecls (fs.map Forest.print) pfx .skip [] [] =
        some (.ok ⟨(ds.filter Decl.isFunction).map fun d => formatProto (readSkip d.meaning),
          (ds.filter fun d => !d.isFunction).map fun d => formatProto (named pfx d), tds⟩) ∧
      (∀ t ∈ tds, ∃ us, Spells t us) ∧ tds.length = (ds.filter NeedsTypedef).length := by
  have e1 : fns ((ds.map Decl.meaning).map readSkip) = (ds.filter Decl.isFunction).map fun d => readSkip d.meaning := by
    unfold fns
    rw [List.map_map, List.filter_map]
    congr 1
    apply List.filter_congr
    intro d _
    simp only [Function.comp, (readSkip_kind d.meaning).1]
    rfl
  have e2 : obs ((ds.map Decl.meaning).map readSkip) = (ds.filter fun d => !d.isFunction).map Decl.meaning := by
    unfold obs
    rw [List.map_map, List.filter_map]
    have : (ds.filter ((fun p : Proto => decide (p.kind ≠ .function)) ∘ (readSkip ∘ Decl.meaning))) = ds.filter fun d => !d.isFunction := by
      apply List.filter_congr
      intro d _
      simp only [Function.comp, (readSkip_kind d.meaning).1]
      simp only [Decl.isFunction, Decl.meaning]
      exact decide_not
    rw [this]
    apply List.map_congr_left
    intro d hdm
    have := (List.mem_filter.mp hdm).2
    simp [Decl.isFunction] at this
    exact readSkip_object _ this
  obtain ⟨tds, t1, t2, t3⟩ := typedefs_spelled pfx hp (ds.filter fun d => !d.isFunction)
    (fun d hd => (h d (List.mem_filter.mp hd).1).1) (fun d hd => hl d (List.mem_filter.mp hd).1)
    (fun d hd => by have := (List.mem_filter.mp hd).2; simpa using this)
  refine ⟨tds.map formatPrototype, ?_, ?_, ?_⟩
  · unfold tokenizeDecls
    rw [removeSuperfluous_forests fs hf, hd, parse_readable ds h hne hn .skip _ (doParameters_skip _)]
    simp only [Option.bind_eq_bind, Option.bind_some, e1, e2, t1]
    simp [Function.comp_def]
  · intro t ht
    rw [List.mem_map] at ht
    obtain ⟨x, hx, rfl⟩ := ht
    obtain ⟨us, hu⟩ := t2 x hx
    exact ⟨us, spells_format hu⟩
  · rw [List.length_map, t3, List.filter_filter]
    congr 1
    apply List.filter_congr
    intro d _
    cases d <;> rfl

/-! ### C80 -/

/-- The return type of a function, the type of a variable. -/
def plainType : Decl → Toks
  | .funcPtr1 T _ _ => T ++ [['*']]
  | .funcPtr2 T _ _ => T ++ [['*'], ['*']]
  | d => d.base

/-- How a declaration is listed. -/
def listed (pfx : Str) (d : Decl) : Decl :=
  if NeedsTypedef d then .var [typeName pfx d.name] d.name
  else if d.isFunction then .func (plainType d) d.name (Decl.params d)
  else .var (plainType d) d.name

theorem listed_name (pfx : Str) (d : Decl) : (listed pfx d).name = d.name := by
  unfold listed
  split
  · rfl
  · split <;> rfl

theorem listed_isFunction (pfx : Str) (d : Decl) : (listed pfx d).isFunction = d.isFunction := by
  cases d <;> rfl

theorem listed_needs (pfx : Str) (d : Decl) : NeedsTypedef (listed pfx d) = false := by
  cases d <;> rfl

/-- The listing of functions means the same. -/
theorem listed_meaning (pfx : Str) (d : Decl) (h : NeedsTypedef d = false) : (listed pfx d).meaning = d.meaning := by
  cases d <;> first | rfl | cases h

theorem typeToks_plain {d : Decl} (h : TypeToks d.base) : TypeToks (plainType d) := by
  obtain ⟨h0, r, hb, hh, hr⟩ := h
  cases d with
  | funcPtr1 T n ps =>
    simp only [Decl.base] at hb
    subst hb
    refine ⟨h0, r ++ [['*']], rfl, hh, ?_⟩
    intro t ht
    simp only [List.mem_append, List.mem_singleton] at ht
    exact ht.elim (hr t) Or.inr
  | funcPtr2 T n ps =>
    simp only [Decl.base] at hb
    subst hb
    refine ⟨h0, r ++ [['*'], ['*']], rfl, hh, ?_⟩
    intro t ht
    simp only [List.mem_append, List.mem_cons, List.not_mem_nil, or_false, or_self] at ht
    exact ht.elim (hr t) Or.inr
  | _ => exact ⟨h0, r, hb, hh, hr⟩

theorem listed_valid {pfx : Str} (hp : ∀ c ∈ pfx, isWord c = true) {d : Decl} (h : d.Valid) :
    (listed pfx d).Valid ∧ (listed pfx d).Plain := by
  unfold listed
  split
  · exact ⟨⟨⟨_, [], rfl, (lexeme_typeName hp h.2).2.1, by simp⟩, h.2⟩, trivial⟩
  · split
    · exact ⟨⟨typeToks_plain h.1, h.2⟩, trivial⟩
    · exact ⟨⟨typeToks_plain h.1, h.2⟩, trivial⟩

theorem plainly_append {a b : List Str} (h : Plainly a) : Plainly (a ++ b) := by
  obtain ⟨t, r, rfl, hb⟩ := h
  exact ⟨t, r ++ b, rfl, hb⟩

theorem plainly_plainType {d : Decl} (h : Plainly d.base) : Plainly (plainType d) := by
  cases d with
  | funcPtr1 T n ps => exact plainly_append h
  | funcPtr2 T n ps => exact plainly_append h
  | _ => exact h

theorem lexemes_parts {d : Decl} (h : ∀ t ∈ d.print, Lexeme t) :
    (∀ t ∈ plainType d, Lexeme t) ∧ (∀ t ∈ Decl.params d, Lexeme t) ∧ Lexeme d.name := by
  cases d with
  | funcPtr1 T n ps =>
    refine ⟨?_, fun t ht => h t (by simp [Decl.print, Decl.params] at ht ⊢; simp [ht]), h _ (by simp [Decl.print, Decl.name])⟩
    intro t ht
    simp only [plainType, List.mem_append, List.mem_singleton] at ht
    rcases ht with ht | rfl
    · exact h t (by simp [Decl.print, ht])
    · decide
  | funcPtr2 T n ps =>
    refine ⟨?_, fun t ht => h t (by simp [Decl.print, Decl.params] at ht ⊢; simp [ht]), h _ (by simp [Decl.print, Decl.name])⟩
    intro t ht
    simp only [plainType, List.mem_append, List.mem_cons, List.not_mem_nil, or_false, or_self] at ht
    rcases ht with ht | rfl
    · exact h t (by simp [Decl.print, ht])
    · decide
  | _ =>
    refine ⟨fun t ht => h t ?_, fun t ht => h t ?_, h _ (by simp [Decl.print, Decl.name])⟩
    · simp only [plainType, Decl.base] at ht; simp [Decl.print, ht]
    · simp only [Decl.params, List.not_mem_nil] at ht <;> simp [Decl.print, ht]

theorem listed_lexemes {pfx : Str} (hp : ∀ c ∈ pfx, isWord c = true) {d : Decl} (hv : d.Valid) (h : ∀ t ∈ d.print, Lexeme t) :
    ∀ t ∈ (listed pfx d).print, Lexeme t := by
  obtain ⟨h1, h2, h3⟩ := lexemes_parts h
  intro t ht
  unfold listed at ht
  split at ht
  · simp only [Decl.print, List.mem_append, List.mem_singleton] at ht
    rcases ht with rfl | rfl
    · exact (lexeme_typeName hp hv.2).1
    · exact h3
  · split at ht
    · simp only [Decl.print, List.mem_append, List.mem_cons, List.not_mem_nil, or_false] at ht
      rcases ht with ((ht | rfl | rfl) | ht) | rfl
      · exact h1 t ht
      · exact h3
      · decide
      · exact h2 t ht
      · decide
    · simp only [Decl.print, List.mem_append, List.mem_singleton] at ht
      rcases ht with ht | rfl
      · exact h1 t ht
      · exact h3

/-- The text of the lines in the listing. -/
def lineOf (pfx : Str) (d : Decl) : Str :=
  if d.isFunction then
    printType (formatPrototype d.typeText) ++ d.name ++ ['('] ++ formatPrototype (readSkip d.meaning).args ++ [')']
  else printType (formatPrototype (named pfx d).type) ++ d.name

theorem typeText_plain (d : Decl) (h : NeedsTypedef d = false) : d.typeText = spaced (plainType d) := by
  cases d <;> first | rfl | cases h

/-- Each line of the listing consists of the tokens of a declaration. -/
theorem line_spelled {pfx : Str} (hp : ∀ c ∈ pfx, isWord c = true) {d : Decl} (hv : d.Valid) (hc : Clean d)
    (hpp : (Decl.params d).getLast? ≠ some comma) :
    Spells (lineOf pfx d) (listed pfx d).print ∧ Plainly (listed pfx d).print := by
  obtain ⟨h1, h2, h3⟩ := lexemes_parts hc.lexemes
  unfold lineOf listed named
  cases hn : NeedsTypedef d with
  | true =>
    have hf : d.isFunction = false := by cases d <;> first | rfl | cases hn
    simp only [hf, Bool.false_eq_true, if_false, if_true]
    obtain ⟨l1, l2, l3⟩ := lexeme_typeName hp hv.2
    exact ⟨spells_object (spells_format (spells_lexeme l1)) h3, ⟨_, _, rfl, l3⟩⟩
  | false =>
    simp only [Bool.false_eq_true, if_false]
    have ht := spells_format (spells_spaced _ h1)
    rw [← typeText_plain d hn] at ht
    have hpl := plainly_plainType hc.plainly
    cases hf : d.isFunction with
    | true =>
      simp only [if_true]
      refine ⟨spells_function ht h3 (spells_format (spells_args d hf h2 hpp)), ?_⟩
      simp only [Decl.print, List.append_assoc]
      exact plainly_append hpl
    | false =>
      simp only [Bool.false_eq_true, if_false]
      exact ⟨spells_object ht h3, plainly_append hpl⟩

theorem collapse_self (f : Forest) (h : f.NoDouble) : f.collapse = f := by
  induction f with
  | nil => rfl
  | tok t r ih => simp [Forest.collapse, ih h]
  | grp i r ihi ihr =>
    obtain ⟨h1, h2, h3⟩ := h
    simp only [Forest.collapse, ihi h2, ihr h3]

/-- Words in front of a forest. -/
def toksThen : Toks → Forest → Forest
  | [], f => f
  | t :: T, f => .tok t (toksThen T f)

theorem toksThen_print (T : Toks) (f : Forest) : (toksThen T f).print = T ++ f.print := by
  induction T with
  | nil => rfl
  | cons t T ih => simp [toksThen, Forest.print, ih]

theorem toksThen_ok (T : Toks) (f : Forest) (hT : ∀ t ∈ T, NotParen t) (h : f.Valid ∧ f.Simple ∧ f.NoDouble) :
    (toksThen T f).Valid ∧ (toksThen T f).Simple ∧ (toksThen T f).NoDouble := by
  induction T with
  | nil => exact h
  | cons t T ih =>
    obtain ⟨h1, h2, h3⟩ := ih fun x hx => hT x (by simp [hx])
    exact ⟨⟨hT t (by simp), h1⟩, h2, h3⟩

theorem notParen_ident {t : Str} (h : IdentTok t) : NotParen t := by
  cases t with
  | nil => exact absurd rfl h.1
  | cons c t =>
    have := h.2 c (by simp)
    constructor <;>
      (intro hc; simp at hc; rw [hc] at this; exact absurd this (by decide))

theorem notParen_type {T : Toks} (h : TypeToks T) : ∀ t ∈ T, NotParen t := by
  obtain ⟨h0, r, rfl, hh, hr⟩ := h
  intro t ht
  rcases List.mem_cons.mp ht with rfl | ht
  · exact notParen_ident hh
  · rcases hr t ht with h | rfl
    · exact notParen_ident h
    · decide

/-- A listed declaration has no doubled parentheses. -/
theorem listed_forest {pfx : Str} (hp : ∀ c ∈ pfx, isWord c = true) {d : Decl} (hv : d.Valid) (hpp : PlainParams (Decl.params d)) :
    ∃ f : Forest, (f.Valid ∧ f.Simple) ∧ f.print = (listed pfx d).print ∧ f.collapse.print = (listed pfx d).print := by
  have hvar : ∀ (T : Toks) (n : Str), (∀ t ∈ T, NotParen t) → NotParen n →
      ∃ f : Forest, (f.Valid ∧ f.Simple) ∧ f.print = (Decl.var T n).print ∧ f.collapse.print = (Decl.var T n).print := by
    intro T n hT hn
    obtain ⟨h1, h2, h3⟩ := toksThen_ok T (.tok n .nil) hT ⟨⟨hn, trivial⟩, trivial, trivial⟩
    refine ⟨toksThen T (.tok n .nil), ⟨h1, h2⟩, toksThen_print _ _, ?_⟩
    rw [collapse_self _ h3]
    exact toksThen_print _ _
  have hn := notParen_ident hv.2
  have hT := notParen_type (typeToks_plain hv.1)
  unfold listed
  split
  · refine hvar _ _ ?_ hn
    intro t ht
    simp at ht
    rw [ht]
    exact notParen_ident (lexeme_typeName hp hv.2).2.1
  · split
    · obtain ⟨⟨f, e, f1, f2, f3, f4⟩, -⟩ := hpp
      obtain ⟨h1, h2, h3⟩ := toksThen_ok (plainType d ++ [d.name]) (.grp f .nil)
        (by intro t ht; simp at ht; exact ht.elim (hT t) (fun h => h ▸ hn))
        ⟨⟨f1, trivial⟩, ⟨fun j k h => absurd h (f4 j k), f2, trivial⟩, ⟨fun j h => absurd h (f4 j _), f3, trivial⟩⟩
      have hprint : (toksThen (plainType d ++ [d.name]) (.grp f .nil)).print =
          (Decl.func (plainType d) d.name (Decl.params d)).print := by
        rw [toksThen_print]
        simp [Forest.print, Decl.print, e]
      exact ⟨_, ⟨h1, h2⟩, hprint, by rw [collapse_self _ h3]; exact hprint⟩
    · exact hvar _ _ hT hn

theorem stripBack_blank (s : Str) : stripBack (s ++ [' ']) = stripBack s := by
  induction s with
  | nil => rfl
  | cons c s ih => simp only [List.cons_append, stripBack, ih]

theorem format_blank (s : Str) : formatPrototype (s ++ [' ']) = formatPrototype s := by
  have : stripSpaces (s ++ [' ']) = stripSpaces s := by
    unfold stripSpaces
    rw [stripBack_blank]
  unfold formatPrototype
  rw [this]

/-- What is read back for an object. -/
theorem listed_object (pfx : Str) (d : Decl) (h : d.isFunction = false) :
    formatProto (named pfx (listed pfx d)) = { formatProto (named pfx d) with kind := .object } := by
  have h1 : named pfx (listed pfx d) = (listed pfx d).meaning := by unfold named; rw [listed_needs]; rfl
  rw [h1]
  cases d with
  | func | funcParen | funcPtr1 | funcPtr2 => cases h
  | var T n =>
    have e : (listed pfx (.var T n)).meaning = (Decl.var T n).meaning := listed_meaning pfx _ rfl
    have e' : named pfx (.var T n) = (Decl.var T n).meaning := rfl
    rw [e, e']
    simp only [formatProto, Decl.meaning, Decl.kind]
  | funPtrVar T n ps =>
    have e : (listed pfx (.funPtrVar T n ps)).meaning =
      { kind := .object, type := typeName pfx n ++ [' '], symbol := n, argsVec := [] } := by
      simp [listed, NeedsTypedef, Decl.meaning, Decl.kind, Decl.typeText, Decl.name, Decl.paramList, spaced]
    have e' : named pfx (.funPtrVar T n ps) = { kind := .functionPointer, type := typeName pfx n, symbol := n, argsVec := [] } := rfl
    rw [e, e']
    simp only [formatProto, format_blank]
  | array T n s =>
    have e : (listed pfx (.array T n s)).meaning =
      { kind := .object, type := typeName pfx n ++ [' '], symbol := n, argsVec := [] } := by
      simp [listed, NeedsTypedef, Decl.meaning, Decl.kind, Decl.typeText, Decl.name, Decl.paramList, spaced]
    have e' : named pfx (.array T n s) = { kind := .objectArray, type := typeName pfx n, symbol := n, argsVec := [] } := rfl
    rw [e, e']
    simp only [formatProto, format_blank]

theorem spelled_list (tds : List Str) (h : ∀ t ∈ tds, ∃ us, Spells t us) :
    ∃ l : List (Str × List Str), l.map (·.1) = tds ∧ ∀ x ∈ l, Spells x.1 x.2 := by
  induction tds with
  | nil => exact ⟨[], rfl, by simp⟩
  | cons t tds ih =>
    obtain ⟨us, hu⟩ := h t (by simp)
    obtain ⟨l, h1, h2⟩ := ih fun x hx => h x (by simp [hx])
    refine ⟨(t, us) :: l, by simp [h1], ?_⟩
    intro x hx
    rcases List.mem_cons.mp hx with rfl | hx
    · exact hu
    · exact h2 x hx

theorem listed_forests {pfx : Str} (hp : ∀ c ∈ pfx, isWord c = true) (ds : List Decl) (hv : ∀ d ∈ ds, d.Valid)
    (hpp : ∀ d ∈ ds, PlainParams (Decl.params d)) :
    ∃ fs : List Forest, (∀ f ∈ fs, f.Valid ∧ f.Simple) ∧ fs.map Forest.print = (ds.map (listed pfx)).map Decl.print ∧
      (fs.map fun f => f.collapse.print) = (ds.map (listed pfx)).map Decl.print := by
  induction ds with
  | nil => exact ⟨[], by simp, rfl, rfl⟩
  | cons d ds ih =>
    obtain ⟨fs, h1, h2, h3⟩ := ih (fun x hx => hv x (by simp [hx])) (fun x hx => hpp x (by simp [hx]))
    obtain ⟨f, g1, g2, g3⟩ := listed_forest hp (hv d (by simp)) (hpp d (by simp))
    refine ⟨f :: fs, ?_, by simp [g2, h2], by simp [g3, h3]⟩
    intro x hx
    rcases List.mem_cons.mp hx with rfl | hx
    · exact g1
    · exact h1 x hx

/-- The objects in front of the functions, as they are listed. -/
def inOrder (ds : List Decl) : List Decl := (ds.filter fun d => !d.isFunction) ++ ds.filter Decl.isFunction

theorem inOrder_perm (ds : List Decl) : (inOrder ds).Perm ds := by
  have h := List.filter_append_perm Decl.isFunction ds
  exact (List.perm_append_comm).trans h

theorem inOrder_filter (pfx : Str) (ds : List Decl) :
    ((inOrder ds).map (listed pfx)).filter Decl.isFunction = (ds.filter Decl.isFunction).map (listed pfx) ∧
    ((inOrder ds).map (listed pfx)).filter (fun d => !d.isFunction) = (ds.filter fun d => !d.isFunction).map (listed pfx) := by
  have e1 : (Decl.isFunction ∘ listed pfx) = Decl.isFunction := funext fun d => listed_isFunction pfx d
  have e2 : ((fun d : Decl => !d.isFunction) ∘ listed pfx) = fun d => !d.isFunction := by
    funext d; simp only [Function.comp, listed_isFunction]
  rw [List.filter_map, List.filter_map, e1, e2]
  unfold inOrder
  simp only [List.filter_append, List.filter_filter]
  constructor <;> congr 1 <;> simp

/-- The text of the listing. -/
theorem printSymbols_lines (pfx : Str) (ds : List Decl) (tds : List Str) :
    printSymbols ⟨(ds.filter Decl.isFunction).map fun d => formatProto (readSkip d.meaning),
          (ds.filter fun d => !d.isFunction).map fun d => formatProto (named pfx d), tds⟩ =
      (if tds.isEmpty then []
        else str% "/* typedefs */\n" ++ (tds.map fun t => str% "typedef " ++ t ++ str% ";\n").flatten ++ ['\n']) ++
       str% "/* prototypes */\n" ++ ((inOrder ds).map fun d => lineOf pfx d ++ str% ";\n").flatten ++
       str% "\n/***  " ++ natDigits ds.length ++ str% " matches  ***/\n" := by
  have hsym : ∀ d : Decl, (named pfx d).symbol = d.name := by intro d; unfold named; split <;> rfl
  have e1 : ((ds.filter fun d => !d.isFunction).map fun d => formatProto (named pfx d)).map
        (fun e => printType e.type ++ e.symbol ++ str% ";\n") =
      (ds.filter fun d => !d.isFunction).map fun d => lineOf pfx d ++ str% ";\n" := by
    rw [List.map_map]
    apply List.map_congr_left
    intro d hd
    have hd := (List.mem_filter.mp hd).2
    have hf : d.isFunction = false := by simpa using hd
    simp only [Function.comp, formatProto, lineOf, hf, hsym]
    rfl
  have e2 : ((ds.filter Decl.isFunction).map fun d => formatProto (readSkip d.meaning)).map
        (fun e => printType e.type ++ e.symbol ++ ['('] ++ e.args ++ str% ");\n") =
      (ds.filter Decl.isFunction).map fun d => lineOf pfx d ++ str% ";\n" := by
    rw [List.map_map]
    apply List.map_congr_left
    intro d hd
    have hf := (List.mem_filter.mp hd).2
    obtain ⟨-, k2, k3⟩ := readSkip_kind d.meaning
    simp only [Function.comp, formatProto, lineOf, hf, if_true, k2, k3]
    simp [Decl.meaning]
  have e3 : ((ds.filter fun d => !d.isFunction).map fun d => formatProto (named pfx d)).length +
      ((ds.filter Decl.isFunction).map fun d => formatProto (readSkip d.meaning)).length = ds.length := by
    have := (inOrder_perm ds).length_eq
    simpa [inOrder] using this
  unfold printSymbols
  simp only [e1, e2, e3, inOrder, List.map_append, List.flatten_append]
  simp only [List.append_assoc]

/-- **C80** (partial: the headers of C68, and parameter lists without doubled parentheses.)
    The listing that `-print-symbols` writes can be read again: the functions are the same
    with all their texts, the objects are the same but for the kind, and there are no
    typedefs.  (Function pointers and arrays become plain objects of the type that the
    typedef would define, see `C80_violated`.) -/
theorem C80_read_back_partial (ps : List Piece) (ds : List Decl) (h : Declares ps ds)
    (hpp : ∀ d ∈ ds, PlainParams (Decl.params d)) (pfx : Str) (hp : ∀ c ∈ pfx, isWord c = true) :
    ∃ vec opts sy, tokenizeStream true (render ps) = (vec, opts, .eof) ∧
      tokenizeDecls vec pfx .skip [] [] = some (.ok sy) ∧
      tokenizeStream true (printSymbols sy) = ((inOrder ds).map (fun d => (listed pfx d).print), [], .eof) ∧
      tokenizeDecls ((inOrder ds).map fun d => (listed pfx d).print) pfx .skip [] [] =
        some (.ok ⟨sy.protos, sy.objs.map fun p => { p with kind := .object }, []⟩) := by
  have hclean := declares_clean h
  obtain ⟨hs, ⟨l, hl, ht, fs, hf, hdl, hcp⟩, hr, hne, hn⟩ := h
  obtain ⟨tds, s1, s2, s3⟩ := symbols_explicit fs hf ds hcp hr hne hn (fun d hd => (hclean d hd).lexemes) pfx hp
  refine ⟨declsOf l, _, _, (C06_text ps hs l hl ht).1, by rw [hdl]; exact s1, ?_⟩
  have hmem : ∀ d ∈ inOrder ds, d ∈ ds := fun d hd => (inOrder_perm ds).mem_iff.mp hd
  obtain ⟨tdl, t1, t2⟩ := spelled_list tds s2
  obtain ⟨fs', g1, g2, g3⟩ := listed_forests hp (inOrder ds) (fun d hd => (hr d (hmem d hd)).1) (fun d hd => hpp d (hmem d hd))
  have hstream := printed_stream tdl ((inOrder ds).map fun d => (lineOf pfx d, (listed pfx d).print)) t2
    (by
      intro x hx
      rw [List.mem_map] at hx
      obtain ⟨d, hd, rfl⟩ := hx
      exact (line_spelled hp (hr d (hmem d hd)).1 (hclean d (hmem d hd)) (hpp d (hmem d hd)).2).1)
    (by
      intro x hx
      rw [List.mem_map] at hx
      obtain ⟨d, hd, rfl⟩ := hx
      exact (line_spelled hp (hr d (hmem d hd)).1 (hclean d (hmem d hd)) (hpp d (hmem d hd)).2).2)
    ds.length
  have g2' : (inOrder ds).map (fun d => (listed pfx d).print) = fs'.map Forest.print := by rw [g2, List.map_map]; rfl
  rw [g2']
  refine ⟨?_, ?_⟩
  · rw [printSymbols_lines]
    have e1 : tdl.isEmpty = tds.isEmpty := by rw [← t1]; cases tdl <;> rfl
    have e2 : (tdl.map fun t => str% "typedef " ++ t.1 ++ str% ";\n") = tds.map fun t => str% "typedef " ++ t ++ str% ";\n" := by
      rw [← t1, List.map_map]; rfl
    rw [e1, e2, List.map_map, List.map_map] at hstream
    rw [g2, List.map_map]
    exact hstream
  · obtain ⟨tds', r1, -, r3⟩ := symbols_explicit fs' g1 ((inOrder ds).map (listed pfx)) g3
      (by
        intro d hd
        rw [List.mem_map] at hd
        obtain ⟨d, hd, rfl⟩ := hd
        obtain ⟨v1, v2⟩ := listed_valid hp (hr d (hmem d hd)).1
        exact ⟨v1, Or.inl v2⟩)
      (by
        intro he
        have := congrArg List.length he
        rw [List.length_map, (inOrder_perm ds).length_eq] at this
        exact hne (List.length_eq_zero_iff.mp this))
      (by
        rw [List.map_map]
        have : (Decl.name ∘ listed pfx) = Decl.name := funext fun d => listed_name pfx d
        rw [this]
        exact ((inOrder_perm ds).map Decl.name).nodup_iff.mpr hn)
      (by
        intro d hd
        rw [List.mem_map] at hd
        obtain ⟨d, hd, rfl⟩ := hd
        exact listed_lexemes hp (hr d (hmem d hd)).1 (hclean d (hmem d hd)).lexemes)
      pfx hp
    have ht0 : tds' = [] := by
      apply List.length_eq_zero_iff.mp
      rw [r3, List.length_eq_zero_iff, List.filter_eq_nil_iff]
      intro d hd
      rw [List.mem_map] at hd
      obtain ⟨d, -, rfl⟩ := hd
      rw [listed_needs]; decide
    obtain ⟨o1, o2⟩ := inOrder_filter pfx ds
    rw [r1, ht0, o1, o2, List.map_map, List.map_map]
    have p1 : (ds.filter Decl.isFunction).map ((fun d => formatProto (readSkip d.meaning)) ∘ listed pfx) =
        (ds.filter Decl.isFunction).map fun d => formatProto (readSkip d.meaning) := by
      apply List.map_congr_left
      intro d hd
      have hf := (List.mem_filter.mp hd).2
      have : NeedsTypedef d = false := by cases d <;> first | rfl | cases hf
      simp only [Function.comp, listed_meaning pfx d this]
    have p2 : (ds.filter fun d => !d.isFunction).map ((fun d => formatProto (named pfx d)) ∘ listed pfx) =
        ((ds.filter fun d => !d.isFunction).map fun d => formatProto (named pfx d)).map fun p => { p with kind := .object } := by
      rw [List.map_map]
      apply List.map_congr_left
      intro d hd
      have hd := (List.mem_filter.mp hd).2
      have hf : d.isFunction = false := by simpa using hd
      simp only [Function.comp, listed_object pfx d hf]
    rw [p1, p2]

theorem obs_kind (pfx : Str) (ds : List Decl) (h : ∀ d ∈ ds, NeedsTypedef d = false) :
    ((ds.filter fun d => !d.isFunction).map fun d => formatProto (named pfx d)).map (fun p => { p with kind := .object }) =
      (ds.filter fun d => !d.isFunction).map fun d => formatProto (named pfx d) := by
  rw [List.map_map]
  apply List.map_congr_left
  intro d hd
  obtain ⟨h1, h2⟩ := List.mem_filter.mp hd
  have hn := h d h1
  cases d with
  | func | funcParen | funcPtr1 | funcPtr2 => cases h2
  | funPtrVar | array => cases hn
  | var T n =>
    have e' : named pfx (.var T n) = (Decl.var T n).meaning := rfl
    simp only [Function.comp, e', formatProto, Decl.meaning, Decl.kind]

/-- **C80** (partial as above.)  Without function pointers and arrays, reading the listing
    gives exactly the symbols that were listed. -/
theorem C80_same_symbols_partial (ps : List Piece) (ds : List Decl) (h : Declares ps ds)
    (hpp : ∀ d ∈ ds, PlainParams (Decl.params d)) (hnt : ∀ d ∈ ds, NeedsTypedef d = false)
    (pfx : Str) (hp : ∀ c ∈ pfx, isWord c = true) :
    ∃ vec opts sy vec', tokenizeStream true (render ps) = (vec, opts, .eof) ∧
      tokenizeDecls vec pfx .skip [] [] = some (.ok sy) ∧
      tokenizeStream true (printSymbols sy) = (vec', [], .eof) ∧
      tokenizeDecls vec' pfx .skip [] [] = some (.ok sy) := by
  obtain ⟨vec, opts, sy, h1, h2, h3, h4⟩ := C80_read_back_partial ps ds h hpp pfx hp
  refine ⟨vec, opts, sy, _, h1, h2, h3, ?_⟩
  rw [h4]
  have hclean := declares_clean h
  obtain ⟨hs, ⟨l, hl, ht, fs, hf, hdl, hcp⟩, hr, hne, hn⟩ := h
  obtain ⟨tds, s1, s2, s3⟩ := symbols_explicit fs hf ds hcp hr hne hn (fun d hd => (hclean d hd).lexemes) pfx hp
  have hv : vec = declsOf l := by
    have := (C06_text ps hs l hl ht).1
    rw [h1] at this
    exact congrArg Prod.fst this
  rw [hv, hdl, s1] at h2
  simp at h2
  have ht0 : tds = [] := by
    apply List.length_eq_zero_iff.mp
    rw [s3, List.length_eq_zero_iff, List.filter_eq_nil_iff]
    intro d hd
    rw [hnt d hd]; decide
  rw [← h2, ht0]
  simp only [obs_kind pfx ds hnt]

/-- The listing ends with the number of declarations. -/
theorem C80_count_partial (ps : List Piece) (ds : List Decl) (h : Declares ps ds) (pfx : Str) (hp : ∀ c ∈ pfx, isWord c = true) :
    ∃ vec opts sy body, tokenizeStream true (render ps) = (vec, opts, .eof) ∧
      tokenizeDecls vec pfx .skip [] [] = some (.ok sy) ∧
      printSymbols sy = body ++ str% "\n/***  " ++ natDigits ds.length ++ str% " matches  ***/\n" := by
  have hclean := declares_clean h
  obtain ⟨hs, ⟨l, hl, ht, fs, hf, hdl, hcp⟩, hr, hne, hn⟩ := h
  obtain ⟨tds, s1, s2, s3⟩ := symbols_explicit fs hf ds hcp hr hne hn (fun d hd => (hclean d hd).lexemes) pfx hp
  exact ⟨declsOf l, _, _, _, (C06_text ps hs l hl ht).1, by rw [hdl]; exact s1, printSymbols_lines pfx ds tds⟩

theorem exHeader_plain : ∀ d ∈ exDecls, PlainParams (Decl.params d) := by
  intro d hd
  simp only [exDecls, List.mem_cons, List.not_mem_nil, or_false] at hd
  rcases hd with rfl | rfl
  · exact ⟨⟨.tok (str% "int") (.tok (str% "*") .nil), rfl, ⟨by decide, by decide, trivial⟩, trivial, trivial, by simp⟩, by decide⟩
  · exact ⟨⟨.nil, rfl, trivial, trivial, trivial, by simp⟩, by decide⟩

/-- The example of C68: `int f((int*));` and `int tab[4];`. -/
example : Declares exHeader exDecls ∧ (∀ d ∈ exDecls, PlainParams (Decl.params d)) ∧
    (match tokenizeDecls (tokenizeStream true (render exHeader)).1 (str% "gdo") .skip [] [] with
     | some (.ok sy) => some (printSymbols sy)
     | _ => none) = some (str% "/* typedefs */\ntypedef int gdo_tab__t[4];\n\n/* prototypes */\ngdo_tab__t tab;\nint f(int *);\n\n/***  2 matches  ***/\n") :=
  ⟨exHeader_declares, exHeader_plain, by rfl⟩

/-- Without the array. -/
example : ∃ ps ds, Declares ps ds ∧ (∀ d ∈ ds, PlainParams (Decl.params d)) ∧ ∀ d ∈ ds, NeedsTypedef d = false := by
  refine ⟨[.word (str% "int"), .space ' ', .word (str% "x"), .punct ';'], [.var [str% "int"] (str% "x")], ⟨⟨?_, trivial, ?_⟩,
    ⟨[.decl [⟨.id, str% "int"⟩, ⟨.id, str% "x"⟩]], ?_, by rfl, [.tok (str% "int") (.tok (str% "x") .nil)], ?_, by rfl, by rfl⟩, ?_, by simp, by decide⟩, ?_, ?_⟩
  · intro p hp
    simp only [List.mem_cons, List.not_mem_nil, or_false] at hp
    rcases hp with rfl | rfl | rfl | rfl <;>
      first | rfl | exact ⟨by decide, by decide, by decide⟩ | (simp only [Piece.Valid]; decide)
  · simp [Placed]
  · intro s hs
    simp only [List.mem_cons, List.not_mem_nil, or_false] at hs
    subst hs
    exact ⟨by decide, _, _, rfl, rfl⟩
  · simp [Forest.Valid, Forest.Simple, NotParen]
  · intro d hd
    simp only [List.mem_cons, List.not_mem_nil, or_false] at hd
    subst hd
    exact ⟨⟨⟨_, _, rfl, by decide, by decide⟩, by decide⟩, Or.inl trivial⟩
  · intro d hd
    simp only [List.mem_cons, List.not_mem_nil, or_false] at hd
    subst hd
    exact ⟨⟨.nil, rfl, trivial, trivial, trivial, by simp⟩, by decide⟩
  · intro d hd
    simp only [List.mem_cons, List.not_mem_nil, or_false] at hd
    subst hd
    rfl

/-- C80 does not hold for arrays (and function pointers): the typedef of the listing is
    skipped when it is read, so that the type name is not defined. -/
theorem C80_violated : ∃ ps ds, Declares ps ds ∧ (∀ d ∈ ds, PlainParams (Decl.params d)) ∧
    ∃ sy sy', tokenizeDecls (tokenizeStream true (render ps)).1 (str% "gdo") .skip [] [] = some (.ok sy) ∧
      tokenizeDecls (tokenizeStream true (printSymbols sy)).1 (str% "gdo") .skip [] [] = some (.ok sy') ∧
      sy.typedefs = [str% "int gdo_tab__t[4]"] ∧ sy'.typedefs = [] ∧
      sy'.objs.map (fun p => (p.type, p.symbol)) = [(str% "gdo_tab__t", str% "tab")] := by
  refine ⟨exHeader, exDecls, exHeader_declares, exHeader_plain,
    ⟨[{ kind := .function, type := str% "int", symbol := str% "f", argsVec := [[str% "int", str% "*"]], args := str% "int *" }],
      [{ kind := .objectArray, type := str% "gdo_tab__t", symbol := str% "tab" }], [str% "int gdo_tab__t[4]"]⟩,
    ⟨[{ kind := .function, type := str% "int", symbol := str% "f", argsVec := [[str% "int", str% "*"]], args := str% "int *" }],
      [{ kind := .object, type := str% "gdo_tab__t", symbol := str% "tab" }], []⟩, ?_, ?_, ?_, ?_, ?_⟩
  · rfl
  · rfl
  · rfl
  · rfl
  · rfl

end Gdo.Props
