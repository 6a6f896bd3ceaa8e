import Verif.Model.Tokenize
import Verif.Spec.Stmt

/-! `tokenize_stream` on lists of statements. -/

namespace Gdo
open Lex Spec

theorem streamLoop_cons {ro : Bool} {st st' : Stream} {t : Tok} {ts : List Tok} {e : End}
    (h : streamStep ro st t = .inl st') : streamLoop ro (t :: ts) e st = streamLoop ro ts e st' := by
  rw [streamLoop, h]

/-- The tokens of a declaration are collected. -/
theorem stream_decl_tail (ts rest : List Tok) (e : End) :
    ∀ st : Stream, st.block = false →
    (∀ t ∈ ts, t.kind = .id ∨ t.kind = .other ∨ t.kind = .option ∨ TokKind.isBlock t.kind = true) →
    (st.tokens ≠ [] ∨ code ts = [] ∨ ∃ t ts', code ts = t :: ts' ∧ TokKind.isBlock t.kind = false) →
    streamLoop true (ts ++ rest) e st = streamLoop true rest e
      { st with tokens := st.tokens ++ (code ts).map (·.text), options := st.options ++ optionsOf ts } := by
  induction ts with
  | nil => intro st _ _ _; simp [code, optionsOf]
  | cons t ts ih =>
    intro st hb hk hn
    have hk' : ∀ t ∈ ts, t.kind = .id ∨ t.kind = .other ∨ t.kind = .option ∨ TokKind.isBlock t.kind = true :=
      fun x hx => hk x (by simp [hx])
    have one : t.kind ≠ .option → streamStep true st t = .inl { st with tokens := st.tokens ++ [t.text] } →
        streamLoop true (t :: ts ++ rest) e st = streamLoop true rest e
      { st with tokens := st.tokens ++ (code (t :: ts)).map (·.text), options := st.options ++ optionsOf (t :: ts) } := by
      intro ho hs
      rw [List.cons_append, streamLoop_cons hs, ih { st with tokens := st.tokens ++ [t.text] } hb hk' (Or.inl (by simp))]
      congr 1
      simp [code, optionsOf, ho]
    rcases hk t (by simp) with h | h | h | h
    · exact one (by rw [h]; decide) (by simp [streamStep, hb, h])
    · exact one (by rw [h]; decide) (by simp [streamStep, hb, h])
    · have hs : streamStep true st t = .inl { st with options := st.options ++ [t.text] } := by
        simp [streamStep, hb, h]
      rw [List.cons_append, streamLoop_cons hs, ih { st with options := st.options ++ [t.text] } hb hk' (by simpa [code, h] using hn)]
      congr 1
      simp [code, optionsOf, h]
    · have hno : t.kind ≠ .option := by intro h'; rw [h'] at h; cases h
      have hne : st.tokens ≠ [] := by
        rcases hn with hn | hn | ⟨x, xs, hn, hx⟩
        · exact hn
        · simp [code, hno] at hn
        · simp [code, hno] at hn
          rw [← hn.1, h] at hx; cases hx
      refine one hno ?_
      have hne' : st.tokens.isEmpty = false := by simpa using hne
      cases hkd : t.kind <;> rw [hkd] at h <;> first | (simp [TokKind.isBlock] at h; done) | simp [streamStep, hb, hkd, hne]

theorem stream_decl {ts rest : List Tok} {e : End} {st : Stream} (hb : st.block = false) (ht : st.tokens = [])
    (h : DeclToks ts) :
    streamLoop true (ts ++ semi :: rest) e st =
      streamLoop true rest e { st with vec := st.vec ++ [(code ts).map (·.text)], options := st.options ++ optionsOf ts } := by
  obtain ⟨hk, t, ts', hc, hnb⟩ := h
  rw [stream_decl_tail ts _ e st hb hk (Or.inr (Or.inr ⟨t, ts', hc, hnb⟩))]
  rw [streamLoop_cons (st' := { st with vec := st.vec ++ [(code ts).map (·.text)], tokens := [], options := st.options ++ optionsOf ts })
    (by simp [streamStep, hb, ht, hc, semi])]
  rw [← ht]

theorem stream_block (body rest : List Tok) (e : End) :
    ∀ (d : Nat) (st : Stream), st.block = true → st.tokens = [] → st.curly = d → Balanced d body →
    ∃ c, streamLoop true (body ++ semi :: rest) e st =
      streamLoop true rest e { st with block := false, curly := c, options := st.options ++ optionsOf body } := by
  induction body with
  | nil =>
    intro d st hb ht hc hd
    have hd : d = 0 := hd
    refine ⟨st.curly, ?_⟩
    rw [List.nil_append, streamLoop_cons (st' := { st with block := false, tokens := [] }) (by
      have : st.curly < 1 := by omega
      simp [streamStep, hb, semi, this])]
    congr 1
    cases st
    simp only at ht
    subst ht
    simp [optionsOf]
  | cons t body ih =>
    intro d st hb ht hc hd
    have same : streamStep true st t = .inl st → t.kind ≠ .option → Balanced d body →
        ∃ c, streamLoop true (t :: body ++ semi :: rest) e st =
        streamLoop true rest e { st with block := false, curly := c, options := st.options ++ optionsOf (t :: body) } := by
      intro hs ho hd'
      obtain ⟨c, hcc⟩ := ih d st hb ht hc hd'
      refine ⟨c, ?_⟩
      rw [List.cons_append, streamLoop_cons hs, hcc]
      simp [optionsOf, ho]
    cases hk : t.kind with
    | curlyOpen =>
      have hd' : Balanced (d + 1) body := by simpa [Balanced, hk] using hd
      obtain ⟨c, hcc⟩ := ih (d + 1) { st with curly := st.curly + 1 } hb ht (by simp [hc]) hd'
      refine ⟨c, ?_⟩
      rw [List.cons_append, streamLoop_cons (st' := { st with curly := st.curly + 1 }) (by simp [streamStep, hb, hk]), hcc]
      simp [optionsOf, hk]
    | curlyClose =>
      have hd' : d > 0 ∧ Balanced (d - 1) body := by simpa [Balanced, hk] using hd
      obtain ⟨c, hcc⟩ := ih (d - 1) { st with curly := st.curly - 1 } hb ht (by
        show st.curly - 1 = ((d - 1 : Nat) : Int)
        omega) hd'.2
      refine ⟨c, ?_⟩
      rw [List.cons_append, streamLoop_cons (st' := { st with curly := st.curly - 1 }) (by simp [streamStep, hb, hk]), hcc]
      simp [optionsOf, hk]
    | semicolon =>
      have hd' : d > 0 ∧ Balanced d body := by simpa [Balanced, hk] using hd
      refine same ?_ (by simp [hk]) hd'.2
      have : ¬ st.curly < 1 := by omega
      simp [streamStep, hb, hk, this]
    | option =>
      have hd' : Balanced d body := by simpa [Balanced, hk] using hd
      obtain ⟨c, hcc⟩ := ih d { st with options := st.options ++ [t.text] } hb ht hc hd'
      refine ⟨c, ?_⟩
      rw [List.cons_append, streamLoop_cons (st' := { st with options := st.options ++ [t.text] }) (by simp [streamStep, hb, hk]), hcc]
      simp [optionsOf, hk]
    | astBegin => simp [Balanced, hk] at hd
    | astFuncvar => simp [Balanced, hk] at hd
    | astParmvar => simp [Balanced, hk] at hd
    | _ => exact same (by simp [streamStep, hb, hk]) (by simp [hk]) (by simpa [Balanced, hk] using hd)

theorem optionsOf_append (a b : List Tok) : optionsOf (a ++ b) = optionsOf a ++ optionsOf b := by simp [optionsOf]

/-- The state after a list of statements. -/
theorem stream_stmts (l : List Stmt) (rest : List Tok) (e : End) (h : ∀ s ∈ l, s.Valid) :
    ∀ st : Stream, st.block = false → st.tokens = [] →
    ∃ c, streamLoop true (stmtToks l ++ rest) e st =
      streamLoop true rest e { st with vec := st.vec ++ declsOf l, curly := c, options := st.options ++ optionsOf (stmtToks l) } := by
  induction l with
  | nil => intro st _ _; exact ⟨st.curly, by simp [stmtToks, declsOf, optionsOf]⟩
  | cons s l ih =>
    intro st hb ht
    have ih' := ih (fun s hs => h s (by simp [hs]))
    have hs := h s (by simp)
    have he : stmtToks (s :: l) = s.toks ++ stmtToks l := rfl
    cases s with
    | decl ts =>
      obtain ⟨c, hc⟩ := ih' { st with vec := st.vec ++ [(code ts).map (·.text)], options := st.options ++ optionsOf ts } hb ht
      refine ⟨c, ?_⟩
      have := stream_decl (rest := stmtToks l ++ rest) (e := e) hb ht hs
      rw [he]
      simp only [Stmt.toks, List.append_assoc, List.cons_append, List.nil_append]
      rw [this, hc]
      congr 1
      simp [declsOf, optionsOf, semi]
    | typeDef kw body =>
      obtain ⟨hkw, hbal⟩ := hs
      have h1 : streamStep true st kw = .inl { st with block := true, curly := 0 } := by
        cases hkd : kw.kind <;> rw [hkd] at hkw <;> first | (simp [TokKind.isBlock] at hkw; done) | simp [streamStep, hb, hkd, ht]
      have hno : kw.kind ≠ .option := by intro h'; rw [h'] at hkw; cases hkw
      obtain ⟨c1, h2⟩ := stream_block body (stmtToks l ++ rest) e 0 { st with block := true, curly := 0 } rfl ht rfl hbal
      obtain ⟨c2, h3⟩ := ih' { st with block := false, curly := c1, options := st.options ++ optionsOf body } rfl ht
      refine ⟨c2, ?_⟩
      rw [he]
      simp only [Stmt.toks, List.append_assoc, List.cons_append, List.nil_append]
      rw [streamLoop_cons h1, h2, h3]
      congr 1
      simp [declsOf, optionsOf, semi, hno, hb]
    | empty =>
      obtain ⟨c, hc⟩ := ih' st hb ht
      refine ⟨c, ?_⟩
      rw [he]
      simp only [Stmt.toks, List.cons_append, List.nil_append]
      rw [streamLoop_cons (st' := st) (by simp [streamStep, hb, semi, ht]), hc]
      rfl

/-- Without option reading the declarations are the same. -/
theorem streamLoop_noOptions (ts : List Tok) (e : End) : ∀ (v : List Toks) (o o' : List Str) (tk : Toks) (b : Bool) (c : Int),
    streamLoop false ts e ⟨v, o', tk, b, c⟩ =
      ((streamLoop true ts e ⟨v, o, tk, b, c⟩).1, o', (streamLoop true ts e ⟨v, o, tk, b, c⟩).2.2) := by
  induction ts with
  | nil => intro v o o' tk b c; cases e <;> rfl
  | cons t ts ih =>
    intro v o o' tk b c
    rw [streamLoop, streamLoop]
    cases hk : t.kind <;> cases b <;> simp [streamStep, hk] <;>
      first
        | exact ih _ _ _ _ _ _
        | rfl
        | (by_cases htk : tk = [] <;> simp only [htk, if_true, if_false] <;> exact ih _ _ _ _ _ _)
        | (by_cases htk : c < 1 <;> simp only [htk, if_true, if_false] <;> exact ih _ _ _ _ _ _)

end Gdo
