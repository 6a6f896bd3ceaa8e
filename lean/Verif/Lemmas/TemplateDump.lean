import Verif.Lemmas.Template

/-!
Lemmas about dumping and embedding templates.
-/

namespace Gdo.Tpl
open Gdo

/-! ### Dumping -/

/-- Text of an entry as dumped, without the final newline. -/
def dumpText (d : Str) : Str := d.flatMap fun c => if c = '\n' then str% "@\n" else [c]

theorem dumpText_cons (c : Char) (d : Str) :
    dumpText (c :: d) = (if c = '\n' then str% "@\n" else [c]) ++ dumpText d := by simp [dumpText]

theorem dumpText_flat (d : Str) (h : nlCount d = 0) : dumpText d = d := by
  induction d with
  | nil => rfl
  | cons c d ih =>
    have hc : c ≠ '\n' := by
      rintro rfl
      simp [nlCount] at h
    have hd : nlCount d = 0 := by
      simp [nlCount, hc] at h ⊢
      exact h
    rw [dumpText_cons, if_neg hc, ih hd]; rfl

theorem dumpEntry_eq (e : Entry) (h : Consistent e) : dumpEntry e = dumpText e.data ++ str% "\n" := by
  unfold dumpEntry
  split
  · rename_i h1
    rw [dumpText_flat]
    have := h.1
    omega
  · rfl

theorem readFrom_char (e : Entry) (c : Char) (s : Str) (h : c ≠ '\n') :
    readFrom e (c :: s) = readFrom ⟨e.data ++ [c], e.maybeKeyword || c == '%', e.lineCount⟩ s := by
  rw [readFrom, saveToLine_char e c h]

theorem readFrom_cont (e : Entry) (d s : Str) (h : e.data = d ++ str% "@") :
    readFrom e ('\n' :: s) = readFrom ⟨d ++ str% "\n", e.maybeKeyword, e.lineCount + 1⟩ s := by
  rw [readFrom]
  rcases saveToLine_nl e with ⟨d', h1, h2⟩ | ⟨d', h1, h2⟩ | ⟨h3, h4, h2⟩
  · rw [h2]
    rw [h] at h1
    have := List.append_inj' h1 rfl
    rw [this.1]
  · rw [h] at h1
    have := congrArg List.getLast? h1
    simp at this
  · exact absurd ⟨d, h.symm⟩ h3

theorem readFrom_end (e : Entry) (s : Str) (h1 : ¬ (str% "@") <:+ e.data) (h2 : ¬ (str% "@\r") <:+ e.data) :
    readFrom e ('\n' :: s) = e :: readFrom freshEntry s := by
  rw [readFrom]
  rcases saveToLine_nl e with ⟨d', h3, _⟩ | ⟨d', h3, _⟩ | ⟨_, _, h3⟩
  · exact absurd ⟨d', h3.symm⟩ h1
  · exact absurd ⟨d', h3.symm⟩ h2
  · rw [h3]

theorem readFrom_dumpText (d s : Str) (e : Entry) :
    readFrom e (dumpText d ++ s) =
      readFrom ⟨e.data ++ d, e.maybeKeyword || d.any (· == '%'), e.lineCount + nlCount d⟩ s := by
  induction d generalizing e with
  | nil => simp [dumpText, nlCount]
  | cons c d ih =>
    rw [dumpText_cons]
    by_cases hc : c = '\n'
    · subst hc
      simp only [if_true, List.cons_append, List.nil_append]
      rw [readFrom_char _ _ _ (by decide), readFrom_cont _ e.data _ rfl, ih]
      simp [nlCount]
      congr 2
      omega
    · rw [if_neg hc]
      simp only [List.cons_append, List.nil_append]
      rw [readFrom_char _ _ _ hc, ih]
      simp [nlCount, hc, Bool.or_assoc]

theorem readFrom_dumpEntry (e : Entry) (s : Str) (h : LineEntry e) :
    readFrom freshEntry (dumpEntry e ++ s) = e :: readFrom freshEntry s := by
  obtain ⟨hc, h1, h2⟩ := h
  rw [dumpEntry_eq e hc, List.append_assoc, readFrom_dumpText]
  have : (⟨freshEntry.data ++ e.data, freshEntry.maybeKeyword || e.data.any (· == '%'),
      freshEntry.lineCount + nlCount e.data⟩ : Entry) = e := by
    obtain ⟨d, k, n⟩ := e
    simp only [Consistent] at hc
    simp only [freshEntry, List.nil_append, Bool.false_or, Entry.mk.injEq, true_and]
    refine ⟨?_, by omega⟩
    rw [Bool.eq_iff_iff, hc.2, List.any_eq_true]
    simp
  rw [this]
  exact readFrom_end e s h1 h2

theorem readFrom_dump (es : List Entry) (s : Str) (h : ∀ e ∈ es, LineEntry e) :
    readFrom freshEntry (es.flatMap dumpEntry ++ s) = es ++ readFrom freshEntry s := by
  induction es with
  | nil => simp
  | cons e es ih =>
    simp only [List.flatMap_cons, List.append_assoc]
    rw [readFrom_dumpEntry e _ (h e (by simp)), ih (fun x hx => h x (by simp [hx]))]
    rfl

theorem listEntries_append_terminator (es : List Entry) (h : ∀ e ∈ es, e.lineCount ≠ 0) :
    listEntries (es ++ [terminator]) = es := by
  unfold listEntries
  rw [List.takeWhile_append_of_pos (by intro e he; simpa using h e he)]
  simp [terminator]

/-! ### Embedding -/

theorem foldl_none (t : Str) : t.foldl CLit.step none = none := by
  induction t with
  | nil => rfl
  | cons c t ih => simpa [CLit.step] using ih

theorem hexVal_hexDigit (n : Nat) (h : n < 16) : CLit.hexVal (hexDigit n) = some n := by
  have : ∀ n, n < 16 → CLit.hexVal (hexDigit n) = some n := by decide
  exact this n h

/-- A character that `dump` writes as a hexadecimal escape sequence. -/
def IsHexEsc (c : Char) : Prop :=
  c ≠ '\t' ∧ c ≠ '\n' ∧ c ≠ '\r' ∧ (c.toNat < 32 ∨ c.toNat > 126)

instance (c : Char) : Decidable (IsHexEsc c) := by unfold IsHexEsc; infer_instance

/-- What the decoder makes of a written character, from plain text or, if the
    character is not a hexadecimal digit, from a finished `\x` sequence. -/
theorem step_escChar (out : Str) (c : Char) (hb : c.toNat < 256) (hn : c ≠ '\n') (hr : c ≠ '\r') :
    (escChar c).foldl CLit.step (some (out, .text)) =
      if IsHexEsc c then some (out, .hex c.toNat) else some (out ++ [c], .text) := by
  unfold escChar
  by_cases h1 : c = '\t'
  · subst h1; simp [CLit.step, CLit.plain, IsHexEsc]
  · rw [if_neg h1]
    by_cases h2 : c = '"'
    · subst h2; simp [CLit.step, CLit.plain, IsHexEsc]
    · rw [if_neg h2]
      by_cases h3 : c = '\\'
      · subst h3; simp [CLit.step, CLit.plain, IsHexEsc]
      · rw [if_neg h3]
        by_cases h4 : c.toNat < 32 ∨ c.toNat > 126
        · rw [if_pos h4, if_pos ⟨h1, hn, hr, h4⟩]
          simp only [List.cons_append, List.nil_append, List.foldl_cons, List.foldl_nil]
          rw [show CLit.step (some (out, .text)) '\\' = some (out, .esc) from by simp [CLit.step, CLit.plain]]
          rw [show CLit.step (some (out, .esc)) 'x' = some (out, .hex0) from by simp [CLit.step]]
          rw [show CLit.step (some (out, .hex0)) (hexDigit (c.toNat % 256 / 16)) = some (out, .hex (c.toNat % 256 / 16)) from by
            simp [CLit.step, hexVal_hexDigit _ (show c.toNat % 256 / 16 < 16 by omega)]]
          simp only [CLit.step, hexVal_hexDigit _ (show c.toNat % 16 < 16 by omega)]
          congr 3
          omega
        · rw [if_neg h4, if_neg (by rintro ⟨_, _, _, h⟩; exact h4 h)]
          simp only [List.foldl_cons, List.foldl_nil, CLit.step, CLit.plain]
          rw [if_neg h3, if_neg (by simp [h2, hn, hr])]

/-- The characters that may not directly follow a `\x` sequence. -/
def IsHexDigit (c : Char) : Prop := (CLit.hexVal c).isSome = true

theorem step_hex (out : Str) (v : Nat) (c : Char) (hv : v < 256) (hc : ¬ IsHexDigit c) :
    CLit.step (some (out, .hex v)) c = CLit.step (some (out ++ [Char.ofNat v], .text)) c := by
  have : CLit.hexVal c = none := by
    simpa [IsHexDigit] using hc
  simp only [CLit.step, this, hv, if_true]

/-- The decoder has read `d`; if it ended on a `\x` sequence, then on one for the
    last character of `d`. -/
def Decoded (t d : Str) : Prop :=
  t.foldl CLit.step (some ([], .text)) = some (d, .text) ∨
  ∃ d' c, d = d' ++ [c] ∧ IsHexEsc c ∧ c.toNat < 256 ∧ t.foldl CLit.step (some ([], .text)) = some (d', .hex c.toNat)

theorem decoded_nil : Decoded [] [] := Or.inl rfl

theorem decoded_decode {t d : Str} (h : Decoded t d) : CLit.decode t = some d := by
  unfold CLit.decode
  rcases h with h | ⟨d', c, rfl, _, hc, h⟩
  · rw [h]; rfl
  · rw [h]; simp [CLit.finish, hc]

/-- Decoding goes on with a text that does not begin with a hexadecimal digit. -/
theorem decoded_goOn {t d w : Str} {x : Char} (h : Decoded t d)
    (hw : (∃ c, d.getLast? = some c ∧ IsHexEsc c) → ¬ IsHexDigit x) :
    (t ++ x :: w).foldl CLit.step (some ([], .text)) = (x :: w).foldl CLit.step (some (d, .text)) := by
  rw [List.foldl_append]
  rcases h with h | ⟨d', c, rfl, h1, hc, h⟩
  · rw [h]
  · rw [h, List.foldl_cons, List.foldl_cons, step_hex _ _ _ hc (hw ⟨c, by simp, h1⟩)]
    simp

theorem escChar_head (c : Char) : ∃ x w, escChar c = x :: w ∧ (x = c ∨ x = '\\') := by
  unfold escChar
  split
  · exact ⟨_, _, rfl, Or.inr rfl⟩
  · split
    · exact ⟨_, _, rfl, Or.inr rfl⟩
    · split
      · exact ⟨_, _, rfl, Or.inr rfl⟩
      · split
        · exact ⟨_, _, rfl, Or.inr rfl⟩
        · exact ⟨_, _, rfl, Or.inl rfl⟩

theorem decoded_escChar {t d : Str} {c : Char} (h : Decoded t d) (hb : c.toNat < 256) (hn : c ≠ '\n') (hr : c ≠ '\r')
    (hw : (∃ x, d.getLast? = some x ∧ IsHexEsc x) → ¬ IsHexDigit c) : Decoded (t ++ escChar c) (d ++ [c]) := by
  obtain ⟨x, w, he, hx⟩ := escChar_head c
  have h1 := decoded_goOn (w := w) (x := x) h (by
    intro h2
    rcases hx with rfl | rfl
    · exact hw h2
    · simp [IsHexDigit, CLit.hexVal])
  rw [← he, step_escChar _ _ hb hn hr] at h1
  split at h1
  · rename_i h3
    exact Or.inr ⟨d, c, rfl, h3, hb, h1⟩
  · exact Or.inl h1

theorem decoded_nl {t d : Str} (h : Decoded t d) : Decoded (t ++ str% "\\n") (d ++ str% "\n") := by
  have h1 := decoded_goOn (w := str% "n") (x := '\\') h (by simp [IsHexDigit, CLit.hexVal])
  left
  rw [h1]
  simp [CLit.step, CLit.plain]

/-- No character written as a `\x` sequence is directly followed by a hexadecimal
    digit. -/
def NoHexRun : Str → Prop
  | a :: b :: s => (IsHexEsc a → ¬ IsHexDigit b) ∧ NoHexRun (b :: s)
  | _ => True

theorem decodeAll_append (a b : List Str) :
    CLit.decodeAll (a ++ b) = (do let x ← CLit.decodeAll a; let y ← CLit.decodeAll b; return x ++ y) := by
  induction a with
  | nil => cases h : CLit.decodeAll b <;> simp [CLit.decodeAll, h]
  | cons x a ih =>
    simp only [List.cons_append, CLit.decodeAll, ih]
    cases CLit.decode x <;> cases CLit.decodeAll a <;> cases CLit.decodeAll b <;> simp

/-- The state of `dump` and the entry that `get_lines` has read so far agree. -/
structure Agree (st : EmbedState) (e : Entry) : Prop where
  lits : ∃ f d, CLit.decodeAll st.fin = some f ∧ Decoded st.cur d ∧ e.data = f ++ d
  percent : st.percent = e.maybeKeyword
  count : st.count + 1 = e.lineCount
  noNul : '\x00' ∉ e.data

theorem agree_init : Agree .init freshEntry where
  lits := ⟨[], [], rfl, decoded_nil, rfl⟩
  percent := rfl
  count := rfl
  noNul := by simp [freshEntry]

theorem cString_eq {s : Str} (h : '\x00' ∉ s) : CLit.cString s = s := by
  unfold CLit.cString
  have := List.takeWhile_append_of_pos (p := fun x => x != '\x00') (l₁ := s) (l₂ := []) (by
    intro x hx
    simp only [bne_iff_ne, ne_eq]
    rintro rfl
    exact h hx)
  simpa using this

theorem agree_close {st : EmbedState} {e : Entry} (h : Agree st e) : compiled st.close = some e := by
  obtain ⟨f, d, h1, h2, h3⟩ := h.lits
  unfold compiled EmbedState.close
  simp only
  have : CLit.decodeAll [st.cur] = some d := by
    simp [CLit.decodeAll, decoded_decode h2]
  rw [decodeAll_append, h1, this]
  have hn := h.noNul
  rw [h3] at hn
  simp only [Option.pure_def, Option.bind_eq_bind, Option.bind_some, Option.map_some, Option.some.injEq]
  rw [cString_eq hn, ← h3, h.percent, h.count]

/-- The last character read before the rest of the text, if it is in the current
    literal. -/
theorem agree_put {st : EmbedState} {e : Entry} {c : Char} (h : Agree st e) (hb : c.toNat < 256) (hn : c ≠ '\n')
    (hr : c ≠ '\r') (h0 : c ≠ '\x00') (hw : (∃ x, e.data.getLast? = some x ∧ IsHexEsc x) → ¬ IsHexDigit c) :
    Agree { st.put (escChar c) with percent := st.percent || c == '%' }
      ⟨e.data ++ [c], e.maybeKeyword || c == '%', e.lineCount⟩ := by
  obtain ⟨f, d, h1, h2, h3⟩ := h.lits
  refine ⟨⟨f, d ++ [c], h1, ?_, by simp [h3]⟩, by simp [h.percent], h.count, ?_⟩
  · refine decoded_escChar h2 hb hn hr ?_
    rintro ⟨x, hx, hx2⟩
    refine hw ⟨x, ?_, hx2⟩
    rw [h3, List.getLast?_append, hx]; rfl
  · simp only [List.mem_append, List.mem_singleton, not_or]
    exact ⟨h.noNul, fun h => h0 h.symm⟩

theorem agree_cont {st : EmbedState} {e : Entry} (h : Agree st e) :
    Agree st.cont ⟨e.data ++ str% "\n", e.maybeKeyword, e.lineCount + 1⟩ := by
  obtain ⟨f, d, h1, h2, h3⟩ := h.lits
  refine ⟨⟨f ++ (d ++ str% "\n"), [], ?_, decoded_nil, by simp [h3]⟩, h.percent, ?_, ?_⟩
  · have : CLit.decodeAll [st.cur ++ str% "\\n"] = some (d ++ str% "\n") := by
      simp [CLit.decodeAll, decoded_decode (decoded_nl h2)]
    simp only [EmbedState.cont]
    rw [decodeAll_append, h1, this]
    rfl
  · have := h.count
    simp only [EmbedState.cont]
    omega
  · simp only [List.mem_append, List.mem_singleton, not_or]
    exact ⟨h.noNul, by decide⟩

/-- The texts for which embedding is right: bytes other than NUL and CR, no `\x`
    sequence followed by a hexadecimal digit. -/
structure Embeddable (s : Str) : Prop where
  bytes : ∀ c ∈ s, c.toNat < 256
  noNul : '\x00' ∉ s
  noCr : '\r' ∉ s
  noRun : NoHexRun s

theorem Embeddable.tail {c : Char} {s : Str} (h : Embeddable (c :: s)) : Embeddable s where
  bytes := fun x hx => h.bytes x (by simp [hx])
  noNul := fun hx => h.noNul (by simp [hx])
  noCr := fun hx => h.noCr (by simp [hx])
  noRun := by
    have := h.noRun
    cases s with
    | nil => trivial
    | cons b s => exact this.2

theorem embedLoop_plain (st : EmbedState) (c : Char) (s : Str) (h1 : c ≠ '\n') (h2 : c ≠ '\r')
    (h3 : c = '@' → ∃ x s', s = x :: s' ∧ x ≠ '\n' ∧ x ≠ '\r') :
    embedLoop st (c :: s) = embedLoop { st.put (escChar c) with percent := st.percent || c == '%' } s := by
  by_cases ha : c = '@'
  · obtain ⟨x, s', rfl, h4, h5⟩ := h3 ha
    subst ha
    rw [embedLoop]
    · simp [EmbedState.put, escChar]
    · intro s h; simp at h; exact absurd h.1 h5
    · intro s h; simp at h; exact absurd h.1 h5
    · intro s h; simp at h; exact absurd h.1 h4
    · simp
  · by_cases hp : c = '%'
    · subst hp
      rw [embedLoop]
      simp [EmbedState.put, escChar]
    · rw [embedLoop]
      · have : (c == '%') = false := by simpa using hp
        simp [EmbedState.put, this]
      all_goals simp_all

/-- The text ends with a newline that is not continued. -/
def EndsLine (s : Str) : Prop := (str% "\n") <:+ s ∧ ¬ (str% "@\n") <:+ s

theorem endsLine_nil : ¬ EndsLine [] := by simp [EndsLine]

theorem endsLine_cons (c : Char) (s : Str) (h : s ≠ []) (h2 : ¬ (c = '@' ∧ s = str% "\n")) :
    EndsLine (c :: s) ↔ EndsLine s := by
  unfold EndsLine
  have h3 : (str% "\n") <:+ (c :: s) ↔ (str% "\n") <:+ s := by
    rw [List.suffix_cons_iff]
    constructor
    · rintro (h' | h')
      · simp at h'; exact absurd h'.2 h
      · exact h'
    · exact Or.inr
  have h4 : (str% "@\n") <:+ (c :: s) ↔ (str% "@\n") <:+ s := by
    rw [List.suffix_cons_iff]
    constructor
    · rintro (h | h)
      · simp at h; exact absurd ⟨h.1.symm, h.2.symm⟩ h2
      · exact h
    · exact Or.inr
  rw [h3, h4]

theorem compiledAll_cons {l : LitEntry} {ls : List LitEntry} {x : Entry} {xs : List Entry}
    (h1 : compiled l = some x) (h2 : compiledAll ls = some xs) : compiledAll (l :: ls) = some (x :: xs) := by
  simp [compiledAll, h1, h2]

/-- Embedding and reading give the same, but for the empty entry that reading a
    text with a final newline ends with. -/
theorem embed_read (n : Nat) (s : Str) (st : EmbedState) (e : Entry) (hlen : s.length ≤ n) (ha : Agree st e)
    (hs : Embeddable s) (hat : s.getLast? ≠ some '@')
    (hat2 : e.data.getLast? = some '@' → ∃ x s', s = x :: s' ∧ x ≠ '\n') (hcr : '\r' ∉ e.data)
    (hnl : st.newLine = true → e = freshEntry)
    (hw : ∀ a b s', e.data.getLast? = some a → s = b :: s' → IsHexEsc a → ¬ IsHexDigit b) :
    ∃ es, compiledAll (embedLoop st s) = some es ∧
      ((s = [] ∧ st.newLine = true) ∨ EndsLine s → readFrom e s = es ++ [freshEntry]) ∧
      (¬ ((s = [] ∧ st.newLine = true) ∨ EndsLine s) → readFrom e s = es) := by
  induction n generalizing s st e with
  | zero =>
    have : s = [] := List.eq_nil_of_length_eq_zero (by omega)
    subst this
    have h1 : e.data.getLast? ≠ some '@' := fun h => by
      obtain ⟨x, s', h, _⟩ := hat2 h; simp at h
    have h2 : readFrom e [] = [e] := by
      rw [readFrom, saveToLine_eof]
      unfold deleteSuffix
      rw [if_neg (by rw [List.isSuffixOf_iff_suffix, suffix_char]; exact h1)]
    rw [h2, embedLoop]
    cases hn : st.newLine with
    | true =>
      refine ⟨[], rfl, ?_, ?_⟩
      · intro _; rw [hnl hn]; rfl
      · intro h; simp at h
    | false =>
      refine ⟨[e], ?_, ?_, ?_⟩
      · exact compiledAll_cons (agree_close ha) rfl
      · simp [EndsLine]
      · intro _; rfl
  | succ n ih =>
    cases s with
    | nil =>
      exact ih [] st e (by simp) ha hs hat hat2 hcr hnl hw
    | cons c s =>
      have hlen' : s.length ≤ n := by simpa using hlen
      have hcr' : c ≠ '\r' := fun h => hs.noCr (by simp [h])
      have hgl : s ≠ [] → s.getLast? ≠ some '@' := by
        intro h
        cases s with
        | nil => simp at h
        | cons a s => simpa [List.getLast?_cons_cons] using hat
      have hgl' : s.getLast? ≠ some '@' := by
        cases s with
        | nil => simp
        | cons a s => exact hgl (by simp)
      have hnil : ((c :: s) = [] ∧ st.newLine = true) ↔ False := by simp
      rw [hnil, false_or]
      by_cases hc : c = '\n'
      · subst hc
        have h1 : ¬ (str% "@") <:+ e.data := by
          rw [suffix_char]
          intro h
          obtain ⟨x, s', h, h'⟩ := hat2 h
          simp at h
          exact h' h.1.symm
        have h2 : ¬ (str% "@\r") <:+ e.data := by
          rintro ⟨d, hd⟩
          exact hcr (by rw [← hd]; simp)
        rw [readFrom_end _ _ h1 h2, embedLoop]
        obtain ⟨es, h3, h4, h5⟩ := ih s .init freshEntry hlen' agree_init hs.tail hgl' (by simp [freshEntry])
          (by simp [freshEntry]) (fun _ => rfl) (by simp [freshEntry])
        refine ⟨e :: es, compiledAll_cons (agree_close ha) h3, ?_, ?_⟩
        · intro h
          rw [h4]
          · simp
          · by_cases hs0 : s = []
            · exact Or.inl ⟨hs0, rfl⟩
            · exact Or.inr ((endsLine_cons _ _ hs0 (by simp)).mp h)
        · intro h
          rw [h5]
          rintro (⟨rfl, _⟩ | h')
          · exact h (by simp [EndsLine, List.suffix_cons_iff])
          · have hs0 : s ≠ [] := by rintro rfl; exact endsLine_nil h'
            exact h ((endsLine_cons _ _ hs0 (by simp)).mpr h')
      · by_cases hcont : ∃ s', c = '@' ∧ s = '\n' :: s'
        · obtain ⟨s', rfl, rfl⟩ := hcont
          rw [readFrom_char _ _ _ (by decide), readFrom_cont _ e.data _ rfl]
          have he : embedLoop st ('@' :: '\n' :: s') = embedLoop st.cont s' := by rw [embedLoop]
          rw [he]
          have hg : s'.getLast? ≠ some '@' := by
            cases s' with
            | nil => simp
            | cons a s => simpa [List.getLast?_cons_cons] using hgl'
          have hmk : (e.maybeKeyword || '@' == '%') = e.maybeKeyword := by simp
          rw [hmk]
          obtain ⟨es, h3, h4, h5⟩ := ih s' st.cont ⟨e.data ++ str% "\n", e.maybeKeyword, e.lineCount + 1⟩
            (by simp at hlen'; omega) (agree_cont ha) hs.tail.tail hg (by simp) (by simp [hcr])
            (by simp [EmbedState.cont]) (by
              intro a b s2 h6 _ h7
              simp at h6
              subst h6
              simp [IsHexEsc] at h7)
          refine ⟨es, h3, ?_, ?_⟩
          · intro h
            apply h4
            by_cases hs0 : s' = []
            · subst hs0
              exact absurd (List.suffix_refl _) h.2
            · right
              rw [endsLine_cons _ _ (by simp) (by simp [hs0]), endsLine_cons _ _ hs0 (by simp)] at h
              exact h
          · intro h
            apply h5
            rintro (⟨rfl, h'⟩ | h')
            · simp [EmbedState.cont] at h'
            · have hs0 : s' ≠ [] := by rintro rfl; exact endsLine_nil h'
              apply h
              rw [endsLine_cons _ _ (by simp) (by simp [hs0]), endsLine_cons _ _ hs0 (by simp)]
              exact h'
        · rw [readFrom_char _ _ _ hc]
          have hat3 : c = '@' → ∃ x s', s = x :: s' ∧ x ≠ '\n' ∧ x ≠ '\r' := by
            rintro rfl
            cases s with
            | nil => simp at hat
            | cons x s' =>
              refine ⟨x, s', rfl, ?_, ?_⟩
              · rintro rfl; exact hcont ⟨s', rfl, rfl⟩
              · rintro rfl; exact hs.noCr (by simp)
          rw [embedLoop_plain _ _ _ hc hcr' hat3]
          have hag := agree_put ha (hs.bytes c (by simp)) hc hcr' (fun h => hs.noNul (by simp [h])) (by
            rintro ⟨x, hx, hx2⟩
            exact hw x c s hx rfl hx2)
          obtain ⟨es, h3, h4, h5⟩ := ih s _ _ hlen' hag hs.tail hgl' (by
              intro h
              simp at h
              obtain ⟨x, s', h1, h2, _⟩ := hat3 h
              exact ⟨x, s', h1, h2⟩) (by
              simp only [List.mem_append, List.mem_singleton, not_or]
              exact ⟨hcr, fun h => hcr' h.symm⟩) (by simp [EmbedState.put]) (by
              intro a b s' h6 h7 h8
              simp at h6
              subst h6 h7
              exact hs.noRun.1 h8)
          have hiff : EndsLine (c :: s) ↔ EndsLine s := by
            by_cases hs0 : s = []
            · subst hs0
              simp [EndsLine, List.suffix_cons_iff, Ne.symm hc]
            · exact endsLine_cons _ _ hs0 (by rintro ⟨h, h'⟩; exact hcont ⟨[], h, h'⟩)
          refine ⟨es, h3, ?_, ?_⟩
          · intro h
            exact h4 (Or.inr (hiff.mp h))
          · intro h
            apply h5
            rintro (⟨_, h'⟩ | h')
            · simp [EmbedState.put] at h'
            · exact h (hiff.mpr h')

end Gdo.Tpl
