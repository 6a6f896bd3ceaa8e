import Verif.Lemmas.ScanError

/-! Properties of the error messages of the scanner (C82). -/

namespace Gdo.Props
open Gdo Lex Spec

/-- **C82** Reading a file fails exactly when there is an error to report. -/
theorem C82_reported (ro : Bool) (s : Str) : (tokenizeStream ro s).2.2 = .error ↔ scanError ro s ≠ none := by
  have h := runLines_forget {} s
  have he : (runLines {} s).2 ≠ .echo := by
    have := run_not_echo {} s
    rw [h] at this
    exact this
  unfold tokenizeStream scanError
  rw [h]
  exact scanLoop_iff ro he _ _

/-- **C82** The reported character is in the file, on the reported line, and it is a curly
    bracket, an equals sign or a character that belongs to no declaration. -/
theorem C82_located (ro : Bool) (s : Str) (c : Char) (l : Nat) (h : scanError ro s = some (.illegal c l)) :
    ∃ pre post, s = pre ++ c :: post ∧ l = 1 + pre.count '\n' ∧ (c ∈ ['{', '}', '='] ∨ Foreign c) := by
  have hat := runLinesFuel_at (s.length + 1) {} [] s ⟨rfl, fun _ => Or.inl rfl⟩
  unfold scanError at h
  rcases scanLoop_source ro _ _ h with ⟨c', l', he, hx⟩ | ⟨l', -, hx⟩ | ⟨y, hy, hk, hx⟩
  · cases hx
    have h2 := hat.2
    change (runLinesFuel _ _ _).2 = _ at he
    rw [he] at h2
    obtain ⟨pre, post, h1, h2, h3⟩ := h2
    exact ⟨pre, post, h1, h2, Or.inr h3⟩
  · cases hx
  · cases hx
    obtain ⟨pre, post, h1, h2, -, o1, o2, o3⟩ := hat.1 y hy
    rw [List.nil_append] at h1
    have key : ∀ x : Char, x ∈ ['{', '}', '='] → y.1.text = [x] →
        ∃ pre post, s = pre ++ strFront y.1.text :: post ∧ y.2 = 1 + pre.count '\n' ∧ (strFront y.1.text ∈ ['{', '}', '='] ∨ Foreign (strFront y.1.text)) := by
      intro x hx ht
      rw [ht] at h1 h2 ⊢
      refine ⟨pre, post, by rw [h1]; simp [strFront], ?_, Or.inl hx⟩
      have : x ≠ '\n' := by rintro rfl; exact absurd hx (by decide)
      rw [h2]
      simp [nlCount, this]
    rcases hk with hk | hk | hk
    · exact key '{' (by simp) (o1 hk)
    · exact key '}' (by simp) (o2 hk)
    · exact key '=' (by simp) (o3 hk)

/-- **C82** The reported beginning of a dump is in the file, in the first column of the
    reported line, which is not the first line. -/
theorem C82_dump (ro : Bool) (s : Str) (l : Nat) (h : scanError ro s = some (.notFirst l)) :
    ∃ pre post, s = pre ++ post ∧ pre.getLast? = some '\n' ∧ DumpLine post ∧ l = 1 + pre.count '\n' := by
  have hat := runLinesFuel_at (s.length + 1) {} [] s ⟨rfl, fun _ => Or.inl rfl⟩
  unfold scanError at h
  rcases scanLoop_source ro _ _ h with ⟨c', l', -, hx⟩ | ⟨l', he, hx⟩ | ⟨y, -, -, hx⟩
  · cases hx
  · cases hx
    have h2 := hat.2
    change (runLinesFuel _ _ _).2 = _ at he
    rw [he] at h2
    obtain ⟨pre, post, n, h1, hb, hp, hl, h0⟩ := h2
    obtain ⟨hd, hn⟩ := astBegin_cut hp
    rw [nlCount_append, hn, Nat.add_zero] at hl
    refine ⟨pre, post, h1, ?_, hd, hl⟩
    rcases hb with rfl | hb
    · exact absurd hl h0
    · exact hb
  · cases hx

/-- **C82** The first foreign character behind text that can be read is reported, with the
    number of its line, whatever follows. -/
theorem C82_first (ro : Bool) (ps : List Piece) (hs : Source ps) (hok : (tokenizeStream ro (render ps)).2.2 = .eof)
    (c : Char) (rest : Str) (hc : Lone c rest) :
    scanError ro (render ps ++ c :: rest) = some (.illegal c (1 + (render ps).count '\n')) := by
  have h1 := run_source_tail (c :: rest) hc.quiet ps.length ps (Nat.le_refl _) {} rfl hs.1 hs.2.1 hs.2.2
  have hline : (({} : State).behind (render ps)).line = 1 + (render ps).count '\n' ∧ (({} : State).behind (render ps)).cond = .initial := by
    unfold State.behind
    split
    · rename_i he; rw [he]; exact ⟨rfl, rfl⟩
    · exact ⟨rfl, rfl⟩
  rw [run_lone hline.2 hc, List.append_nil, hline.1] at h1
  have h2 := run_source ps.length ps (Nat.le_refl _) {} rfl hs.1 hs.2.1 hs.2.2
  have h3 := runLines_forget {} (render ps ++ c :: rest)
  rw [h1] at h3
  simp only [Prod.mk.injEq] at h3
  unfold scanError
  unfold tokenizeStream at hok
  rw [h2, h3.1] at hok
  show scanLoop ro _ (runLines {} (render ps ++ c :: rest)).2 {} = _
  rw [← h3.2]
  exact scanLoop_accepted ro c _ _ _ hok

/-- A header with an at sign in the third line. -/
example : ∃ ps : List Piece, Source ps ∧ render ps = str% "int f(void);\n/* one */\nint g" ∧
    (tokenizeStream true (render ps)).2.2 = .eof ∧ Lone '@' (str% "(void);\n") ∧
    scanError true (render ps ++ str% "@(void);\n") = some (.illegal '@' 3) := by
  refine ⟨[.word (str% "int"), .space ' ', .word (str% "f"), .punct '(', .word (str% "void"), .punct ')', .punct ';', .space '\n',
    .cComment (str% " one "), .space '\n', .word (str% "int"), .space ' ', .word (str% "g")], ?_, rfl, rfl, ?_, rfl⟩
  · refine ⟨?_, by simp [Separated], by simp [Placed]⟩
    intro p hp
    simp only [List.mem_cons, List.not_mem_nil, or_false] at hp
    rcases hp with rfl | rfl | rfl | rfl | rfl | rfl | rfl | rfl | rfl | rfl | rfl | rfl | rfl
    all_goals first
      | exact commentBody_of (by decide) (by decide)
      | exact ⟨by decide, by decide, by decide⟩
      | rfl
      | (simp [Piece.Valid]; done)
  · refine ⟨⟨rfl, rfl, by decide⟩, by decide, ?_, ?_⟩ <;> intro h <;> exact absurd h (by decide)

/-- A slash that begins no comment, an equals sign, a dump in the second line. -/
example : scanError true (str% "int a\n/ 2;") = some (.illegal '/' 2) ∧ scanError true (str% "\n\nint a = 1;") = some (.illegal '=' 3) ∧
    scanError true (str% "\nTranslationUnitDecl 0x1") = some (.notFirst 2) := ⟨rfl, rfl, rfl⟩

/-! ### The text -/

/-- **C82** The message of a printable character and that of any other byte. -/
theorem C82_text_partial (signed : Bool) (c : Char) (l : Nat) (h : c.toNat < 128) :
    (ScanErr.illegal c l).text signed =
      some (if 33 ≤ c.toNat ∧ c.toNat ≤ 126 then str% "illegal character [" ++ c :: (str% "] at line " ++ natDigits l)
        else str% "illegal character [0x" ++ hexByte c ++ str% "] at line " ++ natDigits l) := by
  have hg : isGraph c = true ↔ 33 ≤ c.toNat ∧ c.toNat ≤ 126 := by
    simp only [isGraph, Bool.and_eq_true, decide_eq_true_eq]
    exact Iff.rfl
  have h1 : (ScanErr.illegal c l).text signed =
      if signed ∧ 128 ≤ c.toNat then none
      else if isGraph c then some (str% "illegal character [" ++ [c] ++ str% "] at line " ++ natDigits l)
      else some (str% "illegal character [0x" ++ hexByte c ++ str% "] at line " ++ natDigits l) := rfl
  have h2 : ¬((signed : Prop) ∧ 128 ≤ c.toNat) := by rintro ⟨-, h'⟩; omega
  rw [h1, if_neg h2]
  by_cases hc : 33 ≤ c.toNat ∧ c.toNat ≤ 126
  · rw [if_pos (hg.mpr hc), if_pos hc]
    rfl
  · rw [if_neg (fun h => hc (hg.mp h)), if_neg hc]

/-- **C82** The two hexadecimal digits of a byte. -/
theorem C82_hex : hexByte '\x00' = str% "00" ∧ hexByte '\x09' = str% "09" ∧ hexByte '\x7f' = str% "7F" ∧ hexByte '\xff' = str% "FF" ∧
    ∀ c d : Char, c.toNat < 256 → d.toNat < 256 → hexByte c = hexByte d → c = d := by
  refine ⟨rfl, rfl, rfl, rfl, ?_⟩
  have dig : ∀ m n : Nat, m < 16 → n < 16 → (if m < 10 then Char.ofNat (48 + m) else Char.ofNat (55 + m)) =
      (if n < 10 then Char.ofNat (48 + n) else Char.ofNat (55 + n)) → m = n := by
    have : ∀ m : Fin 16, ∀ n : Fin 16, (if m.val < 10 then Char.ofNat (48 + m.val) else Char.ofNat (55 + m.val)) =
      (if n.val < 10 then Char.ofNat (48 + n.val) else Char.ofNat (55 + n.val)) → m.val = n.val := by decide
    exact fun m n hm hn => this ⟨m, hm⟩ ⟨n, hn⟩
  intro c d hc hd h
  unfold hexByte at h
  simp only [List.cons.injEq, and_true] at h
  have h1 := dig _ _ (by omega) (by omega) h.1
  have h2 := dig _ _ (by omega) (by omega) h.2
  have : c.toNat = d.toNat := by omega
  exact Char.ext (UInt32.toNat_inj.mp this)

theorem natDigits_inj {m n : Nat} (h : natDigits m = natDigits n) : m = n := by
  have h1 := Nat.ofDigitChars_toDigits (b := 10) (n := m) (by omega) (by omega)
  have h2 := Nat.ofDigitChars_toDigits (b := 10) (n := n) (by omega) (by omega)
  unfold natDigits at h
  rw [h] at h1
  exact h1.symm.trans h2

/-- **C82** Different errors have different messages. -/
theorem C82_distinct (signed : Bool) (x y : ScanErr) (t : Str) (hx : ∀ c l, x = .illegal c l → c.toNat < 256)
    (hy : ∀ c l, y = .illegal c l → c.toNat < 256) (h1 : x.text signed = some t) (h2 : y.text signed = some t) : x = y := by
  have first : ∀ c l n, (ScanErr.illegal c l).text signed = some t → (ScanErr.notFirst n).text signed = some t → False := by
    intro c l n h1 h2
    simp only [ScanErr.text, Option.some.injEq] at h1 h2
    subst h2
    split at h1
    · cases h1
    · split at h1
      · simp at h1
      · simp at h1
  cases x with
  | notFirst l =>
    cases y with
    | notFirst k =>
      simp only [ScanErr.text, Option.some.injEq] at h1 h2
      rw [← h2] at h1
      have := List.append_cancel_left (List.append_cancel_right h1)
      rw [natDigits_inj this]
    | illegal d k => exact (first _ _ _ h2 h1).elim
  | illegal c l =>
    cases y with
    | notFirst k => exact (first _ _ _ h1 h2).elim
    | illegal d k =>
      simp only [ScanErr.text] at h1 h2
      split at h1
      · cases h1
      split at h2
      · cases h2
      split at h1 <;> split at h2
      · simp only [Option.some.injEq] at h1 h2
        rw [← h2] at h1
        simp only [List.cons_append, List.nil_append, List.cons.injEq, true_and] at h1
        rw [natDigits_inj h1.2, h1.1]
      · simp only [Option.some.injEq] at h1 h2
        rw [← h2] at h1
        simp at h1
      · simp only [Option.some.injEq] at h1 h2
        rw [← h2] at h1
        simp at h1
      · simp only [Option.some.injEq] at h1 h2
        rw [← h2] at h1
        simp only [List.append_assoc, List.append_cancel_left_eq] at h1
        obtain ⟨e1, e2⟩ := List.append_inj h1 rfl
        rw [C82_hex.2.2.2.2 c d (hx _ _ rfl) (hy _ _ rfl) e1]
        simp only [List.append_cancel_left_eq] at e2
        rw [natDigits_inj e2]

/-- **C82** The message fits into the buffer of 128 characters as long as `yylineno` is a
    32 bit number. -/
theorem C82_fits (signed : Bool) (x : ScanErr) (t : Str) (hl : ∀ l, (∃ c, x = .illegal c l) ∨ x = .notFirst l → l < 2 ^ 31)
    (h : x.text signed = some t) : t.length < 128 := by
  have key : ∀ l : Nat, l < 2 ^ 31 → (natDigits l).length ≤ 10 := by
    intro l hl
    exact (Nat.length_toDigits_le_iff (by omega) (by omega)).mpr (by omega)
  cases x with
  | notFirst l =>
    have := key l (hl l (Or.inr rfl))
    simp only [ScanErr.text, Option.some.injEq] at h
    subst h
    simp
    omega
  | illegal c l =>
    have := key l (hl l (Or.inl ⟨c, rfl⟩))
    simp only [ScanErr.text] at h
    split at h
    · cases h
    split at h <;> simp only [Option.some.injEq] at h <;> subst h <;> simp [hexByte] <;> omega

/-- **C82** Where `char` is signed, there is a header with a byte above 127 (an accented letter
    in UTF-8) whose message cannot be composed: the argument of `isgraph` is negative, which
    is undefined behaviour. -/
theorem C82_violated : ∃ (s : Str) (x : ScanErr), (∀ c ∈ s, c.toNat < 256) ∧ scanError true s = some x ∧
    x.text true = none ∧ x.text false = some (str% "illegal character [0xC3] at line 2") := by
  refine ⟨str% "int f(void);\nint cafÃ©(void);\n", .illegal '\xc3' 2, by decide, rfl, rfl, rfl⟩

/-- The messages. -/
example : (ScanErr.illegal '@' 12).text true = some (str% "illegal character [@] at line 12") ∧
    (ScanErr.illegal '\x01' 3).text true = some (str% "illegal character [0x01] at line 3") ∧
    (ScanErr.notFirst 2).text true = some (str% "begin of Clang AST found at line 2 instead of line 1") := ⟨rfl, rfl, rfl⟩

end Gdo.Props
