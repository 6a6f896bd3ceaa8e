import Verif.Lemmas.GenerateText
import Verif.Props.Generate
import Verif.Spec.CLiteral

/-!
Properties C36, C40, C41 and C62: library names, definitions, header guards and `#line`
directives.
-/

namespace Gdo.Gen
open Gdo Tpl Opt GenSpec Sub

/-! ### C36 -/

theorem quoted_iff (s : Str) : (s.length ≥ 2 ∧ frontAndBack s (str% "\"") (str% "\"") = true) ↔ Quoted s := by
  unfold frontAndBack
  simp only [Bool.and_eq_true, List.isPrefixOf_iff_prefix, List.isSuffixOf_iff_suffix]
  constructor
  · rintro ⟨hl, ⟨a, rfl⟩, ⟨b, hb⟩⟩
    cases b with
    | nil =>
      simp at hb
      subst hb
      simp at hl
    | cons c b =>
      simp only [List.cons_append, List.nil_append, List.cons.injEq] at hb
      exact ⟨b, by simp [hb.2]⟩
  · rintro ⟨x, rfl⟩
    refine ⟨by simp, ⟨x ++ str% "\"", by simp⟩, ⟨str% "\"" ++ x, by simp⟩⟩

theorem wide_iff (s : Str) : (s.length ≥ 3 ∧ frontAndBack s (str% "L\"") (str% "\"") = true) ↔ WideQuoted s := by
  unfold frontAndBack
  simp only [Bool.and_eq_true, List.isPrefixOf_iff_prefix, List.isSuffixOf_iff_suffix]
  constructor
  · rintro ⟨hl, ⟨a, rfl⟩, ⟨b, hb⟩⟩
    rcases b with _ | ⟨c, _ | ⟨d, b⟩⟩
    · simp at hb
    · simp only [List.cons_append, List.nil_append, List.cons.injEq] at hb
      rw [← hb.2.2] at hl
      simp at hl
    · simp only [List.cons_append, List.nil_append, List.cons.injEq] at hb
      exact ⟨b, by simp [hb.2.2]⟩
  · rintro ⟨x, rfl⟩
    refine ⟨by simp, ⟨x ++ str% "\"", by simp⟩, ⟨str% "L\"" ++ x, by simp⟩⟩

theorem quoteLib_literal {s a w : Str} (h : Literal s a w) : quoteLib s false = a ∧ quoteLib s true = w := by
  unfold quoteLib
  simp only [Bool.false_eq_true, if_false, if_true]
  cases h with
  | plain h1 h2 => exact ⟨if_neg (mt (quoted_iff s).mp h1), by rw [if_neg (mt (wide_iff s).mp h2), if_neg (mt (quoted_iff s).mp h1)]⟩
  | quoted h1 =>
    have h2 : ¬ WideQuoted s := by
      rintro ⟨x, hx⟩
      obtain ⟨y, hy⟩ := h1
      rw [hx] at hy
      simp at hy
    exact ⟨if_pos ((quoted_iff s).mpr h1), by rw [if_neg (mt (wide_iff s).mp h2), if_pos ((quoted_iff s).mpr h1)]⟩

/-- A name that begins with one of these letters is taken for a mode. -/
def ModeLetter (c : Char) : Prop := c = 'N' ∨ c = 'n' ∨ c = 'E' ∨ c = 'e' ∨ c = 'A' ∨ c = 'a'

theorem mode_iff (mode s : Str) (hm : mode.map toLowerC = mode) : prefixedAndLongerCase s mode = true ↔ HasMode mode s := by
  unfold prefixedAndLongerCase eqCase
  simp only [Bool.and_eq_true, decide_eq_true_eq, beq_iff_eq, hm]
  constructor
  · rintro ⟨h1, h2⟩
    refine ⟨s.take mode.length, s.drop mode.length, (List.take_append_drop _ _).symm, h2, ?_⟩
    intro h
    have := congrArg List.length h
    simp at this
    omega
  · rintro ⟨m, x, rfl, h1, h2⟩
    have hl : m.length = mode.length := by rw [← h1]; simp
    have := List.length_pos_iff.mpr h2
    refine ⟨by simp; omega, ?_⟩
    rw [← hl, List.take_left]
    exact h1

theorem upper_mem {c : Char} (h : isUpper c = true) : c ∈ (str% "ABCDEFGHIJKLMNOPQRSTUVWXYZ") := by
  unfold isUpper at h
  simp only [Bool.and_eq_true, decide_eq_true_eq, Char.le_def, UInt32.le_iff_toNat_le] at h
  have key : ∀ k : Fin 26, Char.ofNat (65 + k) ∈ (str% "ABCDEFGHIJKLMNOPQRSTUVWXYZ") := by decide
  have h1 : 65 ≤ c.toNat := h.1
  have h2 : c.toNat ≤ 90 := h.2
  have := key ⟨c.toNat - 65, by omega⟩
  rw [show 65 + ((⟨c.toNat - 65, by omega⟩ : Fin 26) : Nat) = c.toNat by show 65 + (c.toNat - 65) = _; omega, Char.ofNat_toNat] at this
  exact this

/-- The letters that a lower case letter stands for. -/
theorem lower_iff (c : Char) :
    (toLowerC c = 'n' ↔ c = 'N' ∨ c = 'n') ∧ (toLowerC c = 'e' ↔ c = 'E' ∨ c = 'e') ∧ (toLowerC c = 'a' ↔ c = 'A' ∨ c = 'a') := by
  cases hu : isUpper c with
  | true =>
    have hall : ∀ c ∈ (str% "ABCDEFGHIJKLMNOPQRSTUVWXYZ"),
        (toLowerC c = 'n' ↔ c = 'N' ∨ c = 'n') ∧ (toLowerC c = 'e' ↔ c = 'E' ∨ c = 'e') ∧ (toLowerC c = 'a' ↔ c = 'A' ∨ c = 'a') := by decide
    exact hall c (upper_mem hu)
  | false =>
    have h1 : c ≠ 'N' := by rintro rfl; revert hu; decide
    have h2 : c ≠ 'E' := by rintro rfl; revert hu; decide
    have h3 : c ≠ 'A' := by rintro rfl; revert hu; decide
    simp [toLowerC, hu, h1, h2, h3]

theorem mode_head {mode s : Str} {d : Char} {ms : Str} (hmode : mode = d :: ms) (h : HasMode mode s) : ∃ c r, s = c :: r ∧ toLowerC c = d := by
  obtain ⟨m, x, rfl, h1, _⟩ := h
  rw [hmode] at h1
  cases m with
  | nil => simp at h1
  | cons c m =>
    simp only [List.map_cons, List.cons.injEq] at h1
    exact ⟨c, m ++ x, rfl, h1.1⟩

theorem splitColon_eq {v x : Str} (hv : ':' ∉ v) (hn : ∀ c ∈ v ++ str% ":" ++ x, c ≠ '\n' ∧ c ≠ '\r') :
    splitColon (v ++ str% ":" ++ x) = some (v, x) := by
  unfold splitColon
  rw [if_neg ?_]
  · apply splitFirst_eq
    intro p q h
    by_cases hl : v.length ≤ p.length
    · exact hl
    · exfalso
      rw [List.append_assoc, List.append_assoc] at h
      have h1 := congrArg (fun l : Str => l[p.length]?) h
      simp only [List.getElem?_append_left (Nat.lt_of_not_le hl), List.getElem?_append_right (Nat.le_refl _)] at h1
      simp at h1
      exact hv (List.mem_of_getElem? h1)
  · simp only [List.any_eq_true, not_exists, not_and]
    intro c hc
    have := hn c hc
    simp [this.1, this.2]

/-- What the tool does with a library name, except for the names that it loses and for
    wide string literals. -/
theorem C36_partial (u s a w : Str) (h : Library u s a w) (hne : s ≠ []) (hn : ∀ c ∈ s, c ≠ '\n' ∧ c ≠ '\r')
    (hmode : ∀ c r, s = c :: r → ModeLetter c → HasMode (str% "nq:") s ∨ HasMode (str% "ext:") s ∨ HasMode (str% "api:") s) :
    formatLibname s u = libraryDefines u a w := by
  suffices h : libTexts s u = some (a, w) by
    unfold formatLibname
    rw [h]
    rfl
  cases h with
  | plain h1 h2 h3 hl =>
    obtain ⟨c, r, rfl⟩ := List.exists_cons_of_ne_nil hne
    have hc : ¬ ModeLetter c := fun hc => by
      rcases hmode c r rfl hc with h | h | h
      · exact h1 h
      · exact h2 h
      · exact h3 h
    unfold ModeLetter at hc
    obtain ⟨hq1, hq2⟩ := quoteLib_literal hl
    unfold libTexts
    simp only [List.headD_cons]
    simp only [not_or] at hc
    obtain ⟨c1, c2, c3, c4, c5, c6⟩ := hc
    simp only [c1, c2, c3, c4, c5, c6, or_self, if_false, hq1, hq2]
  | @unquoted m x hm hx =>
    have hp : prefixedAndLongerCase (m ++ a) (str% "nq:") = true := (mode_iff _ _ rfl).mpr ⟨m, a, rfl, hm, hx⟩
    have hl : m.length = 3 := by have := congrArg List.length hm; simpa using this
    obtain ⟨c, r, hcr, hc⟩ := mode_head rfl ((mode_iff _ _ rfl).mp hp)
    unfold libTexts
    simp only
    rw [if_pos (by rw [hcr]; exact (lower_iff c).1.mp hc), if_pos hp, show (3 : Nat) = m.length from hl.symm, List.drop_left]
  | @extension m x a w hm hx hlit =>
    have hp : prefixedAndLongerCase (m ++ x) (str% "ext:") = true := (mode_iff _ _ rfl).mpr ⟨m, x, rfl, hm, hx⟩
    have hl : m.length = 4 := by have := congrArg List.length hm; simpa using this
    obtain ⟨c, r, hcr, hc⟩ := mode_head rfl ((mode_iff _ _ rfl).mp hp)
    have hE := (lower_iff c).2.1.mp hc
    have hN : ¬ (c = 'N' ∨ c = 'n') := by rcases hE with rfl | rfl <;> decide
    obtain ⟨hq1, hq2⟩ := quoteLib_literal hlit
    unfold libTexts
    simp only
    rw [if_neg (by rw [hcr]; exact hN), if_pos (by rw [hcr]; exact hE), if_pos hp, show (4 : Nat) = m.length from hl.symm, List.drop_left, hq1, hq2]
  | @api m v x hm hv =>
    have hp : prefixedAndLongerCase (m ++ v ++ str% ":" ++ x) (str% "api:") = true :=
      (mode_iff _ _ rfl).mpr ⟨m, v ++ str% ":" ++ x, by simp, hm, by simp⟩
    have hl : m.length = 4 := by have := congrArg List.length hm; simpa using this
    obtain ⟨c, r, hcr, hc⟩ := mode_head rfl ((mode_iff _ _ rfl).mp hp)
    have hA := (lower_iff c).2.2.mp hc
    have hN : ¬ (c = 'N' ∨ c = 'n') := by rcases hA with rfl | rfl <;> decide
    have hE : ¬ (c = 'E' ∨ c = 'e') := by rcases hA with rfl | rfl <;> decide
    unfold libTexts
    simp only
    rw [if_neg (by rw [hcr]; exact hN), if_neg (by rw [hcr]; exact hE), if_pos (by rw [hcr]; exact hA), if_pos hp,
      show (m ++ v ++ str% ":" ++ x).drop 4 = v ++ str% ":" ++ x by
        rw [show (4 : Nat) = m.length from hl.symm, List.append_assoc, List.append_assoc, List.drop_left, List.append_assoc],
      splitColon_eq hv (fun c hc => hn c (by simp at hc ⊢; rcases hc with h | h | h <;> simp [h]))]
    rfl

example : Library (str% "GDO") (str% "libfoo.so") (str% "\"libfoo.so\"") (str% "L\"libfoo.so\"") := by
  refine .plain ?_ ?_ ?_ (.plain ?_ ?_)
  · exact fun h => by have := (mode_iff _ _ rfl).mpr h; revert this; decide
  · exact fun h => by have := (mode_iff _ _ rfl).mpr h; revert this; decide
  · exact fun h => by have := (mode_iff _ _ rfl).mpr h; revert this; decide
  · exact fun h => by have := (quoted_iff _).mpr h; revert this; decide
  · exact fun h => by have := (wide_iff _).mpr h; revert this; decide

/-- A plain name in quotes denotes the name, if nothing in it must be escaped. -/
theorem C36_denotes (s : Str) (h : ∀ c ∈ s, c ≠ '\\' ∧ c ≠ '"' ∧ c ≠ '\n' ∧ c ≠ '\r') : CLit.decode s = some s := by
  have key : ∀ (s out : Str), (∀ c ∈ s, c ≠ '\\' ∧ c ≠ '"' ∧ c ≠ '\n' ∧ c ≠ '\r') →
      s.foldl CLit.step (some (out, .text)) = some (out ++ s, .text) := by
    intro s
    induction s with
    | nil => intro out _; simp
    | cons c s ih =>
      intro out h
      obtain ⟨h1, h2, h3, h4⟩ := h c List.mem_cons_self
      rw [List.foldl_cons, show CLit.step (some (out, .text)) c = some (out ++ [c], .text) by simp [CLit.step, CLit.plain, h1, h2, h3, h4],
        ih _ fun x hx => h x (List.mem_cons_of_mem _ hx)]
      simp
  unfold CLit.decode
  rw [key s [] h]
  rfl

example : CLit.decode (str% "libfoo.so.1") = some (str% "libfoo.so.1") := by decide

/-- A name that begins with `n`, `e` or `a` and has no mode is dropped: the output is the
    same as without `-library`. -/
theorem C36_violated (env : Env) (s : Settings) (c : Char) (r : Str) (hs : s.defaultLib = c :: r) (hc : ModeLetter c)
    (h1 : ¬ HasMode (str% "nq:") (c :: r)) (h2 : ¬ HasMode (str% "ext:") (c :: r)) (h3 : ¬ HasMode (str% "api:") (c :: r)) :
    generate env s = generate env { s with defaultLib := [] } := by
  have h : ∀ u, formatLibname (c :: r) u = [] := by
    intro u
    have p1 : prefixedAndLongerCase (c :: r) (str% "nq:") ≠ true := mt (mode_iff _ _ rfl).mp h1
    have p2 : prefixedAndLongerCase (c :: r) (str% "ext:") ≠ true := mt (mode_iff _ _ rfl).mp h2
    have p3 : prefixedAndLongerCase (c :: r) (str% "api:") ≠ true := mt (mode_iff _ _ rfl).mp h3
    unfold formatLibname libTexts
    simp only [List.headD_cons]
    rw [if_neg p1, if_neg p2, if_neg p3]
    rcases hc with rfl | rfl | rfl | rfl | rfl | rfl <;> simp
  have h' : ∀ sep cp ps, addedDefines s sep cp ps = addedDefines { s with defaultLib := [] } sep cp ps := by
    intro sep cp ps
    unfold addedDefines
    dsimp only
    rw [hs, h]
    rfl
  unfold generate
  simp only [h']
  rfl

example : ModeLetter 'a' ∧ ¬ HasMode (str% "nq:") (str% "avcodec.so") ∧ ¬ HasMode (str% "ext:") (str% "avcodec.so") ∧ ¬ HasMode (str% "api:") (str% "avcodec.so") := by
  refine ⟨by simp [ModeLetter], ?_, ?_, ?_⟩ <;> exact fun h => by have := (mode_iff _ _ rfl).mpr h; revert this; decide

theorem api_dropped (u m x : Str) (hm : m.map toLowerC = str% "api:") (hcolon : splitColon x = none) : formatLibname (m ++ x) u = [] := by
  have hl : m.length = 4 := by have := congrArg List.length hm; simpa using this
  obtain ⟨c, m', rfl⟩ := List.exists_cons_of_ne_nil (show m ≠ [] by rintro rfl; simp at hl)
  simp only [List.map_cons, List.cons.injEq] at hm
  have hA := (lower_iff c).2.2.mp hm.1
  have hN : ¬ (c = 'N' ∨ c = 'n') := by rcases hA with rfl | rfl <;> decide
  have hE : ¬ (c = 'E' ∨ c = 'e') := by rcases hA with rfl | rfl <;> decide
  unfold formatLibname libTexts
  simp only [List.cons_append, List.headD_cons]
  rw [if_neg hN, if_neg hE, if_pos hA]
  split
  · rename_i heq
    rfl
  · rename_i heq
    exfalso
    split at heq
    · rw [← List.cons_append, show (4 : Nat) = (c :: m').length from hl.symm, List.drop_left, hcolon] at heq
      cases heq
    · cases heq

/-- `api:` without a second colon is dropped, too. -/
theorem C36_violated_api (u m x : Str) (hm : m.map toLowerC = str% "api:") (hx : ':' ∉ x) : formatLibname (m ++ x) u = [] := by
  refine api_dropped u m x hm ?_
  unfold splitColon
  split
  · rfl
  · rw [splitFirst_none]
    rintro ⟨p, q, rfl⟩
    exact hx (by simp)

example : (str% "API:").map toLowerC = str% "api:" ∧ ':' ∉ (str% "foo") := by decide

/-- `api:` with a line feed or carriage return anywhere behind it is dropped, even with a
    second colon. -/
theorem C36_violated_api_line (u m x : Str) (hm : m.map toLowerC = str% "api:") (hx : '\n' ∈ x ∨ '\r' ∈ x) : formatLibname (m ++ x) u = [] := by
  have hcolon : splitColon x = none := by
    unfold splitColon
    rw [if_pos]
    rcases hx with h | h <;> exact List.any_eq_true.mpr ⟨_, h, by decide⟩
  exact api_dropped u m x hm hcolon

example : (str% "api:").map toLowerC = str% "api:" ∧ '\r' ∈ (str% "1:foo\r") := by decide

/-- A wide string literal is put into quotes for the narrow macro, which is not a string
    literal then. -/
theorem C36_violated_wide : ∃ s, WideQuoted s ∧ quoteLib s false = str% "\"" ++ s ++ str% "\"" ∧ CLit.decode s = none :=
  ⟨str% "L\"foo.dll\"", ⟨str% "foo.dll", rfl⟩, by decide, by decide⟩

/-- A backslash in a plain name is not escaped, the literal denotes another name. -/
theorem C36_violated_escape : formatLibname (str% "libs\\new.dll") (str% "GDO") =
      libraryDefines (str% "GDO") (str% "\"libs\\new.dll\"") (str% "L\"libs\\new.dll\"") ∧
    CLit.decode (str% "libs\\new.dll") = some (str% "libs\new.dll") := by decide

end Gdo.Gen
