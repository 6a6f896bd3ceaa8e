import Verif.Model.Procmap
import Verif.Spec.Maps

/-!
Property C69: the full path of a library is looked up in `/proc/self/maps`.
-/

namespace Gdo.Procmap
open Gdo Spec

/-! ### Digits -/

theorem digitsRev_lt {b : Nat} (hb : 2 ≤ b) (n : Nat) : ∀ d ∈ digitsRev b n, d < b := by
  induction n using Nat.strongRecOn with
  | _ n ih =>
    intro d hd
    unfold digitsRev at hd
    split at hd
    · simp at hd; omega
    · rename_i h
      rcases List.mem_cons.mp hd with h1 | h1
      · subst h1; exact Nat.mod_lt _ (by omega)
      · exact ih (n / b) (Nat.div_lt_self (by omega) (by omega)) d h1

theorem digitsRev_ne (b n : Nat) : digitsRev b n ≠ [] := by
  unfold digitsRev; split <;> simp

theorem hexDigit_facts : ∀ d : Fin 16, isHex (hexDigit d) = true ∧ hexVal (hexDigit d) = d.val ∧
    isDigit (hexDigit d) = decide (d.val < 10) ∧ isSpace (hexDigit d) = false ∧ hexDigit d ≠ '-' ∧ hexDigit d ≠ '+' ∧
    hexDigit d ≠ '\n' ∧ hexDigit d ≠ ':' ∧ hexDigit d ≠ 'x' ∧ hexDigit d ≠ 'X' := by decide

theorem hexDigit_isHex {d : Nat} (h : d < 16) : isHex (hexDigit d) = true := (hexDigit_facts ⟨d, h⟩).1
theorem hexDigit_val {d : Nat} (h : d < 16) : hexVal (hexDigit d) = d := (hexDigit_facts ⟨d, h⟩).2.1
theorem hexDigit_isDigit {d : Nat} (h : d < 16) : isDigit (hexDigit d) = decide (d < 10) := (hexDigit_facts ⟨d, h⟩).2.2.1

/-- A hexadecimal digit as written by the kernel. -/
def HexChar (c : Char) : Prop := ∃ d, d < 16 ∧ c = hexDigit d

theorem HexChar.facts {c : Char} (h : HexChar c) : isHex c = true ∧ isSpace c = false ∧ c ≠ '-' ∧ c ≠ '+' ∧ c ≠ '\n' ∧
    c ≠ ':' ∧ c ≠ 'x' ∧ c ≠ 'X' := by
  obtain ⟨d, hd, rfl⟩ := h
  have := hexDigit_facts ⟨d, hd⟩
  exact ⟨this.1, this.2.2.2⟩

theorem number_hex {b : Nat} (h2 : 2 ≤ b) (h16 : b ≤ 16) (w n : Nat) : ∀ c ∈ number b w n, HexChar c := by
  intro c hc
  simp only [number, List.mem_append, List.mem_replicate, List.mem_map, List.mem_reverse] at hc
  rcases hc with ⟨_, rfl⟩ | ⟨d, hd, rfl⟩
  · exact ⟨0, by omega, by decide⟩
  · exact ⟨d, Nat.lt_of_lt_of_le (digitsRev_lt h2 n d hd) h16, rfl⟩

theorem number_length (b w n : Nat) : w ≤ (number b w n).length := by
  simp [number]; omega

theorem number_ne (b w n : Nat) : number b w n ≠ [] := by
  simp [number, digitsRev_ne]

theorem hexNum_append (a b : Str) : hexNum (a ++ b) = b.foldl (fun x c => 16 * x + hexVal c) (hexNum a) := by
  simp [hexNum, List.foldl_append]

theorem hexNum_zeros (k : Nat) : hexNum (List.replicate k '0') = 0 := by
  induction k with
  | zero => rfl
  | succ k ih =>
    rw [List.replicate_succ', hexNum_append, ih]; decide

theorem foldl_digits (n : Nat) : ((digitsRev 16 n).reverse.map hexDigit).foldl (fun x c => 16 * x + hexVal c) 0 = n := by
  induction n using Nat.strongRecOn with
  | _ n ih =>
    unfold digitsRev
    split
    · rename_i h
      have : n < 16 := by omega
      simp [hexDigit_val this]
    · rename_i h
      have hn := ih (n / 16) (Nat.div_lt_self (by omega) (by omega))
      have hm : n % 16 < 16 := Nat.mod_lt _ (by omega)
      simp only [List.reverse_cons, List.map_append, List.map_cons, List.map_nil, List.foldl_append, List.foldl_cons,
        List.foldl_nil, hn, hexDigit_val hm]
      omega

theorem hexNum_number (w n : Nat) : hexNum (number 16 w n) = n := by
  simp only [number]
  rw [hexNum_append, hexNum_zeros, foldl_digits]

/-! ### The conversions -/

theorem takeWhile_all {p : Char → Bool} {a : Str} {r : Str} (ha : ∀ c ∈ a, p c = true) (hr : ∀ c, r.head? = some c → p c = false) :
    (a ++ r).takeWhile p = a ∧ (a ++ r).dropWhile p = r := by
  induction a with
  | nil =>
    cases r with
    | nil => simp
    | cons c r => have := hr c rfl; simp [this]
  | cons c a ih =>
    have h1 := ha c (by simp)
    have h2 := ih fun d hd => ha d (by simp [hd])
    simp [h1, h2]

theorem skipWs_id {s : Str} (h : ∀ c, s.head? = some c → isSpace c = false) : skipWs s = s := by
  cases s with
  | nil => rfl
  | cons c s => simp [skipWs, h c rfl]

theorem skipWs_blank (s : Str) : skipWs (' ' :: s) = skipWs s := by
  simp [skipWs, List.dropWhile, isSpace]

theorem sign_id {s : Str} (h : ∀ c, s.head? = some c → c ≠ '-' ∧ c ≠ '+') : sign s = (false, s) := by
  cases s with
  | nil => rfl
  | cons c s =>
    have := h c rfl
    unfold sign
    split
    · rename_i h1; exact absurd (List.cons.inj h1).1 this.1
    · rename_i h1; exact absurd (List.cons.inj h1).1 this.2
    · rfl

theorem scanHex_text {ds r : Str} (hl : 2 ≤ ds.length) (hd : ∀ c ∈ ds, HexChar c) (hr : ∀ c, r.head? = some c → isHex c = false) :
    scanHex (ds ++ r) = some (min (hexNum ds) uintMax, r) := by
  match ds, hl, hd with
  | c1 :: c2 :: ds, _, hd =>
    have f1 := (hd c1 (by simp)).facts
    have f2 := (hd c2 (by simp)).facts
    have hw : skipWs (c1 :: c2 :: ds ++ r) = c1 :: c2 :: ds ++ r := skipWs_id (by simp; exact f1.2.1)
    have hs : sign (c1 :: c2 :: ds ++ r) = (false, c1 :: c2 :: ds ++ r) :=
      sign_id (by simp; exact ⟨f1.2.2.1, f1.2.2.2.1⟩)
    have hp : hexPrefix (c1 :: c2 :: ds ++ r) = c1 :: c2 :: ds ++ r := by
      unfold hexPrefix
      split
      · rename_i x d t he
        have h2 : c2 = x := by simp at he; exact he.2.1
        have : (x = 'x' || x = 'X') = false := by
          subst h2; simp [f2.2.2.2.2.2.2.1, f2.2.2.2.2.2.2.2]
        rw [he]; simp [this]
      · rfl
    have ht := takeWhile_all (a := c1 :: c2 :: ds) (r := r) (p := isHex) (fun c hc => (hd c hc).facts.1) hr
    simp only [scanHex, hw, hs, hp, ht.1, ht.2]
    simp

theorem skipDec_text {ds r : Str} (hn : ds ≠ []) (hd : ∀ c ∈ ds, isDigit c = true) (hr : ∀ c, r.head? = some c → isDigit c = false) :
    skipDec (ds ++ r) = some r := by
  match ds, hn, hd with
  | c1 :: ds, _, hd =>
    have h1 := hd c1 (by simp)
    have key : ∀ c, isDigit c = true → isSpace c = false ∧ c ≠ '-' ∧ c ≠ '+' := by
      intro c hc
      simp only [isDigit, Bool.and_eq_true, decide_eq_true_eq] at hc
      refine ⟨?_, ?_, ?_⟩
      · simp only [isSpace, Bool.or_eq_false_iff, beq_eq_false_iff_ne]
        refine ⟨⟨⟨⟨⟨?_, ?_⟩, ?_⟩, ?_⟩, ?_⟩, ?_⟩ <;> (rintro rfl; revert hc; decide)
      · rintro rfl; revert hc; decide
      · rintro rfl; revert hc; decide
    have hw : skipWs (c1 :: ds ++ r) = c1 :: ds ++ r := skipWs_id (by simp; exact (key _ h1).1)
    have hs : sign (c1 :: ds ++ r) = (false, c1 :: ds ++ r) := sign_id (by simp; exact (key _ h1).2)
    have ht := takeWhile_all (a := c1 :: ds) (r := r) (p := isDigit) hd hr
    simp only [skipDec, hw, hs, ht.1, ht.2]
    simp

/-- A letter where a decimal number is expected. -/
theorem skipDec_letter {c : Char} {r : Str} (hc : HexChar c) (hd : isDigit c = false) : skipDec (c :: r) = none := by
  have f := hc.facts
  have hw : skipWs (c :: r) = c :: r := skipWs_id (by simp; exact f.2.1)
  have hs : sign (c :: r) = (false, c :: r) := sign_id (by simp; exact ⟨f.2.2.1, f.2.2.2.1⟩)
  simp [skipDec, hw, hs, hd]

theorem skipWs_letter {c : Char} {r : Str} (hc : HexChar c) : skipWs (c :: r) = c :: r :=
  skipWs_id (by simp; exact hc.facts.2.1)

/-- Digits in front of a letter, the letter and the rest. -/
theorem span_digits {ds : Str} (hd : ∀ c ∈ ds, HexChar c) (h : ¬ ∀ c ∈ ds, isDigit c = true) :
    ∃ a c r, ds = a ++ c :: r ∧ (∀ x ∈ a, isDigit x = true) ∧ isDigit c = false ∧ HexChar c := by
  induction ds with
  | nil => simp at h
  | cons c ds ih =>
    by_cases hc : isDigit c = true
    · have h' : ¬ ∀ x ∈ ds, isDigit x = true := fun hx => h fun x hm => by
        rcases List.mem_cons.mp hm with rfl | hm
        · exact hc
        · exact hx x hm
      obtain ⟨a, e, r, h1, h2, h3, h4⟩ := ih (fun x hx => hd x (by simp [hx])) h'
      exact ⟨c :: a, e, r, by simp [h1], by simpa [hc] using h2, h3, h4⟩
    · exact ⟨[], c, ds, rfl, by simp, by simpa using hc, hd c (by simp)⟩

/-- What is left of a number that is no decimal number begins with a letter. -/
theorem skipDec_bad {ds t : Str} (hd : ∀ c ∈ ds, HexChar c) (h : ¬ ∀ c ∈ ds, isDigit c = true) :
    skipDec (ds ++ t) = none ∨ ∃ c r, skipDec (ds ++ t) = some (c :: r) ∧ isDigit c = false ∧ HexChar c := by
  obtain ⟨a, c, r, rfl, h2, h3, h4⟩ := span_digits hd h
  by_cases ha : a = []
  · subst ha
    left
    simpa using skipDec_letter (r := r ++ t) h4 h3
  · right
    refine ⟨c, r ++ t, ?_, h3, h4⟩
    have := skipDec_text (r := c :: r ++ t) ha h2 (by simp [h3])
    simpa using this

theorem number_digits (w n : Nat) : (∀ c ∈ number 16 w n, isDigit c = true) ↔ decimalHex n := by
  constructor
  · intro h d hd
    have hlt := digitsRev_lt (b := 16) (by omega) n d hd
    have := h (hexDigit d) (by simp only [number, List.mem_append, List.mem_map, List.mem_reverse]; exact .inr ⟨d, hd, rfl⟩)
    simpa [hexDigit_isDigit hlt] using this
  · intro h c hc
    simp only [number, List.mem_append, List.mem_replicate, List.mem_map, List.mem_reverse] at hc
    rcases hc with ⟨_, rfl⟩ | ⟨d, hd, rfl⟩
    · decide
    · simpa [hexDigit_isDigit (digitsRev_lt (b := 16) (by omega) n d hd)] using h d hd

theorem number10_digits (w n : Nat) : ∀ c ∈ number 10 w n, isDigit c = true := by
  intro c hc
  simp only [number, List.mem_append, List.mem_replicate, List.mem_map, List.mem_reverse] at hc
  rcases hc with ⟨_, rfl⟩ | ⟨d, hd, rfl⟩
  · decide
  · have := digitsRev_lt (b := 10) (by omega) n d hd
    rw [hexDigit_isDigit (by omega)]; simpa using this

/-! ### A line -/

/-- The fields that are read with `%u` have decimal digits only. -/
def Decimal (m : Mapping) : Prop := decimalHex m.offset ∧ decimalHex m.major ∧ decimalHex m.minor

instance (m : Mapping) : Decidable (Decimal m) := by unfold Decimal; infer_instance

/-- What follows the fields. -/
def tail (m : Mapping) : Str :=
  if m.name = [] then ['\n'] else List.replicate (73 - m.front.length) ' ' ++ m.name ++ ['\n']

theorem line_eq (m : Mapping) : m.line = m.front ++ tail m := by
  unfold Mapping.line tail; split <;> simp

theorem skipWs_replicate (k : Nat) (s : Str) : skipWs (List.replicate k ' ' ++ s) = skipWs s := by
  induction k with
  | zero => rfl
  | succ k ih => rw [List.replicate_succ, List.cons_append, skipWs_blank, ih]

theorem scanLine_tail {m : Mapping} (h : m.Ok) :
    scanLine (skipWs (' ' :: tail m)) = if m.name = [] then none else some m.name := by
  rw [skipWs_blank]
  unfold tail
  split
  · rename_i hn; simp [skipWs, List.dropWhile, isSpace, scanLine]
  · rename_i hn
    rw [List.append_assoc, skipWs_replicate]
    have hne : ∀ c, (m.name ++ ['\n']).head? = some c → isSpace c = false := by
      intro c hc
      cases hm : m.name with
      | nil => exact absurd hm hn
      | cons d t =>
        rw [hm] at hc
        simp at hc
        subst hc
        have hv := h.visible d (by simp [hm])
        have hb : d ≠ '\n' := fun he => h.no_break (by rw [hm, he]; simp)
        simp [isSpace, hv.1, hv.2.1, hv.2.2.1, hv.2.2.2.1, hv.2.2.2.2, hb]
    rw [skipWs_id hne]
    have := takeWhile_all (a := m.name) (r := ['\n']) (p := fun c => decide (c ≠ '\n'))
      (fun c hc => by simpa using fun he : c = '\n' => h.no_break (he ▸ hc)) (by simp)
    simp only [scanLine, this.1]
    simp [hn]

theorem scanMode_perms {m : Mapping} (h : m.Ok) (r : Str) :
    scanMode (skipWs (' ' :: m.perms.1 :: m.perms.2.1 :: m.perms.2.2.1 :: m.perms.2.2.2 :: r)) = some r := by
  have h1 : isMode m.perms.1 = true ∧ isSpace m.perms.1 = false := by rcases h.read with e | e <;> rw [e] <;> decide
  have h2 : isMode m.perms.2.1 = true := by rcases h.write with e | e <;> rw [e] <;> decide
  have h3 : isMode m.perms.2.2.1 = true := by rcases h.exec with e | e <;> rw [e] <;> decide
  have h4 : isMode m.perms.2.2.2 = true := by rcases h.shared with e | e <;> rw [e] <;> decide
  rw [skipWs_blank, skipWs_id (by simp; exact h1.2)]
  simp [scanMode, h1.1, h2, h3, h4]

/-- The result of `sscanf` on a line. -/
theorem scan_line {m : Mapping} (h : m.Ok) :
    scan m.line = if Decimal m ∧ m.name ≠ [] then some (m.start, m.stop, m.name) else none := by
  have x16 : ∀ w n, ∀ c ∈ number 16 w n, HexChar c := number_hex (by omega) (by omega)
  have hstart : scanHex m.line = some (m.start, '-' :: (number 16 8 m.stop ++ ' ' :: m.perms.1 :: m.perms.2.1 ::
      m.perms.2.2.1 :: m.perms.2.2.2 :: ' ' :: (number 16 8 m.offset ++ ' ' :: (number 16 2 m.major ++ ':' ::
      (number 16 2 m.minor ++ ' ' :: (number 10 1 m.inode ++ ' ' :: tail m)))))) := by
    rw [line_eq]
    have := scanHex_text (ds := number 16 8 m.start) (r := '-' :: (number 16 8 m.stop ++ ' ' :: m.perms.1 :: m.perms.2.1 ::
      m.perms.2.2.1 :: m.perms.2.2.2 :: ' ' :: (number 16 8 m.offset ++ ' ' :: (number 16 2 m.major ++ ':' ::
      (number 16 2 m.minor ++ ' ' :: (number 10 1 m.inode ++ ' ' :: tail m))))))
      (Nat.le_trans (by omega) (number_length 16 8 m.start)) (x16 _ _) (by simp; decide)
    rw [hexNum_number, Nat.min_eq_left (by have := h.start_lt; unfold uintMax; omega)] at this
    simpa [Mapping.front] using this
  have hstop := fun r => scanHex_text (ds := number 16 8 m.stop) (r := ' ' :: r)
      (Nat.le_trans (by omega) (number_length 16 8 m.stop)) (x16 _ _) (by simp; decide)
  have hv : min m.stop uintMax = m.stop := Nat.min_eq_left (by have := h.stop_lt; unfold uintMax; omega)
  have ws : ∀ w n r, skipWs (' ' :: (number 16 w n ++ r)) = number 16 w n ++ r := fun w n r => by
    rw [skipWs_blank]
    apply skipWs_id
    intro c hc
    cases hm : number 16 w n with
    | nil => exact absurd hm (number_ne _ _ _)
    | cons d t =>
      rw [hm] at hc; simp at hc; subst hc
      exact (x16 w n d (by rw [hm]; simp)).facts.2.1
  have ws10 : ∀ r, skipDec (skipWs (' ' :: (number 10 1 m.inode ++ ' ' :: r))) = some (' ' :: r) := fun r => by
    rw [skipWs_blank, skipWs_id]
    · exact skipDec_text (number_ne _ _ _) (number10_digits _ _) (by simp; decide)
    · intro c hc
      cases hm : number 10 1 m.inode with
      | nil => exact absurd hm (number_ne _ _ _)
      | cons d t =>
        rw [hm] at hc; simp at hc; subst hc
        exact (number_hex (b := 10) (by omega) (by omega) 1 m.inode d (by rw [hm]; simp)).facts.2.1
  have hb : isDigit ' ' = false := by decide
  have hcol : isDigit ':' = false := by decide
  unfold scan
  simp only [hstart, lit, if_true, hstop, hexNum_number, hv, scanMode_perms h, ws, bind, Option.bind, pure, Option.bind_some]
  by_cases ho : decimalHex m.offset
  · have e1 := fun r => skipDec_text (ds := number 16 8 m.offset) (r := ' ' :: r) (number_ne _ _ _)
      ((number_digits _ _).mpr ho) (by simp [hb])
    simp only [e1, ws]
    by_cases hmaj : decimalHex m.major
    · have e2 := fun r => skipDec_text (ds := number 16 2 m.major) (r := ':' :: r) (number_ne _ _ _)
        ((number_digits _ _).mpr hmaj) (by simp [hcol])
      simp only [e2, if_true]
      by_cases hmin : decimalHex m.minor
      · have e3 := fun r => skipDec_text (ds := number 16 2 m.minor) (r := ' ' :: r) (number_ne _ _ _)
          ((number_digits _ _).mpr hmin) (by simp [hb])
        simp only [e3, ws10, scanLine_tail h]
        by_cases hn : m.name = []
        · simp [hn]
        · simp [hn, Decimal, ho, hmaj, hmin]
      · rw [if_neg (by simp [Decimal, hmin])]
        rcases skipDec_bad (ds := number 16 2 m.minor) (t := ' ' :: (number 10 1 m.inode ++ ' ' :: tail m)) (x16 _ _)
          (fun hx => hmin ((number_digits _ _).mp hx)) with e | ⟨c, r, e, hc, hx⟩
        · simp [e]
        · simp [e, skipWs_letter hx, skipDec_letter hx hc]
    · rw [if_neg (by simp [Decimal, hmaj])]
      rcases skipDec_bad (ds := number 16 2 m.major) (t := ':' :: (number 16 2 m.minor ++ ' ' :: (number 10 1 m.inode ++ ' ' :: tail m)))
        (x16 _ _) (fun hx => hmaj ((number_digits _ _).mp hx)) with e | ⟨c, r, e, hc, hx⟩
      · simp [e]
      · simp [e, hx.facts.2.2.2.2.2.1]
  · rw [if_neg (by simp [Decimal, ho])]
    rcases skipDec_bad (ds := number 16 8 m.offset) (t := ' ' :: (number 16 2 m.major ++ ':' :: (number 16 2 m.minor ++ ' ' ::
      (number 10 1 m.inode ++ ' ' :: tail m)))) (x16 _ _) (fun hx => ho ((number_digits _ _).mp hx)) with e | ⟨c, r, e, hc, hx⟩
    · simp [e]
    · simp [e, skipWs_letter hx, skipDec_letter hx hc]

/-! ### The file -/

theorem lines_line {l : Str} (r : Str) (h : '\n' ∉ l) : lines (l ++ '\n' :: r) = (l ++ ['\n']) :: lines r := by
  induction l with
  | nil => simp [lines]
  | cons c l ih =>
    have hc : c ≠ '\n' := fun he => h (by simp [he])
    have := ih fun hm => h (by simp [hm])
    simp [lines, hc, this]

theorem front_no_break {m : Mapping} (h : m.Ok) : '\n' ∉ m.front := by
  have x : ∀ b, 2 ≤ b → b ≤ 16 → ∀ w n, '\n' ∉ number b w n := fun b h1 h2 w n hc =>
    (number_hex h1 h2 w n _ hc).facts.2.2.2.2.1 rfl
  have h1 : m.perms.1 ≠ '\n' := by rcases h.read with e | e <;> rw [e] <;> decide
  have h2 : m.perms.2.1 ≠ '\n' := by rcases h.write with e | e <;> rw [e] <;> decide
  have h3 : m.perms.2.2.1 ≠ '\n' := by rcases h.exec with e | e <;> rw [e] <;> decide
  have h4 : m.perms.2.2.2 ≠ '\n' := by rcases h.shared with e | e <;> rw [e] <;> decide
  simp [Mapping.front, x, Ne.symm h1, Ne.symm h2, Ne.symm h3, Ne.symm h4]

theorem lines_maps {ms : List Mapping} (h : ∀ m ∈ ms, m.Ok) : lines (mapsText ms) = ms.map Mapping.line := by
  induction ms with
  | nil => rfl
  | cons m ms ih =>
    have hm := h m (by simp)
    have ih := ih fun x hx => h x (by simp [hx])
    have key : ∃ l, '\n' ∉ l ∧ m.line = l ++ ['\n'] := by
      unfold Mapping.line
      split
      · exact ⟨m.front, front_no_break hm, rfl⟩
      · refine ⟨m.front ++ List.replicate (73 - m.front.length) ' ' ++ m.name, ?_, rfl⟩
        simp [front_no_break hm, hm.no_break]
    obtain ⟨l, h1, h2⟩ := key
    have : mapsText (m :: ms) = l ++ '\n' :: mapsText ms := by simp [mapsText, h2]
    rw [this, lines_line _ h1, ih, List.map_cons, h2]

/-- The mapping is found by the code. -/
def Seen (addr : Nat) (m : Mapping) : Prop := (m.start ≤ addr ∧ addr < m.stop) ∧ Decimal m ∧ m.name ≠ []

instance (addr : Nat) (m : Mapping) : Decidable (Seen addr m) := by unfold Seen; infer_instance

theorem search_maps {ms : List Mapping} (h : ∀ m ∈ ms, m.Ok) (addr : Nat) :
    search addr (ms.map Mapping.line) = (ms.find? fun m => decide (Seen addr m)).map (·.name) := by
  induction ms with
  | nil => rfl
  | cons m ms ih =>
    have ih := ih fun x hx => h x (by simp [hx])
    simp only [List.map_cons, search, scan_line (h m (by simp))]
    by_cases hd : Decimal m ∧ m.name ≠ []
    · simp only [hd, and_self, if_true, ne_eq, not_false_eq_true]
      by_cases ha : m.start ≤ addr ∧ addr < m.stop
      · have : Seen addr m := ⟨ha, hd⟩
        simp [ha, this]
      · have : ¬ Seen addr m := fun hs => ha hs.1
        rw [if_neg (by simpa using ha), ih]
        simp [this]
    · have : ¬ Seen addr m := fun hs => hd hs.2
      rw [if_neg hd]
      simp [this, ih]

/-! ### The property -/

/-- What the function finds, for every process and every address: the first named mapping
    around the address whose offset and device numbers happen to be written with decimal
    digits only. -/
theorem C69_exact {ms : List Mapping} (h : ∀ m ∈ ms, m.Ok) (addr n : Nat) :
    fullpath (some (mapsText ms)) addr n =
      ((ms.find? fun m => decide (Seen addr m)).map (·.name)).filter fun p => decide (p.length < n) := by
  simp only [fullpath, lines_maps h, search_maps h]
  cases ms.find? fun m => decide (Seen addr m) with
  | none => rfl
  | some m => by_cases hl : m.name.length < n <;> simp [hl, Option.filter]

/-- A path that is found is always the name of a mapping around the address, and it fits
    into the buffer with its final NUL. -/
theorem C69_sound {ms : List Mapping} (h : ∀ m ∈ ms, m.Ok) {addr n : Nat} {p : Str}
    (hp : fullpath (some (mapsText ms)) addr n = some p) :
    ∃ m ∈ ms, m.holds addr ∧ m.name = p ∧ p ≠ [] ∧ p.length + 1 ≤ n := by
  rw [C69_exact h, Option.filter_eq_some_iff, Option.map_eq_some_iff] at hp
  obtain ⟨⟨m, hf, rfl⟩, hl⟩ := hp
  have hs : Seen addr m := by simpa using List.find?_some hf
  exact ⟨m, List.mem_of_find?_eq_some hf, hs.1, rfl, hs.2.2, Nat.succ_le_of_lt (by simpa using hl)⟩

/-- The library's mapping is found if the numbers of the mappings around the address have
    decimal digits only. -/
theorem C69_partial {ms : List Mapping} (h : ∀ m ∈ ms, m.Ok) {addr n : Nat} {m : Mapping} (hm : m ∈ ms) (ha : m.holds addr)
    (hn : m.name ≠ []) (hl : m.name.length < n) (hu : ∀ k ∈ ms, k.holds addr → k.name = m.name) (hd : Decimal m) :
    fullpath (some (mapsText ms)) addr n = some m.name := by
  rw [C69_exact h]
  have hs : Seen addr m := ⟨ha, hd, hn⟩
  cases hf : ms.find? fun m => decide (Seen addr m) with
  | none =>
    have := List.find?_eq_none.mp hf m hm
    simp [hs] at this
  | some k =>
    have hk : Seen addr k := by simpa using List.find?_some hf
    have := hu k (List.mem_of_find?_eq_some hf) hk.1
    simp [this, hl, Option.filter]

/-- A library on a device with a number such as `fd:00` (device-mapper). -/
def exDevice : Mapping where
  start := 0x7de29d200000
  stop := 0x7de29d228000
  perms := ('r', '-', '-', 'p')
  offset := 0
  major := 0xfd
  minor := 0
  inode := 2758110
  name := str% "/usr/lib/libc.so.6"

/-- The same on a device with decimal digits. -/
def exDecimal : Mapping := { exDevice with major := 0x103, minor := 1 }

theorem ex_ok (m : Mapping) (h : m = exDevice ∨ m = exDecimal) : m.Ok := by
  rcases h with rfl | rfl <;>
  exact { stop_lt := by decide, start_lt := by decide, read := by decide, write := by decide, exec := by decide,
          shared := by decide, no_break := by decide,
          visible := by intro c hc; simp [exDevice, exDecimal] at hc; subst hc; decide }

/-- The path is not found though the file names it: the device number is hexadecimal, but
    read as a decimal number. -/
theorem C69_violated : ¬ ∀ ms : List Mapping, (∀ m ∈ ms, m.Ok) → ∀ m ∈ ms, ∀ addr n, m.holds addr → m.name ≠ [] →
    m.name.length < n → (∀ k ∈ ms, k.holds addr → k.name = m.name) → fullpath (some (mapsText ms)) addr n = some m.name := by
  intro h
  have hok : ∀ m ∈ [exDevice], m.Ok := fun m hm => ex_ok m (.inl (by simpa using hm))
  have := h [exDevice] hok exDevice (by simp) 0x7de29d200000 8192 (by constructor <;> decide) (by decide) (by decide)
    (by simp)
  rw [C69_exact hok] at this
  have hs : ¬ Seen 0x7de29d200000 exDevice := fun hs => by
    have h16 : 13 ∈ digitsRev 16 exDevice.major := by
      simp [exDevice, digitsRev]
    have := hs.2.1.2.1 13 h16
    omega
  simp [hs] at this

example : fullpath (some (mapsText [exDevice, exDecimal])) 0x7de29d200010 8192 = some (str% "/usr/lib/libc.so.6") :=
  have hok : ∀ m ∈ [exDevice, exDecimal], m.Ok := fun m hm => ex_ok m (by simpa using hm)
  C69_partial hok (m := exDecimal) (by simp) (by constructor <;> decide) (by decide) (by decide)
    (by intro k hk _; simp at hk; rcases hk with rfl | rfl <;> rfl)
    (by refine ⟨?_, ?_, ?_⟩ <;> simp [decimalHex, exDecimal, exDevice, digitsRev])

example : ∃ m ∈ [exDevice, exDecimal], m.holds 0x7de29d200010 ∧ m.name = str% "/usr/lib/libc.so.6" ∧
    str% "/usr/lib/libc.so.6" ≠ [] ∧ (str% "/usr/lib/libc.so.6").length + 1 ≤ 8192 :=
  ⟨exDevice, by simp, by constructor <;> decide, rfl, by decide, by decide⟩

example : scan (str% "7de29d200000-7de29d228000 r--p 00000000 103:01 2758110    /usr/lib/libc.so.6\n") =
    some (0x7de29d200000, 0x7de29d228000, str% "/usr/lib/libc.so.6") := by decide

example : scan (str% "7de29d200000-7de29d228000 r--p 00000000 fd:00 2758110    /usr/lib/libc.so.6\n") = none := by decide

end Gdo.Procmap
