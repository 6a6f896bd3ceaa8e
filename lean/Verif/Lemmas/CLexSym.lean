import Verif.Spec.CLang
import Verif.Lemmas.CForm
import Verif.Lemmas.CLang

/-!
Lemmas: the tokens of the text that a template stands for are computed once for all
prefixes and symbols.
-/

namespace Gdo.Cc
open Gdo Tpl Tmpl Sub Rename

/-! ### Scanning -/

theorem scan_append (s : Scan) (a b : Str) :
    scan s (a ++ b) = (scan s a).bind fun x => (scan x.1 b).map fun y => (y.1, x.2 ++ y.2) := by
  induction a generalizing s with
  | nil =>
    show scan s b = (some (s, [])).bind _
    cases h : scan s b <;> simp [h]
  | cons c a ih =>
    rw [List.cons_append, scan, scan]
    cases step s c with
    | none => rfl
    | some x =>
      simp only [Option.bind_some, ih]
      cases scan x.1 a with
      | none => rfl
      | some y =>
        simp only [Option.bind_some, Option.map_some]
        cases scan y.1 b with
        | none => rfl
        | some z => simp

theorem scan_trans {s s1 s2 : Scan} {a b : Str} {t1 t2 : List Tok} (h1 : scan s a = some (s1, t1)) (h2 : scan s1 b = some (s2, t2)) :
    scan s (a ++ b) = some (s2, t1 ++ t2) := by
  rw [scan_append, h1]
  simp [h2]

theorem scan_cons {s s1 s2 : Scan} {c : Char} {b : Str} {t1 t2 : List Tok} (h1 : step s c = some (s1, t1)) (h2 : scan s1 b = some (s2, t2)) :
    scan s (c :: b) = some (s2, t1 ++ t2) := by
  rw [scan, h1]
  simp [h2]

/-- A nonempty text of word characters. -/
def Word (w : Str) : Prop := w ≠ [] ∧ ∀ c ∈ w, isWord c = true

theorem word_ne {c : Char} (h : isWord c = true) : c ≠ '*' ∧ c ≠ '/' ∧ c ≠ '"' ∧ c ≠ '\\' ∧ c ≠ '\n' ∧ c ≠ '\'' := CForm.word_ne h

/-- More characters of a word. -/
theorem scan_word_more {w : Str} (a : Str) (h : ∀ c ∈ w, isWord c = true) : scan (.word a) w = some (.word (a ++ w), []) := by
  induction w generalizing a with
  | nil => simp [scan]
  | cons c w ih =>
    have : step (.word a) c = some (.word (a ++ [c]), []) := by simp [step, h c (by simp)]
    rw [scan_cons this (ih _ fun x hx => h x (by simp [hx]))]
    simp

theorem scan_str_more {w : Str} (a : Str) (h : ∀ c ∈ w, isWord c = true) : scan (.str a) w = some (.str (a ++ w), []) := by
  induction w generalizing a with
  | nil => simp [scan]
  | cons c w ih =>
    obtain ⟨h1, h2, h3, h4, h5, h6⟩ := word_ne (h c (by simp))
    have : step (.str a) c = some (.str (a ++ [c]), []) := by simp [step, h3, h4, h5]
    rw [scan_cons this (ih _ fun x hx => h x (by simp [hx]))]
    simp

theorem scan_chr_more {w : Str} (a : Str) (h : ∀ c ∈ w, isWord c = true) : scan (.chr a) w = some (.chr (a ++ w), []) := by
  induction w generalizing a with
  | nil => simp [scan]
  | cons c w ih =>
    obtain ⟨h1, h2, h3, h4, h5, h6⟩ := word_ne (h c (by simp))
    have : step (.chr a) c = some (.chr (a ++ [c]), []) := by simp [step, h6, h4, h5]
    rw [scan_cons this (ih _ fun x hx => h x (by simp [hx]))]
    simp

theorem scan_same {s : Scan} {w : Str} (h : ∀ c ∈ w, step s c = some (s, [])) : scan s w = some (s, []) := by
  induction w with
  | nil => rfl
  | cons c w ih => rw [scan_cons (h c (by simp)) (ih fun x hx => h x (by simp [hx]))]; rfl

theorem operators_word {p : Str} {c : Char} (h : isWord c = true) : p ++ [c] ∉ operators := by
  intro hm
  have key : ∀ o ∈ operators, ∀ d, o.getLast? = some d → isWord d = false := by decide
  have := key _ hm c (by simp)
  rw [h] at this
  cases this

theorem operators_close {p : Str} : p ++ [')'] ∉ operators := by
  intro hm
  have key : ∀ o ∈ operators, o.getLast? ≠ some ')' := by decide
  exact key _ hm (by simp)

theorem operators_open {c : Char} : ['(', c] ∉ operators := by
  intro hm
  have key : ∀ o ∈ operators, o.head? ≠ some '(' := by decide
  exact key _ hm rfl

/-! ### Symbolic scanning -/

/-- The text of a part. -/
def ptext (u l : Str) (val : Values) : Part → Str
  | .word w => newName u l w
  | .other c => [c]
  | .kw k => ((val k).map (·.1)).getD []

def ptexts (u l : Str) (val : Values) (ps : List Part) : Str := ps.flatMap (ptext u l val)

/-- What is being read in a template. -/
inductive SScan
  | code
  | word (ps : List Part)
  | punct (p : Str)
  | str (ps : List Part)
  | strEsc (ps : List Part)
  | chr (ps : List Part)
  | chrEsc (ps : List Part)
  | line
  | block
  | star
  | splice
  deriving DecidableEq, Repr

def SScan.fill (u l : Str) (val : Values) : SScan → Scan
  | .code => .code
  | .word ps => .word (ptexts u l val ps)
  | .punct p => .punct p
  | .str ps => .str (ptexts u l val ps)
  | .strEsc ps => .strEsc (ptexts u l val ps)
  | .chr ps => .chr (ptexts u l val ps)
  | .chrEsc ps => .chrEsc (ptexts u l val ps)
  | .line => .line
  | .block => .block
  | .star => .star
  | .splice => .splice

/-- A word of a template. -/
def wordName : List Part → Option Name
  | [.word w] => some (.fixed w)
  | [.kw k] => some (.hole [] k)
  | [.word p, .kw k] => some (.hole p k)
  | _ => none

def isKw : Part → Bool
  | .kw _ => true
  | _ => false

/-- A text without keywords. -/
def fixedText (ps : List Part) : Option Str :=
  let s := ps.flatMap Part.source
  if parts s = ps ∧ ps.all (fun q => !isKw q) then some s else none

/-- A literal of a template. -/
def litName (ps : List Part) : Option Name :=
  match ps.getLast? with
  | some (.kw k) => (fixedText ps.dropLast).map fun s => .hole s k
  | _ => (fixedText ps).map .fixed

/-- The first character of a token. -/
def sstart (c : Char) : SScan × List STok :=
  if c = ' ' ∨ c = '\t' then (.code, [])
  else if c = '\n' then (.code, [.nl])
  else if c = '"' then (.str [], [])
  else if c = '\'' then (.chr [], [])
  else if c = '\\' then (.splice, [])
  else (.punct [c], [])

/-- A character that is not part of a word. -/
def sstep : SScan → Char → Option (SScan × List STok)
  | .code, c => some (sstart c)
  | .word ps, c => (wordName ps).map fun n => ((sstart c).1, .word n :: (sstart c).2)
  | .punct p, c =>
    if p = ['/'] ∧ c = '*' then some (.block, [])
    else if p = ['/'] ∧ c = '/' then some (.line, [])
    else if p ++ [c] ∈ operators then some (.punct (p ++ [c]), [])
    else some ((sstart c).1, .punct p :: (sstart c).2)
  | .str s, c =>
    if c = '"' then (litName s).map fun n => (.code, [.str n])
    else if c = '\\' then some (.strEsc s, [])
    else if c = '\n' then none
    else some (.str (s ++ [.other c]), [])
  | .strEsc s, c => if c = '\n' then none else some (.str (s ++ [.other '\\', .other c]), [])
  | .chr s, c =>
    if c = '\'' then
      match litName s with
      | some (.fixed w) => some (.code, [.chr (.fixed w)])
      | _ => none
    else if c = '\\' then some (.chrEsc s, [])
    else if c = '\n' then none
    else some (.chr (s ++ [.other c]), [])
  | .chrEsc s, c => if c = '\n' then none else some (.chr (s ++ [.other '\\', .other c]), [])
  | .line, c =>
    if c = '\n' then some (.code, [.nl])
    else if c = '\\' then none
    else some (.line, [])
  | .block, c => if c = '*' then some (.star, []) else some (.block, [])
  | .star, c =>
    if c = '/' then some (.code, [])
    else if c = '*' then some (.star, [])
    else some (.block, [])
  | .splice, c => if c = '\n' then some (.code, []) else none

/-- A part whose text is a word. -/
def wstep (q : Part) : SScan → Option (SScan × List STok)
  | .code => some (.word [q], [])
  | .word ps => some (.word (ps ++ [q]), [])
  | .punct p => some (.word [q], [.punct p])
  | .str ps => some (.str (ps ++ [q]), [])
  | .strEsc ps => some (.str (ps ++ [.other '\\', q]), [])
  | .chr ps => some (.chr (ps ++ [q]), [])
  | .chrEsc ps => some (.chr (ps ++ [.other '\\', q]), [])
  | .line => some (.line, [])
  | .block => some (.block, [])
  | .star => some (.block, [])
  | .splice => none

/-- Keywords whose value is a word. -/
def wordKws : List Str := [str% "symbol", str% "func_symbol", str% "obj_symbol"]

/-- Keywords whose value is some text. -/
def textKws : List Str := [str% "sym_type", str% "type", str% "obj_type", str% "args"]

/-- The keyword for a symbol without blanks behind it. -/
def unpad (k : Str) : Option Str :=
  if k = str% "func_symbol_pad" then some (str% "func_symbol")
  else if k = str% "obj_symbol_pad" then some (str% "obj_symbol")
  else none

def symScan : SScan → List Part → Option (SScan × List STok)
  | s, [] => some (s, [])
  | s, .word w :: r => (wstep (.word w) s).bind fun a => (symScan a.1 r).map fun b => (b.1, a.2 ++ b.2)
  | s, .other c :: r => (sstep s c).bind fun a => (symScan a.1 r).map fun b => (b.1, a.2 ++ b.2)
  | s, .kw k :: r =>
    if k ∈ wordKws then (wstep (.kw k) s).bind fun a => (symScan a.1 r).map fun b => (b.1, a.2 ++ b.2)
    else
      match r with
      | .other c :: r' =>
        if s = .punct ['('] ∧ c = ')' ∧ k ∈ textKws then
          (symScan (.punct [')']) r').map fun b => (b.1, .punct ['('] :: .text (.hole [] k) :: b.2)
        else if s = .punct ['<'] ∧ c = '>' ∧ k = str% "sym_type" then
          (symScan (.punct ['>']) r').map fun b => (b.1, .punct ['<'] :: .text (.hole [] k) :: b.2)
        else if s = .code ∧ c = ' ' ∧ k ∈ textKws then
          match r' with
          | .other d :: r'' =>
            if d = '(' ∨ d = '*' then (symScan (.punct [d]) r'').map fun b => (b.1, .text (.hole [] k) :: b.2) else none
          | _ => none
        else if s = .code ∧ c = ' ' then
          (unpad k).bind fun k' => (symScan .code r').map fun b => (b.1, .word (.hole [] k') :: b.2)
        else none
      | _ => none

/-! ### The symbolic scanner is right -/

/-- Text that can be between angle brackets. -/
structure Angle (v : Str) : Prop where
  chars : ∀ c ∈ v, c ∉ ['/', '"', '\'', '\\', '\n', '#']
  first : ∀ c, v.head? = some c → c ≠ '<' ∧ c ≠ '='
  last : ∃ r c, v = r ++ [c] ∧ (c = ')' ∨ c = '*')

/-- The values of a keyword are as the scanner expects. -/
structure KwOk (val : Values) (k : Str) : Prop where
  word : k ∈ wordKws → ∃ v, val k = some (v, false) ∧ Word v
  text : k ∈ textKws → ∃ v e, val k = some (v, e) ∧ ∀ c ∈ v, c ∉ ['/', '"', '\'', '\\', '\n', '#']
  angle : k = str% "sym_type" → ∃ v e, val k = some (v, e) ∧ Angle v
  pad : ∀ k', unpad k = some k' → ∃ v n, val k = some (v ++ List.replicate n ' ', false) ∧ val k' = some (v, false) ∧ Word v

variable {u l : Str} {val : Values}

theorem ptexts_append (ps qs : List Part) : ptexts u l val (ps ++ qs) = ptexts u l val ps ++ ptexts u l val qs := by simp [ptexts]

theorem ptexts_one (q : Part) : ptexts u l val [q] = ptext u l val q := by simp [ptexts]

theorem wstep_sound {q : Part} (hq : Word (ptext u l val q)) {s s' : SScan} {ts : List STok} (h : wstep q s = some (s', ts)) :
    ∃ toks, scan (s.fill u l val) (ptext u l val q) = some (s'.fill u l val, toks) ∧ closeAll u l (ts.map (STok.inst val)) = some toks := by
  obtain ⟨hn, hw⟩ := hq
  cases hv : ptext u l val q with
  | nil => exact absurd hv hn
  | cons c r =>
    rw [hv] at hw
    have hc := hw c (by simp)
    have hr : ∀ x ∈ r, isWord x = true := fun x hx => hw x (by simp [hx])
    obtain ⟨h1, h2, h3, h4, h5, h6⟩ := word_ne hc
    cases s with
    | code =>
      cases h
      refine ⟨[], ?_, rfl⟩
      have e : step .code c = some (.word [c], []) := by simp [step, start, hc]
      show scan .code (c :: r) = _
      rw [scan_cons e (scan_word_more [c] hr)]
      simp [SScan.fill, ptexts_one, hv]
    | word ps =>
      cases h
      refine ⟨[], ?_, rfl⟩
      show scan (.word _) (c :: r) = _
      rw [scan_word_more _ hw]
      simp [SScan.fill, ptexts_append, ptexts_one, hv]
    | punct p =>
      cases h
      refine ⟨[.punct p], ?_, rfl⟩
      have e : step (.punct p) c = some (.word [c], [.punct p]) := by
        simp [step, h1, h2, operators_word hc, start, hc]
      show scan (.punct p) (c :: r) = _
      rw [scan_cons e (scan_word_more [c] hr)]
      simp [SScan.fill, ptexts_one, hv]
    | str ps =>
      cases h
      refine ⟨[], ?_, rfl⟩
      show scan (.str _) (c :: r) = _
      rw [scan_str_more _ hw]
      simp [SScan.fill, ptexts_append, ptexts_one, hv]
    | strEsc ps =>
      cases h
      refine ⟨[], ?_, rfl⟩
      have e : step (.strEsc (ptexts u l val ps)) c = some (.str (ptexts u l val ps ++ ['\\', c]), []) := by simp [step, h5]
      show scan (.strEsc _) (c :: r) = _
      rw [scan_cons e (scan_str_more _ hr)]
      simp [SScan.fill, ptexts, hv]
      rfl
    | chr ps =>
      cases h
      refine ⟨[], ?_, rfl⟩
      show scan (.chr _) (c :: r) = _
      rw [scan_chr_more _ hw]
      simp [SScan.fill, ptexts_append, ptexts_one, hv]
    | chrEsc ps =>
      cases h
      refine ⟨[], ?_, rfl⟩
      have e : step (.chrEsc (ptexts u l val ps)) c = some (.chr (ptexts u l val ps ++ ['\\', c]), []) := by simp [step, h5]
      show scan (.chrEsc _) (c :: r) = _
      rw [scan_cons e (scan_chr_more _ hr)]
      simp [SScan.fill, ptexts, hv]
      rfl
    | line =>
      cases h
      refine ⟨[], ?_, rfl⟩
      exact scan_same fun x hx => by
        obtain ⟨_, _, _, k4, k5, _⟩ := word_ne (hw x hx)
        simp [SScan.fill, step, k4, k5]
    | block =>
      cases h
      refine ⟨[], ?_, rfl⟩
      exact scan_same fun x hx => by
        obtain ⟨k1, _⟩ := word_ne (hw x hx)
        simp [SScan.fill, step, k1]
    | star =>
      cases h
      refine ⟨[], ?_, rfl⟩
      have e : step .star c = some (.block, []) := by simp [step, h1, h2]
      show scan .star (c :: r) = _
      rw [scan_cons e (scan_same fun x hx => by
        obtain ⟨k1, _⟩ := word_ne (hr x hx)
        simp [step, k1])]
      rfl
    | splice => cases h

theorem start_eq {c : Char} (hc : isWord c = false) :
    start c = ((sstart c).1.fill u l val, (start c).2) ∧ closeAll u l ((sstart c).2.map (STok.inst val)) = some (start c).2 := by
  unfold start sstart
  rw [if_neg (by simp [hc])]
  by_cases h1 : c = ' ' ∨ c = '\t'
  · simp only [if_pos h1]; exact ⟨rfl, rfl⟩
  simp only [if_neg h1]
  by_cases h2 : c = '\n'
  · simp only [if_pos h2]; exact ⟨rfl, rfl⟩
  simp only [if_neg h2]
  by_cases h3 : c = '"'
  · simp only [if_pos h3]; exact ⟨rfl, rfl⟩
  simp only [if_neg h3]
  by_cases h4 : c = '\''
  · simp only [if_pos h4]; exact ⟨rfl, rfl⟩
  simp only [if_neg h4]
  by_cases h5 : c = '\\'
  · simp only [if_pos h5]; exact ⟨rfl, rfl⟩
  simp only [if_neg h5]
  exact ⟨rfl, rfl⟩

theorem closeAll_cons {t : STok} {ts : List STok} {a b : List Tok} (h1 : t.close u l = some a) (h2 : closeAll u l ts = some b) :
    closeAll u l (t :: ts) = some (a ++ b) := by
  rw [closeAll, h1]
  simp [h2]

theorem closeAll_append {xs ys : List STok} {a b : List Tok} (h1 : closeAll u l xs = some a) (h2 : closeAll u l ys = some b) :
    closeAll u l (xs ++ ys) = some (a ++ b) := by
  induction xs generalizing a with
  | nil => cases h1; exact h2
  | cons x xs ih =>
    rw [closeAll] at h1
    obtain ⟨p, hp, h1⟩ := bind_some_eq h1
    obtain ⟨q, hq, rfl⟩ := map_some_eq h1
    rw [List.cons_append, closeAll_cons hp (ih hq)]
    simp

/-- The keywords of a token have values. -/
def Known (val : Values) (ps : List Part) : Prop := ∀ k, .kw k ∈ ps → ∃ v e, val k = some (v, e)

theorem wordName_close {ps : List Part} {n : Name} (h : wordName ps = some n) (hk : Known val ps) :
    ((STok.word n).inst val).close u l = some [.word (ptexts u l val ps)] := by
  unfold wordName at h
  split at h
  · cases h
    simp [STok.inst, Name.inst, STok.close, ptexts, ptext]
  · cases h
    rename_i k
    obtain ⟨v, e, hv⟩ := hk k (by simp)
    have : newName u l [] = [] := rfl
    simp [STok.inst, Name.inst, STok.close, ptexts, ptext, hv, this]
  · cases h
    rename_i p k
    obtain ⟨v, e, hv⟩ := hk k (by simp)
    simp [STok.inst, Name.inst, STok.close, ptexts, ptext, hv]
  · cases h

theorem fillIn_noKw {val : Values} {ps : List Part} (h : ∀ q ∈ ps, isKw q = false) : fillIn u l (fun _ => none) false ps = ptexts u l val ps := by
  induction ps with
  | nil => rfl
  | cons q ps ih =>
    have ih := ih fun x hx => h x (by simp [hx])
    cases q with
    | word w => rw [fillIn, ih]; rfl
    | other c => rw [fillIn, ih]; rfl
    | kw k => have := h (.kw k) (by simp); cases this

theorem fixedText_eq {ps : List Part} {s : Str} (h : fixedText ps = some s) : renamed u l s = ptexts u l val ps := by
  unfold fixedText at h
  dsimp only at h
  obtain ⟨h1, h⟩ := if_some_eq h
  cases h
  unfold renamed
  rw [h1.1]
  exact fillIn_noKw fun q hq => by simpa using List.all_eq_true.mp h1.2 q hq

theorem litName_fixed {ps : List Part} {s : Str} (h : litName ps = some (.fixed s)) : renamed u l s = ptexts u l val ps := by
  unfold litName at h
  split at h
  · obtain ⟨_, _, h⟩ := map_some_eq h
    cases h
  · obtain ⟨_, h1, h⟩ := map_some_eq h
    cases h
    exact fixedText_eq h1

theorem litName_close {ps : List Part} {n : Name} (h : litName ps = some n) (hk : Known val ps) :
    ((STok.str n).inst val).close u l = some [.str (ptexts u l val ps)] := by
  cases n with
  | fixed s =>
    show some [Tok.str (renamed u l s)] = _
    rw [litName_fixed h]
  | hole p k =>
    unfold litName at h
    split at h
    · rename_i k' hg
      obtain ⟨s, h1, h⟩ := map_some_eq h
      cases h
      have hps : ps = ps.dropLast ++ [.kw k] := by
        obtain ⟨ys, hy⟩ := List.getLast?_eq_some_iff.mp hg
        rw [hy]
        simp
      obtain ⟨v, e, hv⟩ := hk k (by rw [hps]; simp)
      rw [hps, ptexts_append, ptexts_one, ← fixedText_eq h1]
      simp [STok.inst, Name.inst, STok.close, ptext, hv]
    · obtain ⟨_, _, h⟩ := map_some_eq h
      cases h
  | glued p v =>
    unfold litName at h
    split at h <;> (obtain ⟨_, _, h⟩ := map_some_eq h; cases h)

/-- The keywords in a state have values. -/
def SScan.Known (val : Values) : SScan → Prop
  | .word ps => Cc.Known val ps
  | .str ps => Cc.Known val ps
  | .strEsc ps => Cc.Known val ps
  | .chr ps => Cc.Known val ps
  | .chrEsc ps => Cc.Known val ps
  | _ => True

theorem sstart_known (c : Char) : (sstart c).1.Known val := by
  unfold sstart
  repeat' split
  all_goals first | exact trivial | (intro k hk; cases hk)

theorem Known.snoc {ps : List Part} (h : Known val ps) {qs : List Part} (hq : Known val qs) : Known val (ps ++ qs) := fun k hk =>
  (List.mem_append.mp hk).elim (h k) (hq k)

theorem Known.others {qs : List Part} (h : ∀ q ∈ qs, isKw q = false) : Known val qs := fun k hk => by
  have := h _ hk
  cases this

theorem sstep_sound {c : Char} (hc : isWord c = false) {s s' : SScan} (hs : s.Known val) {ts : List STok} (h : sstep s c = some (s', ts)) :
    s'.Known val ∧
    ∃ toks, step (s.fill u l val) c = some (s'.fill u l val, toks) ∧ closeAll u l (ts.map (STok.inst val)) = some toks := by
  obtain ⟨e1, e2⟩ := start_eq (u := u) (l := l) (val := val) hc
  cases s with
  | code =>
    have h' : sstart c = (s', ts) := Option.some.inj h
    obtain ⟨rfl, rfl⟩ : (sstart c).1 = s' ∧ (sstart c).2 = ts := by rw [h']; exact ⟨rfl, rfl⟩
    exact ⟨sstart_known c, (start c).2, by rw [SScan.fill, step, e1], e2⟩
  | word ps =>
    obtain ⟨n, hn, h⟩ := map_some_eq h
    cases h
    refine ⟨sstart_known c, .word (ptexts u l val ps) :: (start c).2, ?_, ?_⟩
    · show step (.word (ptexts u l val ps)) c = _
      rw [step, if_neg (by simp [hc]), e1]
    · exact closeAll_cons (wordName_close hn hs) e2
  | punct p =>
    rw [sstep] at h
    show _ ∧ ∃ toks, step (.punct p) c = _ ∧ _
    rw [step]
    split at h
    · rename_i hx
      cases h
      exact ⟨trivial, [], by rw [if_pos hx]; rfl, rfl⟩
    · rename_i hx
      rw [if_neg hx]
      split at h
      · rename_i hy
        cases h
        exact ⟨trivial, [], by rw [if_pos hy]; rfl, rfl⟩
      · rename_i hy
        rw [if_neg hy]
        split at h
        · rename_i hz
          cases h
          exact ⟨trivial, [], by rw [if_pos hz]; rfl, rfl⟩
        · rename_i hz
          rw [if_neg hz]
          cases h
          exact ⟨sstart_known c, .punct p :: (start c).2, by rw [e1], closeAll_cons (t := .punct p) (a := [.punct p]) rfl e2⟩
  | str ps =>
    rw [sstep] at h
    show _ ∧ ∃ toks, step (.str (ptexts u l val ps)) c = _ ∧ _
    rw [step]
    split at h
    · rename_i hx
      obtain ⟨n, hn, h⟩ := map_some_eq h
      cases h
      exact ⟨trivial, [.str (ptexts u l val ps)], by rw [if_pos hx]; rfl, closeAll_cons (litName_close hn hs) rfl⟩
    · rename_i hx
      rw [if_neg hx]
      split at h
      · rename_i hy
        cases h
        exact ⟨hs, [], by rw [if_pos hy]; rfl, rfl⟩
      · rename_i hy
        rw [if_neg hy]
        split at h
        · cases h
        · rename_i hz
          cases h
          refine ⟨hs.snoc (Known.others (by simp [isKw])), [], ?_, rfl⟩
          rw [if_neg hz]
          simp [SScan.fill, ptexts, ptext]
  | strEsc ps =>
    rw [sstep] at h
    show _ ∧ ∃ toks, step (.strEsc (ptexts u l val ps)) c = _ ∧ _
    rw [step]
    split at h
    · cases h
    · rename_i hz
      cases h
      refine ⟨hs.snoc (Known.others (by simp [isKw])), [], ?_, rfl⟩
      rw [if_neg hz]
      simp [SScan.fill, ptexts, ptext]
  | chr ps =>
    rw [sstep] at h
    show _ ∧ ∃ toks, step (.chr (ptexts u l val ps)) c = _ ∧ _
    rw [step]
    split at h
    · rename_i hx
      split at h
      · rename_i w hn
        cases h
        have e : (STok.chr (.fixed w)).close u l = some [.chr (ptexts u l val ps)] := by
          show some [Tok.chr (renamed u l w)] = _
          rw [litName_fixed hn]
        exact ⟨trivial, [.chr (ptexts u l val ps)], by rw [if_pos hx]; rfl, closeAll_cons (b := []) e rfl⟩
      · cases h
    · rename_i hx
      rw [if_neg hx]
      split at h
      · rename_i hy
        cases h
        exact ⟨hs, [], by rw [if_pos hy]; rfl, rfl⟩
      · rename_i hy
        rw [if_neg hy]
        split at h
        · cases h
        · rename_i hz
          cases h
          refine ⟨hs.snoc (Known.others (by simp [isKw])), [], ?_, rfl⟩
          rw [if_neg hz]
          simp [SScan.fill, ptexts, ptext]
  | chrEsc ps =>
    rw [sstep] at h
    show _ ∧ ∃ toks, step (.chrEsc (ptexts u l val ps)) c = _ ∧ _
    rw [step]
    split at h
    · cases h
    · rename_i hz
      cases h
      refine ⟨hs.snoc (Known.others (by simp [isKw])), [], ?_, rfl⟩
      rw [if_neg hz]
      simp [SScan.fill, ptexts, ptext]
  | line =>
    rw [sstep] at h
    show _ ∧ ∃ toks, step .line c = _ ∧ _
    rw [step]
    split at h
    · rename_i hx
      cases h
      exact ⟨trivial, [.nl], by rw [if_pos hx]; rfl, rfl⟩
    · rename_i hx
      rw [if_neg hx]
      split at h
      · cases h
      · rename_i hy
        cases h
        exact ⟨trivial, [], by rw [if_neg hy]; rfl, rfl⟩
  | block =>
    rw [sstep] at h
    show _ ∧ ∃ toks, step .block c = _ ∧ _
    rw [step]
    split at h
    · rename_i hx
      cases h
      exact ⟨trivial, [], by rw [if_pos hx]; rfl, rfl⟩
    · rename_i hx
      cases h
      exact ⟨trivial, [], by rw [if_neg hx]; rfl, rfl⟩
  | star =>
    rw [sstep] at h
    show _ ∧ ∃ toks, step .star c = _ ∧ _
    rw [step]
    split at h
    · rename_i hx
      cases h
      exact ⟨trivial, [], by rw [if_pos hx]; rfl, rfl⟩
    · rename_i hx
      rw [if_neg hx]
      split at h
      · rename_i hy
        cases h
        exact ⟨trivial, [], by rw [if_pos hy]; rfl, rfl⟩
      · rename_i hy
        cases h
        exact ⟨trivial, [], by rw [if_neg hy]; rfl, rfl⟩
  | splice =>
    rw [sstep] at h
    show _ ∧ ∃ toks, step .splice c = _ ∧ _
    rw [step]
    split at h
    · rename_i hx
      cases h
      exact ⟨trivial, [], by rw [if_pos hx]; rfl, rfl⟩
    · cases h

theorem wstep_known {q : Part} (hq : Known val [q]) {s s' : SScan} (hs : s.Known val) {ts : List STok} (h : wstep q s = some (s', ts)) :
    s'.Known val := by
  have hq' : Known val [.other '\\', q] := fun k hk => hq k (by simpa using hk)
  cases s <;> cases h
  · exact hq
  · exact Known.snoc hs hq
  · exact hq
  · exact Known.snoc hs hq
  · exact Known.snoc hs hq'
  · exact Known.snoc hs hq
  · exact Known.snoc hs hq'
  · exact trivial
  · exact trivial
  · exact trivial

/-! ### Keywords with several tokens as their value -/

/-- States in which a token may be complete. -/
def Loose : Scan → Prop
  | .code => True
  | .word _ => True
  | .punct p => p ≠ ['/']
  | _ => False

theorem loose_start {c : Char} (hc : c ∉ ['/', '"', '\'', '\\', '\n', '#']) : Loose (start c).1 ∧ (start c).2 = [] := by
  simp only [List.mem_cons, List.not_mem_nil, or_false, not_or] at hc
  obtain ⟨h1, h2, h3, h4, h5, h6⟩ := hc
  unfold start
  simp only [if_neg h5, if_neg h2, if_neg h3, if_neg h4]
  split
  · exact ⟨trivial, rfl⟩
  · split
    · exact ⟨trivial, rfl⟩
    · exact ⟨by simp [Loose, h1], rfl⟩

theorem loose_step {s : Scan} (hs : Loose s) {c : Char} (hc : c ∉ ['/', '"', '\'', '\\', '\n', '#']) :
    ∃ s' ts, step s c = some (s', ts) ∧ Loose s' := by
  obtain ⟨h1, h2⟩ := loose_start hc
  cases s with
  | code => exact ⟨_, _, rfl, h1⟩
  | word w =>
    rw [step]
    split
    · exact ⟨_, _, rfl, trivial⟩
    · exact ⟨_, _, rfl, h1⟩
  | punct p =>
    have hp : ¬ (p = ['/'] ∧ c = '*') := fun h => hs h.1
    have hp' : ¬ (p = ['/'] ∧ c = '/') := fun h => hs h.1
    rw [step, if_neg hp, if_neg hp']
    split
    · rename_i ho
      refine ⟨_, _, rfl, fun he => ?_⟩
      have : ['/'] ∉ operators := by decide
      exact this (he ▸ ho)
    · exact ⟨_, _, rfl, h1⟩
  | _ => cases hs

theorem loose_scan {s : Scan} (hs : Loose s) {v : Str} (hv : ∀ c ∈ v, c ∉ ['/', '"', '\'', '\\', '\n', '#']) :
    ∃ s' ts, scan s v = some (s', ts) ∧ Loose s' := by
  induction v generalizing s with
  | nil => exact ⟨s, [], rfl, hs⟩
  | cons c v ih =>
    obtain ⟨s1, t1, h1, h2⟩ := loose_step hs (hv c (by simp))
    obtain ⟨s2, t2, h3, h4⟩ := ih h2 fun x hx => hv x (by simp [hx])
    exact ⟨s2, _, scan_cons h1 h3, h4⟩

theorem loose_close {s : Scan} (hs : Loose s) : ∃ ts, flush s = some ts ∧ step s ')' = some (.punct [')'], ts) := by
  have e : start ')' = (.punct [')'], []) := by decide
  cases s with
  | code => exact ⟨[], rfl, by rw [step, e]⟩
  | word w => exact ⟨[.word w], rfl, by rw [step, if_neg (by decide), e]⟩
  | punct p =>
    refine ⟨[.punct p], rfl, ?_⟩
    rw [step, if_neg (by simp), if_neg (by simp), if_neg operators_close, e]
  | _ => cases hs

/-- Text in parentheses. -/
theorem scan_parens {v : Str} (hv : ∀ c ∈ v, c ∉ ['/', '"', '\'', '\\', '\n', '#']) :
    ∃ ts, tokens v = some ts ∧ scan (.punct ['(']) (v ++ [')']) = some (.punct [')'], .punct ['('] :: ts) := by
  cases v with
  | nil => exact ⟨[], rfl, by decide⟩
  | cons c r =>
    obtain ⟨s', t', h1, h2⟩ := loose_scan (s := .code) trivial hv
    obtain ⟨t2, h3, h4⟩ := loose_close h2
    refine ⟨t' ++ t2, by rw [tokens, h1]; simp [h3], ?_⟩
    have key : scan (.punct ['(']) (c :: r) = some (s', .punct ['('] :: t') := by
      rw [scan] at h1
      have e1 : step .code c = some (start c) := rfl
      have e2 : step (.punct ['(']) c = some ((start c).1, .punct ['('] :: (start c).2) := by
        rw [step, if_neg (by simp), if_neg (by simp), if_neg (show ¬ ['('] ++ [c] ∈ operators from operators_open)]
      rw [e1] at h1
      rw [scan, e2]
      simp only [Option.bind_some] at h1 ⊢
      obtain ⟨b, hb, h1⟩ := map_some_eq h1
      rw [hb]
      cases h1
      rfl
    have := scan_trans key (scan_cons h4 (rfl : scan (.punct [')']) [] = _))
    rw [this]
    simp

theorem loose_last {s s' : Scan} {c : Char} {ts : List Tok} (hs : Loose s) (hc : c = ')' ∨ c = '*') (h : step s c = some (s', ts)) :
    s' = .punct [c] := by
  have hw : isWord c = false := by rcases hc with rfl | rfl <;> decide
  have e : start c = (.punct [c], []) := by rcases hc with rfl | rfl <;> decide
  cases s with
  | code => rw [step, e] at h; cases h; rfl
  | word w => rw [step, if_neg (by simp [hw]), e] at h; cases h; rfl
  | punct p =>
    have ho : p ++ [c] ∉ operators := by
      intro hm
      have key : ∀ o ∈ operators, o.getLast? ≠ some ')' ∧ o.getLast? ≠ some '*' := by decide
      obtain ⟨h1, h2⟩ := key _ hm
      rcases hc with rfl | rfl
      · exact h1 (by simp)
      · exact h2 (by simp)
    rw [step, if_neg (fun h => hs h.1), if_neg (fun h => hs h.1), if_neg ho, e] at h
    cases h
    rfl
  | _ => cases hs

/-- Text in angle brackets. -/
theorem scan_angles {v : Str} (hv : Angle v) :
    ∃ ts, tokens v = some ts ∧ scan (.punct ['<']) (v ++ ['>']) = some (.punct ['>'], .punct ['<'] :: ts) := by
  obtain ⟨hch, hfirst, r, c, rfl, hc⟩ := hv
  obtain ⟨s1, t1, h1, h2⟩ := loose_scan (s := .code) trivial (v := r) fun x hx => hch x (by simp [hx])
  obtain ⟨s2, t2, h3, h4⟩ := loose_step h2 (hch c (by simp))
  have e2 := loose_last h2 hc h3
  subst e2
  have hall : scan .code (r ++ [c]) = some (.punct [c], t1 ++ t2) := by
    have := scan_trans h1 (scan_cons h3 (rfl : scan (.punct [c]) [] = _))
    simpa using this
  have hend : step (.punct [c]) '>' = some (.punct ['>'], [.punct [c]]) := by rcases hc with rfl | rfl <;> decide
  refine ⟨t1 ++ t2 ++ [.punct [c]], by rw [tokens, hall]; rfl, ?_⟩
  have key : scan (.punct ['<']) (r ++ [c]) = some (.punct [c], .punct ['<'] :: (t1 ++ t2)) := by
    cases hx : r ++ [c] with
    | nil => simp at hx
    | cons d w =>
      rw [hx] at hall hfirst hch
      obtain ⟨n1, n2⟩ := hfirst d rfl
      rw [scan] at hall
      have e1 : step .code d = some (start d) := rfl
      have e2 : step (.punct ['<']) d = some ((start d).1, .punct ['<'] :: (start d).2) := by
        have ho : ¬ ['<'] ++ [d] ∈ operators := by
          intro hm
          have key : ∀ o ∈ operators, ∀ x, o = ['<', x] → x = '<' ∨ x = '=' := by
            simp only [operators, List.mem_cons, List.not_mem_nil, or_false]
            rintro o (rfl | rfl | rfl | rfl | rfl | rfl | rfl | rfl | rfl | rfl | rfl | rfl | rfl | rfl | rfl) x hx <;>
              first | (cases hx; exact Or.inl rfl) | (cases hx; exact Or.inr rfl) | (exfalso; revert hx; simp)
          rcases key _ hm d rfl with h | h
          · exact n1 h
          · exact n2 h
        rw [step, if_neg (by simp), if_neg (by simp), if_neg ho]
      rw [e1] at hall
      rw [scan, e2]
      simp only [Option.bind_some] at hall ⊢
      obtain ⟨b, hb, hall⟩ := map_some_eq hall
      rw [hb, Option.map_some]
      simp only [Prod.mk.injEq] at hall
      simp [hall.1, ← hall.2]
  have := scan_trans key (scan_cons hend (rfl : scan (.punct ['>']) [] = _))
  rw [this]
  simp

theorem loose_before {s : Scan} (hs : Loose s) {d : Char} (hd : d = '(' ∨ d = '*') :
    ∃ ts, flush s = some ts ∧ step s d = some (.punct [d], ts) ∧ step s ' ' = some (.code, ts) := by
  have hw : isWord d = false := by rcases hd with rfl | rfl <;> decide
  have e : start d = (.punct [d], []) := by rcases hd with rfl | rfl <;> decide
  have eb : start ' ' = (.code, []) := by decide
  cases s with
  | code => exact ⟨[], rfl, by rw [step, e], rfl⟩
  | word w => exact ⟨[.word w], rfl, by rw [step, if_neg (by simp [hw]), e], by rw [step, if_neg (by decide), eb]⟩
  | punct p =>
    have ho : p ++ [d] ∉ operators := by
      intro hm
      have key : ∀ o ∈ operators, o.getLast? ≠ some '(' ∧ o.getLast? ≠ some '*' := by decide
      obtain ⟨h1, h2⟩ := key _ hm
      rcases hd with rfl | rfl
      · exact h1 (by simp)
      · exact h2 (by simp)
    have hb : p ++ [' '] ∉ operators := by
      intro hm
      have key : ∀ o ∈ operators, o.getLast? ≠ some ' ' := by decide
      exact key _ hm (by simp)
    refine ⟨[.punct p], rfl, ?_, ?_⟩
    · rw [step, if_neg (fun h => hs h.1), if_neg (fun h => hs h.1), if_neg ho, e]
    · rw [step, if_neg (by simp), if_neg (by simp), if_neg hb, eb]
  | _ => cases hs

/-- Text in front of a parenthesis or an asterisk, with or without a blank. -/
theorem scan_before {v : Str} (hv : ∀ c ∈ v, c ∉ ['/', '"', '\'', '\\', '\n', '#']) {d : Char} (hd : d = '(' ∨ d = '*') :
    ∃ ts, tokens v = some ts ∧ scan .code (v ++ [d]) = some (.punct [d], ts) ∧ scan .code (v ++ [' ', d]) = some (.punct [d], ts) := by
  obtain ⟨s', t', h1, h2⟩ := loose_scan (s := .code) trivial hv
  obtain ⟨t2, h3, h4, h5⟩ := loose_before h2 hd
  have e : step .code d = some (.punct [d], []) := by rcases hd with rfl | rfl <;> decide
  refine ⟨t' ++ t2, by rw [tokens, h1]; simp [h3], ?_, ?_⟩
  · have := scan_trans h1 (scan_cons h4 (rfl : scan (.punct [d]) [] = _))
    simpa using this
  · have := scan_trans h1 (scan_cons h5 (scan_cons e (rfl : scan (.punct [d]) [] = _)))
    simpa using this

theorem scan_blanks (n : Nat) : scan .code (List.replicate n ' ') = some (.code, []) :=
  scan_same fun c hc => by rw [List.eq_of_mem_replicate hc]; rfl

/-- A word and blanks. -/
theorem scan_padded {v : Str} (hv : Word v) (n : Nat) : scan .code (v ++ List.replicate n ' ' ++ [' ']) = some (.code, [.word v]) := by
  obtain ⟨hn, hw⟩ := hv
  have h1 : scan .code v = some (.word v, []) := by
    cases v with
    | nil => exact absurd rfl hn
    | cons c r =>
      have e : step .code c = some (.word [c], []) := by simp [step, start, hw c (by simp)]
      rw [scan_cons e (scan_word_more [c] fun x hx => hw x (by simp [hx]))]
      rfl
  have h2 : scan (.word v) (List.replicate n ' ' ++ [' ']) = some (.code, [.word v]) := by
    rw [← List.replicate_succ', List.replicate_succ]
    have e : step (.word v) ' ' = some (.code, [.word v]) := by
      rw [step, if_neg (by decide)]
      rfl
    rw [scan_cons e (scan_blanks n)]
    rfl
  rw [List.append_assoc, scan_trans h1 h2]
  rfl

/-- The keywords of parts that are read have values as expected. -/
def KwsOk (val : Values) (ps : List Part) : Prop := ∀ k, .kw k ∈ ps → KwOk val k

theorem symScan_sound (hu : ∀ c ∈ u, isWord c = true) (hl : ∀ c ∈ l, isWord c = true) (hln : l ≠ []) {ps : List Part}
    (hw : ∀ w, .word w ∈ ps → w ≠ [] ∧ ∀ c ∈ w, isWord c = true) (ho : ∀ c, .other c ∈ ps → isWord c = false) (hk : KwsOk val ps)
    {s s' : SScan} (hs : s.Known val) {ts : List STok} (h : symScan s ps = some (s', ts)) :
    s'.Known val ∧ ∃ toks, scan (s.fill u l val) (fillIn u l val false ps) = some (s'.fill u l val, toks) ∧
      closeAll u l (ts.map (STok.inst val)) = some toks := by
  induction hlen : ps.length using Nat.strongRecOn generalizing ps s ts with
  | _ n ih =>
  have ih := fun {ps : List Part} (hn : ps.length < n) (h1 : ∀ w, .word w ∈ ps → w ≠ [] ∧ ∀ c ∈ w, isWord c = true)
    (h2 : ∀ c, .other c ∈ ps → isWord c = false) (h3 : KwsOk val ps) {s : SScan} (h4 : s.Known val) {ts : List STok}
    (h5 : symScan s ps = some (s', ts)) => ih ps.length hn h1 h2 h3 h4 h5 rfl
  cases ps with
  | nil =>
    rw [symScan] at h
    cases h
    exact ⟨hs, [], rfl, rfl⟩
  | cons q r =>
    have hwr : ∀ w, .word w ∈ r → w ≠ [] ∧ ∀ c ∈ w, isWord c = true := fun w h => hw w (by simp [h])
    have hor : ∀ c, .other c ∈ r → isWord c = false := fun c h => ho c (by simp [h])
    have hkr : KwsOk val r := fun k h => hk k (by simp [h])
    have hlt : r.length < n := by rw [← hlen]; exact Nat.lt_succ_self _
    cases q with
    | word w =>
      rw [symScan] at h
      obtain ⟨a, h1, h⟩ := bind_some_eq h
      obtain ⟨b, h2, hb⟩ := map_some_eq h
      cases hb
      obtain ⟨w1, w2⟩ := hw w (by simp)
      obtain ⟨n1, n2⟩ := newName_word hu hl hln w2 w1
      obtain ⟨t1, e1, e2⟩ := wstep_sound (u := u) (l := l) (val := val) (q := .word w) ⟨n1, n2⟩ h1
      obtain ⟨k, t2, e3, e4⟩ := ih hlt hwr hor hkr (wstep_known (Known.others (by simp [isKw])) hs h1) h2
      refine ⟨k, t1 ++ t2, ?_, ?_⟩
      · rw [fillIn]
        exact scan_trans e1 e3
      · rw [List.map_append]
        exact closeAll_append e2 e4
    | other c =>
      rw [symScan] at h
      obtain ⟨a, h1, h⟩ := bind_some_eq h
      obtain ⟨b, h2, hb⟩ := map_some_eq h
      cases hb
      obtain ⟨k1, t1, e1, e2⟩ := sstep_sound (u := u) (l := l) (ho c (by simp)) hs h1
      obtain ⟨k, t2, e3, e4⟩ := ih hlt hwr hor hkr k1 h2
      refine ⟨k, t1 ++ t2, ?_, ?_⟩
      · rw [fillIn]
        exact scan_cons e1 e3
      · rw [List.map_append]
        exact closeAll_append e2 e4
    | kw k =>
      unfold symScan at h
      have hkk := hk k (by simp)
      by_cases hkw : k ∈ wordKws
      · rw [if_pos hkw] at h
        obtain ⟨a, h1, h⟩ := bind_some_eq h
        obtain ⟨b, h2, hb⟩ := map_some_eq h
        cases hb
        obtain ⟨v, hv, hvw⟩ := hkk.word hkw
        have hp : ptext u l val (.kw k) = v := by simp [ptext, hv]
        obtain ⟨t1, e1, e2⟩ := wstep_sound (u := u) (l := l) (val := val) (q := .kw k) (by rw [hp]; exact hvw) h1
        obtain ⟨k', t2, e3, e4⟩ := ih hlt hwr hor hkr (wstep_known (fun x hx => by
          simp only [List.mem_singleton] at hx
          cases hx
          exact ⟨v, false, hv⟩) hs h1) h2
        refine ⟨k', t1 ++ t2, ?_, ?_⟩
        · rw [fillIn, hv]
          rw [hp] at e1
          exact scan_trans e1 e3
        · rw [List.map_append]
          exact closeAll_append e2 e4
      · rw [if_neg hkw] at h
        cases r with
        | nil => cases h
        | cons q r =>
          cases q with
          | word w => cases h
          | kw k => cases h
          | other c =>
            dsimp only at h
            have hlt' : r.length < n := by
              simp only [List.length_cons] at hlt
              omega
            have hwr' : ∀ w, .word w ∈ r → w ≠ [] ∧ ∀ c ∈ w, isWord c = true := fun w h => hwr w (by simp [h])
            have hor' : ∀ c, .other c ∈ r → isWord c = false := fun c h => hor c (by simp [h])
            have hkr' : KwsOk val r := fun k h => hkr k (by simp [h])
            split at h
            · rename_i hc
              obtain ⟨rfl, rfl, ht⟩ := hc
              obtain ⟨b, h2, hb⟩ := map_some_eq h
              cases hb
              obtain ⟨v, e, hv, hvc⟩ := hkk.text ht
              obtain ⟨t1, e1, e2⟩ := scan_parens hvc
              obtain ⟨k', t2, e3, e4⟩ := ih (s := .punct [')']) hlt' hwr' hor' hkr' trivial h2
              refine ⟨k', (.punct ['('] :: t1) ++ t2, ?_, ?_⟩
              · rw [fillIn, hv]
                dsimp only
                rw [fillIn, if_neg (by simp)]
                have := scan_trans e2 e3
                simpa [SScan.fill] using this
              · show closeAll u l (.punct ['('] :: (STok.text (.hole [] k)).inst val :: b.2.map (STok.inst val)) = _
                refine closeAll_cons (a := [.punct ['(']]) (b := t1 ++ t2) rfl (closeAll_cons ?_ e4)
                simp only [STok.inst, Name.inst, hv, STok.close, e1]
            · split at h
              · rename_i hc
                obtain ⟨rfl, rfl, ht⟩ := hc
                obtain ⟨b, h2, hb⟩ := map_some_eq h
                cases hb
                obtain ⟨v, e, hv, hvc⟩ := hkk.angle ht
                obtain ⟨t1, e1, e2⟩ := scan_angles hvc
                obtain ⟨k', t2, e3, e4⟩ := ih (s := .punct ['>']) hlt' hwr' hor' hkr' trivial h2
                refine ⟨k', (.punct ['<'] :: t1) ++ t2, ?_, ?_⟩
                · rw [fillIn, hv]
                  dsimp only
                  rw [fillIn, if_neg (by simp)]
                  have := scan_trans e2 e3
                  simpa [SScan.fill] using this
                · show closeAll u l (.punct ['<'] :: (STok.text (.hole [] k)).inst val :: b.2.map (STok.inst val)) = _
                  refine closeAll_cons (a := [.punct ['<']]) (b := t1 ++ t2) rfl (closeAll_cons ?_ e4)
                  simp only [STok.inst, Name.inst, hv, STok.close, e1]
              split at h
              · rename_i hc
                obtain ⟨rfl, rfl, ht⟩ := hc
                split at h
                · rename_i d r
                  obtain ⟨hd, h⟩ := if_some_eq h
                  obtain ⟨b, h2, hb⟩ := map_some_eq h
                  cases hb
                  obtain ⟨v, e, hv, hvc⟩ := hkk.text ht
                  obtain ⟨t1, e1, e2, e2'⟩ := scan_before hvc hd
                  obtain ⟨k', t2, e3, e4⟩ := ih (s := .punct [d]) (by simp only [List.length_cons] at hlt'; omega) (fun w h => hwr' w (by simp [h]))
                    (fun c h => hor' c (by simp [h])) (fun k h => hkr' k (by simp [h])) trivial h2
                  have hds : d ≠ ' ' := by rcases hd with rfl | rfl <;> decide
                  refine ⟨k', t1 ++ t2, ?_, ?_⟩
                  · rw [fillIn, hv]
                    dsimp only
                    rw [fillIn]
                    cases e with
                    | true =>
                      rw [if_pos (by simp), fillIn, if_neg (by simp)]
                      have := scan_trans e2 e3
                      simpa [SScan.fill] using this
                    | false =>
                      rw [if_neg (by simp), fillIn, if_neg (by simp)]
                      have := scan_trans e2' e3
                      simpa [SScan.fill] using this
                  · rw [List.map_cons]
                    refine closeAll_cons ?_ e4
                    simp only [STok.inst, Name.inst, hv, STok.close, e1]
                · cases h
              split at h
              · rename_i hc
                obtain ⟨rfl, rfl⟩ := hc
                obtain ⟨k1, hk1, h⟩ := bind_some_eq h
                obtain ⟨b, h2, hb⟩ := map_some_eq h
                cases hb
                obtain ⟨v, m, hv1, hv2, hvw⟩ := hkk.pad k1 hk1
                obtain ⟨k', t2, e3, e4⟩ := ih (s := .code) hlt' hwr' hor' hkr' trivial h2
                refine ⟨k', [.word v] ++ t2, ?_, ?_⟩
                · rw [fillIn, hv1]
                  dsimp only
                  rw [fillIn, if_neg (by simp)]
                  have := scan_trans (scan_padded hvw m) e3
                  simpa [SScan.fill] using this
                · rw [List.map_cons]
                  refine closeAll_cons ?_ e4
                  simp only [STok.inst, Name.inst, hv2, STok.close]
                  have : newName u l [] = [] := rfl
                  rw [this]
                  rfl
              · cases h

end Gdo.Cc
