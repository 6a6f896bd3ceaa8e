import Verif.Lemmas.BuiltinText
import Verif.Lemmas.TemplateDump
import Verif.Props.Template
import Verif.Model.Builtin

/-!
Lemmas about whole templates: from the lines of a template file to the built-in list
and to what is written for it.
-/

namespace Gdo.Tmpl
open Gdo Tpl Sub

/-- The entry with this text. -/
def mkEntry (d : Str) : Entry := ⟨d, d.contains '%', nlCount d + 1⟩

theorem mkEntry_consistent (d : Str) : Consistent (mkEntry d) := ⟨rfl, by simp [mkEntry]⟩

/-! ### Blocks -/

theorem stripMark_some {l l' : Str} (h : stripMark l = some l') : l = l' ++ str% "@" := by
  induction l generalizing l' with
  | nil => cases h
  | cons c s ih =>
    cases s with
    | nil =>
      simp only [stripMark] at h
      split at h
      · rename_i hc; cases h; simp [hc]
      · cases h
    | cons d r =>
      simp only [stripMark, Option.map_eq_some_iff] at h
      obtain ⟨x, hx, rfl⟩ := h
      simp [ih hx]

theorem stripMark_none {l : Str} (h : stripMark l = none) : l.getLast? ≠ some '@' := by
  induction l with
  | nil => simp
  | cons c s ih =>
    cases s with
    | nil =>
      simp only [stripMark] at h
      split at h
      · cases h
      · rename_i hc; simp [hc]
    | cons d r =>
      simp only [stripMark, Option.map_eq_none_iff] at h
      rw [List.getLast?_cons_cons]
      exact ih h

/-- The last line of a block has no mark. -/
def BlockOk : List Str → Prop
  | [] => False
  | [l] => stripMark l = none
  | _ :: l :: r => BlockOk (l :: r)

/-- The last line has no continuation mark. -/
def unmarkedEnd : List Str → Bool
  | [] => true
  | [l] => (stripMark l).isNone
  | _ :: l :: r => unmarkedEnd (l :: r)

theorem blocks_ne_nil {ls : List Str} (h : ls ≠ []) : blocks ls ≠ [] := by
  cases ls with
  | nil => exact absurd rfl h
  | cons l ls =>
    rw [blocks]
    split
    · simp
    · split <;> simp

theorem blocks_ok {ls : List Str} (h : unmarkedEnd ls = true) : ∀ b ∈ blocks ls, BlockOk b := by
  induction ls with
  | nil => intro b hb; cases hb
  | cons l ls ih =>
    have h' : unmarkedEnd ls = true := by
      cases ls with
      | nil => rfl
      | cons _ _ => exact h
    rw [blocks]
    cases hs : stripMark l with
    | none =>
      intro b hb
      rcases List.mem_cons.mp hb with rfl | hb
      · exact hs
      · exact ih h' b hb
    | some l' =>
      cases hb : blocks ls with
      | nil =>
        cases ls with
        | nil => simp [unmarkedEnd, hs] at h
        | cons x r => exact absurd hb (blocks_ne_nil (by simp))
      | cons b bs =>
        intro b' hb'
        have hi := ih h'
        rw [hb] at hi
        rcases List.mem_cons.mp hb' with rfl | hb'
        · have := hi b (by simp)
          cases b with
          | nil => exact this.elim
          | cons x r => exact this
        · exact hi b' (by simp [hb'])

theorem blocks_mem {P : Char → Prop} {ls : List Str} (h : ∀ l ∈ ls, ∀ c ∈ l, P c) : ∀ b ∈ blocks ls, ∀ l ∈ b, ∀ c ∈ l, P c := by
  induction ls with
  | nil => intro b hb; cases hb
  | cons l ls ih =>
    have ih := ih fun x hx => h x (by simp [hx])
    have hl := h l (by simp)
    rw [blocks]
    cases hs : stripMark l with
    | none =>
      intro b hb
      rcases List.mem_cons.mp hb with rfl | hb
      · simpa using hl
      · exact ih b hb
    | some l' =>
      have hl' : ∀ c ∈ l', P c := fun c hc => hl c (by rw [stripMark_some hs]; simp [hc])
      cases hb : blocks ls with
      | nil => simpa using hl'
      | cons b bs =>
        rw [hb] at ih
        intro b' hb' x hx
        rcases List.mem_cons.mp hb' with rfl | hb'
        · rcases List.mem_cons.mp hx with rfl | hx
          · exact hl'
          · exact ih b (by simp) x hx
        · exact ih b' (by simp [hb']) x hx

theorem joinLines_cons {l : Str} {b : List Str} (h : b ≠ []) : joinLines (l :: b) = l ++ str% "\n" ++ joinLines b := by
  cases b with
  | nil => exact absurd rfl h
  | cons x r => rfl

theorem dumpText_append (a b : Str) : dumpText (a ++ b) = dumpText a ++ dumpText b := by simp [dumpText]

theorem dumpText_line {l : Str} (h : '\n' ∉ l) : dumpText l = l :=
  dumpText_flat l (List.count_eq_zero.mpr h)

/-- Dumping the entries of the blocks gives the lines back. -/
theorem blocks_dump {ls : List Str} (h : ∀ l ∈ ls, '\n' ∉ l) (hu : unmarkedEnd ls = true) :
    ((blocks ls).map fun b => mkEntry (joinLines b)).flatMap dumpEntry = ls.flatMap fun l => l ++ str% "\n" := by
  induction ls with
  | nil => rfl
  | cons l ls ih =>
    have hu' : unmarkedEnd ls = true := by
      cases ls with
      | nil => rfl
      | cons _ _ => exact hu
    have ih := ih (fun x hx => h x (by simp [hx])) hu'
    have hl := h l (by simp)
    rw [blocks, List.flatMap_cons, ← ih]
    cases hs : stripMark l with
    | none =>
      simp only [List.map_cons, List.flatMap_cons]
      rw [dumpEntry_eq _ (mkEntry_consistent _)]
      simp only [mkEntry, joinLines, dumpText_line hl]
    | some l' =>
      have hl' : '\n' ∉ l' := fun hc => hl (by rw [stripMark_some hs]; simp [hc])
      cases hb : blocks ls with
      | nil =>
        cases ls with
        | nil => simp [unmarkedEnd, hs] at hu
        | cons x r => exact absurd hb (blocks_ne_nil (by simp))
      | cons b bs =>
        have hbn : b ≠ [] := by
          have := blocks_ok hu' b (by rw [hb]; simp)
          intro hn
          rw [hn] at this
          exact this
        simp only [List.map_cons, List.flatMap_cons]
        rw [dumpEntry_eq _ (mkEntry_consistent _), dumpEntry_eq _ (mkEntry_consistent _)]
        simp only [mkEntry, joinLines_cons hbn, dumpText_append, dumpText_line hl', stripMark_some hs]
        simp [dumpText]

theorem block_last {b : List Str} (h : BlockOk b) : (joinLines b).getLast? ≠ some '@' := by
  induction b with
  | nil => exact h.elim
  | cons l b ih =>
    cases b with
    | nil => exact stripMark_none h
    | cons x r =>
      rw [joinLines]
      have := ih h
      rw [List.getLast?_append]
      cases hj : (joinLines (x :: r)).getLast? with
      | none => simp
      | some c =>
        rw [hj] at this
        simpa using this

theorem joinLines_mem {P : Char → Prop} (hn : P '\n') {b : List Str} (h : ∀ l ∈ b, ∀ c ∈ l, P c) : ∀ c ∈ joinLines b, P c := by
  induction b with
  | nil => intro c hc; cases hc
  | cons l b ih =>
    cases b with
    | nil => exact h l (by simp)
    | cons x r =>
      intro c hc
      rw [joinLines] at hc
      simp only [List.mem_append, List.mem_singleton] at hc
      rcases hc with (hc | rfl) | hc
      · exact h l (by simp) c hc
      · exact hn
      · exact ih (fun y hy => h y (List.mem_cons_of_mem _ hy)) c hc

/-! ### Reading and compiling -/

/-- Printable ASCII characters and tabs. -/
def printableLine (l : Str) : Bool := l.all fun c => c == '\t' || (Nat.ble 32 c.toNat && Nat.ble c.toNat 126)

theorem printable_char {l : Str} (h : printableLine l = true) : ∀ c ∈ l, c = '\t' ∨ (32 ≤ c.toNat ∧ c.toNat ≤ 126) := by
  intro c hc
  have := List.all_eq_true.mp h c hc
  simpa using this

/-- The entries of the lines of a file. -/
def entriesOf (ls : List Str) : List Entry := (blocks ls).map fun b => mkEntry (joinLines b)

theorem entries_lineEntry {ls : List Str} (hp : ∀ l ∈ ls, printableLine l = true) (hu : unmarkedEnd ls = true) :
    ∀ e ∈ entriesOf ls, LineEntry e := by
  intro e he
  obtain ⟨b, hb, rfl⟩ := List.mem_map.mp he
  refine ⟨mkEntry_consistent _, ?_, ?_⟩
  · intro h
    exact block_last (blocks_ok hu b hb) (suffix_char.mp h)
  · rintro ⟨t, ht⟩
    have hcr : ∀ c ∈ joinLines b, c ≠ '\r' := by
      refine joinLines_mem (P := fun c => c ≠ '\r') (by decide) (blocks_mem (P := fun c => c ≠ '\r') ?_ b hb)
      intro l hl c hc
      rintro rfl
      rcases printable_char (hp l hl) _ hc with h | h
      · revert h; decide
      · revert h; decide
    refine hcr '\r' ?_ rfl
    have : (mkEntry (joinLines b)).data = joinLines b := rfl
    rw [← this, ← ht]
    simp

theorem printable_nl {ls : List Str} (hp : ∀ l ∈ ls, printableLine l = true) : ∀ l ∈ ls, '\n' ∉ l := by
  intro l hl hc
  rcases printable_char (hp l hl) _ hc with h | h
  · revert h; decide
  · revert h; decide

/-- Reading a file of lines. -/
theorem readEntries_lines {ls : List Str} (hp : ∀ l ∈ ls, printableLine l = true) (hu : unmarkedEnd ls = true) :
    readEntries (ls.flatMap fun l => l ++ str% "\n") = entriesOf ls ++ [freshEntry] := by
  rw [← blocks_dump (printable_nl hp) hu, readEntries_eq]
  have := readFrom_dump (entriesOf ls) [] (entries_lineEntry hp hu)
  rw [List.append_nil] at this
  exact this

theorem endsLine_lines {ls : List Str} (hne : ls ≠ []) (hu : unmarkedEnd ls = true) : EndsLine (ls.flatMap fun l => l ++ str% "\n") := by
  induction ls with
  | nil => exact absurd rfl hne
  | cons l ls ih =>
    cases ls with
    | nil =>
      simp only [List.flatMap_cons, List.flatMap_nil, List.append_nil]
      refine ⟨⟨l, rfl⟩, ?_⟩
      rintro ⟨t, ht⟩
      have : t ++ str% "@" = l := by
        have h : (t ++ str% "@") ++ str% "\n" = l ++ str% "\n" := by simpa using ht
        exact (List.append_inj' h rfl).1
      have h2 : stripMark l = none := by simpa [unmarkedEnd] using hu
      exact stripMark_none h2 (by rw [← this]; simp)
    | cons x r =>
      obtain ⟨⟨t, ht⟩, h2⟩ := ih (by simp) hu
      rw [List.flatMap_cons]
      refine ⟨⟨l ++ str% "\n" ++ t, by rw [← ht]; simp⟩, ?_⟩
      intro h
      apply h2
      have hlen : (str% "@\n").length ≤ ((x :: r).flatMap fun l => l ++ str% "\n").length ∨ (x = [] ∧ r = []) := by
        cases x with
        | cons c x => left; simp; omega
        | nil =>
          cases r with
          | nil => right; simp
          | cons y r => left; simp; omega
      rcases hlen with hlen | ⟨rfl, rfl⟩
      · exact List.suffix_of_suffix_length_le h (List.suffix_append _ _) hlen
      · obtain ⟨t, ht⟩ := h
        simp only [List.flatMap_cons, List.flatMap_nil, List.nil_append, List.append_nil] at ht
        have h : (t ++ str% "@") ++ str% "\n" = (l ++ str% "\n") ++ str% "\n" := by simpa using ht
        have := congrArg List.getLast? (List.append_inj' h rfl).1
        simp at this

/-- The compiled entries of a file of lines. -/
theorem compiled_lines {ls : List Str} (hne : ls ≠ []) (hp : ∀ l ∈ ls, printableLine l = true) (hu : unmarkedEnd ls = true) :
    compiledAll (embed (ls.flatMap fun l => l ++ str% "\n")) = some (entriesOf ls) := by
  have he := endsLine_lines hne hu
  have hs : Embeddable (ls.flatMap fun l => l ++ str% "\n") := by
    refine Tpl.C22_ascii_partial _ ?_
    intro c hc
    simp only [List.mem_flatMap, List.mem_append, List.mem_singleton] at hc
    obtain ⟨l, hl, hc | rfl⟩ := hc
    · rcases printable_char (hp l hl) c hc with h | h
      · exact Or.inr (Or.inl h)
      · exact Or.inr (Or.inr h)
    · exact Or.inl rfl
  have ha : (ls.flatMap fun l => l ++ str% "\n").getLast? ≠ some '@' := by
    have := he.1
    rw [suffix_char] at this
    rw [this]; decide
  obtain ⟨es, h1, h2, _⟩ := Tpl.C22_partial _ hs ha
  rw [h1]
  have h3 := h2 (Or.inr he)
  rw [readEntries_lines hp hu] at h3
  rw [List.append_cancel_right h3]

/-! ### What is written -/

theorem markerOf_mkEntry {d : Str} (h : '\x00' ∉ d) : markerOf (mkEntry d) = markerLine d := by
  have : d.takeWhile (· ≠ '\x00') = d := by
    induction d with
    | nil => rfl
    | cons c d ih =>
      have hc : c ≠ '\x00' := fun hc => h (by simp [hc])
      rw [List.takeWhile_cons_of_pos (by simpa using hc), ih fun hd => h (by simp [hd])]
  unfold markerOf markerLine
  simp only [mkEntry, this]

/-- The last marker of some lines. -/
def lastMark (m : Option Marker) : List Str → Option Marker
  | [] => m
  | d :: ds => lastMark (match markerLine d with | some x => some x | none => m) ds

/-- Lines that are markers or pass the test. -/
def linesOk (ds : List Str) : Bool := ds.all fun d => (markerLine d).isSome || lineOk d

theorem flagged_mkEntry (d : Str) : Flagged (mkEntry d) := (mkEntry_consistent d).2

/-- What is written, line by line: for markers and hidden lines no texts, for other lines
    the texts that they stand for, without directives if there are no keywords. -/
def Aligned (cfg : Config) : Option Marker → List Str → List (List Chunk) → Prop
  | _, [], css => css = []
  | _, _ :: _, [] => False
  | m, d :: ds, cs :: css =>
    match markerLine d with
    | some x => texts cs = [] ∧ Aligned cfg (some x) ds css
    | none =>
      (if Shown cfg.names m then texts cs = written (toUpper cfg.pfx) (toLower cfg.pfx) cfg.prototypes cfg.objects d ∧
        (firstKind (parts d) = none → ∃ x, cs = [.text x]) else cs = []) ∧ Aligned cfg m ds css

/-- The loop over the entries. -/
theorem substEntries_written (cfg : Config) (hp : PrefixOk cfg.pfx) (hd : ∀ p ∈ cfg.prototypes ++ cfg.objects, PlainData p)
    (ds : List Str) (hn : ∀ d ∈ ds, '\x00' ∉ d) (ho : linesOk ds = true) :
    ∃ N, ∀ n, N ≤ n → ∀ lineno m, ∃ css k,
      substEntries n cfg lineno (!Shown cfg.names m) (ds.map mkEntry) = .ok (css, k, !Shown cfg.names (lastMark m ds)) ∧
      texts css.flatten = (shown cfg.names m ds).flatMap (written (toUpper cfg.pfx) (toLower cfg.pfx) cfg.prototypes cfg.objects) ∧
      Aligned cfg m ds css := by
  induction ds with
  | nil => exact ⟨0, fun n _ lineno m => ⟨[], 0, rfl, rfl, rfl⟩⟩
  | cons d ds ih =>
    simp only [linesOk, List.all_cons, Bool.and_eq_true] at ho
    obtain ⟨N, ih⟩ := ih (fun x hx => hn x (by simp [hx])) ho.2
    have hmo := markerOf_mkEntry (hn d (by simp))
    have hfl := flagged_mkEntry d
    have hcount : (mkEntry d).lineCount = nlCount d + 1 := rfl
    cases hm : markerLine d with
    | some x =>
      refine ⟨N, fun n hnn lineno m => ?_⟩
      rw [hm] at hmo
      obtain ⟨css, k, h1, h2, ha⟩ := ih n hnn (lineno + (mkEntry d).lineCount) (some x)
      have hne : (mkEntry d).data.isEmpty = false := by
        cases d with
        | nil =>
          have : markerLine [] = none := by decide
          rw [this] at hm
          cases hm
        | cons _ _ => rfl
      have hline : ∃ cs k, substituteLine n cfg lineno (!Shown cfg.names m) (mkEntry d) = .ok (cs, k, !Shown cfg.names (some x)) ∧ texts cs = [] := by
        rw [substituteLine_eq, hne, markerTest hfl, hmo]
        simp only [Option.map_some, Bool.false_eq_true, if_false]
        split
        · exact ⟨_, _, rfl, rfl⟩
        · exact ⟨_, _, rfl, rfl⟩
      obtain ⟨cs, k', h3, h4⟩ := hline
      refine ⟨cs :: css, k' + k, ?_, ?_, ?_⟩
      · rw [List.map_cons, substEntries, h3]
        simp only [bind, Except.bind, h1, lastMark, hm]
        rfl
      · rw [List.flatten_cons, texts_append, h4, h2, shown, hm]
        rfl
      · rw [Aligned, hm]
        exact ⟨h4, ha⟩
    | none =>
      rw [hm] at hmo
      have hok : lineOk d = true := by simpa [hm] using ho.1
      obtain ⟨N', hw⟩ := substituteLine_written cfg hp hd (mkEntry d) hfl hmo hok
      refine ⟨max N N', fun n hnn lineno m => ?_⟩
      obtain ⟨css, k, h1, h2, ha⟩ := ih n (by omega) (lineno + (mkEntry d).lineCount) m
      cases hs : Shown cfg.names m with
      | true =>
        obtain ⟨cs, k', h3, h4, h5⟩ := hw n (by omega) lineno
        rw [hs] at h1
        refine ⟨cs :: css, k' + k, ?_, ?_, ?_⟩
        · simp only [Bool.not_true] at h1 ⊢
          rw [List.map_cons, substEntries, h3]
          simp only [bind, Except.bind, h1, lastMark, hm]
          rfl
        · rw [List.flatten_cons, texts_append, h4, h2, shown, hm]
          simp only [hs, if_true, List.flatMap_cons]
          rfl
        · rw [Aligned, hm]
          dsimp only
          rw [if_pos hs]
          exact ⟨⟨h4, h5⟩, ha⟩
      | false =>
        rw [hs] at h1
        refine ⟨[] :: css, 0 + k, ?_, ?_, ?_⟩
        · have h3 : substituteLine n cfg lineno true (mkEntry d) = .ok ([], 0, true) := by
            rw [substituteLine_eq]
            split
            · rfl
            · rw [markerTest hfl, hmo]; rfl
          simp only [Bool.not_false] at h1 ⊢
          rw [List.map_cons, substEntries, h3]
          simp only [bind, Except.bind, h1, lastMark, hm]
          rfl
        · rw [List.flatten_cons, List.nil_append, h2, shown, hm]
          simp only [hs, Bool.false_eq_true, if_false]
        · rw [Aligned, hm]
          dsimp only
          rw [if_neg (by simp [hs])]
          exact ⟨rfl, ha⟩

/-- The test on a template file. -/
def fileOk (ls : List Str) : Bool :=
  !ls.isEmpty && ls.all printableLine && unmarkedEnd ls && linesOk ((blocks ls).map joinLines) &&
  (match lastMark none ((blocks ls).map joinLines) with | none => true | some x => x == .stop) &&
  !(str% "#line").isPrefixOf (joinLines ((blocks ls).headD []))

theorem printable_nul {ls : List Str} (hp : ∀ l ∈ ls, printableLine l = true) : ∀ d ∈ (blocks ls).map joinLines, '\x00' ∉ d := by
  intro d hd hc
  obtain ⟨b, hb, rfl⟩ := List.mem_map.mp hd
  refine joinLines_mem (P := fun c => c ≠ '\x00') (by decide) (blocks_mem (P := fun c => c ≠ '\x00') ?_ b hb) _ hc rfl
  intro l hl c hc
  rintro rfl
  rcases printable_char (hp l hl) _ hc with h | h
  · revert h; decide
  · revert h; decide

end Gdo.Tmpl

namespace Gdo.Builtin
open Gdo Tpl Gen Tmpl Sub

/-- The initial line of a built-in list. -/
def lineText (t : TName) : Str := str% "#line 1 \"<built-in>/" ++ t.file ++ str% "\""

/-- The lines of a template, lines with continuation marks joined. -/
def texts (t : TName) : List Str := (blocks (lines t)).map joinLines

/-- The built-in list of a template. -/
def list (t : TName) : List Entry :=
  (if t = .license then [] else [builtinLineEntry t.file]) ++ entriesOf (lines t) ++ [terminator]

/-- The lines processed. -/
def processedTexts (ld : Bool) (t : TName) : List Str := (if ld ∧ t ≠ .license then [lineText t] else []) ++ texts t

theorem file_license (t : TName) : t.file = str% "license.h" ↔ t = .license := by cases t <;> decide

theorem compiledList_eq (t : TName) (h : fileOk (lines t) = true) : compiledList t = some (list t) := by
  simp only [fileOk, Bool.and_eq_true, Bool.not_eq_true', List.isEmpty_eq_false_iff, List.all_eq_true] at h
  obtain ⟨⟨⟨⟨⟨h1, h2⟩, h3⟩, _⟩, _⟩, _⟩ := h
  unfold compiledList fileText list
  rw [compiled_lines h1 h2 h3]
  simp only [Option.map_some, file_license]

theorem lineEntry_eq (t : TName) : builtinLineEntry t.file = mkEntry (lineText t) := by cases t <;> decide

theorem processed_list (cfg : Config) (t : TName) (h : fileOk (lines t) = true) :
    processed cfg (list t) = (processedTexts cfg.lineDirective t).map mkEntry := by
  simp only [fileOk, Bool.and_eq_true, Bool.not_eq_true', List.isEmpty_eq_false_iff, List.all_eq_true] at h
  obtain ⟨⟨⟨⟨⟨h1, h2⟩, h3⟩, _⟩, _⟩, h6⟩ := h
  have hmap : entriesOf (lines t) = (texts t).map mkEntry := by simp [entriesOf, texts, Function.comp_def]
  have hcount : ∀ ds : List Str, listEntries (ds.map mkEntry ++ [terminator]) = ds.map mkEntry := by
    intro ds
    refine listEntries_append_terminator _ ?_
    intro e he
    obtain ⟨d, _, rfl⟩ := List.mem_map.mp he
    simp [mkEntry]
  unfold processed list processedTexts
  by_cases ht : t = .license
  · rw [if_pos ht, if_neg (fun h => h.2 ht), List.nil_append, List.nil_append, hmap]
    refine Eq.trans ?_ (hcount _)
    cases hb : texts t with
    | nil => cases cfg.lineDirective <;> rfl
    | cons d ds =>
      simp only [List.map_cons, List.cons_append]
      have hd : d = joinLines ((blocks (lines t)).headD []) := by
        unfold texts at hb
        cases hbb : blocks (lines t) with
        | nil => rw [hbb] at hb; cases hb
        | cons b bs => rw [hbb] at hb; cases hb; rfl
      have hnul : cstr d = d := by
        have := printable_nul h2 d (by show d ∈ texts t; rw [hb]; simp)
        unfold cstr
        clear hd hb
        induction d with
        | nil => rfl
        | cons c d ih =>
          have hc : c ≠ '\x00' := fun hc => this (by simp [hc])
          rw [List.takeWhile_cons_of_pos (by simpa using hc), ih fun hd => this (by simp [hd])]
      have : (str% "#line").isPrefixOf (cstr (mkEntry d).data) = false := by
        show (str% "#line").isPrefixOf (cstr d) = false
        rw [hnul, hd]; exact h6
      rw [this, Bool.and_false]
      rfl
  · simp only [ht, if_false, ne_eq, not_false_eq_true, and_true, List.cons_append, List.nil_append]
    have hpre : (str% "#line").isPrefixOf (cstr (builtinLineEntry t.file).data) = true := by cases t <;> decide
    rw [hpre, Bool.and_true, hmap, lineEntry_eq]
    cases cfg.lineDirective with
    | false => simpa using hcount _
    | true => simpa using hcount (lineText t :: texts t)

theorem lineText_ok (t : TName) : lineOk (lineText t) = true ∧ markerLine (lineText t) = none ∧ '\x00' ∉ lineText t := by cases t <;> decide +kernel

theorem lineText_written (u l : Str) (protos objs : List Proto) (t : TName) : written u l protos objs (lineText t) = [lineText t] := by
  cases t <;> rfl

/-- The texts that a template stands for, with its initial `#line` line. -/
def outputTexts (cfg : Config) (t : TName) : List Str :=
  (if cfg.lineDirective ∧ t ≠ .license then [lineText t] else []) ++
  instantiate (toUpper cfg.pfx) (toLower cfg.pfx) cfg.names cfg.prototypes cfg.objects (lines t)

/-- The same for a list of templates. -/
def AlignedAll (cfg : Config) : List TName → List (List (List Chunk)) → Prop
  | [], csss => csss = []
  | _ :: _, [] => False
  | t :: ts, css :: csss => Aligned cfg none (processedTexts cfg.lineDirective t) css ∧ AlignedAll cfg ts csss

theorem substLists_written (cfg : Config) (hp : PrefixOk cfg.pfx) (hd : ∀ p ∈ cfg.prototypes ++ cfg.objects, PlainData p)
    (ts : List TName) (ho : ∀ t ∈ ts, fileOk (lines t) = true) :
    ∃ N, ∀ n, N ≤ n → ∃ csss k, substLists n cfg false (ts.map list) = .ok (csss, k) ∧
      Tmpl.texts csss.flatten.flatten = ts.flatMap (outputTexts cfg) ∧
      AlignedAll cfg ts csss := by
  induction ts with
  | nil => exact ⟨0, fun n _ => ⟨[], 0, rfl, rfl, rfl⟩⟩
  | cons t ts ih =>
    obtain ⟨N, ih⟩ := ih fun x hx => ho x (by simp [hx])
    have hf := ho t (by simp)
    have hpr := processed_list cfg t hf
    simp only [fileOk, Bool.and_eq_true, Bool.not_eq_true', List.isEmpty_eq_false_iff, List.all_eq_true] at hf
    obtain ⟨⟨⟨⟨⟨h1, h2⟩, h3⟩, h4⟩, h5⟩, h6⟩ := hf
    obtain ⟨lo1, lo2, lo3⟩ := lineText_ok t
    obtain ⟨N', hw⟩ := substEntries_written cfg hp hd (processedTexts cfg.lineDirective t)
      (by
        intro d hd
        unfold processedTexts at hd
        rcases List.mem_append.mp hd with hd | hd
        · split at hd
          · simp at hd; subst hd; exact lo3
          · cases hd
        · exact printable_nul h2 d hd)
      (by
        unfold linesOk processedTexts
        rw [List.all_append, Bool.and_eq_true]
        refine ⟨?_, h4⟩
        split
        · simp [lo1]
        · rfl)
    refine ⟨max N N', fun n hn => ?_⟩
    obtain ⟨csss, k, e1, e2, ea⟩ := ih n (by omega)
    obtain ⟨css, k', e3, e4, eb⟩ := hw n (by omega) 0 none
    have hlast : lastMark none (processedTexts cfg.lineDirective t) = lastMark none (texts t) := by
      unfold processedTexts
      split
      · show lastMark (match markerLine (lineText t) with | some x => some x | none => none) (texts t) = _
        rw [lo2]
      · rfl
    have hsh : Shown cfg.names (lastMark none (texts t)) = true := by
      have h5' : (match lastMark none (texts t) with | none => true | some x => x == .stop) = true := h5
      cases hl : lastMark none (texts t) with
      | none => rfl
      | some x =>
        rw [hl] at h5'
        simp only [beq_iff_eq] at h5'
        rw [h5']; rfl
    rw [hlast, hsh] at e3
    refine ⟨css :: csss, k' + k, ?_, ?_, eb, ea⟩
    · rw [List.map_cons, substLists, hpr]
      have e3' : substEntries n cfg 0 false ((processedTexts cfg.lineDirective t).map mkEntry) = .ok (css, k', false) := e3
      rw [e3']
      simp only [bind, Except.bind, e1]
      rfl
    · rw [List.flatten_cons, List.flatten_append, texts_append, e2, e4, List.flatMap_cons]
      congr 1
      unfold processedTexts outputTexts instantiate
      split
      · show (shown cfg.names none (lineText t :: texts t)).flatMap _ = _
        rw [shown, lo2]
        show (lineText t :: shown cfg.names none (texts t)).flatMap _ = _
        rw [List.flatMap_cons, lineText_written]
        rfl
      · rfl

end Gdo.Builtin
