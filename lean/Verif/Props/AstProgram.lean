import Verif.Props.Messages
import Verif.Props.Ast
import Verif.Props.Text

/-!
Property C86: a Clang AST from the file to the listing of the symbols.
-/

namespace Gdo.Program
open Gdo Opt Gen Cmd Spec

/-- A type in front of a name. -/
def typeText (t : Str) : Str := if t.getLast? = some '*' then t else t ++ [' ']

/-- A declaration of the dump, the text of the type definition made for it if there is one,
    and its line. -/
inductive Shown (pfx : Str) : Item → Option Str → Str → Prop
  /-- `int (int)`, `f` becomes `int f(int a1);` -/
  | func {symbol front rest T : Str} {params : List Str} : '(' ∉ front → Trimmed front T →
      Shown pfx (.func symbol (front ++ '(' :: rest) params) none
        (typeText T ++ symbol ++ ['('] ++ commaList (parmDecls 1 params) ++ str% ");\n")
  /-- `int`, `x` becomes `int x;` -/
  | plain {symbol type T : Str} : ¬ HasPtr type → '[' ∉ type → Trimmed type T →
      Shown pfx (.var symbol type) none (typeText T ++ symbol ++ str% ";\n")
  /-- `int (*)(void)`, `x` becomes `int (*gdo_x__t)(void)` and `gdo_x__t x;` -/
  | pointer {symbol type a b : Str} : Trimmed type (a ++ str% "(*)" ++ b) → '(' ∉ a →
      Shown pfx (.var symbol type) (some (a ++ str% "(*" ++ (pfx ++ ['_'] ++ symbol ++ str% "__t") ++ str% ")" ++ b))
        (pfx ++ ['_'] ++ symbol ++ str% "__t" ++ [' '] ++ symbol ++ str% ";\n")
  /-- `int[2]` or `int [2]`, `x` becomes `int gdo_x__t[2]` and `gdo_x__t x;` -/
  | array {symbol type a b gap : Str} : ¬ HasPtr type → Trimmed type (a ++ '[' :: b) → '[' ∉ a →
      (gap = [' '] ∧ a ≠ [] ∧ a.getLast? ≠ some ' ' ∨ gap = [] ∧ (a = [] ∨ a.getLast? = some ' ')) →
      Shown pfx (.var symbol type) (some (a ++ gap ++ (pfx ++ ['_'] ++ symbol ++ str% "__t") ++ '[' :: b))
        (pfx ++ ['_'] ++ symbol ++ str% "__t" ++ [' '] ++ symbol ++ str% ";\n")

/-- The declarations that the program can handle: the type of a function has parameters, and
    the first parenthesis of a pointer to a function is its `(*)`. -/
def Plainly : Item → Prop
  | .func _ type _ => '(' ∈ type
  | .var _ type => HasPtr type → ∃ a b, type = a ++ str% "(*)" ++ b ∧ '(' ∉ a

def isVar : Item → Bool
  | .var .. => true
  | .func .. => false

/-- The listing: type definitions, objects, functions. -/
def listing (items : List Item) (td : Item → Option Str) (line : Item → Str) : Str :=
  (if (items.filter isVar).filterMap td = [] then []
   else str% "/* typedefs */\n" ++ (((items.filter isVar).filterMap td).map fun t => str% "typedef " ++ t ++ str% ";\n").flatten ++ ['\n']) ++
  str% "/* prototypes */\n" ++ ((items.filter isVar).map line).flatten ++ ((items.filter fun i => !isVar i).map line).flatten ++
  str% "\n/***  " ++ natDigits items.length ++ str% " matches  ***/\n"

theorem printType_eq (t : Str) : printType t = typeText t := by
  unfold printType typeText
  have : (str% "*").isSuffixOf t = true ↔ t.getLast? = some '*' := by
    rw [List.isSuffixOf_iff_suffix]
    constructor
    · rintro ⟨p, rfl⟩; simp
    · intro h
      obtain ⟨p, rfl⟩ := List.getLast?_eq_some_iff.mp h
      exact ⟨p, rfl⟩
  by_cases h : t.getLast? = some '*'
  · rw [if_pos (this.mpr h), if_pos h]
  · rw [if_neg (fun x => h (this.mp x)), if_neg h]

theorem arrayTypedef_eq (a b name : Str) (ha : '[' ∉ a) : ∃ gap, arrayTypedef (a ++ '[' :: b) name = a ++ gap ++ name ++ '[' :: b ∧
    (gap = [' '] ∧ a ≠ [] ∧ a.getLast? ≠ some ' ' ∨ gap = [] ∧ (a = [] ∨ a.getLast? = some ' ')) := by
  have h1 : findPos ['['] (a ++ '[' :: b) = some a.length := by
    have := findPos_eq (pat := ['[']) (a := a) (b := b) (fun p q h => Props.first_char (pat := []) ha p q h)
    simpa using this
  unfold arrayTypedef
  rw [h1]
  simp only
  have hat : ∀ c, a.getLast? = some c → strAt (a ++ '[' :: b) (a.length - 1) = c := by
    intro c hc
    have hpos : 0 < a.length := by cases a <;> simp at hc ⊢
    rw [List.getLast?_eq_getElem?] at hc
    unfold strAt
    rw [List.getElem?_append_left (by omega), hc]
  split
  · rename_i h
    have e1 : List.take (a.length + 1) (List.take a.length (a ++ '[' :: b) ++ [' '] ++ List.drop a.length (a ++ '[' :: b)) = a ++ [' '] := by
      simp [List.take_append, List.take_of_length_le (Nat.le_succ a.length)]
    have e2 : List.drop (a.length + 1) (List.take a.length (a ++ '[' :: b) ++ [' '] ++ List.drop a.length (a ++ '[' :: b)) = '[' :: b := by
      simp [List.drop_append]
    refine ⟨[' '], by simp only [insertAt, e1, e2], Or.inl ⟨rfl, ?_, ?_⟩⟩
    · rintro rfl; simp at h
    · intro hx
      rw [hat _ hx] at h
      simp at h
  · rename_i h
    refine ⟨[], by simp [insertAt], Or.inr ⟨rfl, ?_⟩⟩
    cases hl : a.getLast? with
    | none => exact Or.inl (List.getLast?_eq_none_iff.mp hl)
    | some c =>
      right
      have hpos : 0 < a.length := by cases a <;> simp at hl ⊢
      rw [hat _ hl] at h
      simp [hpos] at h
      rw [h]

theorem trimmed_first {s t pat x y : Str} {c : Char} (h : Trimmed s t) (hs : s = x ++ (c :: pat) ++ y) (hc : c ∉ x) (h1 : isSpace c = false)
    (h2 : ∀ d ∈ pat, isSpace d = false) : ∃ a b, t = a ++ (c :: pat) ++ b ∧ c ∉ a := by
  obtain ⟨⟨p, q, e, hp, hq⟩, -, -⟩ := h
  rw [e] at hs
  -- `p` ends in front of the place, `q` begins behind it
  have hpx : ∃ a, x = p ++ a := by
    rcases List.append_eq_append_iff.mp (show p ++ (t ++ q) = x ++ (c :: pat ++ y) by rw [hs]; simp) with ⟨a, h, -⟩ | ⟨a, h, h'⟩
    · exact ⟨a, h⟩
    · cases a with
      | nil => exact ⟨[], by simpa using h.symm⟩
      | cons d a =>
        exfalso
        simp only [List.cons_append, List.cons.injEq] at h'
        obtain ⟨rfl, -⟩ := h'
        have := hp c (by rw [h]; simp)
        rw [h1] at this
        cases this
  obtain ⟨a, rfl⟩ := hpx
  have e2 : t ++ q = (a ++ (c :: pat)) ++ y := by
    have : p ++ (t ++ q) = p ++ ((a ++ (c :: pat)) ++ y) := by rw [hs]; simp
    exact List.append_cancel_left this
  rcases List.append_eq_append_iff.mp e2 with ⟨z, h, h'⟩ | ⟨z, h, -⟩
  · cases z with
    | nil => exact ⟨a, [], by simpa using h.symm, fun hm => hc (List.mem_append_right _ hm)⟩
    | cons d z =>
      exfalso
      -- the last character of the pattern would be in `q`
      have hlast : ∃ d, (a ++ c :: pat).getLast? = some d ∧ isSpace d = false := by
        rw [List.getLast?_append]
        cases hl : (c :: pat).getLast? with
        | none => simp at hl
        | some d =>
          refine ⟨d, rfl, ?_⟩
          rcases List.mem_cons.mp (List.mem_of_getLast? hl) with rfl | hm
          · exact h1
          · exact h2 d hm
      obtain ⟨d', hd, hs'⟩ := hlast
      rw [h, List.getLast?_append] at hd
      cases hz : (d :: z).getLast? with
      | none => simp at hz
      | some k =>
        rw [hz] at hd
        simp only [Option.some_or, Option.some.injEq] at hd
        subst hd
        have := hq k (by rw [h']; exact List.mem_append_left _ (List.mem_of_getLast? hz))
        rw [hs'] at this
        cases this
  · exact ⟨a, z, h, fun hm => hc (List.mem_append_right _ hm)⟩

/-- The typedef and the line of a declaration that is read. -/
theorem shown_of {pfx : Str} {i : Item} {p : Proto} (h : i.Reads p) (hp : Plainly i) :
    typedefOf pfx p ≠ some [] ∧ p.symbol = i.symbol ∧
    (isVar i = true ↔ p.kind ≠ .function) ∧
    Shown pfx i (typedefOf pfx p)
      (if isVar i then printType (retyped pfx p).type ++ (retyped pfx p).symbol ++ str% ";\n"
       else printType p.type ++ p.symbol ++ ['('] ++ p.args ++ str% ");\n") := by
  cases i with
  | func symbol type params =>
    obtain ⟨hk, rfl, ⟨front, rest, rfl, hf, ht⟩, ha, -⟩ := h
    have e : typedefOf pfx p = none := by unfold typedefOf; rw [hk]; rfl
    refine ⟨by rw [e]; simp, rfl, by simp [isVar, hk], ?_⟩
    rw [e, ha, if_neg (by simp [isVar]), printType_eq]
    exact .func hf ht
  | var symbol type =>
    obtain ⟨h1, h2, h3, rfl, ht, -, -⟩ := h
    have hname : typedefName pfx p = pfx ++ ['_'] ++ p.symbol ++ str% "__t" := rfl
    have hline : ∀ T, (typedefOf pfx p) = some T → printType (retyped pfx p).type ++ (retyped pfx p).symbol ++ str% ";\n" =
        pfx ++ ['_'] ++ p.symbol ++ str% "__t" ++ [' '] ++ p.symbol ++ str% ";\n" := by
      intro T hT
      unfold retyped
      rw [hT]
      simp only [Option.isSome_some, if_true]
      rw [printType_eq, hname]
      unfold typeText
      rw [if_neg (by rw [List.getLast?_append]; simp)]
    by_cases hptr : HasPtr type
    · have hk := h1 hptr
      obtain ⟨x, y, hxy, hx⟩ := hp hptr
      obtain ⟨a, b, hab, ha⟩ := trimmed_first (pat := ['*', ')']) ht hxy hx (by decide) (by decide)
      have e : typedefOf pfx p = some (a ++ str% "(*" ++ (pfx ++ ['_'] ++ p.symbol ++ str% "__t") ++ str% ")" ++ b) := by
        unfold typedefOf
        rw [hk, if_pos rfl, hab, hname, ← Props.C19_fptr_text a b _ ha]
      refine ⟨by rw [e]; simp, rfl, by simp [isVar, hk], ?_⟩
      simp only [isVar, if_true]
      rw [hline _ e, e]
      exact .pointer (by rw [hab] at ht; exact ht) ha
    · by_cases hb : '[' ∈ type
      · have hk := h2 hptr hb
        obtain ⟨x, y, hxy, hx⟩ := List.append_of_mem hb |>.elim fun x h => h.elim fun y h => (by
          rcases Ast.splitFirst_char (c := '[') (s := type) with ⟨a, b, -, h1, h2⟩ | ⟨-, h2⟩
          · exact (⟨a, b, h1, h2⟩ : ∃ a b, type = a ++ '[' :: b ∧ '[' ∉ a)
          · exact absurd hb h2)
        obtain ⟨a, b, hab, ha⟩ := trimmed_first (pat := []) (y := y) ht (by rw [hxy]; simp) hx (by decide) (by simp)
        have hab' : p.type = a ++ '[' :: b := by rw [hab]; simp
        obtain ⟨gap, hg, hgap⟩ := arrayTypedef_eq a b (typedefName pfx p) ha
        have e : typedefOf pfx p = some (a ++ gap ++ (pfx ++ ['_'] ++ p.symbol ++ str% "__t") ++ '[' :: b) := by
          unfold typedefOf
          rw [hk, if_neg (by simp), if_pos rfl, hab', hg, hname]
        refine ⟨by rw [e]; simp, rfl, by simp [isVar, hk], ?_⟩
        simp only [isVar, if_true]
        rw [hline _ e, e]
        exact .array hptr (by rw [hab'] at ht; exact ht) ha hgap
      · have hk := h3 hptr hb
        have e : typedefOf pfx p = none := by unfold typedefOf; rw [hk]; rfl
        refine ⟨by rw [e]; simp, rfl, by simp [isVar, hk], ?_⟩
        simp only [isVar, if_true]
        have : retyped pfx p = p := by unfold retyped; rw [e]; rfl
        rw [this, e, printType_eq]
        exact .plain hptr hb ht

/-- A dump is recognised, and the tokens behind its first line are the ones of `C57`. -/
theorem dump_tokens {codes : Codes} (hc : codes.Valid) {head : Str} (hh : '\n' ∉ head) {lines : List ALine} (hv : ∀ l ∈ lines, l.Valid) (ro : Bool) :
    (tokenizeStream ro (dumpText codes head lines)).2.2 = .ast ∧
    Ast.astTokens (dumpText codes head lines) = some (tokensBehind (dumpText codes head lines)) := by
  have h := Ast.astTokens_dump codes hc head hh lines hv
  have hrun : ∃ t e, Lex.run {} (dumpText codes head lines) = (t :: Ast.toks lines, e) ∧ t.kind = .astBegin := by
    unfold Ast.astTokens at h
    generalize Lex.run {} (dumpText codes head lines) = r at h
    obtain ⟨ts, e⟩ := r
    cases ts with
    | nil => cases h
    | cons t ts =>
      dsimp only at h
      split at h
      · rename_i hk
        cases h
        exact ⟨t, e, rfl, hk⟩
      · cases h
  obtain ⟨t, e, hr, hk⟩ := hrun
  constructor
  · unfold tokenizeStream
    rw [hr]
    show (streamLoop ro (t :: Ast.toks lines) e {}).2.2 = .ast
    unfold streamLoop
    have : streamStep ro {} t = .inr .ast := by
      unfold streamStep
      rw [hk]
      rfl
    rw [this]
    rfl
  · rw [h]
    unfold tokensBehind
    rw [hr]
    simp [hk]

/-- What the two lists of symbols have in them. -/
theorem readAst_listing {s : Settings} {text : Str} {items : List Item} {f : Item → Proto} (hf : ∀ i ∈ items, i.Reads (f i)) (hpl : ∀ i ∈ items, Plainly i)
    (h : Ast.parseClangAst s.astAllSymbols s.prefixList s.symbolList (tokensBehind text) =
      .ok ⟨(items.map f).filter (fun p => p.kind = .function), (items.map f).filter (fun p => p.kind ≠ .function)⟩) :
    ∃ sy, readAst s text = .ok (s, sy) ∧ ∃ td line, (∀ i ∈ items, Shown (toLower s.pfx) i (td i) (line i)) ∧ printSymbols sy = listing items td line := by
  have hsh := fun i hi => shown_of (pfx := toLower s.pfx) (hf i hi) (hpl i hi)
  have hobj : (items.map f).filter (fun p => p.kind ≠ .function) = (items.filter isVar).map f := by
    rw [List.filter_map]
    congr 1
    refine List.filter_congr fun i hi => ?_
    have := (hsh i hi).2.2.1
    rw [Bool.eq_iff_iff, this]
    simp
  have hfun : (items.map f).filter (fun p => p.kind = .function) = (items.filter fun i => !isVar i).map f := by
    rw [List.filter_map]
    congr 1
    refine List.filter_congr fun i hi => ?_
    have := (hsh i hi).2.2.1
    cases hb : isVar i with
    | true => rw [hb] at this; simpa using this
    | false => rw [hb] at this; simpa using this
  rw [hobj, hfun] at h
  have htd := createTypedefs_ok (pfx := toLower s.pfx) (ps := (items.filter isVar).map f) (by
    intro p hp
    obtain ⟨i, hi, rfl⟩ := List.mem_map.mp hp
    exact (hsh i (List.mem_filter.mp hi).1).1)
  refine ⟨_, by unfold readAst; rw [h]; dsimp only; rw [htd], fun i => typedefOf (toLower s.pfx) (f i), _, fun i hi => (hsh i hi).2.2.2, ?_⟩
  unfold printSymbols listing
  dsimp only
  rw [List.filterMap_map]
  have e1 : ((((items.filter isVar).map f).map (retyped (toLower s.pfx))).map fun e => printType e.type ++ e.symbol ++ str% ";\n") =
      (items.filter isVar).map fun i => if isVar i then printType (retyped (toLower s.pfx) (f i)).type ++ (retyped (toLower s.pfx) (f i)).symbol ++ str% ";\n"
       else printType (f i).type ++ (f i).symbol ++ ['('] ++ (f i).args ++ str% ");\n" := by
    rw [List.map_map, List.map_map]
    refine List.map_congr_left fun i hi => ?_
    rw [if_pos (List.mem_filter.mp hi).2]
    rfl
  have e2 : (((items.filter fun i => !isVar i).map f).map fun e => printType e.type ++ e.symbol ++ ['('] ++ e.args ++ str% ");\n") =
      (items.filter fun i => !isVar i).map fun i => if isVar i then printType (retyped (toLower s.pfx) (f i)).type ++ (retyped (toLower s.pfx) (f i)).symbol ++ str% ";\n"
       else printType (f i).type ++ (f i).symbol ++ ['('] ++ (f i).args ++ str% ");\n" := by
    rw [List.map_map]
    refine List.map_congr_left fun i hi => ?_
    rw [if_neg (by simpa using (List.mem_filter.mp hi).2)]
    rfl
  have e3 : (List.map (retyped (toLower s.pfx)) (List.map f (items.filter isVar))).length + ((items.filter fun i => !isVar i).map f).length = items.length := by
    simp only [List.length_map]
    have : ∀ l : List Item, (l.filter isVar).length + (l.filter fun i => !isVar i).length = l.length := by
      intro l
      induction l with
      | nil => rfl
      | cons i l ih => cases h : isVar i <;> simp [h] <;> omega
    exact this items
  rw [e1, e2, e3]
  congr 6
  simp only [List.isEmpty_iff]
  rfl

/-- With `-print-symbols` and `-ast-all-symbols`, the program prints the declarations of the
    dump: all of them, each one once, in their order. -/
theorem C86_all_partial (w : World) (win : Bool) (prog : Str) (args : List Str) (node : Nat → Option Node) (hca : CStrs args) (s : Settings) (ws : List Str)
    (hp : parseCmdline win (prog :: args) = some (some (.settings s ws))) (hstd : ¬ (s.input = str% "-" ∧ s.customTemplate = str% "-"))
    (codes : Codes) (hc : codes.Valid) (head : Str) (hh : '\n' ∉ head) (lines : List ALine) (hv : ∀ l ∈ lines, l.Valid)
    (hread : w.env.read s.input = some (dumpText codes head lines)) (hpr : s.printSymbols = true) (hall : s.astAllSymbols = true)
    (hpl : ∀ i ∈ itemsOf lines, Plainly i) (hne : itemsOf lines ≠ []) :
    ∃ td line, (∀ i ∈ itemsOf lines, Shown (toLower s.pfx) i (td i) (line i)) ∧
      main w win (prog :: args) node = .exit 0 [] { start node with stdout := listing (itemsOf lines) td line } := by
  obtain ⟨hast, htk⟩ := dump_tokens hc hh hv s.readOptions
  obtain ⟨ts, hts, f, hf, hparse⟩ := Ast.C57_declarations_read_partial codes hc head hh lines hv (fun a b c h => hpl _ h) s.prefixList s.symbolList
  rw [htk, Option.some.injEq] at hts
  subst hts
  rw [if_neg hne, ← hall] at hparse
  obtain ⟨sy, hsy, td, line, hsh, hpt⟩ := readAst_listing hf hpl hparse
  refine ⟨td, line, hsh, ?_⟩
  have ht : tokenize w s = some (.ok (s, sy)) := by
    unfold tokenize
    rw [if_neg (by simpa [List.isEmpty_iff] using settings_input hca hp), if_neg hstd, hread]
    dsimp only
    generalize tokenizeStream s.readOptions (dumpText codes head lines) = r at hast
    obtain ⟨a, b, c⟩ := r
    dsimp only at hast
    subst hast
    dsimp only
    rw [hsy]
    rfl
  rw [main_eq hp ht]
  unfold Gen.run
  rw [if_pos hpr, hpt]
  rfl

open Classical in
/-- With filters, the ones that they select.  (What does not hold is in `C16_violated` and in
    the theorems below.) -/
theorem C86_filtered_partial (w : World) (win : Bool) (prog : Str) (args : List Str) (node : Nat → Option Node) (hca : CStrs args) (s : Settings) (ws : List Str)
    (hp : parseCmdline win (prog :: args) = some (some (.settings s ws))) (hstd : ¬ (s.input = str% "-" ∧ s.customTemplate = str% "-"))
    (codes : Codes) (hc : codes.Valid) (head : Str) (hh : '\n' ∉ head) (lines : List ALine) (hv : ∀ l ∈ lines, l.Valid)
    (hread : w.env.read s.input = some (dumpText codes head lines)) (hpr : s.printSymbols = true) (hall : s.astAllSymbols = false)
    (hPS : s.prefixList ≠ [] ∨ s.symbolList ≠ []) (hpl : ∀ i ∈ itemsOf lines, Plainly i) (hn : ((itemsOf lines).map Item.symbol).Nodup)
    (hd : ∀ x ∈ s.symbolList, x ∈ (itemsOf lines).map Item.symbol ∧ ¬ ∃ e ∈ s.prefixList, e <+: x)
    (hne : (itemsOf lines).filter (fun i => decide (Selected s.prefixList s.symbolList i.symbol)) ≠ []) :
    ∃ td line, (∀ i ∈ (itemsOf lines).filter (fun i => decide (Selected s.prefixList s.symbolList i.symbol)), Shown (toLower s.pfx) i (td i) (line i)) ∧
      main w win (prog :: args) node = .exit 0 []
        { start node with stdout := listing ((itemsOf lines).filter fun i => decide (Selected s.prefixList s.symbolList i.symbol)) td line } := by
  obtain ⟨hast, htk⟩ := dump_tokens hc hh hv s.readOptions
  have hne0 : itemsOf lines ≠ [] := by intro h; rw [h] at hne; exact hne rfl
  obtain ⟨ts, hts, f, hf, hparse⟩ := Ast.C57_declarations_read_partial codes hc head hh lines hv (fun a b c h => hpl _ h) s.prefixList s.symbolList
  obtain ⟨ts', A, hts', hA, hsel⟩ := Ast.C16_filters_select_partial codes hc head hh lines hv (fun a b c h => hpl _ h) hn hne0 s.prefixList s.symbolList hPS
    (fun x hx _ => (hd x hx).2)
  rw [htk, Option.some.injEq] at hts hts'
  subst hts
  subst hts'
  rw [if_neg hne0] at hparse
  rw [hparse, Except.ok.injEq] at hA
  subst hA
  rw [if_neg (by
    intro h
    apply h
    rw [List.filter_eq_nil_iff]
    intro x hx
    simpa using (hd x hx).1), if_neg (by
    intro h
    apply h
    obtain ⟨i, hi⟩ := List.exists_mem_of_ne_nil _ hne
    rw [List.mem_filter] at hi
    exact ⟨i, hi.1, by simpa using hi.2⟩), ← hall] at hsel
  have hsym : ∀ i ∈ itemsOf lines, (f i).symbol = i.symbol := fun i hi => (shown_of (pfx := []) (hf i hi) (hpl i hi)).2.1
  have hswap : ∀ q : Proto → Bool, (((itemsOf lines).map f).filter q).filter (fun p => decide (Selected s.prefixList s.symbolList p.symbol)) =
      (((itemsOf lines).filter fun i => decide (Selected s.prefixList s.symbolList i.symbol)).map f).filter q := by
    intro q
    rw [List.filter_filter, List.filter_map, List.filter_map, List.filter_filter]
    congr 1
    refine List.filter_congr fun i hi => ?_
    show (decide (Selected s.prefixList s.symbolList (f i).symbol) && q (f i)) = (q (f i) && _)
    rw [hsym i hi, Bool.and_comm]
  simp only [hswap] at hsel
  obtain ⟨sy, hsy, td, line, hsh, hpt⟩ := readAst_listing (fun i hi => hf i (List.mem_filter.mp hi).1) (fun i hi => hpl i (List.mem_filter.mp hi).1) hsel
  refine ⟨td, line, hsh, ?_⟩
  have ht : tokenize w s = some (.ok (s, sy)) := by
    unfold tokenize
    rw [if_neg (by simpa [List.isEmpty_iff] using settings_input hca hp), if_neg hstd, hread]
    dsimp only
    generalize tokenizeStream s.readOptions (dumpText codes head lines) = r at hast
    obtain ⟨a, b, c⟩ := r
    dsimp only at hast
    subst hast
    dsimp only
    rw [hsy]
    rfl
  rw [main_eq hp ht]
  unfold Gen.run
  rw [if_pos hpr, hpt]
  rfl

/-! ### Witnesses -/

/-- A world with one dump. -/
def dumpWorld (lines : List ALine) : World where
  env := { demoEnv with n := 50, read := fun p => if p = str% "x.ast" then some (Ast.exDump lines) else none }
  prog := str% "gendlopen"
  version := []
  signedChar := true
  paramMsg _ := []

def dumpArgs : List Str := [str% "x.ast", str% "-print-symbols", str% "-ast-all-symbols"]

def dumpSettings : Settings := { input := str% "x.ast", printSymbols := true, astAllSymbols := true }

theorem plainly_exLines : ∀ i ∈ itemsOf Ast.exLines, Plainly i := by
  intro i hi
  have : i ∈ [Item.func (str% "foo") (str% "int (int, void (*)(int))") [str% "int", str% "void (*)(int)"], .var (str% "bar") (str% "int [3]")] := hi
  simp only [List.mem_cons, List.not_mem_nil, or_false] at this
  rcases this with rfl | rfl
  · show '(' ∈ _; decide
  · rintro ⟨a, b, h⟩
    have : '(' ∈ str% "int [3]" := by rw [h]; simp
    exact absurd this (by decide)

example : ∃ td line, (∀ i ∈ itemsOf Ast.exLines, Shown (str% "gdo") i (td i) (line i)) ∧
    main (dumpWorld Ast.exLines) false (str% "gendlopen" :: dumpArgs) demoNodes = .exit 0 [] { start demoNodes with stdout := listing (itemsOf Ast.exLines) td line } :=
  C86_all_partial (dumpWorld Ast.exLines) false (str% "gendlopen") dumpArgs demoNodes (by unfold CStrs CStr dumpArgs; decide) dumpSettings [] rfl (by decide)
    {} Ast.noCodes _ (by decide) _ Ast.exLines_valid rfl rfl rfl plainly_exLines (by decide)

open Classical in
example : ∃ td line, (∀ i ∈ (itemsOf Ast.exLines).filter (fun i => decide (Selected [str% "fo"] [str% "bar"] i.symbol)), Shown (str% "gdo") i (td i) (line i)) ∧
    main (dumpWorld Ast.exLines) false [str% "gendlopen", str% "x.ast", str% "-print-symbols", str% "-Pfo", str% "-Sbar"] demoNodes =
      .exit 0 [] { start demoNodes with stdout := listing ((itemsOf Ast.exLines).filter fun i => decide (Selected [str% "fo"] [str% "bar"] i.symbol)) td line } := by
  refine C86_filtered_partial (dumpWorld Ast.exLines) false (str% "gendlopen") [str% "x.ast", str% "-print-symbols", str% "-Pfo", str% "-Sbar"] demoNodes
    (by unfold CStrs CStr; decide) { input := str% "x.ast", printSymbols := true, prefixList := [str% "fo"], symbolList := [str% "bar"] } [] rfl (by decide)
    {} Ast.noCodes _ (by decide) _ Ast.exLines_valid rfl rfl rfl (Or.inl (by decide)) plainly_exLines (by decide) ?_ ?_
  · intro x hx
    have : x = str% "bar" := List.mem_singleton.mp hx
    subst this
    refine ⟨by decide, ?_⟩
    rintro ⟨e, he, hp⟩
    have : e = str% "fo" := List.mem_singleton.mp he
    subst this
    exact absurd hp (by decide)
  · intro h
    rw [List.filter_eq_nil_iff] at h
    have := h (.func (str% "foo") (str% "int (int, void (*)(int))") [str% "int", str% "void (*)(int)"]) (by decide)
    apply this
    rw [decide_eq_true_eq]
    exact Or.inr (Or.inr ⟨str% "fo", by decide, by decide⟩)

/-- `int (*x)(void)` and `int[2]` with its blank. -/
example : Shown (str% "gdo") (.var (str% "x") (str% "int (*)(void)")) (some (str% "int (*gdo_x__t)(void)")) (str% "gdo_x__t x;\n") ∧
    Shown (str% "gdo") (.var (str% "x") (str% "int[2]")) (some (str% "int gdo_x__t[2]")) (str% "gdo_x__t x;\n") := by
  constructor
  · exact .pointer (a := str% "int ") (b := str% "(void)") ⟨⟨[], [], rfl, by simp, by simp⟩, by decide, by decide⟩ (by decide)
  · refine .array (a := str% "int") (b := str% "2]") (gap := [' ']) ?_ ⟨⟨[], [], rfl, by simp, by simp⟩, by decide, by decide⟩ (by decide) (Or.inl ⟨rfl, by decide, by decide⟩)
    rintro ⟨a, b, h⟩
    have : '(' ∈ str% "int[2]" := by rw [h]; simp
    exact absurd this (by decide)

theorem dump_result (lines : List ALine) (hv : ∀ l ∈ lines, l.Valid) (node : Nat → Option Node) :
    main (dumpWorld lines) false (str% "gendlopen" :: dumpArgs) node = (match readAst dumpSettings (Ast.exDump lines) with
      | .error e => report (dumpWorld lines) (str% "gendlopen") e (start node)
      | .ok (s, sy) => ended (dumpWorld lines) (str% "gendlopen") (Gen.run { (dumpWorld lines).env with symbols := sy } s (printSymbols sy) (start node))) := by
  obtain ⟨hast, -⟩ := dump_tokens (codes := {}) Ast.noCodes (head := str% "55d0b0 <<invalid sloc>> <invalid sloc>") (by decide) hv dumpSettings.readOptions
  have ht : tokenize (dumpWorld lines) dumpSettings = some (readAst dumpSettings (Ast.exDump lines)) := by
    unfold tokenize
    rw [if_neg (by decide), if_neg (by decide), show (dumpWorld lines).env.read dumpSettings.input = some (Ast.exDump lines) from rfl]
    dsimp only
    unfold Ast.exDump
    generalize tokenizeStream dumpSettings.readOptions (dumpText {} (str% "55d0b0 <<invalid sloc>> <invalid sloc>") lines) = r at hast ⊢
    obtain ⟨a, b, c⟩ := r
    dsimp only at hast
    subst hast
    rfl
  unfold main
  rw [show parseCmdline false (str% "gendlopen" :: dumpArgs) = some (some (.settings dumpSettings [])) from rfl]
  dsimp only
  unfold process
  rw [ht]
  cases readAst dumpSettings (Ast.exDump lines) with
  | error e => rfl
  | ok x => rfl

theorem readAst_eq (lines : List ALine) (hv : ∀ l ∈ lines, l.Valid) (s : Settings) : readAst s (Ast.exDump lines) =
    (match Ast.parseClangAst s.astAllSymbols s.prefixList s.symbolList (Ast.toks lines) with
      | .error e => .error (.ast s.input e)
      | .ok st =>
        match createTypedefs (toLower s.pfx) st.objs with
        | .error n => .error (.typedef n)
        | .ok (objs, tds) => .ok (s, ⟨st.protos, objs, tds⟩)) := by
  have h1 := Ast.exDump_tokens hv
  have h2 := (dump_tokens (codes := {}) Ast.noCodes (head := str% "55d0b0 <<invalid sloc>> <invalid sloc>") (by decide) hv true).2
  have h2 : Ast.astTokens (Ast.exDump lines) = some (tokensBehind (Ast.exDump lines)) := h2
  rw [h1, Option.some.injEq] at h2
  have : tokensBehind (Ast.exDump lines) = Ast.toks lines := h2.symm
  unfold readAst
  rw [this]
  cases Ast.parseClangAst s.astAllSymbols s.prefixList s.symbolList (Ast.toks lines) with
  | error e => rfl
  | ok st => rfl

/-- A pointer to a function that returns a pointer to a function, `int (*(*x)(int))(int)`:
    the whole run fails, although the other declarations are plain. -/
theorem C86_violated_typedef : ∃ lines : List ALine, (∀ l ∈ lines, l.Valid) ∧
    itemsOf lines = [.func (str% "foo") (str% "int (void)") [], .var (str% "x") (str% "int (*(*)(int))(int)")] ∧
    ∀ node, main (dumpWorld lines) false (str% "gendlopen" :: dumpArgs) node =
      .exit 1 (str% "gendlopen: error: failed to create typedef for symbol `x'\n") (start node) := by
  let ls := [Ast.exDecl true (str% "foo") (str% "int (void)"), Ast.exDecl false (str% "x") (str% "int (*(*)(int))(int)")]
  have hv : ∀ l ∈ ls, l.Valid := by
    intro l hl
    simp only [ls, List.mem_cons, List.not_mem_nil, or_false] at hl
    rcases hl with rfl | rfl
    · exact Ast.exDecl_valid (by decide) (by decide) (by decide)
    · exact Ast.exDecl_valid (by decide) (by decide) (by decide)
  refine ⟨ls, hv, by decide, fun node => ?_⟩
  have h : Ast.parseClangAst true [] [] (Ast.toks ls) = .ok ⟨[{ kind := .function, type := str% "int", symbol := str% "foo" }],
    [{ kind := .functionPointer, type := str% "int (*(*)(int))(int)", symbol := str% "x" }]⟩ := by decide
  have h : readAst dumpSettings (Ast.exDump ls) = .error (.typedef (str% "x")) := by
    rw [readAst_eq ls hv, show Ast.parseClangAst dumpSettings.astAllSymbols dumpSettings.prefixList dumpSettings.symbolList (Ast.toks ls) = _ from h]
    rfl
  rw [dump_result ls hv node, h]
  rfl

/-- A constant pointer to a function, `int (*const x)(void)`, is listed with the name behind
    the type, which is no declaration. -/
theorem C86_violated_const : ∃ lines : List ALine, (∀ l ∈ lines, l.Valid) ∧
    itemsOf lines = [.var (str% "x") (str% "int (*const)(void)")] ∧
    ∀ node, main (dumpWorld lines) false (str% "gendlopen" :: dumpArgs) node =
      .exit 0 [] { start node with stdout := str% "/* prototypes */\nint (*const)(void) x;\n\n/***  1 matches  ***/\n" } := by
  let ls := [Ast.exDecl false (str% "x") (str% "int (*const)(void)")]
  have hv : ∀ l ∈ ls, l.Valid := by
    intro l hl
    simp only [ls, List.mem_cons, List.not_mem_nil, or_false] at hl
    subst hl
    exact Ast.exDecl_valid (by decide) (by decide) (by decide)
  refine ⟨ls, hv, by decide, fun node => ?_⟩
  have h : Ast.parseClangAst true [] [] (Ast.toks ls) = .ok ⟨[], [{ kind := .object, type := str% "int (*const)(void)", symbol := str% "x" }]⟩ := by decide
  have h : readAst dumpSettings (Ast.exDump ls) =
      .ok (dumpSettings, ⟨[], [{ kind := .object, type := str% "int (*const)(void)", symbol := str% "x" }], []⟩) := by
    rw [readAst_eq ls hv, show Ast.parseClangAst dumpSettings.astAllSymbols dumpSettings.prefixList dumpSettings.symbolList (Ast.toks ls) = _ from h]
    rfl
  rw [dump_result ls hv node, h]
  rfl

end Gdo.Program
