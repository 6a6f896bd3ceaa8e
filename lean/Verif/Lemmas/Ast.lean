import Verif.Model.Ast
import Verif.Lemmas.AstLex
import Verif.Lemmas.Text
import Verif.Lemmas.Filter

/-! Lemmas about reading declarations from AST dumps. -/

namespace Gdo.Ast
open Gdo Spec Lex

/-! ### Colours -/

theorem stripColorsN_plain {s p : Str} (h : Plain s p) : ∀ n, s.length ≤ n → stripColorsN n s = p := by
  induction h with
  | nil => intro n _; cases n <;> rfl
  | char c s p hc h ih =>
    intro n hn
    cases n with
    | zero => simp at hn
    | succ n =>
      rw [stripColorsN, skipCol_other hc, if_neg (by simp), ih n (by simpa using hn)]
  | code k s p hk h ih =>
    intro n hn
    cases n with
    | zero => simp at hn
    | succ n =>
      rw [stripColorsN, skipCol_code k s hk, if_pos (by simp; omega), ih n (by simp at hn; omega)]

theorem stripColors_plain {s p : Str} (h : Plain s p) : stripColors s = p :=
  stripColorsN_plain h _ (Nat.le_refl _)

theorem plain_append {s p t q : Str} (h : Plain s p) (h' : Plain t q) : Plain (s ++ t) (p ++ q) := by
  induction h with
  | nil => exact h'
  | char c s p hc h ih => exact .char _ _ _ hc ih
  | code k s p hk h ih =>
    have := Plain.code k (s ++ t) (p ++ q) hk ih
    simpa using this

theorem plain_code {c : Str} (h : IsCode c) : Plain c [] := by
  rcases h with rfl | ⟨k, rfl, hk⟩
  · exact .nil
  · exact .code k [] [] hk .nil

theorem plain_self {s : Str} (h : '\x1b' ∉ s) : Plain s s := by
  induction s with
  | nil => exact .nil
  | cons c s ih =>
    simp only [List.mem_cons, not_or] at h
    exact .char c s s (fun h' => h.1 h'.symm) (ih h.2)

theorem plain_cr {s p : Str} (h : Plain s p) (hp : '\r' ∉ p) : '\r' ∉ s := by
  induction h with
  | nil => simp
  | char c s p hc h ih => simp at hp ⊢; exact ⟨hp.1, ih hp.2⟩
  | code k s p hk h ih =>
    have := ih hp
    have hk' : '\r' ∉ k := fun h => absurd (hk _ h) (by decide)
    simp [*]

theorem deleteSuffix_cr (s : Str) (cr : Bool) (h : '\r' ∉ s) : deleteSuffix (s ++ crText cr) ['\r'] = s := by
  unfold deleteSuffix
  cases cr with
  | true => simp [crText, List.isSuffixOf_iff_suffix]
  | false =>
    rw [if_neg]
    · simp [crText]
    · rw [List.isSuffixOf_iff_suffix]
      rintro ⟨t, ht⟩
      apply h
      simp [crText] at ht
      simp [← ht]

theorem stripLine_plain {s p : Str} (h : Plain s p) (hp : '\r' ∉ p) (cr : Bool) : stripLine (s ++ crText cr) = p := by
  unfold stripLine
  rw [deleteSuffix_cr _ _ (plain_cr h hp), stripColors_plain h]

/-! ### Lines -/

theorem noBreak_iff {s : Str} : noBreak s = true ↔ OneLine s := by
  simp only [noBreak, OneLine, List.all_eq_true]
  constructor
  · intro h
    exact ⟨fun h' => by simpa using h _ h', fun h' => by simpa using h _ h'⟩
  · rintro ⟨h1, h2⟩ c hc
    simp
    exact ⟨fun h => h1 (h ▸ hc), fun h => h2 (h ▸ hc)⟩

theorem quoted_line (junk type tail : Str) (hj : '\'' ∉ junk) (ht : '\'' ∉ type)
    (h1 : OneLine junk) (h2 : OneLine type) (h3 : OneLine tail) :
    quoted (junk ++ (' ' :: '\'' :: (type ++ ('\'' :: tail)))) = some type := by
  have hb : noBreak (junk ++ (' ' :: '\'' :: (type ++ ('\'' :: tail)))) = true := by
    rw [noBreak_iff]
    obtain ⟨a, b⟩ := h1; obtain ⟨c, d⟩ := h2; obtain ⟨e, f⟩ := h3
    constructor <;> simp [*]
  have hs : splitFirst (str% " '") (junk ++ str% " '" ++ (type ++ '\'' :: tail)) = some (junk, type ++ '\'' :: tail) := by
    apply splitFirst_eq
    intro p q he
    by_cases hl : junk.length ≤ p.length
    · exact hl
    · exfalso
      apply hj
      simp only [List.append_assoc, List.cons_append, List.nil_append] at he
      have he' : junk ++ (' ' :: '\'' :: (type ++ '\'' :: tail)) = (p ++ [' ']) ++ ('\'' :: q) := by simpa using he
      rcases List.append_eq_append_iff.mp he' with ⟨z, hz, hz'⟩ | ⟨z, hz, hz'⟩
      · have hl1 := congrArg List.length hz
        simp at hl1
        have : z = [] := List.length_eq_zero_iff.mp (by omega)
        subst this
        simp at hz'
      · cases z with
        | nil => simp at hz'
        | cons y z =>
          simp at hz'
          rw [hz, ← hz'.1]; simp
  unfold quoted
  rw [if_neg (by simp [hb])]
  have : junk ++ (' ' :: '\'' :: (type ++ ('\'' :: tail))) = junk ++ str% " '" ++ (type ++ '\'' :: tail) := by simp
  rw [this, hs]
  simp only
  rw [if_pos (by simp)]
  rw [(takeWhile_all (p := fun c => decide (c ≠ '\'')) (by intro c hc; simp; rintro rfl; exact ht hc) (by simp)).1]

theorem dropWhile_append_of_all {p : Char → Bool} (a b : Str) (h : ∀ c ∈ a, p c = true) :
    (a ++ b).dropWhile p = b.dropWhile p := by
  induction a with
  | nil => rfl
  | cons x a ih => simp [h x (by simp), ih (fun c hc => h c (by simp [hc]))]

theorem symbolAndType_line (junk symbol type tail : Str) (hj : '\'' ∉ junk) (hw : ∀ c ∈ symbol, isWord c = true)
    (hne : symbol ≠ []) (ht : '\'' ∉ type) :
    symbolAndType (junk ++ (' ' :: (symbol ++ (' ' :: '\'' :: (type ++ ('\'' :: tail)))))) = some (symbol, type) := by
  obtain ⟨y, sym, rfl⟩ := List.exists_cons_of_ne_nil hne
  induction junk with
  | nil =>
    rw [List.nil_append, symbolAndType]
    have hd := takeWhile_all (p := isWord) (a := y :: sym) (x := ' ') (b := '\'' :: (type ++ ('\'' :: tail))) hw (by decide)
    have ht' := takeWhile_all (p := fun c => decide (c ≠ '\'')) (a := type) (x := '\'') (b := tail)
      (by intro c hc; simp; rintro rfl; exact ht hc) (by simp)
    rw [if_pos (by rw [hd.2]; simp), hd.1, hd.2]
    simp only [List.drop_succ_cons, List.drop_zero, ht'.1]
  | cons x junk ih =>
    simp only [List.mem_cons, not_or] at hj
    rw [List.cons_append, symbolAndType, if_neg, ih hj.2]
    rintro ⟨-, hp, -⟩
    rw [List.isPrefixOf_iff_prefix] at hp
    by_cases hall : ∀ c ∈ junk, isWord c = true
    · rw [dropWhile_append_of_all _ _ hall] at hp
      rw [List.dropWhile_cons, if_neg (by decide)] at hp
      simp at hp
      have := hw y (by simp)
      rw [← hp] at this
      exact absurd this (by decide)
    · obtain ⟨a, b, hab⟩ : ∃ a b, junk.dropWhile isWord = a :: b := by
        cases h : junk.dropWhile isWord with
        | nil =>
          exfalso
          apply hall
          intro c hc
          have := List.takeWhile_append_dropWhile (p := isWord) (l := junk)
          rw [h, List.append_nil] at this
          rw [← this] at hc
          exact mem_takeWhile_imp hc
        | cons a b => exact ⟨a, b, rfl⟩
      have hsub : ∀ c ∈ a :: b, c ∈ junk := fun c hc => (List.dropWhile_sublist isWord).subset (hab ▸ hc)
      have : (junk ++ (' ' :: ((y :: sym) ++ (' ' :: '\'' :: (type ++ ('\'' :: tail)))))).dropWhile isWord
          = a :: b ++ (' ' :: ((y :: sym) ++ (' ' :: '\'' :: (type ++ ('\'' :: tail))))) := by
        have h1 := List.takeWhile_append_dropWhile (p := isWord) (l := junk)
        rw [hab] at h1
        have ha : isWord a = false := by
          have := List.head?_dropWhile_not isWord junk
          rw [hab] at this
          simpa using this
        rw [← h1, List.append_assoc, dropWhile_append_of_all _ _ (fun c hc => mem_takeWhile_imp hc)]
        simp [ha]
      rw [this] at hp
      cases b with
      | nil => simp at hp
      | cons b' b =>
        simp at hp
        exact hj.2 (hsub _ (by simp [← hp.2]))

theorem afterOneOf_mem {l : List Str} {m s : Str} (hm : m ∈ l) (hlen : ∀ x ∈ l, x.length = m.length) :
    afterOneOf l (m ++ s) = some s := by
  induction l with
  | nil => simp at hm
  | cons x l ih =>
    unfold afterOneOf
    rw [List.findSome?_cons]
    by_cases hx : x = m
    · subst hx; rw [afterLit_append]
    · rw [afterLit_none]
      · have hm' : m ∈ l := by simp at hm; rcases hm with h | h; exact absurd h.symm hx; exact h
        exact ih hm' (fun y hy => hlen y (by simp [hy]))
      · intro hp
        apply hx
        have := List.prefix_of_prefix_length_le hp (List.prefix_append m s) (by simp [hlen x (by simp)])
        exact this.eq_of_length (hlen x (by simp))

theorem stripLine_decl {fn : Bool} {bar : Char} {c : Codes} {raw : Str} {cr : Bool} {symbol type : Str}
    (hv : (ALine.decl fn bar c raw cr symbol type).Valid) :
    ∃ junk tail, '\'' ∉ junk ∧ OneLine junk ∧ OneLine type ∧ OneLine tail ∧
    stripLine (ALine.decl fn bar c raw cr symbol type).text =
      [bar, '-'] ++ (declWord fn ++ (str% " 0x" ++ (junk ++ (' ' :: (symbol ++ (' ' :: '\'' :: (type ++ ('\'' :: tail)))))))) := by
  obtain ⟨hbar, ⟨h0, h1, h2, h3, h4⟩, hw, hne, ht, junk, tail, hj, ho1, ho2, ho3, hp⟩ := hv
  refine ⟨junk, tail, hj, ho1, ho2, ho3, ?_⟩
  have hb : '\x1b' ∉ [bar, '-'] := by rcases hbar with rfl | rfl <;> decide
  have hd : '\x1b' ∉ declWord fn := by cases fn <;> decide
  have hx : '\x1b' ∉ (str% " 0x") := by decide
  have hpl := plain_append (plain_code h0) (plain_append (plain_self hb) (plain_append (plain_code h1)
    (plain_append (plain_code h2) (plain_append (plain_self hd) (plain_append (plain_code h3)
    (plain_append (plain_code h4) (plain_append (plain_self hx) hp)))))))
  have hcr : '\r' ∉ [] ++ ([bar, '-'] ++ ([] ++ ([] ++ (declWord fn ++ ([] ++ ([] ++ (str% " 0x" ++
      (junk ++ (' ' :: (symbol ++ (' ' :: '\'' :: (type ++ ('\'' :: tail)))))))))))))  := by
    have g1 : '\r' ≠ bar := by rcases hbar with rfl | rfl <;> decide
    have g2 : '\r' ∉ declWord fn := by cases fn <;> decide
    have g3 := ho1.1
    have g4 := ho2.1
    have g5 := ho3.1
    have g6 : '\r' ∉ symbol := fun h => absurd (hw _ h) (by decide)
    simp [g1, g2, g3, g4, g5, g6]
  have := stripLine_plain hpl hcr cr
  simp only [List.nil_append, List.append_assoc] at this
  exact this

theorem matchDecl_decl {fn : Bool} {bar : Char} {c : Codes} {raw : Str} {cr : Bool} {symbol type : Str}
    (hv : (ALine.decl fn bar c raw cr symbol type).Valid) :
    strAt (stripLine (ALine.decl fn bar c raw cr symbol type).text) 2 = (if fn then 'F' else 'V') ∧
    matchDecl (declWord fn) (stripLine (ALine.decl fn bar c raw cr symbol type).text) = some (symbol, type) := by
  obtain ⟨junk, tail, hj, ho1, ho2, ho3, he⟩ := stripLine_decl hv
  obtain ⟨hbar, -, hw, hne, ht, -⟩ := hv
  rw [he]
  constructor
  · cases fn <;> rfl
  · unfold matchDecl
    rw [afterOneOf_mem (by rcases hbar with rfl | rfl <;> simp) (by simp)]
    simp only [Option.bind_eq_bind, Option.bind_some]
    rw [← List.append_assoc (declWord fn), afterLit_append]
    simp only [Option.bind_some]
    have hsym : OneLine symbol :=
      ⟨fun h => absurd (hw _ h) (by decide), fun h => absurd (hw _ h) (by decide)⟩
    rw [if_pos, symbolAndType_line _ _ _ _ hj hw hne ht]
    rw [noBreak_iff]
    obtain ⟨a1, a2⟩ := hsym
    obtain ⟨a3, a4⟩ := ho1
    obtain ⟨a5, a6⟩ := ho2
    obtain ⟨a7, a8⟩ := ho3
    constructor <;> simp [*]

theorem matchParm_parm {pre : Str} {c : Codes} {raw : Str} {cr : Bool} {type : Str}
    (hv : (ALine.parm pre c raw cr type).Valid) :
    matchParm (stripLine (ALine.parm pre c raw cr type).text) = some type := by
  obtain ⟨hpre, ⟨h0, h1, h2, h3, h4⟩, ht, junk, tail, hj, ho1, ho2, ho3, hp⟩ := hv
  have hb : '\x1b' ∉ pre := by
    simp only [parmMarks, List.mem_cons, List.not_mem_nil, or_false] at hpre
    rcases hpre with rfl | rfl | rfl | rfl <;> decide
  have hpl := plain_append (plain_code h0) (plain_append (plain_self hb) (plain_append (plain_code h1)
    (plain_append (plain_code h2) (plain_append (plain_self (s := str% "ParmVarDecl") (by decide)) (plain_append (plain_code h3)
    (plain_append (plain_code h4) (plain_append (plain_self (s := str% " 0x") (by decide)) hp)))))))
  have hcr : '\r' ∉ [] ++ (pre ++ ([] ++ ([] ++ (str% "ParmVarDecl" ++ ([] ++ ([] ++ (str% " 0x" ++
      (junk ++ (' ' :: '\'' :: (type ++ ('\'' :: tail)))))))))))  := by
    have g1 : '\r' ∉ pre := by
      simp only [parmMarks, List.mem_cons, List.not_mem_nil, or_false] at hpre
      rcases hpre with rfl | rfl | rfl | rfl <;> decide
    have g3 := ho1.1
    have g4 := ho2.1
    have g5 := ho3.1
    simp [g1, g3, g4, g5]
  have := stripLine_plain hpl hcr cr
  simp only [List.nil_append, List.append_assoc] at this
  simp only [ALine.text]
  rw [this]
  unfold matchParm
  rw [afterOneOf_mem (l := [str% "| |-", str% "| `-", str% "  |-", str% "  `-"]) hpre (by
    simp only [parmMarks, List.mem_cons, List.not_mem_nil, or_false] at hpre
    rcases hpre with rfl | rfl | rfl | rfl <;> simp)]
  simp only [Option.bind_eq_bind, Option.bind_some]
  rw [← List.append_assoc (str% "ParmVarDecl"), show str% "ParmVarDecl" ++ str% " 0x" = str% "ParmVarDecl 0x" from rfl,
    afterLit_append]
  exact quoted_line _ _ _ hj ht ho1 ho2 ho3

/-! ### Parameters -/

theorem insertName_eq (name type : Str) :
    insertName name type = (findPos (str% "(*)") type).map fun pos => insertAt type (pos + 2) name := by
  induction type with
  | nil => rfl
  | cons c r ih =>
    by_cases hp : (str% "(*)") <+: c :: r
    · obtain ⟨t, ht⟩ := hp
      rw [← ht]
      simp [insertName, findPos, splitFirst, insertAt]
    · have h1 : insertName name (c :: r) = (insertName name r).map (c :: ·) := by
        rw [insertName]
        rintro r' h1 h2
        exact hp ⟨r', by simp [h1, h2]⟩
      rw [h1, ih]
      have : findPos (str% "(*)") (c :: r) = (findPos (str% "(*)") r).map (· + 1) := by
        unfold findPos
        rw [splitFirst, if_neg (by rw [List.isPrefixOf_iff_prefix]; exact hp)]
        cases splitFirst (str% "(*)") r <;> rfl
      rw [this]
      cases findPos (str% "(*)") r <;> simp [insertAt]

theorem star_suffix {s : Str} : (str% "*").isSuffixOf s = true ↔ s.getLast? = some '*' := by
  rw [List.isSuffixOf_iff_suffix, List.getLast?_eq_some_iff]
  constructor
  · rintro ⟨t, ht⟩; exact ⟨t, ht.symm⟩
  · rintro ⟨t, ht⟩; exact ⟨t, ht.symm⟩

theorem getParameters_parm {pre : Str} {c : Codes} {raw : Str} {cr : Bool} {type : Str}
    (hv : (ALine.parm pre c raw cr type).Valid) (a : Args) (ha : a.args.getLast? ≠ some '*') :
    getParameters (ALine.parm pre c raw cr type).text a =
      some { args := a.args ++ declareParm type (parmName a.count) ++ str% ", ",
             names := a.names ++ parmName a.count ++ str% ", ", count := a.count + 1 } := by
  unfold getParameters
  rw [matchParm_parm hv]
  simp only [Option.some.injEq, Args.mk.injEq, and_true]
  refine ⟨?_, rfl⟩
  unfold declareParm
  rw [insertName_eq]
  cases findPos (str% "(*)") type with
  | some pos => simp [parmName, natText]
  | none =>
    simp only [Option.map_none]
    have hl : ((str% "*").isSuffixOf (a.args ++ type) = true) ↔ type.getLast? = some '*' := by
      rw [star_suffix, List.getLast?_append]
      cases h : type.getLast? with
      | none => simp [ha]
      | some x => simp
    by_cases h : type.getLast? = some '*'
    · rw [if_pos (hl.mpr h), if_pos h]; simp [parmName, natText]
    · rw [if_neg (fun h' => h (hl.mp h')), if_neg h]; simp [parmName, natText]

/-- Everything followed by `, `. -/
def commaEnds (l : List Str) : Str := (l.map fun x => x ++ str% ", ").flatten

theorem commaEnds_cons (x : Str) (l : List Str) : commaEnds (x :: l) = x ++ str% ", " ++ commaEnds l := rfl

theorem commaEnds_eq {l : List Str} (hl : l ≠ []) : commaEnds l = commaList l ++ str% ", " := by
  induction l with
  | nil => exact absurd rfl hl
  | cons a l ih =>
    cases l with
    | nil => simp [commaEnds, commaList]
    | cons b r =>
      rw [commaEnds_cons, ih (by simp)]
      simp [commaList]

theorem deleteSuffix_commaEnds (l : List Str) : deleteSuffix (commaEnds l) (str% ", ") = commaList l := by
  cases l with
  | nil => rfl
  | cons a l =>
    rw [commaEnds_eq (by simp)]
    unfold deleteSuffix
    rw [if_pos (List.isSuffixOf_iff_suffix.mpr (List.suffix_append _ _))]
    simp

/-- The tokens of lines. -/
def toks (ls : List ALine) : List Tok := (ls.map lineTok).flatten

def notDecl : ALine → Bool
  | .decl .. => false
  | _ => true

theorem toks_cons (l : ALine) (ls : List ALine) : toks (l :: ls) = lineTok l ++ toks ls := rfl

theorem readParms_lines (ls : List ALine) (hv : ∀ l ∈ ls, l.Valid) : ∀ a : Args, a.args.getLast? ≠ some '*' →
    ∃ k, readParms (toks ls) a =
      ({ args := a.args ++ commaEnds (parmDecls a.count (parmsOf ls)),
         names := a.names ++ commaEnds (parmNames a.count (parmsOf ls)), count := k },
       toks (ls.dropWhile notDecl)) := by
  induction ls with
  | nil => intro a _; exact ⟨a.count, by simp [toks, readParms, parmsOf, parmDecls, parmNames, commaEnds]⟩
  | cons l ls ih =>
    intro a ha
    have ih := ih (fun l hl => hv l (by simp [hl]))
    cases l with
    | decl fn bar c raw cr symbol type =>
      exact ⟨a.count, by simp [toks, lineTok, readParms, parmsOf, parmDecls, parmNames, commaEnds, notDecl]⟩
    | other s =>
      obtain ⟨k, hk⟩ := ih a ha
      exact ⟨k, by simpa [toks_cons, lineTok, parmsOf, notDecl, List.dropWhile_cons] using hk⟩
    | parm pre c raw cr type =>
      obtain ⟨k, hk⟩ := ih ⟨a.args ++ declareParm type (parmName a.count) ++ str% ", ",
        a.names ++ parmName a.count ++ str% ", ", a.count + 1⟩ (by simp)
      refine ⟨k, ?_⟩
      have hg := getParameters_parm (hv (.parm pre c raw cr type) (by simp)) a ha
      simp only [toks_cons, lineTok, List.singleton_append, readParms, if_true,
        hg, hk, parmsOf, parmDecls, parmNames, commaEnds_cons,
        List.dropWhile_cons, notDecl]
      simp

/-! ### Declarations -/

/-- The symbol of a declaration, if it is read. -/
def itemProto : Item → Option Proto
  | .func symbol type params =>
    (splitFirst ['('] type).map fun r =>
      { kind := .function, symbol := symbol, type := stripSpaces r.1,
        args := commaList (parmDecls 1 params), paramNames := commaList (parmNames 1 params) }
  | .var symbol type =>
    some { kind := if (findPos (str% "(*)") type).isSome then .functionPointer
                   else if (findPos ['['] type).isSome then .objectArray else .object
           symbol := symbol, type := stripSpaces type }

/-- A declaration with filter. -/
def foldItem (mode : FilterMode) (P : List Str) (st : State) (i : Item) : State :=
  match astFilter mode P st.list i.symbol with
  | none => st
  | some list =>
    match itemProto i with
    | none => { st with list := list }
    | some p => { list := list, protos := st.protos ++ fns [p], objs := st.objs ++ obs [p] }

theorem fns_one {p : Proto} (h : p.kind = .function) : fns [p] = [p] ∧ obs [p] = [] := by simp [fns, obs, h]
theorem obs_one {p : Proto} (h : p.kind ≠ .function) : fns [p] = [] ∧ obs [p] = [p] := by simp [fns, obs, h]

theorem items_dropWhile (ls : List ALine) : itemsOf (ls.dropWhile notDecl) = itemsOf ls := by
  induction ls with
  | nil => rfl
  | cons l ls ih => cases l <;> simp [notDecl, itemsOf, ih, List.dropWhile_cons]

theorem getDeclarations_func {mode : FilterMode} {P : List Str} {bar : Char} {c : Codes} {raw : Str} {cr : Bool}
    {symbol type : Str} (hv : (ALine.decl true bar c raw cr symbol type).Valid) (ls : List ALine)
    (hls : ∀ l ∈ ls, l.Valid) (st : State) :
    getDeclarations mode P (ALine.decl true bar c raw cr symbol type).text (toks ls) st =
      (foldItem mode P st (.func symbol type (parmsOf ls)),
       if (astFilter mode P st.list symbol).isSome && (splitFirst ['('] type).isSome then
         some (toks (ls.dropWhile notDecl)) else none) := by
  obtain ⟨h1, h2⟩ := matchDecl_decl hv
  unfold getDeclarations foldItem
  simp only [if_true] at h1
  simp only [h1, decide_true, if_true]
  simp only [declWord, if_true] at h2
  simp only [h2, Item.symbol]
  cases hf : astFilter mode P st.list symbol with
  | none => simp
  | some list =>
    cases hs : splitFirst ['('] type with
    | none => simp [itemProto, hs]
    | some r =>
      obtain ⟨k, hk⟩ := readParms_lines ls hls {} (by simp)
      simp only [itemProto, hs, hk, List.nil_append, deleteSuffix_commaEnds, Option.map_some, Option.isSome_some,
        Bool.and_self, if_true]
      rw [(fns_one (by rfl)).1, (fns_one (by rfl)).2]
      simp

theorem getDeclarations_var {mode : FilterMode} {P : List Str} {bar : Char} {c : Codes} {raw : Str} {cr : Bool}
    {symbol type : Str} (hv : (ALine.decl false bar c raw cr symbol type).Valid) (ts : List Tok) (st : State) :
    getDeclarations mode P (ALine.decl false bar c raw cr symbol type).text ts st =
      (foldItem mode P st (.var symbol type), none) := by
  obtain ⟨h1, h2⟩ := matchDecl_decl hv
  unfold getDeclarations foldItem
  simp only [Bool.false_eq_true, if_false] at h1
  simp only [h1, declWord, Bool.false_eq_true, if_false, Char.reduceEq, decide_false] at h2 ⊢
  simp only [h2, Item.symbol]
  cases hf : astFilter mode P st.list symbol with
  | none => rfl
  | some list =>
    simp only [itemProto]
    rw [(obs_one ?_).1, (obs_one ?_).2]
    · simp
    · show (if _ then _ else _) ≠ _
      split
      · simp
      · split <;> simp
    · show (if _ then _ else _) ≠ _
      split
      · simp
      · split <;> simp

theorem foldItem_empty {mode : FilterMode} {P : List Str} {st : State} (hm : mode = .list) (hl : st.list = [])
    (i : Item) : foldItem mode P st i = st := by
  subst hm
  simp [foldItem, astFilter, hl, eraseAll]

theorem foldl_empty {mode : FilterMode} {P : List Str} {st : State} (hm : mode = .list) (hl : st.list = [])
    (is : List Item) : is.foldl (foldItem mode P) st = st := by
  induction is with
  | nil => rfl
  | cons i is ih => rw [List.foldl_cons, foldItem_empty hm hl, ih]

theorem toks_dropWhile_len (ls : List ALine) : (toks (ls.dropWhile notDecl)).length ≤ (toks ls).length := by
  induction ls with
  | nil => simp
  | cons l ls ih =>
    rw [List.dropWhile_cons]
    split
    · rw [toks_cons, List.length_append]; omega
    · exact Nat.le_refl _

/-- The loop reads the declarations one after another. -/
theorem astLoop_lines (mode : FilterMode) (P : List Str) (n : Nat) : ∀ (ls : List ALine), (∀ l ∈ ls, l.Valid) →
    ∀ (inner : Bool) (st : State), (inner = true → ∀ l, ls.head? = some l → notDecl l = false) → (toks ls).length < n →
    astLoop mode P n inner (toks ls) st = (itemsOf ls).foldl (foldItem mode P) st := by
  induction n with
  | zero => intro ls _ _ _ _ h; omega
  | succ n ih =>
    intro ls
    induction ls with
    | nil => intro _ inner st _ _; rfl
    | cons l ls ihl =>
      intro hv inner st hin hlen
      have hv' : ∀ l ∈ ls, l.Valid := fun l hl => hv l (by simp [hl])
      cases l with
      | other s =>
        have hi : inner = false := by
          cases inner with
          | false => rfl
          | true => simpa [notDecl] using hin rfl _ rfl
        subst hi
        exact ihl hv' false st (by simp) hlen
      | parm pre c raw cr type =>
        have hi : inner = false := by
          cases inner with
          | false => rfl
          | true => simpa [notDecl] using hin rfl _ rfl
        subst hi
        rw [toks_cons] at hlen ⊢
        simp [lineTok] at hlen
        simp only [lineTok, List.singleton_append, astLoop, Bool.not_false, Bool.true_and, beq_self_eq_true, if_true,
          itemsOf]
        exact ih ls hv' false st (by simp) hlen
      | decl fn bar c raw cr symbol type =>
        rw [toks_cons] at hlen ⊢
        simp [lineTok] at hlen
        have hk : (TokKind.astFuncvar == TokKind.astParmvar) = false := rfl
        have hk' : (TokKind.astFuncvar != TokKind.astFuncvar) = false := rfl
        simp only [lineTok, List.singleton_append, astLoop, hk, hk', Bool.and_false, Bool.false_eq_true, if_false]
        cases fn with
        | true =>
          rw [getDeclarations_func (hv _ (by simp)) ls hv']
          simp only [itemsOf, if_true, List.foldl_cons]
          split
          · rename_i st' rest heq
            simp only [Prod.mk.injEq] at heq
            obtain ⟨rfl, heq⟩ := heq
            split at heq
            · simp at heq
              subst heq
              rw [ih _ (fun l hl => hv' l ((List.dropWhile_sublist _).subset hl)) true _ ?_ ?_, items_dropWhile]
              · intro _ l hl
                have := List.head?_dropWhile_not notDecl ls
                rw [hl] at this
                simpa using this
              · have := toks_dropWhile_len ls
                omega
            · simp at heq
          · rename_i st' heq
            simp only [Prod.mk.injEq] at heq
            obtain ⟨rfl, heq⟩ := heq
            split
            · rename_i hm
              rw [foldl_empty hm.1 hm.2]
            · exact ih ls hv' false _ (by simp) hlen
        | false =>
          rw [getDeclarations_var (hv _ (by simp))]
          simp only [itemsOf, Bool.false_eq_true, if_false, List.foldl_cons]
          split
          · rename_i hm
            rw [foldl_empty hm.1 hm.2]
          · exact ih ls hv' false _ (by simp) hlen

end Gdo.Ast
