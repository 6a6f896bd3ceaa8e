import Verif.Props.Lex
import Verif.Props.Tokenize
import Verif.Props.Filter
import Verif.Props.Params

/-!
From the text of a header to the symbols (C68), the formatting of all texts of the symbols
(C18) and the typedefs of any type text (C19).
-/

namespace Gdo.Props
open Gdo Spec

/-! ### C18 on the result -/

/-- A text that formatting does not change. -/
def Formatted (s : Str) : Prop := (∀ pat ∈ unwanted, ¬ Contains pat s) ∧ Stripped s

/-- All types, argument lists and typedefs of a text input are formatted. -/
theorem C18_all_formatted (vec : List Toks) (pfx : Str) (mode : ParamNames) (P S : List Str) (sy : Symbols)
    (h : tokenizeDecls vec pfx mode P S = some (.ok sy)) :
    (∀ p ∈ sy.protos ++ sy.objs, Formatted p.type ∧ Formatted p.args) ∧ ∀ t ∈ sy.typedefs, Formatted t := by
  unfold tokenizeDecls at h
  simp only [Option.bind_eq_bind, Option.bind_eq_some_iff] at h
  obtain ⟨r, -, h⟩ := h
  cases r with
  | error e => simp at h
  | ok st =>
    simp only at h
    cases hc : createTypedefs pfx st.objs with
    | error e => simp [hc] at h
    | ok x =>
      obtain ⟨objs, tds⟩ := x
      simp [hc] at h
      subst h
      have hf : ∀ s, Formatted (formatPrototype s) := C18_no_unwanted
      constructor
      · intro p hp
        simp only [List.mem_append, List.mem_map] at hp
        rcases hp with ⟨q, -, rfl⟩ | ⟨q, -, rfl⟩ <;> exact ⟨hf _, hf _⟩
      · intro t ht
        rw [List.mem_map] at ht
        obtain ⟨q, -, rfl⟩ := ht
        exact hf _

/-! ### C19 for any type text -/

/-- An array type of any text: the typedef has the tokens in front of the first bracket, the
    name, and the tokens from the bracket on; whether or not there is a blank in front of
    the bracket. -/
theorem C19_array_text (a b name : Str) (ha : '[' ∉ a) (hn : IdentTok name) :
    ctokens (arrayTypedef (a ++ '[' :: b) name) = ctokens a ++ ctokens name ++ ctokens ('[' :: b) := by
  have h1 : findPos ['['] (a ++ '[' :: b) = some a.length := by
    have := findPos_eq (pat := ['[']) (a := a) (b := b) (fun p q h => first_char (pat := []) ha p q h)
    simpa using this
  unfold arrayTypedef
  rw [h1]
  simp only
  have hb : ∀ x : Str, ctokens (name ++ '[' :: x) = ctokens name ++ ctokens ('[' :: x) :=
    fun x => ctokens_append _ _ (Or.inr (by simp; rfl))
  split
  · rename_i h
    simp only [insertAt]
    have e1 : List.take (a.length + 1) (List.take a.length (a ++ '[' :: b) ++ [' '] ++ List.drop a.length (a ++ '[' :: b)) = a ++ [' '] := by
      simp [List.take_append, List.take_of_length_le (Nat.le_succ a.length)]
    have e2 : List.drop (a.length + 1) (List.take a.length (a ++ '[' :: b) ++ [' '] ++ List.drop a.length (a ++ '[' :: b)) = '[' :: b := by
      simp [List.drop_append]
    rw [e1, e2, List.append_assoc, List.append_assoc, ctokens_append a _ (Or.inr (by simp; rfl)), List.singleton_append,
      ctokens_space _ _ (by decide), hb, List.append_assoc]
  · rename_i h
    simp only [insertAt, List.take_left, List.drop_left]
    rw [List.append_assoc, ctokens_append a, hb, List.append_assoc]
    left
    intro c hc
    have hpos : 0 < a.length := by cases a <;> simp at hc ⊢
    have hat : strAt (a ++ '[' :: b) (a.length - 1) = c := by
      rw [List.getLast?_eq_getElem?] at hc
      unfold strAt
      rw [List.getElem?_append_left (by omega), hc]
    simp [hpos, hat] at h
    rw [h]; decide

/-- `int[2]`, as the Clang AST has it, and `int [2]`. -/
example : arrayTypedef (str% "int[2]") (str% "gdo_x__t") = str% "int gdo_x__t[2]" ∧
    arrayTypedef (str% "int [2]") (str% "gdo_x__t") = str% "int gdo_x__t[2]" := by decide

/-- A function pointer type of any text: the name is put behind the star of the first
    parenthesis. -/
theorem C19_fptr_text (a b name : Str) (ha : '(' ∉ a) :
    fptrTypedef (a ++ str% "(*)" ++ b) name = a ++ str% "(*" ++ name ++ str% ")" ++ b := by
  have h1 : findPos (str% "(*)") (a ++ str% "(*)" ++ b) = some a.length :=
    findPos_eq (fun p q h => first_char (pat := ['*', ')']) ha p q h)
  have h2 : findPos ['('] (a ++ str% "(*)" ++ b) = some a.length := by
    have := findPos_eq (pat := ['(']) (a := a) (b := ['*', ')'] ++ b) (fun p q h => first_char (pat := []) ha p q h)
    simpa using this
  unfold fptrTypedef
  rw [h1]
  simp only [h2]
  have e1 : List.take (a.length + 2) (a ++ str% "(*)" ++ b) = a ++ ['(', '*'] := by
    rw [List.append_assoc, List.take_length_add_append]; rfl
  have e2 : List.drop (a.length + 2) (a ++ str% "(*)" ++ b) = [')'] ++ b := by
    rw [List.append_assoc, List.drop_length_add_append]; rfl
  simp only [insertAt, e1, e2]
  simp

example : fptrTypedef (str% "void (*)(int)") (str% "gdo_x__t") = str% "void (*gdo_x__t)(int)" := by decide

/-! ### C68 -/

/-- The declaration is read as what it means: the plain shapes, and the other shapes if the
    type is one word or ends in a star (see C08, C09 for the others). -/
def Readable (d : Decl) : Prop := d.Valid ∧ (d.Plain ∨ OneWordOrPointer d.base)

theorem read_readable (d : Decl) (h : Readable d) : checkPrototype d.print = some (some d.meaning) := by
  by_cases hp : d.Plain
  · exact read_plain d h.1 hp
  · exact read_parenthesized d h.1 (h.2.resolve_left hp) hp

theorem parseTokens_readable (ds : List Decl) (h : ∀ d ∈ ds, Readable d) :
    parseTokens (ds.map Decl.print) = some (some (ds.map Decl.meaning)) := by
  induction ds with
  | nil => rfl
  | cons d ds ih =>
    simp only [List.map_cons, parseTokens, read_readable d (h d (by simp)), ih (fun x hx => h x (by simp [hx])),
      Option.bind_eq_bind, Option.bind_some]
    rfl

theorem meaning_unsaved (d : Decl) : d.meaning.saved = false := rfl

/-- Without filters everything is kept, functions and objects separately. -/
theorem parse_readable (ds : List Decl) (h : ∀ d ∈ ds, Readable d) (hne : ds ≠ []) (hn : (ds.map Decl.name).Nodup)
    (mode : ParamNames) (vs : List Proto) (hp : doParameters mode (ds.map Decl.meaning) = some (.ok vs)) :
    gendlopenParse (ds.map Decl.print) mode [] [] = some (.ok ⟨fns vs, obs vs⟩) := by
  obtain ⟨h1, h2, h3, h4⟩ := doParameters_same _ hp
  have hnames : (ds.map Decl.meaning).map Proto.symbol = ds.map Decl.name := by simp [Decl.meaning, Function.comp_def]
  have hvne : vs ≠ [] := by
    intro he
    rw [he] at h1
    simp at h1
    exact hne h1
  unfold gendlopenParse
  rw [parseTokens_readable ds h]
  have hm : multipleDefinitions (ds.map Decl.meaning) = none := by
    rw [multipleDefinitions_none, hnames]; exact hn
  have he : (ds.map Decl.meaning).isEmpty = false := by cases ds <;> simp at hne ⊢
  simp only [Option.bind_eq_bind, Option.bind_some, he, hm, hp, Option.pure_def, Bool.false_eq_true, if_false]
  have hin : FilterInput vs := by
    refine ⟨?_, ?_, ?_⟩
    · intro p hp'
      have : p.saved ∈ vs.map Proto.saved := List.mem_map_of_mem hp'
      rw [h3] at this
      simp [Decl.meaning] at this
      exact this.2
    · rw [h1, hnames]; exact hn
    · intro p hp'
      have : p.symbol ∈ vs.map Proto.symbol := List.mem_map_of_mem hp'
      rw [h1, hnames, List.mem_map] at this
      obtain ⟨d, hd, hd2⟩ := this
      rw [← hd2]
      exact (h d hd).1.2.1
  rw [filterSymbols_eq vs hin]
  simp [chosen, hvne]

/-- The kinds, types and names in a list of read declarations. -/
theorem reads_of_same : ∀ (vs : List Proto) (ds : List Decl), vs.map Proto.symbol = ds.map Decl.name →
    vs.map Proto.kind = ds.map Decl.kind → vs.map Proto.type = ds.map Decl.typeText →
    ∃ l : List (Proto × Decl), l.map (·.1) = vs ∧ l.map (·.2) = ds ∧ ∀ x ∈ l, Reads x.1 x.2 := by
  intro vs
  induction vs with
  | nil =>
    intro ds h _ _
    cases ds with
    | nil => exact ⟨[], rfl, rfl, by simp⟩
    | cons d ds => simp at h
  | cons v vs ih =>
    intro ds h1 h2 h3
    cases ds with
    | nil => simp at h1
    | cons d ds =>
      simp only [List.map_cons, List.cons.injEq] at h1 h2 h3
      obtain ⟨l, e1, e2, e3⟩ := ih ds h1.2 h2.2 h3.2
      refine ⟨(v, d) :: l, by simp [e1], by simp [e2], ?_⟩
      intro x hx
      simp only [List.mem_cons] at hx
      rcases hx with rfl | hx
      · exact ⟨h2.1, h3.1, h1.1⟩
      · exact e3 x hx

theorem ctokens_typeText (d : Decl) : ctokens d.typeText = d.typeToks := by
  have key : ∀ T : Toks, ctokens (spaced T) = T.flatMap ctokens := by
    intro T
    have := ctokens_spaced T []
    simpa [ctokens] using this
  have hstar : ctokens ['*'] = [['*']] := by decide
  cases d with
  | func | funcParen | var => exact key _
  | funcPtr1 T n ps => simp only [Decl.typeText, key, Decl.typeToks, List.flatMap_append]; simp [hstar]
  | funcPtr2 T n ps => simp only [Decl.typeText, key, Decl.typeToks, List.flatMap_append]; simp [hstar]
  | array T n s => simp only [Decl.typeText, key, Decl.typeToks]
  | funPtrVar T n ps =>
    simp only [Decl.typeText, Decl.typeToks, List.append_assoc]
    rw [ctokens_spaced]
    rw [show ['(', '*', ')'] ++ spaced ([['(']] ++ (ps ++ [[')']])) = '(' :: '*' :: ')' :: spaced ([['(']] ++ (ps ++ [[')']])) from rfl,
      ctokens_punct _ _ (by decide) (by decide), ctokens_punct _ _ (by decide) (by decide),
      ctokens_punct _ _ (by decide) (by decide), key]
    simp only [List.flatMap_append, List.flatMap_cons, List.flatMap_nil, List.append_nil, List.cons_append, List.nil_append]
    rw [hstar, show ctokens ['('] = [['(']] from by decide, show ctokens [')'] = [[')']] from by decide]
    rfl

/-- What is known about the symbols that were read, apart from the arguments. -/
structure SymbolsRead (pfx : Str) (ds : List Decl) (sy : Symbols) : Prop where
  /-- The functions, in order: kind, name and tokens of the return type. -/
  functions : sy.protos.map (fun p => (p.kind, p.symbol, ctokens p.type)) =
    (ds.filter Decl.isFunction).map fun d => (.function, d.name, d.typeToks)
  /-- The objects, in order, with the type or the name of the typedef. -/
  objects : sy.objs.map (fun p => (p.kind, p.symbol, ctokens p.type)) =
    (ds.filter fun d => !d.isFunction).map fun d =>
      (d.kind, d.name, if NeedsTypedef d then ctokens (typeName pfx d.name) else d.typeToks)
  /-- The typedefs: the declarations with the type name instead of the name. -/
  typedefs : sy.typedefs.map ctokens =
    (ds.filter NeedsTypedef).map fun d => (d.rename (typeName pfx d.name)).ctoks

theorem filter_map_fst (l : List (Proto × Decl)) (hr : ∀ x ∈ l, Reads x.1 x.2) :
    fns (l.map (·.1)) = (l.filter fun x => x.2.isFunction).map (·.1) ∧
    obs (l.map (·.1)) = (l.filter fun x => !x.2.isFunction).map (·.1) := by
  induction l with
  | nil => exact ⟨rfl, rfl⟩
  | cons x l ih =>
    obtain ⟨h1, h2⟩ := ih (fun y hy => hr y (by simp [hy]))
    have hk := (hr x (by simp)).1
    rw [List.map_cons]
    by_cases hf : x.2.kind = .function
    · have e1 : x.2.isFunction = true := by simp [Decl.isFunction, hf]
      have e2 : fns (x.1 :: l.map (·.1)) = x.1 :: fns (l.map (·.1)) := by simp [fns, hk, hf]
      have e3 : obs (x.1 :: l.map (·.1)) = obs (l.map (·.1)) := by simp [obs, hk, hf]
      rw [e2, e3, h1, h2]
      simp [e1]
    · have e1 : x.2.isFunction = false := by simp [Decl.isFunction, hf]
      have e2 : fns (x.1 :: l.map (·.1)) = fns (l.map (·.1)) := by simp [fns, hk, hf]
      have e3 : obs (x.1 :: l.map (·.1)) = x.1 :: obs (l.map (·.1)) := by simp [obs, hk, hf]
      rw [e2, e3, h1, h2]
      simp [e1]

theorem removeSuperfluous_forests (fs : List Forest) (hf : ∀ f ∈ fs, f.Valid ∧ f.Simple) :
    (fs.map Forest.print).map removeSuperfluous = fs.map fun f => f.collapse.print := by
  induction fs with
  | nil => rfl
  | cons f fs ih =>
    simp only [List.map_cons, (C17_doubled_removed_partial f (hf f (by simp)).1 (hf f (by simp)).2).1,
      ih (fun x hx => hf x (by simp [hx]))]

/-- From the declarations to the symbols, for parameters that are handled as `vs` says. -/
theorem symbols_core (fs : List Forest) (hf : ∀ f ∈ fs, f.Valid ∧ f.Simple) (ds : List Decl)
    (hd : (fs.map fun f => f.collapse.print) = ds.map Decl.print) (h : ∀ d ∈ ds, Readable d) (hne : ds ≠ [])
    (hn : (ds.map Decl.name).Nodup) (pfx : Str) (mode : ParamNames) (vs : List Proto)
    (hp : doParameters mode (ds.map Decl.meaning) = some (.ok vs)) :
    ∃ sy, tokenizeDecls (fs.map Forest.print) pfx mode [] [] = some (.ok sy) ∧ SymbolsRead pfx ds sy ∧
      sy.protos = (fns vs).map formatProto := by
  obtain ⟨h1, h2, h3, h4⟩ := doParameters_same _ hp
  have e1 : vs.map Proto.symbol = ds.map Decl.name := by rw [h1]; simp [Decl.meaning, Function.comp_def]
  have e2 : vs.map Proto.kind = ds.map Decl.kind := by rw [h2]; simp [Decl.meaning, Function.comp_def]
  have e3 : vs.map Proto.type = ds.map Decl.typeText := by rw [h4]; simp [Decl.meaning, Function.comp_def]
  obtain ⟨l, l1, l2, hr⟩ := reads_of_same vs ds e1 e2 e3
  obtain ⟨hfn, hob⟩ := filter_map_fst l hr
  rw [l1] at hfn hob
  have hvalid : ∀ x ∈ l, x.2.Valid := by
    intro x hx
    have : x.2 ∈ ds := by rw [← l2]; exact List.mem_map_of_mem hx
    exact (h _ this).1
  obtain ⟨tds, ht1, ht2⟩ := C19_typedefs pfx (l.filter fun x => !x.2.isFunction)
    (fun x hx => hr x (List.mem_filter.mp hx).1) (fun x hx => hvalid x (List.mem_filter.mp hx).1)
  rw [← hob] at ht1
  refine ⟨⟨(fns vs).map formatProto,
      ((l.filter fun x => !x.2.isFunction).map fun x =>
        if NeedsTypedef x.2 then { x.1 with type := typeName pfx x.2.name } else x.1).map formatProto,
      tds.map formatPrototype⟩, ?_, ⟨?_, ?_, ?_⟩, ?_⟩
  · unfold tokenizeDecls
    rw [removeSuperfluous_forests fs hf, hd, parse_readable ds h hne hn mode vs hp]
    simp only [Option.bind_eq_bind, Option.bind_some, ht1]
    rfl
  · simp only [hfn, List.map_map]
    have : ds.filter Decl.isFunction = (l.filter fun x => x.2.isFunction).map (·.2) := by
      rw [← l2, List.filter_map]; rfl
    rw [this, List.map_map]
    apply List.map_congr_left
    intro x hx
    obtain ⟨hx1, hx2⟩ := List.mem_filter.mp hx
    obtain ⟨k1, k2, k3⟩ := hr x hx1
    have hk : x.2.kind = .function := by simpa [Decl.isFunction] using hx2
    simp only [Function.comp, formatProto, C18_tokens_kept, k1, k2, k3, hk, ctokens_typeText]
  · simp only [List.map_map]
    have : (ds.filter fun d => !d.isFunction) = (l.filter fun x => !x.2.isFunction).map (·.2) := by
      rw [← l2, List.filter_map]; rfl
    rw [this, List.map_map]
    apply List.map_congr_left
    intro x hx
    obtain ⟨hx1, hx2⟩ := List.mem_filter.mp hx
    obtain ⟨k1, k2, k3⟩ := hr x hx1
    by_cases hnt : NeedsTypedef x.2
    · simp only [Function.comp, hnt, if_true, formatProto, C18_tokens_kept, k1, k3]
    · have hnt : NeedsTypedef x.2 = false := by simpa using hnt
      simp only [Function.comp, hnt, Bool.false_eq_true, if_false, formatProto, C18_tokens_kept, k1, k2, k3, ctokens_typeText]
  · simp only [List.map_map]
    have e : (ctokens ∘ formatPrototype) = fun t => ctokens (formatPrototype t) := rfl
    rw [e, ht2]
    congr 1
    rw [← l2]
    rw [show ((l.filter fun x => !x.2.isFunction).map (·.2)) = (l.map (·.2)).filter (fun d => !d.isFunction) from by
      rw [List.filter_map]; rfl]
    rw [List.filter_filter]
    apply List.filter_congr
    intro d _
    cases d <;> rfl
  · rfl

/-- The parameters of all declarations. -/
theorem params_lift {α : Type} (mode : ParamNames) (k : Proto → α) (g : Decl → α) (ds : List Decl)
    (h : ∀ d ∈ ds, ∃ q, (if mode = .create then createParameterNames d.meaning else getParameterNames d.meaning mode) = some (.ok q) ∧
      q.kind = d.kind ∧ (d.isFunction = true → k q = g d)) :
    ∃ vs, doParameters mode (ds.map Decl.meaning) = some (.ok vs) ∧ (fns vs).map k = (ds.filter Decl.isFunction).map g := by
  induction ds with
  | nil => exact ⟨[], rfl, rfl⟩
  | cons d ds ih =>
    obtain ⟨q, h1, h2, h3⟩ := h d (by simp)
    obtain ⟨vs, e1, e2⟩ := ih (fun x hx => h x (by simp [hx]))
    refine ⟨q :: vs, ?_, ?_⟩
    · simp only [List.map_cons, doParameters, h1, e1, Option.bind_eq_bind, Option.bind_some]
      rfl
    · by_cases hf : d.kind = .function
      · have f1 : d.isFunction = true := by simp [Decl.isFunction, hf]
        have f2 : fns (q :: vs) = q :: fns vs := by simp [fns, h2, hf]
        rw [f2, List.filter_cons, if_pos f1, List.map_cons, List.map_cons, h3 f1, e2]
      · have f1 : ¬ d.isFunction = true := by simp [Decl.isFunction, hf]
        have f2 : fns (q :: vs) = fns vs := by simp [fns, h2, hf]
        rw [f2, List.filter_cons, if_neg f1, e2]

/-- A parameter list without parameters: nothing, or `void`. -/
def noParams : List Toks → Bool
  | [] => true
  | [[t]] => eqCase t (str% "void")
  | _ => false

theorem noParams_cases {v : List Toks} (h : noParams v = true) : v = [] ∨ ∃ t, v = [[t]] ∧ eqCase t (str% "void") = true := by
  unfold noParams at h
  split at h
  · exact Or.inl rfl
  · exact Or.inr ⟨_, rfl, h⟩
  · cases h

theorem noParams_false {v : List Toks} (h : noParams v = false) : v ≠ [] ∧ ¬ OnlyVoid v := by
  constructor
  · rintro rfl; cases h
  · rintro ⟨t, rfl, ht⟩
    have : noParams [[t]] = true := ht
    rw [this] at h; cases h

/-- The tokens of the parameters with commas between. -/
def argToks (v : List Toks) : List Str := (List.intercalate [comma] v).flatMap ctokens

theorem ctokens_foldl (v : List Toks) : ∀ b : Str, (∀ c, b.getLast? = some c → isWord c = false) →
    v ≠ [] → ∃ x : Str, v.foldl (fun b v => appendStrings b v ++ str% ", ") b = x ++ str% ", " ∧
      ctokens x = ctokens b ++ argToks v := by
  induction v with
  | nil => intro b _ h; exact absurd rfl h
  | cons a v ih =>
    intro b hb _
    have h1 : ctokens (appendStrings b a) = ctokens b ++ a.flatMap ctokens := by
      rw [appendStrings_eq, ctokens_append _ _ (Or.inl hb)]
      have := ctokens_spaced a []
      simp [ctokens] at this
      rw [this]
    cases v with
    | nil => exact ⟨appendStrings b a, rfl, by rw [h1]; simp [argToks, List.intercalate]⟩
    | cons a' v =>
      obtain ⟨x, e1, e2⟩ := ih (appendStrings b a ++ str% ", ") (by
        intro c hc; rw [List.getLast?_append] at hc; simp at hc; rw [← hc]; decide) (by simp)
      refine ⟨x, e1, ?_⟩
      rw [e2, ctokens_append _ _ (Or.inr (by intro c hc; simp at hc; rw [← hc]; decide)), h1]
      have hc : ctokens (str% ", ") = [comma] := by decide
      have hcc : ctokens comma = [comma] := by decide
      simp [argToks, List.intercalate, hc, hcc]

/-- With `-param=skip` the argument list is the list of parameters as written. -/
theorem skip_params (d : Decl) : ∃ q, getParameterNames d.meaning .skip = some (.ok q) ∧ q.kind = d.kind ∧
    (d.isFunction = true → (ctokens q.args, q.paramNames) = (argToks d.paramList, [])) := by
  by_cases hf : d.kind = .function
  · have hk : d.meaning.kind = .function := hf
    cases hn : noParams d.paramList with
    | true =>
      rcases noParams_cases hn with h | ⟨t, h, ht⟩
      · refine ⟨d.meaning, ((C12_no_parameters d.meaning .skip hk rfl).1 h).2, rfl, fun _ => ?_⟩
        rw [h]; rfl
      · refine ⟨_, ((C12_no_parameters d.meaning .skip hk rfl).2 t h ht).2, rfl, fun _ => ?_⟩
        rw [h]; simp [argToks, List.intercalate, Decl.meaning]
    | false =>
      obtain ⟨h1, h2⟩ := noParams_false hn
      refine ⟨copyArgs d.meaning, ?_, rfl, fun _ => ?_⟩
      · unfold getParameterNames
        rw [if_neg (by simp [hk]), paramVoidOrEmpty_false (p := d.meaning) h1 h2]
        rfl
      · obtain ⟨x, e1, e2⟩ := ctokens_foldl d.paramList [] (by simp) h1
        have e1' : d.meaning.argsVec.foldl (fun b v => appendStrings b v ++ str% ", ") d.meaning.args = x ++ str% ", " := e1
        simp only [copyArgs, e1', deleteSuffix_append, ctokens_stripSpaces, e2]
        rfl
  · refine ⟨d.meaning, ?_, rfl, ?_⟩
    · unfold getParameterNames; rw [if_pos (show d.meaning.kind ≠ .function from hf)]
    · intro h; simp [Decl.isFunction] at h; exact absurd h hf

/-- The text is a source text whose statements are, after removing doubled parentheses, the
    declarations `ds`, each readable, with distinct names. -/
structure Declares (ps : List Piece) (ds : List Decl) : Prop where
  source : Source ps
  stmts : ∃ l : List Stmt, (∀ s ∈ l, s.Valid) ∧ tokens ps = stmtToks l ∧
    ∃ fs : List Forest, (∀ f ∈ fs, f.Valid ∧ f.Simple) ∧ declsOf l = fs.map Forest.print ∧
      (fs.map fun f => f.collapse.print) = ds.map Decl.print
  readable : ∀ d ∈ ds, Readable d
  some : ds ≠ []
  names : (ds.map Decl.name).Nodup

/-- **C68** (partial: readable declarations, see C08, C09, and the parentheses of C17.)  From
    the text of a header to the symbols with `-param=skip`: the functions and objects are the
    declared ones, in order, with their types, the parameters as written, and the typedefs
    of function pointers and arrays.  All texts are formatted. -/
theorem C68_header_read_partial (ps : List Piece) (ds : List Decl) (h : Declares ps ds) (pfx : Str) :
    ∃ vec opts sy, tokenizeStream true (render ps) = (vec, opts, .eof) ∧
      tokenizeDecls vec pfx .skip [] [] = some (.ok sy) ∧ SymbolsRead pfx ds sy ∧
      sy.protos.map (fun p => (ctokens p.args, p.paramNames)) =
        (ds.filter Decl.isFunction).map (fun d => (argToks d.paramList, [])) := by
  obtain ⟨hs, ⟨l, hl, ht, fs, hf, hdl, hcp⟩, hr, hne, hn⟩ := h
  obtain ⟨vs, e1, e2⟩ := params_lift .skip (fun q => (ctokens q.args, q.paramNames)) (fun d => (argToks d.paramList, [])) ds
    (fun d _ => skip_params d)
  obtain ⟨sy, s1, s2, s3⟩ := symbols_core fs hf ds hcp hr hne hn pfx .skip vs e1
  refine ⟨declsOf l, _, sy, (C06_text ps hs l hl ht).1, ?_, s2, ?_⟩
  · rw [hdl]; exact s1
  · rw [s3, List.map_map, ← e2]
    apply List.map_congr_left
    intro p _
    simp only [Function.comp, formatProto, C18_tokens_kept]

/-- The text `int f((int*));` and `int tab[4];` in two lines. -/
def exHeader : List Piece :=
  [.word (str% "int"), .space ' ', .word (str% "f"), .punct '(', .punct '(', .word (str% "int"), .punct '*', .punct ')', .punct ')',
   .punct ';', .space '\n', .word (str% "int"), .space ' ', .word (str% "tab"), .punct '[', .word (str% "4"), .punct ']', .punct ';']

def exDecls : List Decl := [.func [str% "int"] (str% "f") [str% "int", str% "*"], .array [str% "int"] (str% "tab") [str% "4"]]

theorem exHeader_declares : Declares exHeader exDecls := by
  refine ⟨⟨?_, ?_, ?_⟩, ⟨[.decl (tokens exHeader |>.take 8), .decl ((tokens exHeader).drop 9 |>.take 5)], ?_, by rfl,
    [.tok (str% "int") (.tok (str% "f") (.grp (.grp (.tok (str% "int") (.tok (str% "*") .nil)) .nil) .nil)),
     .tok (str% "int") (.tok (str% "tab") (.tok (str% "[") (.tok (str% "4") (.tok (str% "]") .nil))))], ?_, by rfl, by rfl⟩, ?_, by simp [exDecls], by decide⟩
  · intro p hp
    simp only [exHeader, List.mem_cons, List.not_mem_nil, or_false] at hp
    rcases hp with rfl | rfl | rfl | rfl | rfl | rfl | rfl | rfl | rfl | rfl | rfl | rfl | rfl | rfl | rfl | rfl | rfl | rfl <;>
      first | rfl | exact ⟨by decide, by decide, by decide⟩ | (simp only [Piece.Valid]; decide)
  · trivial
  · simp [exHeader, Placed]
  · intro s hs
    simp only [List.mem_cons, List.not_mem_nil, or_false] at hs
    rcases hs with rfl | rfl
    · exact ⟨by decide, _, _, rfl, rfl⟩
    · exact ⟨by decide, _, _, rfl, rfl⟩
  · simp [Forest.Valid, Forest.Simple, NotParen]
  · intro d hd
    simp only [exDecls, List.mem_cons, List.not_mem_nil, or_false] at hd
    rcases hd with rfl | rfl
    · exact ⟨⟨⟨_, _, rfl, by decide, by decide⟩, by decide⟩, Or.inl trivial⟩
    · exact ⟨⟨⟨_, _, rfl, by decide, by decide⟩, by decide⟩, Or.inl trivial⟩

/-- The example is read with the doubled parentheses removed and a typedef for the array. -/
example : render exHeader = str% "int f((int*));\nint tab[4];" ∧ Declares exHeader exDecls ∧
    (match tokenizeDecls (tokenizeStream true (render exHeader)).1 (str% "gdo") .create [] [] with
     | some (.ok sy) => some (sy.protos.map fun p => (p.type, p.symbol, p.args, p.paramNames), sy.objs.map fun p => (p.type, p.symbol), sy.typedefs)
     | _ => none) =
      some ([(str% "int", str% "f", str% "int *a1", str% "a1")], [(str% "gdo_tab__t", str% "tab")], [str% "int gdo_tab__t[4]"]) :=
  ⟨rfl, exHeader_declares, by rfl⟩

/-- With `-param=create` the parameters get names. -/
theorem create_params (d : Decl) (qs : List Param) (hq : d.isFunction = true → noParams d.paramList = false →
      d.paramList = qs.map Param.print ∧ ∀ q ∈ qs, q.Valid ∧ q ≠ .dots) :
    ∃ q, createParameterNames d.meaning = some (.ok q) ∧ q.kind = d.kind ∧
    (d.isFunction = true → (ctokens q.args, q.paramNames) =
      if noParams d.paramList then (argToks d.paramList, [])
      else (ctokens (commaJoin (createdArgList 1 qs)), commaJoin ((List.range' 1 qs.length).map argName))) := by
  by_cases hf : d.kind = .function
  · have hk : d.meaning.kind = .function := hf
    cases hn : noParams d.paramList with
    | true =>
      rcases noParams_cases hn with h | ⟨t, h, ht⟩
      · refine ⟨d.meaning, ((C12_no_parameters d.meaning .skip hk rfl).1 h).1, rfl, fun _ => ?_⟩
        rw [h]; rfl
      · refine ⟨_, ((C12_no_parameters d.meaning .skip hk rfl).2 t h ht).1, rfl, fun _ => ?_⟩
        rw [h]; simp [argToks, List.intercalate, Decl.meaning]
    | false =>
      obtain ⟨h1, h2⟩ := noParams_false hn
      obtain ⟨hp, hv⟩ := hq (by simp [Decl.isFunction, hf]) hn
      refine ⟨_, create_fresh d.meaning ⟨hk, rfl, rfl, h1, h2⟩ qs (fun q hq => (hv q hq).1) hp, rfl, fun _ => ?_⟩
      simp only [createdArgs_noDots qs (fun q hq => (hv q hq).2), createdNames_noDots qs (fun q hq => (hv q hq).2)]
      simp
  · refine ⟨d.meaning, ?_, rfl, ?_⟩
    · unfold createParameterNames; rw [if_pos (show d.meaning.kind ≠ .function from hf)]
    · intro h; simp [Decl.isFunction] at h; exact absurd h hf

/-- **C68** (partial as above, and without `...`, see `C12_violated`.)  The same with
    `-param=create`: the parameters `params d` of the functions get the names `a1`, `a2`, ... -/
theorem C68_header_read_create_partial (ps : List Piece) (ds : List Decl) (h : Declares ps ds) (pfx : Str)
    (params : Decl → List Param)
    (hq : ∀ d ∈ ds, d.isFunction = true → noParams d.paramList = false →
      d.paramList = (params d).map Param.print ∧ ∀ q ∈ params d, q.Valid ∧ q ≠ .dots) :
    ∃ vec opts sy, tokenizeStream true (render ps) = (vec, opts, .eof) ∧
      tokenizeDecls vec pfx .create [] [] = some (.ok sy) ∧ SymbolsRead pfx ds sy ∧
      sy.protos.map (fun p => (ctokens p.args, p.paramNames)) =
        (ds.filter Decl.isFunction).map fun d =>
          if noParams d.paramList then (argToks d.paramList, [])
          else (ctokens (commaJoin (createdArgList 1 (params d))), commaJoin ((List.range' 1 (params d).length).map argName)) := by
  obtain ⟨hs, ⟨l, hl, ht, fs, hf, hdl, hcp⟩, hr, hne, hn⟩ := h
  obtain ⟨vs, e1, e2⟩ := params_lift .create (fun q => (ctokens q.args, q.paramNames))
    (fun d => if noParams d.paramList then (argToks d.paramList, [])
          else (ctokens (commaJoin (createdArgList 1 (params d))), commaJoin ((List.range' 1 (params d).length).map argName))) ds
    (fun d hd => create_params d (params d) (hq d hd))
  obtain ⟨sy, s1, s2, s3⟩ := symbols_core fs hf ds hcp hr hne hn pfx .create vs e1
  refine ⟨declsOf l, _, sy, (C06_text ps hs l hl ht).1, ?_, s2, ?_⟩
  · rw [hdl]; exact s1
  · rw [s3, List.map_map, ← e2]
    apply List.map_congr_left
    intro p _
    simp only [Function.comp, formatProto, C18_tokens_kept]

end Gdo.Props
