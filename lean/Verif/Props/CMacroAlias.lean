import Verif.Lemmas.CMacroBecome
import Verif.Props.CMacro

/-!
C102: the macros for the names of the symbols in the generated C code.
-/

set_option maxRecDepth 20000

namespace Gdo.Cpp
open Gdo Rename Tmpl Builtin Sub Opt Tpl Gen Pfx

/-! ### The texts -/

/-- The definitions for pointers in the header (c.h 180-181). -/
def pointerPart (u l : Str) (protos objs : List Proto) : Str := unlines ((((texts .cHeader).drop 179).take 2).flatMap (written u l protos objs))

/-- The end of the header (c.h 275-304). -/
def headerPart (u l : Str) (protos objs : List Proto) : Str := unlines (((texts .cHeader).drop 241).flatMap (written u l protos objs))

/-- The end of the body (c.c 972-989). -/
def bodyPart (u l : Str) (protos objs : List Proto) : Str := unlines (((texts .cBody).drop 947).flatMap (written u l protos objs))

/-- The macro for wrapper functions (common.h 227-236). -/
def wrapperPart (u l : Str) (protos objs : List Proto) : Str := unlines ((((texts .commonHeader).drop 226).take 10).flatMap (written u l protos objs))

/-- The lines of the templates, taken apart. -/
def shownPart (u l : Str) (names : ParamNames) (protos objs : List Proto) (ls : List Str) : Str := unlines ((shown names none ls).flatMap (written u l protos objs))

theorem shown_close (names : ParamNames) (m : Option Marker) (a b : List Str) (hb : ∀ d ∈ b, markerLine d = none) :
    shown names m (a ++ str% "%PARAM_SKIP_END%" :: b) = shown names m (a ++ [str% "%PARAM_SKIP_END%"]) ++ b := by
  have none' : ∀ m : Option Marker, Shown names m → shown names m b = b := by
    intro m hm
    induction b with
    | nil => rfl
    | cons d b ih =>
      rw [shown, hb d (by simp)]
      simp only []
      rw [if_pos hm, ih fun x hx => hb x (List.mem_cons_of_mem _ hx)]
  induction a generalizing m with
  | nil =>
    have e : markerLine (str% "%PARAM_SKIP_END%") = some .stop := by decide
    rw [List.nil_append, List.nil_append, shown, shown, e]
    simp only []
    rw [none' _ (by cases names <;> trivial)]
    rfl
  | cons d a ih =>
    rw [List.cons_append, List.cons_append, shown, shown]
    cases markerLine d with
    | some x => exact ih _
    | none =>
      simp only []
      split
      · rw [ih, List.cons_append]
      · exact ih _

theorem shown_all (names : ParamNames) (a b : List Str) (hb : ∀ d ∈ b, markerLine d = none) :
    shown names none (a ++ str% "%PARAM_SKIP_END%" :: b) = shown names none (a ++ [str% "%PARAM_SKIP_END%"]) ++ b := shown_close names none a b hb

theorem header_lines : texts .cHeader = (texts .cHeader).take 179 ++ (((texts .cHeader).drop 179).take 2 ++ (((texts .cHeader).drop 181).take 59 ++
    str% "%PARAM_SKIP_END%" :: (texts .cHeader).drop 241)) := by decide +kernel

theorem body_lines : texts .cBody = (texts .cBody).take 946 ++ str% "%PARAM_SKIP_END%" :: (texts .cBody).drop 947 := by decide +kernel

theorem header_free : ((texts .cHeader).take 181 ++ (texts .cHeader).drop 241).all (fun d => markerLine d == none) = true := by decide +kernel

theorem body_free : ((texts .cBody).drop 947).all (fun d => markerLine d == none) = true := by decide +kernel

/-- What is generated from `c.h`. -/
theorem C102_headerPart (s : Settings) (protos objs : List Proto) :
    unlines (instantiate (toUpper s.pfx) (toLower s.pfx) s.names protos objs (lines .cHeader)) =
      unlines (((texts .cHeader).take 179).flatMap (written (toUpper s.pfx) (toLower s.pfx) protos objs)) ++ (pointerPart (toUpper s.pfx) (toLower s.pfx) protos objs ++
        (shownPart (toUpper s.pfx) (toLower s.pfx) s.names protos objs (((texts .cHeader).drop 181).take 60) ++ headerPart (toUpper s.pfx) (toLower s.pfx) protos objs)) := by
  have e := List.all_eq_true.mp header_free
  unfold instantiate
  rw [show (blocks (lines .cHeader)).map joinLines = texts .cHeader from rfl, header_lines,
    shown_plain s.names fun d hd => eq_of_beq (e d (List.mem_append_left _ (by
      rw [show 181 = 179 + 2 from rfl, List.take_add]; exact List.mem_append_left _ hd))),
    shown_plain s.names fun d hd => eq_of_beq (e d (List.mem_append_left _ (by
      rw [show 181 = 179 + 2 from rfl, List.take_add]; exact List.mem_append_right _ hd))),
    shown_all s.names _ _ fun d hd => eq_of_beq (e d (List.mem_append_right _ hd)), ← header_lines]
  rw [List.flatMap_append, unlines_append, List.flatMap_append, unlines_append, List.flatMap_append, unlines_append]
  rw [show ((texts .cHeader).drop 181).take 59 ++ [str% "%PARAM_SKIP_END%"] = ((texts .cHeader).drop 181).take 60 from by decide +kernel]
  rfl

/-- What is generated from `c.c`. -/
theorem C102_bodyPart (s : Settings) (protos objs : List Proto) :
    unlines (instantiate (toUpper s.pfx) (toLower s.pfx) s.names protos objs (lines .cBody)) =
      shownPart (toUpper s.pfx) (toLower s.pfx) s.names protos objs ((texts .cBody).take 947) ++ bodyPart (toUpper s.pfx) (toLower s.pfx) protos objs := by
  have e := List.all_eq_true.mp body_free
  unfold instantiate
  rw [show (blocks (lines .cBody)).map joinLines = texts .cBody from rfl, body_lines, shown_all s.names _ _ fun d hd => eq_of_beq (e d hd), ← body_lines]
  rw [List.flatMap_append, unlines_append]
  rw [show (texts .cBody).take 946 ++ [str% "%PARAM_SKIP_END%"] = (texts .cBody).take 947 from by decide +kernel]
  rfl

/-! ### The names -/

/-- Whether a macro with the prefix is defined. -/
def Has (E : Str → Option Macro) (u : Str) (x : Str) : Bool := (E (u ++ (str% "_" ++ x))).isSome

/-- What may be asked about the names of symbols: they are identifiers, none begins with
the prefix or is the name of the handle, and functions and objects have different names. -/
structure Names (u l : Str) (protos objs : List Proto) : Prop where
  prefixes : Prefixes u l
  functions : ∀ p ∈ protos, Identifier p.symbol
  objects : ∀ p ∈ objs, Identifier p.symbol
  own : ∀ p ∈ protos ++ objs, ∀ x, p.symbol ≠ u ++ (str% "_" ++ x)
  handle : ∀ p ∈ protos ++ objs, p.symbol ≠ l ++ str% "_hndl"
  handle' : ∀ x, l ++ str% "_hndl" ≠ u ++ (str% "_" ++ x)
  apart : ∀ p ∈ protos, ∀ o ∈ objs, p.symbol ≠ o.symbol

/-- The names that the text in between must leave alone. -/
def symbolNames (u l : Str) (protos objs : List Proto) : List Str :=
  (l ++ str% "_hndl") ::
  ([str% "WRAP_FUNCTIONS", str% "ENABLE_AUTOLOAD", str% "SEPARATE", str% "INCLUDED_IN_BODY", str% "DISABLE_ALIASING", str% "WRAP_VISIBILITY", str% "WRAP_IS_VISIBLE",
    str% "FUNC_ALIAS"].map (fun x => u ++ (str% "_" ++ x)) ++
  (protos ++ objs).flatMap fun p => [p.symbol, u ++ (str% "_" ++ (str% "RAWPTR_" ++ p.symbol)), u ++ (str% "_" ++ (str% "PTR_" ++ p.symbol))])

/-- The tokens for the pointer to a symbol. -/
def pointer (u l : Str) (p : Proto) : List PTok := [.ident (l ++ str% "_hndl"), .punct (str% "."), .ident (u ++ (str% "_" ++ (str% "PTR_" ++ p.symbol)))]

/-- What the names of symbols stand for; `functions`, `objects`: whether functions and
objects are renamed; `wrap`: whether the functions are called by wrappers. -/
structure Stands (E E' : Str → Option Macro) (u l : Str) (protos objs : List Proto) (functions objects wrap : Bool) : Prop where
  raw : ∀ p ∈ protos ++ objs, Becomes E' (u ++ (str% "_" ++ (str% "RAWPTR_" ++ p.symbol))) (pointer u l p)
  wrapper : functions = true → wrap = true → ∀ p ∈ protos, E' (u ++ (str% "_" ++ (str% "WRAP_" ++ p.symbol))) = none →
    Becomes E' p.symbol [.ident (u ++ (str% "_" ++ (str% "WRAP_" ++ p.symbol)))]
  function : functions = true → wrap = false → ∀ p ∈ protos, Becomes E' p.symbol (pointer u l p)
  renamed : functions = true → ∀ p ∈ protos, (E' p.symbol).isSome = true
  noFunction : functions = false → ∀ p ∈ protos, E' p.symbol = E p.symbol
  object : objects = true → ∀ p ∈ objs, Becomes E' p.symbol (.punct (str% "*") :: pointer u l p)
  noObject : objects = false → ∀ p ∈ objs, E' p.symbol = E p.symbol

/-- What must be known about the macros. -/
structure Tabled (E E' : Str → Option Macro) (u l : Str) (protos objs : List Proto) (functions objects wrap : Bool) : Prop where
  raw : ∀ p ∈ protos ++ objs, E' (rawName u p) = some ⟨none, false, rawBody u l p⟩
  handle : E' (l ++ str% "_hndl") = none
  member : ∀ p ∈ protos ++ objs, E' (u ++ (str% "_" ++ (str% "PTR_" ++ p.symbol))) = none
  alias : E' (u ++ (str% "_" ++ str% "FUNC_ALIAS")) = some (aliasDef (if wrap then u ++ str% "_WRAP_" else u ++ str% "_RAWPTR_"))
  function : ∀ p ∈ protos, E' p.symbol = if functions then some ⟨none, false, aliasBody u p⟩ else E p.symbol
  object : ∀ p ∈ objs, E' p.symbol = if objects then some ⟨none, false, objectBody u p⟩ else E p.symbol

theorem u_ne_x {u l : Str} (hp : Prefixes u l) (y : Str) : u ++ '_' :: y ≠ str% "x" := by
  intro e
  have h1 := congrArg List.length e
  have h2 := hp.upper_ne
  cases u with
  | nil => exact h2 rfl
  | cons c u => simp at h1

theorem Tabled.stands {E E' : Str → Option Macro} {u l : Str} {protos objs : List Proto} {a b w : Bool} (hN : Names u l protos objs)
    (h : Tabled E E' u l protos objs a b w) : Stands E E' u l protos objs a b w := by
  have hraw : ∀ p : Proto, rawName u p = u ++ (str% "_" ++ (str% "RAWPTR_" ++ p.symbol)) := fun p => by simp [rawName]
  have hptr : ∀ p : Proto, u ++ str% "_PTR_" ++ p.symbol = u ++ (str% "_" ++ (str% "PTR_" ++ p.symbol)) := fun p => by simp
  have hal : u ++ str% "_FUNC_ALIAS" = u ++ (str% "_" ++ str% "FUNC_ALIAS") := rfl
  have hid : ∀ p ∈ protos ++ objs, Identifier p.symbol := fun p hp => (List.mem_append.mp hp).elim (hN.functions p) (hN.objects p)
  have raw : ∀ p ∈ protos ++ objs, ∀ hs, rawName u p ∉ hs → Turns E' hs (rawName u p) (pointer u l p) 4 := fun p hp hs hh => by
    have := turns_raw (hs := hs) (h.raw p hp) h.handle (by rw [hptr]; exact h.member p hp) hh
    rw [hptr] at this
    exact this
  refine ⟨fun p hp => ?_, fun ha hw p hp hn => ?_, fun ha hw p hp => ?_, fun ha p hp => ?_, fun ha p hp => ?_, fun hb p hp => ?_, fun hb p hp => ?_⟩
  · rw [← hraw]
    exact (raw p hp [] (by simp)).becomes
  · have hp' := List.mem_append_left objs hp
    subst hw
    have e : u ++ str% "_WRAP_" ++ p.symbol = u ++ (str% "_" ++ (str% "WRAP_" ++ p.symbol)) := by simp
    have := turns_alias (E := E') (u := u) (x := u ++ str% "_WRAP_") (by rw [h.function p hp, ha]; rfl) (by rw [hal]; exact h.alias) (u_ne_x hN.prefixes _)
      (symbol_word hN.prefixes (by decide) (hid p hp')) (by rw [hal]; exact fun e => hN.own p hp' _ e.symm) (by rw [e]; exact turns_none _ hn)
    exact this.becomes
  · have hp' := List.mem_append_left objs hp
    subst hw
    exact (turns_alias (E := E') (u := u) (x := u ++ str% "_RAWPTR_") (by rw [h.function p hp, ha]; rfl) (by rw [hal]; exact h.alias) (u_ne_x hN.prefixes _)
      (symbol_word hN.prefixes (by decide) (hid p hp')) (by rw [hal]; exact fun e => hN.own p hp' _ e.symm) (raw p hp' _ (by
        rw [hraw, hal]
        intro hm
        simp only [List.mem_cons, List.not_mem_nil, or_false] at hm
        rcases hm with hm | hm
        · have := List.append_cancel_left (List.append_cancel_left hm)
          simp at this
        · exact hN.own p hp' _ hm.symm))).becomes
  · rw [h.function p hp, ha]
    rfl
  · rw [h.function p hp, ha]
    rfl
  · have hp' := List.mem_append_right protos hp
    have := turns_object (E := E') (u := u) (l := l) (by rw [h.object p hp, hb]; rfl) (h.raw p hp') h.handle (by rw [hptr]; exact h.member p hp')
      (by rw [hraw]; exact fun e => hN.own p hp' _ e.symm)
    rw [hptr] at this
    exact this.becomes
  · rw [h.object p hp, hb]
    rfl

/-- The names that are tested. -/
def configNames : List Str :=
  [str% "WRAP_FUNCTIONS", str% "ENABLE_AUTOLOAD", str% "SEPARATE", str% "INCLUDED_IN_BODY", str% "DISABLE_ALIASING", str% "WRAP_VISIBILITY", str% "WRAP_IS_VISIBLE"]

theorem prefixed_inj {u x y : Str} (h : u ++ (str% "_" ++ x) = u ++ (str% "_" ++ y)) : x = y := List.append_cancel_left (List.append_cancel_left h)

theorem rawName_eq (u : Str) (p : Proto) : rawName u p = u ++ (str% "_" ++ (str% "RAWPTR_" ++ p.symbol)) := by simp [rawName]

theorem raw_inj {u : Str} {p q : Proto} (h : rawName u p = rawName u q) : p.symbol = q.symbol := by
  rw [rawName_eq, rawName_eq] at h
  exact List.append_cancel_left (prefixed_inj h)

/-- What is known behind the definitions for pointers. -/
structure Based (E E' : Str → Option Macro) (u l : Str) (protos objs : List Proto) : Prop where
  raw : ∀ p ∈ protos ++ objs, E' (rawName u p) = some ⟨none, false, rawBody u l p⟩
  handle : E' (l ++ str% "_hndl") = none
  member : ∀ p ∈ protos ++ objs, E' (u ++ (str% "_" ++ (str% "PTR_" ++ p.symbol))) = none
  config : ∀ x ∈ configNames, E' (u ++ (str% "_" ++ x)) = E (u ++ (str% "_" ++ x))
  symbol : ∀ p ∈ protos ++ objs, E' p.symbol = E p.symbol

theorem raw_based {E : Str → Option Macro} {u l : Str} {protos objs : List Proto} (hN : Names u l protos objs) (h1 : E (l ++ str% "_hndl") = none)
    (h2 : ∀ p ∈ protos ++ objs, E (u ++ (str% "_" ++ (str% "PTR_" ++ p.symbol))) = none) :
    Based E (known E (defs (rawName u) (rawBody u l) (protos ++ objs))) u l protos objs := by
  have no : ∀ {x : Str}, (∀ p ∈ protos ++ objs, rawName u p ≠ x) → known E (defs (rawName u) (rawBody u l) (protos ++ objs)) x = E x := fun {x} h => by
    unfold known
    rw [lookup_defs h]
  refine ⟨fun p hp => ?_, ?_, fun p hp => ?_, fun x hx => ?_, fun p hp => ?_⟩
  · unfold known
    rw [lookup_defs_mem hp fun q _ e => by unfold rawBody; rw [raw_inj e]]
  · rw [no, h1]
    intro p hp e
    rw [rawName_eq] at e
    exact hN.handle' _ e.symm
  · rw [no, h2 p hp]
    intro q hq e
    rw [rawName_eq] at e
    have := prefixed_inj e
    simp at this
  · refine no fun q hq e => ?_
    rw [rawName_eq] at e
    have e := prefixed_inj e
    subst e
    simp [configNames] at hx
  · refine no fun q hq e => ?_
    rw [rawName_eq] at e
    exact hN.own p hp _ e.symm

theorem mem_config {u l : Str} {protos objs : List Proto} {x : Str} (hx : x ∈ configNames) : u ++ (str% "_" ++ x) ∈ symbolNames u l protos objs :=
  List.mem_cons_of_mem _ (List.mem_append_left _ (List.mem_map.mpr ⟨x, by
    revert hx
    simp only [configNames, List.mem_cons, List.not_mem_nil, or_false]
    intro hx
    rcases hx with h | h | h | h | h | h | h <;> simp [h], rfl⟩))

theorem mem_alias {u l : Str} {protos objs : List Proto} : u ++ (str% "_" ++ str% "FUNC_ALIAS") ∈ symbolNames u l protos objs :=
  List.mem_cons_of_mem _ (List.mem_append_left _ (List.mem_map.mpr ⟨_, by simp, rfl⟩))

theorem mem_symbol {u l : Str} {protos objs : List Proto} {p : Proto} (hp : p ∈ protos ++ objs) :
    ∀ x ∈ [p.symbol, u ++ (str% "_" ++ (str% "RAWPTR_" ++ p.symbol)), u ++ (str% "_" ++ (str% "PTR_" ++ p.symbol))], x ∈ symbolNames u l protos objs :=
  fun _ hx => List.mem_cons_of_mem _ (List.mem_append_right _ (List.mem_flatMap.mpr ⟨p, hp, hx⟩))

theorem Based.mid {E : Str → Option Macro} {u l : Str} {protos objs : List Proto} {t t' : Table} (h : Based E (known E t) u l protos objs)
    (ht : ∀ y ∈ symbolNames u l protos objs, t'.lookup y = none) : Based E (known E (t' ++ t)) u l protos objs := by
  refine ⟨fun p hp => ?_, ?_, fun p hp => ?_, fun x hx => ?_, fun p hp => ?_⟩
  · rw [known_append_none (ht _ (mem_symbol hp _ (by rw [rawName_eq]; simp))), h.raw p hp]
  · rw [known_append_none (ht _ (by simp [symbolNames])), h.handle]
  · rw [known_append_none (ht _ (mem_symbol hp _ (by simp))), h.member p hp]
  · rw [known_append_none (ht _ (mem_config hx)), h.config x hx]
  · rw [known_append_none (ht _ (mem_symbol hp _ (by simp))), h.symbol p hp]

/-- With the tested names. -/
structure Tabled' (E E' : Str → Option Macro) (u l : Str) (protos objs : List Proto) (functions objects wrap : Bool) : Prop extends
    Tabled E E' u l protos objs functions objects wrap where
  config : ∀ x ∈ configNames, E' (u ++ (str% "_" ++ x)) = E (u ++ (str% "_" ++ x))

theorem Tabled'.mid {E : Str → Option Macro} {u l : Str} {protos objs : List Proto} {t t' : Table} {a b w : Bool} (h : Tabled' E (known E t) u l protos objs a b w)
    (ht : ∀ y ∈ symbolNames u l protos objs, t'.lookup y = none) : Tabled' E (known E (t' ++ t)) u l protos objs a b w := by
  refine ⟨⟨fun p hp => ?_, ?_, fun p hp => ?_, ?_, fun p hp => ?_, fun p hp => ?_⟩, fun x hx => ?_⟩
  · rw [known_append_none (ht _ (mem_symbol hp _ (by rw [rawName_eq]; simp))), h.raw p hp]
  · rw [known_append_none (ht _ (by simp [symbolNames])), h.handle]
  · rw [known_append_none (ht _ (mem_symbol hp _ (by simp))), h.member p hp]
  · rw [known_append_none (ht _ mem_alias), h.alias]
  · rw [known_append_none (ht _ (mem_symbol (List.mem_append_left _ hp) _ (by simp))), h.function p hp]
  · rw [known_append_none (ht _ (mem_symbol (List.mem_append_right _ hp) _ (by simp))), h.object p hp]
  · rw [known_append_none (ht _ (mem_config hx)), h.config x hx]

/-- Definitions of objects and functions, as far as they are made. -/
def symbolTable (u : Str) (protos objs : List Proto) (a b : Bool) : Table :=
  (if b then defs symbolOf (objectBody u) objs else []) ++ (if a then defs symbolOf (aliasBody u) protos else [])

theorem symbolTable_none {u : Str} {protos objs : List Proto} {a b : Bool} {x : Str} (h : ∀ p ∈ protos ++ objs, p.symbol ≠ x) :
    (symbolTable u protos objs a b).lookup x = none := by
  unfold symbolTable
  rw [List.lookup_append]
  have e1 : (if b then defs symbolOf (objectBody u) objs else []).lookup x = none := by
    cases b
    · rfl
    · exact lookup_defs fun p hp => h p (List.mem_append_right _ hp)
  have e2 : (if a then defs symbolOf (aliasBody u) protos else []).lookup x = none := by
    cases a
    · rfl
    · exact lookup_defs fun p hp => h p (List.mem_append_left _ hp)
  rw [e1, e2]
  rfl

theorem symbolTable_function {u : Str} {protos objs : List Proto} {a b : Bool} {p : Proto} (hp : p ∈ protos) (h : ∀ o ∈ objs, p.symbol ≠ o.symbol) :
    (symbolTable u protos objs a b).lookup p.symbol = if a then some (some ⟨none, false, aliasBody u p⟩) else none := by
  unfold symbolTable
  rw [List.lookup_append]
  have e1 : (if b then defs symbolOf (objectBody u) objs else []).lookup p.symbol = none := by
    cases b
    · rfl
    · exact lookup_defs fun o ho e => h o ho e.symm
  rw [e1]
  cases a
  · rfl
  · exact lookup_defs_mem (name := symbolOf) (body := aliasBody u) hp fun q _ e => by
      unfold aliasBody
      rw [show q.symbol = p.symbol from e]

theorem symbolTable_object {u : Str} {protos objs : List Proto} {a b : Bool} {o : Proto} (ho : o ∈ objs) (h : ∀ p ∈ protos, p.symbol ≠ o.symbol) :
    (symbolTable u protos objs a b).lookup o.symbol = if b then some (some ⟨none, false, objectBody u o⟩) else none := by
  unfold symbolTable
  rw [List.lookup_append]
  have e2 : (if a then defs symbolOf (aliasBody u) protos else []).lookup o.symbol = none := by
    cases a
    · rfl
    · exact lookup_defs fun p hp e => h p hp e
  rw [e2]
  cases b
  · rfl
  · rw [if_pos rfl, if_pos rfl, show o.symbol = symbolOf o from rfl, lookup_defs_mem (name := symbolOf) (body := objectBody u) ho fun q _ e => by
      unfold objectBody
      rw [show q.symbol = o.symbol from e]]
    rfl

/-- Behind the end of the header. -/
theorem header_tabled {E : Str → Option Macro} {u l : Str} {protos objs : List Proto} {t : Table} (hN : Names u l protos objs) (h : Based E (known E t) u l protos objs) :
    Tabled' E (known E (headerTable u (isDefined (fun x => (E x).isSome) t) (newName u l) protos objs ++ t)) u l protos objs
      (Has E u (str% "SEPARATE") && !Has E u (str% "INCLUDED_IN_BODY") && !Has E u (str% "DISABLE_ALIASING") && !Has E u (str% "WRAP_VISIBILITY"))
      (Has E u (str% "SEPARATE") && !Has E u (str% "INCLUDED_IN_BODY") && !Has E u (str% "DISABLE_ALIASING"))
      (Has E u (str% "WRAP_FUNCTIONS") || Has E u (str% "ENABLE_AUTOLOAD")) := by
  have d : ∀ x ∈ configNames, isDefined (fun x => (E x).isSome) t (newName u l (str% "GDO_" ++ x)) = Has E u x := fun x hx => by
    rw [isDefined_isSome, newName_upper, h.config x hx]
    rfl
  have e : headerTable u (isDefined (fun x => (E x).isSome) t) (newName u l) protos objs =
      symbolTable u protos objs
        (Has E u (str% "SEPARATE") && !Has E u (str% "INCLUDED_IN_BODY") && !Has E u (str% "DISABLE_ALIASING") && !Has E u (str% "WRAP_VISIBILITY"))
        (Has E u (str% "SEPARATE") && !Has E u (str% "INCLUDED_IN_BODY") && !Has E u (str% "DISABLE_ALIASING")) ++
      [(u ++ (str% "_" ++ str% "FUNC_ALIAS"), some (aliasDef (if Has E u (str% "WRAP_FUNCTIONS") || Has E u (str% "ENABLE_AUTOLOAD") then u ++ str% "_WRAP_" else u ++ str% "_RAWPTR_")))] := by
    unfold headerTable headerActive wraps symbolTable
    have d1 := d (str% "SEPARATE") (by decide)
    have d2 := d (str% "INCLUDED_IN_BODY") (by decide)
    have d3 := d (str% "DISABLE_ALIASING") (by decide)
    have d4 := d (str% "WRAP_VISIBILITY") (by decide)
    have d5 := d (str% "WRAP_FUNCTIONS") (by decide)
    have d6 := d (str% "ENABLE_AUTOLOAD") (by decide)
    simp only [List.cons_append, List.nil_append] at d1 d2 d3 d4 d5 d6
    simp only [d1, d2, d3, d4, d5, d6, List.append_assoc]
    refine congrArg _ (congrArg _ ?_)
    have e1 : newName u l (str% "GDO_FUNC_ALIAS") = u ++ (str% "_" ++ str% "FUNC_ALIAS") := newName_upper u l (str% "FUNC_ALIAS")
    rw [e1]
    refine congrArg (fun m => [(u ++ (str% "_" ++ str% "FUNC_ALIAS"), some m)]) ?_
    have e2 : newName u l (str% "GDO_WRAP_") = u ++ str% "_WRAP_" := newName_upper u l (str% "WRAP_")
    have e3 : newName u l (str% "GDO_RAWPTR_") = u ++ str% "_RAWPTR_" := newName_upper u l (str% "RAWPTR_")
    have e4 : newName u l (str% "x") = str% "x" := by simp [newName, List.isPrefixOf]
    cases Has E u (str% "WRAP_FUNCTIONS") || Has E u (str% "ENABLE_AUTOLOAD") <;> simp [renMacro, aliasMacro, aliasDef, renT, renTok, e2, e3, e4]
  rw [e, List.append_assoc]
  have skip : ∀ {x : Str}, (∀ p ∈ protos ++ objs, p.symbol ≠ x) → x ≠ u ++ (str% "_" ++ str% "FUNC_ALIAS") → ∀ a b m,
      known E (symbolTable u protos objs a b ++ ([(u ++ (str% "_" ++ str% "FUNC_ALIAS"), m)] ++ t)) x = known E t x := fun {x} h1 h2 a b m => by
    rw [known_append_none (symbolTable_none h1)]
    exact known_cons_ne h2
  refine ⟨⟨fun p hp => ?_, ?_, fun p hp => ?_, ?_, fun p hp => ?_, fun p hp => ?_⟩, fun x hx => ?_⟩
  · rw [skip (fun q hq => by rw [rawName_eq]; exact hN.own q hq _) (fun e => by
      rw [rawName_eq] at e
      have := prefixed_inj e
      simp at this), h.raw p hp]
  · rw [skip (fun q hq => hN.handle q hq) (hN.handle' _), h.handle]
  · rw [skip (fun q hq => hN.own q hq _) (fun e => by
      have := prefixed_inj e
      simp at this), h.member p hp]
  · rw [known_append_none (symbolTable_none fun q hq => hN.own q hq _)]
    exact known_cons_eq
  · have hp' := List.mem_append_left objs hp
    rw [show ∀ a b m, known E (symbolTable u protos objs a b ++ ([(u ++ (str% "_" ++ str% "FUNC_ALIAS"), m)] ++ t)) p.symbol =
        if a then some ⟨none, false, aliasBody u p⟩ else E p.symbol from fun a b m => ?_]
    have e1 := symbolTable_function (u := u) (a := a) (b := b) hp fun o ho => hN.apart p hp o ho
    cases a with
    | true =>
      unfold known
      rw [List.lookup_append, e1]
      rfl
    | false =>
      rw [known_append_none e1]
      exact (known_cons_ne (hN.own p hp' _)).trans (h.symbol p hp')
  · have hp' := List.mem_append_right protos hp
    rw [show ∀ a b m, known E (symbolTable u protos objs a b ++ ([(u ++ (str% "_" ++ str% "FUNC_ALIAS"), m)] ++ t)) p.symbol =
        if b then some ⟨none, false, objectBody u p⟩ else E p.symbol from fun a b m => ?_]
    have e1 := symbolTable_object (u := u) (a := a) (b := b) hp fun q hq => hN.apart q hq p hp
    cases b with
    | true =>
      unfold known
      rw [List.lookup_append, e1]
      rfl
    | false =>
      rw [known_append_none e1]
      exact (known_cons_ne (hN.own p hp' _)).trans (h.symbol p hp')
  · rw [skip (fun q hq => hN.own q hq _) (fun e => by
      have e := prefixed_inj e
      subst e
      simp [configNames] at hx), h.config x hx]

/-- Behind the end of the body. -/
theorem body_tabled {E : Str → Option Macro} {u l : Str} {protos objs : List Proto} {t : Table} {a b w : Bool} (hN : Names u l protos objs)
    (h : Tabled' E (known E t) u l protos objs a b w) :
    Tabled' E (known E (bodyTable u (isDefined (fun x => (E x).isSome) t) (newName u l) protos objs ++ t)) u l protos objs
      (a || (!Has E u (str% "SEPARATE") && !Has E u (str% "DISABLE_ALIASING") && !Has E u (str% "WRAP_IS_VISIBLE")))
      (b || (!Has E u (str% "SEPARATE") && !Has E u (str% "DISABLE_ALIASING"))) w := by
  have d : ∀ x ∈ configNames, isDefined (fun x => (E x).isSome) t (newName u l (str% "GDO_" ++ x)) = Has E u x := fun x hx => by
    rw [isDefined_isSome, newName_upper, h.config x hx]
    rfl
  have e : bodyTable u (isDefined (fun x => (E x).isSome) t) (newName u l) protos objs =
      [(u ++ (str% "_" ++ str% "SNPRINTF"), none), (u ++ (str% "_" ++ str% "SET_LAST_ERRNO"), none)] ++ symbolTable u protos objs
        (!Has E u (str% "SEPARATE") && !Has E u (str% "DISABLE_ALIASING") && !Has E u (str% "WRAP_IS_VISIBLE"))
        (!Has E u (str% "SEPARATE") && !Has E u (str% "DISABLE_ALIASING")) := by
    unfold bodyTable bodyActive symbolTable
    have d1 := d (str% "SEPARATE") (by decide)
    have d3 := d (str% "DISABLE_ALIASING") (by decide)
    have d4 := d (str% "WRAP_IS_VISIBLE") (by decide)
    simp only [List.cons_append, List.nil_append] at d1 d3 d4
    simp only [d1, d3, d4]
    have e1 : newName u l (str% "GDO_SNPRINTF") = u ++ (str% "_" ++ str% "SNPRINTF") := newName_upper u l (str% "SNPRINTF")
    have e2 : newName u l (str% "GDO_SET_LAST_ERRNO") = u ++ (str% "_" ++ str% "SET_LAST_ERRNO") := newName_upper u l (str% "SET_LAST_ERRNO")
    rw [e1, e2]
    rfl
  rw [e, List.append_assoc]
  have undone : ∀ {x : Str}, x ≠ u ++ (str% "_" ++ str% "SNPRINTF") → x ≠ u ++ (str% "_" ++ str% "SET_LAST_ERRNO") → ∀ T : Table,
      known E ([(u ++ (str% "_" ++ str% "SNPRINTF"), none), (u ++ (str% "_" ++ str% "SET_LAST_ERRNO"), none)] ++ T) x = known E T x := fun {x} h1 h2 T =>
    (known_cons_ne h1).trans (known_cons_ne h2)
  have skip : ∀ {x : Str}, (∀ p ∈ protos ++ objs, p.symbol ≠ x) → x ≠ u ++ (str% "_" ++ str% "SNPRINTF") → x ≠ u ++ (str% "_" ++ str% "SET_LAST_ERRNO") → ∀ a b,
      known E ([(u ++ (str% "_" ++ str% "SNPRINTF"), none), (u ++ (str% "_" ++ str% "SET_LAST_ERRNO"), none)] ++ (symbolTable u protos objs a b ++ t)) x = known E t x :=
    fun {x} h1 h2 h3 a b => by
    rw [undone h2 h3, known_append_none (symbolTable_none h1)]
  have other : ∀ {x y : Str}, x ≠ y → u ++ (str% "_" ++ x) ≠ u ++ (str% "_" ++ y) := fun h e => h (prefixed_inj e)
  refine ⟨⟨fun p hp => ?_, ?_, fun p hp => ?_, ?_, fun p hp => ?_, fun p hp => ?_⟩, fun x hx => ?_⟩
  · rw [rawName_eq, skip (fun q hq => hN.own q hq _) (other (by simp)) (other (by simp)), ← rawName_eq, h.raw p hp]
  · rw [skip (fun q hq => hN.handle q hq) (hN.handle' _) (hN.handle' _), h.handle]
  · rw [skip (fun q hq => hN.own q hq _) (other (by simp)) (other (by simp)), h.member p hp]
  · rw [skip (fun q hq => hN.own q hq _) (other (by simp)) (other (by simp)), h.alias]
  · have hp' := List.mem_append_left objs hp
    rw [undone (hN.own p hp' _) (hN.own p hp' _)]
    have e1 := fun a b => symbolTable_function (u := u) (a := a) (b := b) hp fun o ho => hN.apart p hp o ho
    generalize (!Has E u (str% "SEPARATE") && !Has E u (str% "DISABLE_ALIASING") && !Has E u (str% "WRAP_IS_VISIBLE")) = a'
    cases a' with
    | true =>
      unfold known
      rw [List.lookup_append, e1, Bool.or_true]
      rfl
    | false => rw [known_append_none (e1 _ _), h.function p hp, Bool.or_false]
  · have hp' := List.mem_append_right protos hp
    rw [undone (hN.own p hp' _) (hN.own p hp' _)]
    have e1 := fun a b => symbolTable_object (u := u) (a := a) (b := b) hp fun q hq => hN.apart q hq p hp
    generalize (!Has E u (str% "SEPARATE") && !Has E u (str% "DISABLE_ALIASING") && !Has E u (str% "WRAP_IS_VISIBLE")) = a'
    generalize (!Has E u (str% "SEPARATE") && !Has E u (str% "DISABLE_ALIASING")) = b'
    cases b' with
    | true =>
      unfold known
      rw [List.lookup_append, e1, Bool.or_true]
      rfl
    | false => rw [known_append_none (e1 _ _), h.object p hp, Bool.or_false]
  · refine (skip (fun q hq => hN.own q hq _) (other ?_) (other ?_) _ _).trans (h.config x hx)
    · rintro rfl
      simp [configNames] at hx
    · rintro rfl
      simp [configNames] at hx

variable {E : Str → Option Macro} {u l : Str} {protos objs : List Proto} {inc : List T → Table} {mid mid' : Str}

theorem C102_header (hN : Names u l protos objs) (h1 : E (l ++ str% "_hndl") = none) (h2 : ∀ p ∈ protos ++ objs, E (u ++ (str% "_" ++ (str% "PTR_" ++ p.symbol))) = none)
    (hm : Harmless inc (symbolNames u l protos objs) mid) :
    ∃ E', after inc E (pointerPart u l protos objs ++ (mid ++ headerPart u l protos objs)) = some E' ∧
      Stands E E' u l protos objs
        (Has E u (str% "SEPARATE") && !Has E u (str% "INCLUDED_IN_BODY") && !Has E u (str% "DISABLE_ALIASING") && !Has E u (str% "WRAP_VISIBILITY"))
        (Has E u (str% "SEPARATE") && !Has E u (str% "INCLUDED_IN_BODY") && !Has E u (str% "DISABLE_ALIASING"))
        (Has E u (str% "WRAP_FUNCTIONS") || Has E u (str% "ENABLE_AUTOLOAD")) := by
  obtain ⟨t', e1, e2⟩ := run_harmless hm (fun x => (E x).isSome) (defs (rawName u) (rawBody u l) (protos ++ objs) ++ []) (headerPart u l protos objs)
  refine ⟨_, after_run (t := headerTable u (isDefined (fun x => (E x).isSome) (t' ++ (defs (rawName u) (rawBody u l) (protos ++ objs) ++ []))) (newName u l) protos objs ++
    (t' ++ (defs (rawName u) (rawBody u l) (protos ++ objs) ++ []))) ?_, ?_⟩
  · unfold pointerPart
    rw [run_raw hN.prefixes hN.functions hN.objects, e1, show headerPart u l protos objs = headerPart u l protos objs ++ [] from by simp]
    unfold headerPart
    rw [run_header hN.prefixes hN.functions hN.objects]
    rfl
  · refine (header_tabled hN (Based.mid ?_ e2)).toTabled.stands hN
    rw [List.append_nil]
    exact raw_based hN h1 h2

theorem both (hN : Names u l protos objs) (h1 : E (l ++ str% "_hndl") = none) (h2 : ∀ p ∈ protos ++ objs, E (u ++ (str% "_" ++ (str% "PTR_" ++ p.symbol))) = none)
    (hm : Harmless inc (symbolNames u l protos objs) mid) (hm' : Harmless inc (symbolNames u l protos objs) mid') :
    ∃ E', after inc E (pointerPart u l protos objs ++ (mid ++ (headerPart u l protos objs ++ (mid' ++ bodyPart u l protos objs)))) = some E' ∧
      Stands E E' u l protos objs
        ((Has E u (str% "SEPARATE") && !Has E u (str% "INCLUDED_IN_BODY") && !Has E u (str% "DISABLE_ALIASING") && !Has E u (str% "WRAP_VISIBILITY")) ||
          (!Has E u (str% "SEPARATE") && !Has E u (str% "DISABLE_ALIASING") && !Has E u (str% "WRAP_IS_VISIBLE")))
        ((Has E u (str% "SEPARATE") && !Has E u (str% "INCLUDED_IN_BODY") && !Has E u (str% "DISABLE_ALIASING")) ||
          (!Has E u (str% "SEPARATE") && !Has E u (str% "DISABLE_ALIASING")))
        (Has E u (str% "WRAP_FUNCTIONS") || Has E u (str% "ENABLE_AUTOLOAD")) := by
  obtain ⟨t', e1, e2⟩ := run_harmless hm (fun x => (E x).isSome) (defs (rawName u) (rawBody u l) (protos ++ objs) ++ [])
    (headerPart u l protos objs ++ (mid' ++ bodyPart u l protos objs))
  have e3 := run_header hN.prefixes hN.functions hN.objects inc (fun x => (E x).isSome) (t' ++ (defs (rawName u) (rawBody u l) (protos ++ objs) ++ [])) (mid' ++ bodyPart u l protos objs)
  have b1 : Based E (known E (defs (rawName u) (rawBody u l) (protos ++ objs) ++ [])) u l protos objs := by
    rw [List.append_nil]
    exact raw_based hN h1 h2
  have b2 := header_tabled hN (b1.mid e2)
  generalize headerTable u (isDefined (fun x => (E x).isSome) (t' ++ (defs (rawName u) (rawBody u l) (protos ++ objs) ++ []))) (newName u l) protos objs ++
    (t' ++ (defs (rawName u) (rawBody u l) (protos ++ objs) ++ [])) = th at b2 e3
  obtain ⟨t'', e4, e5⟩ := run_harmless hm' (fun x => (E x).isSome) th (bodyPart u l protos objs)
  have b3 := body_tabled hN (b2.mid e5)
  refine ⟨_, after_run ?_, b3.toTabled.stands hN⟩
  unfold pointerPart
  rw [run_raw hN.prefixes hN.functions hN.objects, e1]
  unfold headerPart
  rw [e3, e4, show bodyPart u l protos objs = bodyPart u l protos objs ++ [] from by simp]
  unfold bodyPart
  rw [run_body hN.prefixes hN.functions hN.objects]
  rfl

/-- The body file of separate output: nothing is renamed in it. -/
theorem C102_body (hN : Names u l protos objs) (h1 : E (l ++ str% "_hndl") = none) (h2 : ∀ p ∈ protos ++ objs, E (u ++ (str% "_" ++ (str% "PTR_" ++ p.symbol))) = none)
    (hm : Harmless inc (symbolNames u l protos objs) mid) (hm' : Harmless inc (symbolNames u l protos objs) mid')
    (h3 : Has E u (str% "SEPARATE") = true) (h4 : Has E u (str% "INCLUDED_IN_BODY") = true) :
    ∃ E', after inc E (pointerPart u l protos objs ++ (mid ++ (headerPart u l protos objs ++ (mid' ++ bodyPart u l protos objs)))) = some E' ∧
      Stands E E' u l protos objs false false (Has E u (str% "WRAP_FUNCTIONS") || Has E u (str% "ENABLE_AUTOLOAD")) := by
  have := both (mid := mid) (mid' := mid') hN h1 h2 hm hm'
  rw [h3, h4] at this
  exact this

/-- A single file, in every case: the functions are renamed unless `WRAP_IS_VISIBLE` is defined, which
nothing in the templates defines (c.c 978). -/
theorem C102_single_exact (hN : Names u l protos objs) (h1 : E (l ++ str% "_hndl") = none) (h2 : ∀ p ∈ protos ++ objs, E (u ++ (str% "_" ++ (str% "PTR_" ++ p.symbol))) = none)
    (hm : Harmless inc (symbolNames u l protos objs) mid) (hm' : Harmless inc (symbolNames u l protos objs) mid')
    (h3 : Has E u (str% "SEPARATE") = false) :
    ∃ E', after inc E (pointerPart u l protos objs ++ (mid ++ (headerPart u l protos objs ++ (mid' ++ bodyPart u l protos objs)))) = some E' ∧
      Stands E E' u l protos objs (!Has E u (str% "DISABLE_ALIASING") && !Has E u (str% "WRAP_IS_VISIBLE")) (!Has E u (str% "DISABLE_ALIASING"))
        (Has E u (str% "WRAP_FUNCTIONS") || Has E u (str% "ENABLE_AUTOLOAD")) := by
  have := both (mid := mid) (mid' := mid') hN h1 h2 hm hm'
  rw [h3] at this
  simpa using this

/-- A single file: the functions are renamed unless their wrappers are visible.  Missing:
the case that `WRAP_VISIBILITY` is defined and `WRAP_IS_VISIBLE` is not. -/
theorem C102_single_partial (hN : Names u l protos objs) (h1 : E (l ++ str% "_hndl") = none) (h2 : ∀ p ∈ protos ++ objs, E (u ++ (str% "_" ++ (str% "PTR_" ++ p.symbol))) = none)
    (hm : Harmless inc (symbolNames u l protos objs) mid) (hm' : Harmless inc (symbolNames u l protos objs) mid')
    (h3 : Has E u (str% "SEPARATE") = false) (h4 : Has E u (str% "WRAP_IS_VISIBLE") = Has E u (str% "WRAP_VISIBILITY")) :
    ∃ E', after inc E (pointerPart u l protos objs ++ (mid ++ (headerPart u l protos objs ++ (mid' ++ bodyPart u l protos objs)))) = some E' ∧
      Stands E E' u l protos objs (!Has E u (str% "DISABLE_ALIASING") && !Has E u (str% "WRAP_VISIBILITY")) (!Has E u (str% "DISABLE_ALIASING"))
        (Has E u (str% "WRAP_FUNCTIONS") || Has E u (str% "ENABLE_AUTOLOAD")) := by
  rw [← h4]
  exact C102_single_exact hN h1 h2 hm hm' h3

/-! ### The names of wrapper functions -/

theorem wrap_call {m : Macro} {s w : Str} {b : H} (h1 : E (u ++ (str% "_" ++ str% "WRAP")) = some m) (hm : m.params = some [str% "x"]) (hv : m.va = false)
    (hf : ∀ n s2, fill true [(str% "x", [(⟨[], s2, .ident s⟩ : H)])] [(str% "x", expand E (n + 2) [⟨[], s2, .ident s⟩])] m.body = some [b]) (hb : b.tok = .ident w) (hw : E w = none)
    (sp s1 s2 s3 : Bool) (r : List H) (n : Nat) :
    ∃ hs, expand E (n + 3) (⟨[], sp, .ident (u ++ (str% "_" ++ str% "WRAP"))⟩ :: ⟨[], s1, .punct (str% "(")⟩ :: ⟨[], s2, .ident s⟩ :: ⟨[], s3, .punct (str% ")")⟩ :: r) =
      (expand E (n + 1) r).map (⟨hs, sp, .ident w⟩ :: ·) := by
  refine ⟨(u ++ (str% "_" ++ str% "WRAP")) :: b.hide, ?_⟩
  rw [show n + 3 = (n + 2) + 1 from rfl, expand]
  simp only []
  rw [if_neg (by simp), h1]
  simp only [hm]
  rw [if_pos trivial]
  have ea : arguments 0 [] (⟨[], s2, .ident s⟩ :: ⟨[], s3, .punct (str% ")")⟩ :: r) = some ([[⟨[], s2, .ident s⟩]], [], r) := by simp [arguments]
  rw [ea]
  simp only [Option.bind_some]
  have eb : bindings [str% "x"] m.va [[(⟨[], s2, .ident s⟩ : H)]] = some [(str% "x", [⟨[], s2, .ident s⟩])] := by simp [bindings, hv]
  rw [eb]
  simp only [Option.bind_some, List.map_cons, List.map_nil]
  rw [hf n s2]
  simp only [Option.bind_some, painted, withSpace, List.map_cons, List.map_nil, List.cons_append, List.nil_append, List.filter_nil, hb]
  rw [show n + 2 = (n + 1) + 1 from rfl, expand_cons (fun v hv => by cases hv; exact .inr hw)]

/-- How the wrapper of a function is called, and that no other macros are changed. -/
theorem C102_name (hp : Prefixes u l) {s w : Str} (hs : Identifier s) (hw : w = if Has E u (str% "WRAP_VISIBILITY") then s else u ++ (str% "_" ++ (str% "WRAP_" ++ s))) :
    ∃ E', after inc E (wrapperPart u l protos objs) = some E' ∧
      (∀ x, x ≠ u ++ (str% "_" ++ str% "WRAP") → x ≠ u ++ (str% "_" ++ str% "WRAP_DECL") → E' x = E x) ∧
      (E' w = none → ∀ sp s1 s2 s3 r n, ∃ hs, expand E' (n + 3) (⟨[], sp, .ident (u ++ (str% "_" ++ str% "WRAP"))⟩ :: ⟨[], s1, .punct (str% "(")⟩ ::
        ⟨[], s2, .ident s⟩ :: ⟨[], s3, .punct (str% ")")⟩ :: r) = (expand E' (n + 1) r).map (⟨hs, sp, .ident w⟩ :: ·)) := by
  have e0 := run_wrap hp protos objs inc (fun x => (E x).isSome) []
  have d : (E (newName u l (str% "GDO_WRAP_VISIBILITY"))).isSome = Has E u (str% "WRAP_VISIBILITY") :=
    congrArg (fun x => (E x).isSome) (newName_upper u l (str% "WRAP_VISIBILITY"))
  rw [List.append_nil, d] at e0
  have n1 : newName u l (str% "GDO_WRAP") = u ++ (str% "_" ++ str% "WRAP") := newName_upper u l (str% "WRAP")
  have n2 : newName u l (str% "GDO_WRAP_DECL") = u ++ (str% "_" ++ str% "WRAP_DECL") := newName_upper u l (str% "WRAP_DECL")
  have n3 : newName u l (str% "GDO_WRAP_") = u ++ str% "_WRAP_" := newName_upper u l (str% "WRAP_")
  have n4 : newName u l (str% "x") = str% "x" := by simp [newName, List.isPrefixOf]
  refine ⟨_, after_run e0, fun x h1 h2 => ?_, fun hw0 sp s1 s2 s3 r n => ?_⟩
  · show known E ((newName u l (str% "GDO_WRAP"), _) :: (newName u l (str% "GDO_WRAP_DECL"), _) :: []) x = E x
    rw [n1, n2, known_cons_ne h1, known_cons_ne h2]
    rfl
  · have hm : known E (renTable (newName u l) (wrapTable (Has E u (str% "WRAP_VISIBILITY")))) (u ++ (str% "_" ++ str% "WRAP")) =
        some (renMacro (newName u l) (wrapMacro (Has E u (str% "WRAP_VISIBILITY")))) := by
      show known E ((newName u l (str% "GDO_WRAP"), _) :: _) _ = _
      rw [n1, known_cons_eq]
      rfl
    generalize hv : Has E u (str% "WRAP_VISIBILITY") = v at *
    cases v with
    | true =>
      rw [if_pos rfl] at hw
      subst hw
      refine wrap_call hm (by simp [renMacro, wrapMacro, n4]) rfl (b := ⟨[], true, .ident w⟩) (fun n s2 => ?_) rfl hw0 sp s1 s2 s3 r n
      rw [expand_cons (fun v hv => by cases hv; exact .inr hw0)]
      simp [renMacro, wrapMacro, renT, renTok, n4, fill, expand, withSpace, List.lookup]
    | false =>
      rw [if_neg (by simp)] at hw
      refine wrap_call hm (by simp [renMacro, wrapMacro, n4]) rfl (b := ⟨[], true, .ident w⟩) (fun n s2 => ?_) rfl hw0 sp s1 s2 s3 r n
      have ew : w = (u ++ str% "_WRAP_") ++ s := by rw [hw]; simp
      have := fill_paste' (x := u ++ str% "_WRAP_") (u_ne_x hp _) (s := s) (symbol_word hp (by decide) hs) [] s2 [(str% "x", expand (known E (renTable (newName u l) (wrapTable false))) (n + 2) [⟨[], s2, .ident s⟩])]
      rw [ew, ← this]
      simp [renMacro, wrapMacro, renT, renTok, n3, n4]

/-! ### Where the code is wrong -/

/-- The configuration: the wrappers are visible. -/
def visible (x : Str) : Option Macro := if x = str% "GDO_WRAP_VISIBILITY" ∨ x = str% "GDO_WRAP_FUNCTIONS" then some ⟨none, false, []⟩ else none

/-- One function, one object. -/
def aFunction : Proto := { kind := .function, type := str% "void", symbol := str% "foo", args := str% "int a", paramNames := str% "a" }
def anObject : Proto := { kind := .object, type := str% "int", symbol := str% "bar" }

theorem named : Names (str% "GDO") (str% "gdo") [aFunction] [anObject] := by
  refine ⟨⟨by decide, by decide, by decide, by decide, by decide, by decide⟩, ?_, ?_, ?_, ?_, fun x => by simp, ?_⟩
  all_goals
    intro p hp
    simp only [List.cons_append, List.nil_append, List.mem_cons, List.not_mem_nil, or_false] at hp
  · subst hp
    exact ⟨by decide, by decide, by decide⟩
  · subst hp
    exact ⟨by decide, by decide, by decide⟩
  · rcases hp with rfl | rfl <;> simp [aFunction, anObject]
  · rcases hp with rfl | rfl <;> decide
  · subst hp
    intro o ho
    simp only [List.mem_singleton] at ho
    subst ho
    decide

/-- With visible wrappers in a single file, a wrapper is called like the function, and
then the function's name stands for a wrapper that does not exist: the condition in c.c 978
asks for `GDO_WRAP_IS_VISIBLE`, which is defined nowhere. -/
theorem C102_single_violated :
    (∃ E', after (fun _ => []) visible (wrapperPart (str% "GDO") (str% "gdo") [aFunction] [anObject]) = some E' ∧
      (expand E' 4 [⟨[], true, .ident (str% "GDO_WRAP")⟩, ⟨[], false, .punct (str% "(")⟩, ⟨[], false, .ident (str% "foo")⟩, ⟨[], false, .punct (str% ")")⟩]).map (·.map (·.tok)) =
        some [.ident (str% "foo")]) ∧
    ∃ E', after (fun _ => []) visible (pointerPart (str% "GDO") (str% "gdo") [aFunction] [anObject] ++ ([] ++ (headerPart (str% "GDO") (str% "gdo") [aFunction] [anObject] ++
        ([] ++ bodyPart (str% "GDO") (str% "gdo") [aFunction] [anObject])))) = some E' ∧
      E' (str% "foo") ≠ none ∧ (E' (str% "GDO_WRAP_foo") = none → Becomes E' (str% "foo") [.ident (str% "GDO_WRAP_foo")]) ∧
      ¬ Stands visible E' (str% "GDO") (str% "gdo") [aFunction] [anObject] (!Has visible (str% "GDO") (str% "DISABLE_ALIASING") && !Has visible (str% "GDO") (str% "WRAP_VISIBILITY"))
        (!Has visible (str% "GDO") (str% "DISABLE_ALIASING")) (Has visible (str% "GDO") (str% "WRAP_FUNCTIONS") || Has visible (str% "GDO") (str% "ENABLE_AUTOLOAD")) := by
  refine ⟨?_, ?_⟩
  · obtain ⟨E', h1, h2, h3⟩ := C102_name (E := visible) (inc := fun _ => []) (protos := [aFunction]) (objs := [anObject]) named.prefixes (s := str% "foo") (w := str% "foo")
      ⟨by decide, by decide, by decide⟩ (by decide)
    refine ⟨E', h1, ?_⟩
    obtain ⟨hs, e⟩ := h3 (by rw [h2 _ (by decide) (by decide)]; decide) true false false false [] 1
    rw [show 4 = 1 + 3 from rfl]
    refine (congrArg (Option.map (List.map H.tok)) e).trans ?_
    simp [expand]
  · obtain ⟨E', h1, h2⟩ := both (E := visible) (inc := fun _ => []) (mid := []) (mid' := []) named (by decide) (by decide) (.inl rfl) (.inl rfl)
    have w := h2.wrapper (by decide) (by decide) aFunction (by simp)
    have ne : E' (str% "foo") ≠ none := fun hn => by
      have := h2.renamed (by decide) aFunction (by simp)
      rw [show E' aFunction.symbol = none from hn] at this
      cases this
    refine ⟨E', h1, ne, w, fun h => ne ?_⟩
    exact (h.noFunction (by decide) aFunction (by simp)).trans (by decide)

/-- The tokens of an expression, in the generated text. -/
def exprToks (u l : Str) (e : Cc.Expr) : Option (List Cc.Tok) := (e.toks.bind Cc.plain).bind (Cc.closeAll u l)

/-- Where objects are renamed, `object[i]` is the expression `*(handle.PTR_object[i])`, what the
pointer behind the object's address points to, and not `(*handle.PTR_object)[i]`: the macro has no
parentheses (c.h 300, c.c 983). -/
theorem C102_object_violated {E' : Str → Option Macro} {a w : Bool} (h : Stands E E' u l protos objs a true w) {o : Proto} (ho : o ∈ objs) (i : Str) :
    ∃ k, ∀ sp s1 s2 s3 n, ∃ out, expand E' (n + k) [⟨[], sp, .ident o.symbol⟩, ⟨[], s1, .punct (str% "[")⟩, ⟨[], s2, .num i⟩, ⟨[], s3, .punct (str% "]")⟩] = some out ∧
      exprToks u l (.un (str% "*") (.index (.member (.id (.fixed (str% "gdo_hndl"))) (.glued (str% "GDO_PTR_") o.symbol)) (.id (.glued [] i)))) = some (out.map fun t => toTok t.tok) ∧
      exprToks u l (.index (.paren (.un (str% "*") (.member (.id (.fixed (str% "gdo_hndl"))) (.glued (str% "GDO_PTR_") o.symbol)))) (.id (.glued [] i))) ≠ some (out.map fun t => toTok t.tok) := by
  obtain ⟨k, hk⟩ := h.object rfl o ho
  refine ⟨k + 4, fun sp s1 s2 s3 n => ?_⟩
  obtain ⟨out, e1, e2⟩ := hk sp [⟨[], s1, .punct (str% "[")⟩, ⟨[], s2, .num i⟩, ⟨[], s3, .punct (str% "]")⟩] (n + 4)
  rw [show n + (k + 4) = n + 4 + k from by omega, e2]
  refine ⟨out ++ [⟨[], s1, .punct (str% "[")⟩, ⟨[], s2, .num i⟩, ⟨[], s3, .punct (str% "]")⟩], by simp [expand], ?_, ?_⟩
  · have e3 : out.map (fun t => toTok t.tok) = (out.map (·.tok)).map toTok := by simp
    rw [List.map_append, e3, e1]
    have n1 : newName u l (str% "gdo_hndl") = l ++ str% "_hndl" := by simp [newName, List.isPrefixOf]
    have n2 : newName u l (str% "GDO_PTR_") = u ++ (str% "_" ++ str% "PTR_") := newName_upper u l (str% "PTR_")
    simp [exprToks, Cc.Expr.toks, Cc.Expr.level, Cc.plain, Cc.closeAll, Cc.STok.close, Cc.punct, pointer, toTok, n1, n2]
    simp [newName, List.isPrefixOf]
  · have e3 : out.map (fun t => toTok t.tok) = (out.map (·.tok)).map toTok := by simp
    rw [List.map_append, e3, e1]
    simp [exprToks, Cc.Expr.toks, Cc.Expr.level, Cc.plain, Cc.closeAll, Cc.STok.close, Cc.punct, pointer, toTok]

/-! ### Examples -/

/-- A configuration with separate files, used by the program. -/
def separate (x : Str) : Option Macro := if x = str% "GDO_SEPARATE" then some ⟨none, false, []⟩ else none

example : ∃ E', after (fun _ => []) separate (pointerPart (str% "GDO") (str% "gdo") [aFunction] [anObject] ++ ([] ++ headerPart (str% "GDO") (str% "gdo") [aFunction] [anObject])) = some E' ∧
    Becomes E' (str% "foo") [.ident (str% "gdo_hndl"), .punct (str% "."), .ident (str% "GDO_PTR_foo")] ∧
    Becomes E' (str% "bar") [.punct (str% "*"), .ident (str% "gdo_hndl"), .punct (str% "."), .ident (str% "GDO_PTR_bar")] := by
  obtain ⟨E', h1, h2⟩ := C102_header (E := separate) (inc := fun _ => []) (mid := []) named (by decide) (by decide) (.inl rfl)
  exact ⟨E', h1, h2.function (by decide) (by decide) aFunction (by simp), h2.object (by decide) anObject (by simp)⟩

/-- Within the body file. -/
def inBody (x : Str) : Option Macro := if x = str% "GDO_SEPARATE" ∨ x = str% "GDO_INCLUDED_IN_BODY" then some ⟨none, false, []⟩ else none

example : ∃ E', after (fun _ => []) inBody (pointerPart (str% "GDO") (str% "gdo") [aFunction] [anObject] ++ ([] ++ (headerPart (str% "GDO") (str% "gdo") [aFunction] [anObject] ++
      ([] ++ bodyPart (str% "GDO") (str% "gdo") [aFunction] [anObject])))) = some E' ∧
    Stands inBody E' (str% "GDO") (str% "gdo") [aFunction] [anObject] false false false :=
  C102_body named (by decide) (by decide) (.inl rfl) (.inl rfl) (by decide) (by decide)

/-- A single file with wrappers; the text in between defines something else. -/
def wrapping (x : Str) : Option Macro := if x = str% "GDO_WRAP_FUNCTIONS" then some ⟨none, false, []⟩ else none

example : ∃ E', after (fun _ => []) wrapping (pointerPart (str% "GDO") (str% "gdo") [aFunction] [anObject] ++ (str% "#define SOMETHING else\n" ++
      (headerPart (str% "GDO") (str% "gdo") [aFunction] [anObject] ++ ([] ++ bodyPart (str% "GDO") (str% "gdo") [aFunction] [anObject])))) = some E' ∧
    Stands wrapping E' (str% "GDO") (str% "gdo") [aFunction] [anObject] true true true :=
  C102_single_partial named (by decide) (by decide) (.inr ⟨[⟨true, .punct (str% "#")⟩, ⟨false, .ident (str% "define")⟩, ⟨true, .ident (str% "SOMETHING")⟩, ⟨true, .ident (str% "else")⟩],
    ⟨by rfl, str% "#define SOMETHING else", rfl⟩, fun D => ⟨[(str% "SOMETHING", some ⟨none, false, [⟨true, .ident (str% "else")⟩]⟩)], by rfl, by decide⟩⟩) (.inl rfl) (by decide) (by decide)

/-- The names in between must not be touched. -/
example : ¬ Harmless (fun _ => []) (symbolNames (str% "GDO") (str% "gdo") [aFunction] [anObject]) (str% "#define bar foo\n") := by
  rintro (h | ⟨x, ⟨h1, _⟩, h2⟩)
  · cases h
  · obtain ⟨t, e1, e2⟩ := h2 fun _ => false
    have e3 := e2 (str% "bar") (by decide)
    have hx : x = [⟨true, .punct (str% "#")⟩, ⟨false, .ident (str% "define")⟩, ⟨true, .ident (str% "bar")⟩, ⟨true, .ident (str% "foo")⟩] := by
      have h1' := h1.symm.trans (show _ = some (_, [⟨true, .punct (str% "#")⟩, ⟨false, .ident (str% "define")⟩, ⟨true, .ident (str% "bar")⟩, ⟨true, .ident (str% "foo")⟩] ++ [nlT]) from rfl)
      simp only [Option.some.injEq, Prod.mk.injEq] at h1'
      exact List.append_cancel_right h1'.2
    subst hx
    have e4 := e1.symm.trans (show _ = some ([(str% "bar", some ⟨none, false, [⟨true, .ident (str% "foo")⟩]⟩)], []) from rfl)
    simp only [Option.some.injEq, Prod.mk.injEq, and_true] at e4
    subst e4
    exact absurd e3 (by decide)

end Gdo.Cpp
