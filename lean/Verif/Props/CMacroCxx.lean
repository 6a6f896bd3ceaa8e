import Verif.Lemmas.CMacroCxx
import Verif.Props.CMacroFile

/-!
C108: the macros for the names of the symbols in the generated C++ code.
-/

set_option maxRecDepth 20000

namespace Gdo.Cpp.Cxx
open Gdo Rename Tmpl Builtin Sub Opt Tpl Gen Pfx

/-! ### The texts -/

/-- The definitions for pointers in the header (cxx.hpp 427-428). -/
def pointerPart (u l : Str) (protos objs : List Proto) : Str := unlines ((((texts .cxxHeader).drop 426).take 2).flatMap (written u l protos objs))

/-- The end of the header (cxx.hpp 485-514). -/
def headerPart (u l : Str) (protos objs : List Proto) : Str := unlines (((texts .cxxHeader).drop 459).flatMap (written u l protos objs))

/-- The end of the body (cxx.cpp 1072-1087). -/
def bodyPart (u l : Str) (protos objs : List Proto) : Str := unlines (((texts .cxxBody).drop 1047).flatMap (written u l protos objs))

theorem headerPart_eq (u l : Str) (protos objs : List Proto) : headerPart u l protos objs = Gdo.Cpp.headerPart u l protos objs := by
  unfold headerPart Gdo.Cpp.headerPart
  rw [header_tail]

theorem header_lines : texts .cxxHeader = (texts .cxxHeader).take 426 ++ (((texts .cxxHeader).drop 426).take 2 ++ (((texts .cxxHeader).drop 428).take 30 ++
    str% "%PARAM_SKIP_END%" :: (texts .cxxHeader).drop 459)) := by decide +kernel

theorem body_lines : texts .cxxBody = (texts .cxxBody).take 1046 ++ str% "%PARAM_SKIP_END%" :: (texts .cxxBody).drop 1047 := by decide +kernel

theorem header_free : ((texts .cxxHeader).take 428 ++ (texts .cxxHeader).drop 459).all (fun d => markerLine d == none) = true := by decide +kernel

theorem body_free : ((texts .cxxBody).drop 1047).all (fun d => markerLine d == none) = true := by decide +kernel

/-- What is generated from `cxx.hpp`. -/
theorem C108_headerPart (s : Settings) (protos objs : List Proto) :
    unlines (instantiate (toUpper s.pfx) (toLower s.pfx) s.names protos objs (lines .cxxHeader)) =
      unlines (((texts .cxxHeader).take 426).flatMap (written (toUpper s.pfx) (toLower s.pfx) protos objs)) ++ (pointerPart (toUpper s.pfx) (toLower s.pfx) protos objs ++
        (shownPart (toUpper s.pfx) (toLower s.pfx) s.names protos objs (((texts .cxxHeader).drop 428).take 31) ++ headerPart (toUpper s.pfx) (toLower s.pfx) protos objs)) := by
  have e := List.all_eq_true.mp header_free
  unfold instantiate
  rw [show (blocks (lines .cxxHeader)).map joinLines = texts .cxxHeader from rfl, header_lines,
    shown_plain s.names fun d hd => eq_of_beq (e d (List.mem_append_left _ (by
      rw [show 428 = 426 + 2 from rfl, List.take_add]; exact List.mem_append_left _ hd))),
    shown_plain s.names fun d hd => eq_of_beq (e d (List.mem_append_left _ (by
      rw [show 428 = 426 + 2 from rfl, List.take_add]; exact List.mem_append_right _ hd))),
    shown_all s.names _ _ fun d hd => eq_of_beq (e d (List.mem_append_right _ hd)), ← header_lines]
  rw [List.flatMap_append, unlines_append, List.flatMap_append, unlines_append, List.flatMap_append, unlines_append]
  rw [show ((texts .cxxHeader).drop 428).take 30 ++ [str% "%PARAM_SKIP_END%"] = ((texts .cxxHeader).drop 428).take 31 from by decide +kernel]
  rfl

/-- What is generated from `cxx.cpp`. -/
theorem C108_bodyPart (s : Settings) (protos objs : List Proto) :
    unlines (instantiate (toUpper s.pfx) (toLower s.pfx) s.names protos objs (lines .cxxBody)) =
      shownPart (toUpper s.pfx) (toLower s.pfx) s.names protos objs ((texts .cxxBody).take 1047) ++ bodyPart (toUpper s.pfx) (toLower s.pfx) protos objs := by
  have e := List.all_eq_true.mp body_free
  unfold instantiate
  rw [show (blocks (lines .cxxBody)).map joinLines = texts .cxxBody from rfl, body_lines, shown_all s.names _ _ fun d hd => eq_of_beq (e d hd), ← body_lines]
  rw [List.flatMap_append, unlines_append]
  rw [show (texts .cxxBody).take 1046 ++ [str% "%PARAM_SKIP_END%"] = (texts .cxxBody).take 1047 from by decide +kernel]
  rfl

/-! ### The names -/

/-- What may be asked about the names of symbols: they are identifiers, none begins with
the prefix or is the name of the namespace, and functions and objects have different names. -/
structure Names (u l : Str) (protos objs : List Proto) : Prop where
  prefixes : Prefixes u l
  functions : ∀ p ∈ protos, Identifier p.symbol
  objects : ∀ p ∈ objs, Identifier p.symbol
  own : ∀ p ∈ protos ++ objs, ∀ x, p.symbol ≠ u ++ (str% "_" ++ x)
  space : ∀ p ∈ protos ++ objs, p.symbol ≠ l
  same : l.length = u.length
  apart : ∀ p ∈ protos, ∀ o ∈ objs, p.symbol ≠ o.symbol

theorem Names.space' {u l : Str} {protos objs : List Proto} (h : Names u l protos objs) (x : Str) : l ≠ u ++ (str% "_" ++ x) := by
  intro e
  have := congrArg List.length e
  rw [h.same] at this
  simp at this

/-- The names that the text in between must leave alone. -/
def symbolNames (u l : Str) (protos objs : List Proto) : List Str :=
  l ::
  ([str% "WRAP_FUNCTIONS", str% "ENABLE_AUTOLOAD", str% "SEPARATE", str% "INCLUDED_IN_BODY", str% "DISABLE_ALIASING", str% "WRAP_VISIBILITY", str% "WRAP_IS_VISIBLE",
    str% "FUNC_ALIAS"].map (fun x => u ++ (str% "_" ++ x)) ++
  (protos ++ objs).flatMap fun p => [p.symbol, u ++ (str% "_" ++ (str% "RAWPTR_" ++ p.symbol)), u ++ (str% "_" ++ (str% "PTR_" ++ p.symbol))])

/-- The tokens for the pointer to a symbol. -/
def pointer (u l : Str) (p : Proto) : List PTok := [.ident l, .punct (str% "::"), .ident (u ++ (str% "_" ++ (str% "PTR_" ++ p.symbol)))]

/-- What the names of symbols stand for; `functions`, `objects`: whether functions and
objects are renamed; `wrap`: whether the functions are called by wrappers. -/
structure Stands (E E' : Str → Option Macro) (u l : Str) (protos objs : List Proto) (functions objects wrap : Bool) : Prop where
  raw : ∀ p ∈ protos ++ objs, Becomes E' (u ++ (str% "_" ++ (str% "RAWPTR_" ++ p.symbol))) (pointer u l p)
  wrapper : functions = true → wrap = true → ∀ p ∈ protos, E' (u ++ (str% "_" ++ (str% "WRAP_" ++ p.symbol))) = none →
    Becomes E' p.symbol [.ident (u ++ (str% "_" ++ (str% "WRAP_" ++ p.symbol)))]
  function : functions = true → wrap = false → ∀ p ∈ protos, Becomes E' p.symbol (pointer u l p)
  renamed : functions = true → ∀ p ∈ protos, (E' p.symbol).isSome = true
  noFunction : functions = false → ∀ p ∈ protos, E' p.symbol = E p.symbol
  object : objects = true → ∀ p ∈ objs, Becomes E' p.symbol (.punct (str% "*") :: pointer u l p)
  noObject : objects = false → ∀ p ∈ objs, E' p.symbol = E p.symbol

/-- What must be known about the macros. -/
structure Tabled (E E' : Str → Option Macro) (u l : Str) (protos objs : List Proto) (functions objects wrap : Bool) : Prop where
  raw : ∀ p ∈ protos ++ objs, E' (rawName u p) = some ⟨none, false, rawBody u l p⟩
  space : E' l = none
  member : ∀ p ∈ protos ++ objs, E' (u ++ (str% "_" ++ (str% "PTR_" ++ p.symbol))) = none
  alias : E' (u ++ (str% "_" ++ str% "FUNC_ALIAS")) = some (aliasDef (if wrap then u ++ str% "_WRAP_" else u ++ str% "_RAWPTR_"))
  function : ∀ p ∈ protos, E' p.symbol = if functions then some ⟨none, false, aliasBody u p⟩ else E p.symbol
  object : ∀ p ∈ objs, E' p.symbol = if objects then some ⟨none, false, objectBody u p⟩ else E p.symbol

theorem Tabled.stands {E E' : Str → Option Macro} {u l : Str} {protos objs : List Proto} {a b w : Bool} (hN : Names u l protos objs)
    (h : Tabled E E' u l protos objs a b w) : Stands E E' u l protos objs a b w := by
  have hraw : ∀ p : Proto, rawName u p = u ++ (str% "_" ++ (str% "RAWPTR_" ++ p.symbol)) := fun p => by simp [rawName]
  have hptr : ∀ p : Proto, u ++ str% "_PTR_" ++ p.symbol = u ++ (str% "_" ++ (str% "PTR_" ++ p.symbol)) := fun p => by simp
  have hal : u ++ str% "_FUNC_ALIAS" = u ++ (str% "_" ++ str% "FUNC_ALIAS") := rfl
  have hid : ∀ p ∈ protos ++ objs, Identifier p.symbol := fun p hp => (List.mem_append.mp hp).elim (hN.functions p) (hN.objects p)
  have raw : ∀ p ∈ protos ++ objs, ∀ hs, rawName u p ∉ hs → Turns E' hs (rawName u p) (pointer u l p) 4 := fun p hp hs hh => by
    have := turns_raw (hs := hs) (h.raw p hp) h.space (by rw [hptr]; exact h.member p hp) hh
    rw [hptr] at this
    exact this
  refine ⟨fun p hp => ?_, fun ha hw p hp hn => ?_, fun ha hw p hp => ?_, fun ha p hp => ?_, fun ha p hp => ?_, fun hb p hp => ?_, fun hb p hp => ?_⟩
  · rw [← hraw]
    exact (raw p hp [] (by simp)).becomes
  · have hp' := List.mem_append_left objs hp
    subst hw
    have e : u ++ str% "_WRAP_" ++ p.symbol = u ++ (str% "_" ++ (str% "WRAP_" ++ p.symbol)) := by simp
    have := turns_alias (E := E') (u := u) (x := u ++ str% "_WRAP_") (by rw [h.function p hp, ha]; rfl) (by rw [hal]; exact h.alias) (u_ne_x hN.prefixes _)
      (symbol_word hN.prefixes (by decide) (hid p hp')) (by rw [hal]; exact fun e => hN.own p hp' _ e.symm) (by rw [e]; exact turns_none _ hn)
    exact this.becomes
  · have hp' := List.mem_append_left objs hp
    subst hw
    exact (turns_alias (E := E') (u := u) (x := u ++ str% "_RAWPTR_") (by rw [h.function p hp, ha]; rfl) (by rw [hal]; exact h.alias) (u_ne_x hN.prefixes _)
      (symbol_word hN.prefixes (by decide) (hid p hp')) (by rw [hal]; exact fun e => hN.own p hp' _ e.symm) (raw p hp' _ (by
        rw [hraw, hal]
        intro hm
        simp only [List.mem_cons, List.not_mem_nil, or_false] at hm
        rcases hm with hm | hm
        · have := List.append_cancel_left (List.append_cancel_left hm)
          simp at this
        · exact hN.own p hp' _ hm.symm))).becomes
  · rw [h.function p hp, ha]
    rfl
  · rw [h.function p hp, ha]
    rfl
  · have hp' := List.mem_append_right protos hp
    have := turns_object (E := E') (u := u) (l := l) (by rw [h.object p hp, hb]; rfl) (h.raw p hp') h.space (by rw [hptr]; exact h.member p hp')
      (by rw [hraw]; exact fun e => hN.own p hp' _ e.symm)
    rw [hptr] at this
    exact this.becomes
  · rw [h.object p hp, hb]
    rfl

/-- What is known behind the definitions for pointers. -/
structure Based (E E' : Str → Option Macro) (u l : Str) (protos objs : List Proto) : Prop where
  raw : ∀ p ∈ protos ++ objs, E' (rawName u p) = some ⟨none, false, rawBody u l p⟩
  space : E' l = none
  member : ∀ p ∈ protos ++ objs, E' (u ++ (str% "_" ++ (str% "PTR_" ++ p.symbol))) = none
  config : ∀ x ∈ configNames, E' (u ++ (str% "_" ++ x)) = E (u ++ (str% "_" ++ x))
  symbol : ∀ p ∈ protos ++ objs, E' p.symbol = E p.symbol

theorem raw_based {E : Str → Option Macro} {u l : Str} {protos objs : List Proto} (hN : Names u l protos objs) (h1 : E l = none)
    (h2 : ∀ p ∈ protos ++ objs, E (u ++ (str% "_" ++ (str% "PTR_" ++ p.symbol))) = none) :
    Based E (known E (defs (rawName u) (rawBody u l) (protos ++ objs))) u l protos objs := by
  have no : ∀ {x : Str}, (∀ p ∈ protos ++ objs, rawName u p ≠ x) → known E (defs (rawName u) (rawBody u l) (protos ++ objs)) x = E x := fun {x} h => by
    unfold known
    rw [lookup_defs h]
  refine ⟨fun p hp => ?_, ?_, fun p hp => ?_, fun x hx => ?_, fun p hp => ?_⟩
  · unfold known
    rw [lookup_defs_mem hp fun q _ e => by unfold rawBody; rw [raw_inj e]]
  · rw [no, h1]
    intro p hp e
    rw [rawName_eq] at e
    exact hN.space' _ e.symm
  · rw [no, h2 p hp]
    intro q hq e
    rw [rawName_eq] at e
    have := prefixed_inj e
    simp at this
  · refine no fun q hq e => ?_
    rw [rawName_eq] at e
    have e := prefixed_inj e
    subst e
    simp [configNames] at hx
  · refine no fun q hq e => ?_
    rw [rawName_eq] at e
    exact hN.own p hp _ e.symm

theorem mem_config {u l : Str} {protos objs : List Proto} {x : Str} (hx : x ∈ configNames) : u ++ (str% "_" ++ x) ∈ symbolNames u l protos objs :=
  List.mem_cons_of_mem _ (List.mem_append_left _ (List.mem_map.mpr ⟨x, by
    revert hx
    simp only [configNames, List.mem_cons, List.not_mem_nil, or_false]
    intro hx
    rcases hx with h | h | h | h | h | h | h <;> simp [h], rfl⟩))

theorem mem_alias {u l : Str} {protos objs : List Proto} : u ++ (str% "_" ++ str% "FUNC_ALIAS") ∈ symbolNames u l protos objs :=
  List.mem_cons_of_mem _ (List.mem_append_left _ (List.mem_map.mpr ⟨_, by simp, rfl⟩))

theorem mem_symbol {u l : Str} {protos objs : List Proto} {p : Proto} (hp : p ∈ protos ++ objs) :
    ∀ x ∈ [p.symbol, u ++ (str% "_" ++ (str% "RAWPTR_" ++ p.symbol)), u ++ (str% "_" ++ (str% "PTR_" ++ p.symbol))], x ∈ symbolNames u l protos objs :=
  fun _ hx => List.mem_cons_of_mem _ (List.mem_append_right _ (List.mem_flatMap.mpr ⟨p, hp, hx⟩))

theorem Based.mid {E : Str → Option Macro} {u l : Str} {protos objs : List Proto} {t t' : Table} (h : Based E (known E t) u l protos objs)
    (ht : ∀ y ∈ symbolNames u l protos objs, t'.lookup y = none) : Based E (known E (t' ++ t)) u l protos objs := by
  refine ⟨fun p hp => ?_, ?_, fun p hp => ?_, fun x hx => ?_, fun p hp => ?_⟩
  · rw [known_append_none (ht _ (mem_symbol hp _ (by rw [rawName_eq]; simp))), h.raw p hp]
  · rw [known_append_none (ht _ (by simp [symbolNames])), h.space]
  · rw [known_append_none (ht _ (mem_symbol hp _ (by simp))), h.member p hp]
  · rw [known_append_none (ht _ (mem_config hx)), h.config x hx]
  · rw [known_append_none (ht _ (mem_symbol hp _ (by simp))), h.symbol p hp]

/-- With the tested names. -/
structure Tabled' (E E' : Str → Option Macro) (u l : Str) (protos objs : List Proto) (functions objects wrap : Bool) : Prop extends
    Tabled E E' u l protos objs functions objects wrap where
  config : ∀ x ∈ configNames, E' (u ++ (str% "_" ++ x)) = E (u ++ (str% "_" ++ x))

theorem Tabled'.mid {E : Str → Option Macro} {u l : Str} {protos objs : List Proto} {t t' : Table} {a b w : Bool} (h : Tabled' E (known E t) u l protos objs a b w)
    (ht : ∀ y ∈ symbolNames u l protos objs, t'.lookup y = none) : Tabled' E (known E (t' ++ t)) u l protos objs a b w := by
  refine ⟨⟨fun p hp => ?_, ?_, fun p hp => ?_, ?_, fun p hp => ?_, fun p hp => ?_⟩, fun x hx => ?_⟩
  · rw [known_append_none (ht _ (mem_symbol hp _ (by rw [rawName_eq]; simp))), h.raw p hp]
  · rw [known_append_none (ht _ (by simp [symbolNames])), h.space]
  · rw [known_append_none (ht _ (mem_symbol hp _ (by simp))), h.member p hp]
  · rw [known_append_none (ht _ mem_alias), h.alias]
  · rw [known_append_none (ht _ (mem_symbol (List.mem_append_left _ hp) _ (by simp))), h.function p hp]
  · rw [known_append_none (ht _ (mem_symbol (List.mem_append_right _ hp) _ (by simp))), h.object p hp]
  · rw [known_append_none (ht _ (mem_config hx)), h.config x hx]

/-- Behind the end of the header. -/
theorem header_tabled {E : Str → Option Macro} {u l : Str} {protos objs : List Proto} {t : Table} (hN : Names u l protos objs) (h : Based E (known E t) u l protos objs) :
    Tabled' E (known E (headerTable u (isDefined (fun x => (E x).isSome) t) (newName u l) protos objs ++ t)) u l protos objs
      (Has E u (str% "SEPARATE") && !Has E u (str% "INCLUDED_IN_BODY") && !Has E u (str% "DISABLE_ALIASING") && !Has E u (str% "WRAP_VISIBILITY"))
      (Has E u (str% "SEPARATE") && !Has E u (str% "INCLUDED_IN_BODY") && !Has E u (str% "DISABLE_ALIASING"))
      (Has E u (str% "WRAP_FUNCTIONS") || Has E u (str% "ENABLE_AUTOLOAD")) := by
  have d : ∀ x ∈ configNames, isDefined (fun x => (E x).isSome) t (newName u l (str% "GDO_" ++ x)) = Has E u x := fun x hx => by
    rw [isDefined_isSome, newName_upper, h.config x hx]
    rfl
  have e : headerTable u (isDefined (fun x => (E x).isSome) t) (newName u l) protos objs =
      symbolTable u protos objs
        (Has E u (str% "SEPARATE") && !Has E u (str% "INCLUDED_IN_BODY") && !Has E u (str% "DISABLE_ALIASING") && !Has E u (str% "WRAP_VISIBILITY"))
        (Has E u (str% "SEPARATE") && !Has E u (str% "INCLUDED_IN_BODY") && !Has E u (str% "DISABLE_ALIASING")) ++
      [(u ++ (str% "_" ++ str% "FUNC_ALIAS"), some (aliasDef (if Has E u (str% "WRAP_FUNCTIONS") || Has E u (str% "ENABLE_AUTOLOAD") then u ++ str% "_WRAP_" else u ++ str% "_RAWPTR_")))] := by
    unfold headerTable headerActive wraps symbolTable
    have d1 := d (str% "SEPARATE") (by decide)
    have d2 := d (str% "INCLUDED_IN_BODY") (by decide)
    have d3 := d (str% "DISABLE_ALIASING") (by decide)
    have d4 := d (str% "WRAP_VISIBILITY") (by decide)
    have d5 := d (str% "WRAP_FUNCTIONS") (by decide)
    have d6 := d (str% "ENABLE_AUTOLOAD") (by decide)
    simp only [List.cons_append, List.nil_append] at d1 d2 d3 d4 d5 d6
    simp only [d1, d2, d3, d4, d5, d6, List.append_assoc]
    refine congrArg _ (congrArg _ ?_)
    have e1 : newName u l (str% "GDO_FUNC_ALIAS") = u ++ (str% "_" ++ str% "FUNC_ALIAS") := newName_upper u l (str% "FUNC_ALIAS")
    rw [e1]
    refine congrArg (fun m => [(u ++ (str% "_" ++ str% "FUNC_ALIAS"), some m)]) ?_
    have e2 : newName u l (str% "GDO_WRAP_") = u ++ str% "_WRAP_" := newName_upper u l (str% "WRAP_")
    have e3 : newName u l (str% "GDO_RAWPTR_") = u ++ str% "_RAWPTR_" := newName_upper u l (str% "RAWPTR_")
    have e4 : newName u l (str% "x") = str% "x" := by simp [newName, List.isPrefixOf]
    cases Has E u (str% "WRAP_FUNCTIONS") || Has E u (str% "ENABLE_AUTOLOAD") <;> simp [renMacro, aliasMacro, aliasDef, renT, renTok, e2, e3, e4]
  rw [e, List.append_assoc]
  have skip : ∀ {x : Str}, (∀ p ∈ protos ++ objs, p.symbol ≠ x) → x ≠ u ++ (str% "_" ++ str% "FUNC_ALIAS") → ∀ a b m,
      known E (symbolTable u protos objs a b ++ ([(u ++ (str% "_" ++ str% "FUNC_ALIAS"), m)] ++ t)) x = known E t x := fun {x} h1 h2 a b m => by
    rw [known_append_none (symbolTable_none h1)]
    exact known_cons_ne h2
  refine ⟨⟨fun p hp => ?_, ?_, fun p hp => ?_, ?_, fun p hp => ?_, fun p hp => ?_⟩, fun x hx => ?_⟩
  · rw [skip (fun q hq => by rw [rawName_eq]; exact hN.own q hq _) (fun e => by
      rw [rawName_eq] at e
      have := prefixed_inj e
      simp at this), h.raw p hp]
  · rw [skip (fun q hq => hN.space q hq) (hN.space' _), h.space]
  · rw [skip (fun q hq => hN.own q hq _) (fun e => by
      have := prefixed_inj e
      simp at this), h.member p hp]
  · rw [known_append_none (symbolTable_none fun q hq => hN.own q hq _)]
    exact known_cons_eq
  · have hp' := List.mem_append_left objs hp
    rw [show ∀ a b m, known E (symbolTable u protos objs a b ++ ([(u ++ (str% "_" ++ str% "FUNC_ALIAS"), m)] ++ t)) p.symbol =
        if a then some ⟨none, false, aliasBody u p⟩ else E p.symbol from fun a b m => ?_]
    have e1 := symbolTable_function (u := u) (a := a) (b := b) hp fun o ho => hN.apart p hp o ho
    cases a with
    | true =>
      unfold known
      rw [List.lookup_append, e1]
      rfl
    | false =>
      rw [known_append_none e1]
      exact (known_cons_ne (hN.own p hp' _)).trans (h.symbol p hp')
  · have hp' := List.mem_append_right protos hp
    rw [show ∀ a b m, known E (symbolTable u protos objs a b ++ ([(u ++ (str% "_" ++ str% "FUNC_ALIAS"), m)] ++ t)) p.symbol =
        if b then some ⟨none, false, objectBody u p⟩ else E p.symbol from fun a b m => ?_]
    have e1 := symbolTable_object (u := u) (a := a) (b := b) hp fun q hq => hN.apart q hq p hp
    cases b with
    | true =>
      unfold known
      rw [List.lookup_append, e1]
      rfl
    | false =>
      rw [known_append_none e1]
      exact (known_cons_ne (hN.own p hp' _)).trans (h.symbol p hp')
  · rw [skip (fun q hq => hN.own q hq _) (fun e => by
      have e := prefixed_inj e
      subst e
      simp [configNames] at hx), h.config x hx]

/-- Behind the end of the body. -/
theorem body_tabled {E : Str → Option Macro} {u l : Str} {protos objs : List Proto} {t : Table} {a b w : Bool} (hN : Names u l protos objs)
    (h : Tabled' E (known E t) u l protos objs a b w) :
    Tabled' E (known E (bodyTable u (isDefined (fun x => (E x).isSome) t) (newName u l) protos objs ++ t)) u l protos objs
      (a || (!Has E u (str% "SEPARATE") && !Has E u (str% "DISABLE_ALIASING") && !Has E u (str% "WRAP_VISIBILITY")))
      (b || (!Has E u (str% "SEPARATE") && !Has E u (str% "DISABLE_ALIASING"))) w := by
  have d : ∀ x ∈ configNames, isDefined (fun x => (E x).isSome) t (newName u l (str% "GDO_" ++ x)) = Has E u x := fun x hx => by
    rw [isDefined_isSome, newName_upper, h.config x hx]
    rfl
  have e : bodyTable u (isDefined (fun x => (E x).isSome) t) (newName u l) protos objs =
      [(u ++ (str% "_" ++ str% "SET_LAST_ERRNO"), none)] ++ symbolTable u protos objs
        (!Has E u (str% "SEPARATE") && !Has E u (str% "DISABLE_ALIASING") && !Has E u (str% "WRAP_VISIBILITY"))
        (!Has E u (str% "SEPARATE") && !Has E u (str% "DISABLE_ALIASING")) := by
    unfold bodyTable bodyActive symbolTable
    have d1 := d (str% "SEPARATE") (by decide)
    have d3 := d (str% "DISABLE_ALIASING") (by decide)
    have d4 := d (str% "WRAP_VISIBILITY") (by decide)
    simp only [List.cons_append, List.nil_append] at d1 d3 d4
    simp only [d1, d3, d4]
    have e2 : newName u l (str% "GDO_SET_LAST_ERRNO") = u ++ (str% "_" ++ str% "SET_LAST_ERRNO") := newName_upper u l (str% "SET_LAST_ERRNO")
    rw [e2]
    rfl
  rw [e, List.append_assoc]
  have undone : ∀ {x : Str}, x ≠ u ++ (str% "_" ++ str% "SET_LAST_ERRNO") → ∀ T : Table,
      known E ([(u ++ (str% "_" ++ str% "SET_LAST_ERRNO"), none)] ++ T) x = known E T x := fun {x} h1 T =>
    known_cons_ne h1
  have skip : ∀ {x : Str}, (∀ p ∈ protos ++ objs, p.symbol ≠ x) → x ≠ u ++ (str% "_" ++ str% "SET_LAST_ERRNO") → ∀ a b,
      known E ([(u ++ (str% "_" ++ str% "SET_LAST_ERRNO"), none)] ++ (symbolTable u protos objs a b ++ t)) x = known E t x :=
    fun {x} h1 h2 a b => by
    rw [undone h2, known_append_none (symbolTable_none h1)]
  have other : ∀ {x y : Str}, x ≠ y → u ++ (str% "_" ++ x) ≠ u ++ (str% "_" ++ y) := fun h e => h (prefixed_inj e)
  refine ⟨⟨fun p hp => ?_, ?_, fun p hp => ?_, ?_, fun p hp => ?_, fun p hp => ?_⟩, fun x hx => ?_⟩
  · rw [rawName_eq, skip (fun q hq => hN.own q hq _) (other (by simp)), ← rawName_eq, h.raw p hp]
  · rw [skip (fun q hq => hN.space q hq) (hN.space' _), h.space]
  · rw [skip (fun q hq => hN.own q hq _) (other (by simp)), h.member p hp]
  · rw [skip (fun q hq => hN.own q hq _) (other (by simp)), h.alias]
  · have hp' := List.mem_append_left objs hp
    rw [undone (hN.own p hp' _)]
    have e1 := fun a b => symbolTable_function (u := u) (a := a) (b := b) hp fun o ho => hN.apart p hp o ho
    generalize (!Has E u (str% "SEPARATE") && !Has E u (str% "DISABLE_ALIASING") && !Has E u (str% "WRAP_VISIBILITY")) = a'
    cases a' with
    | true =>
      unfold known
      rw [List.lookup_append, e1, Bool.or_true]
      rfl
    | false => rw [known_append_none (e1 _ _), h.function p hp, Bool.or_false]
  · have hp' := List.mem_append_right protos hp
    rw [undone (hN.own p hp' _)]
    have e1 := fun a b => symbolTable_object (u := u) (a := a) (b := b) hp fun q hq => hN.apart q hq p hp
    generalize (!Has E u (str% "SEPARATE") && !Has E u (str% "DISABLE_ALIASING") && !Has E u (str% "WRAP_VISIBILITY")) = a'
    generalize (!Has E u (str% "SEPARATE") && !Has E u (str% "DISABLE_ALIASING")) = b'
    cases b' with
    | true =>
      unfold known
      rw [List.lookup_append, e1, Bool.or_true]
      rfl
    | false => rw [known_append_none (e1 _ _), h.object p hp, Bool.or_false]
  · refine (skip (fun q hq => hN.own q hq _) (other ?_) _ _).trans (h.config x hx)
    rintro rfl
    simp [configNames] at hx

variable {E : Str → Option Macro} {u l : Str} {protos objs : List Proto} {inc : List T → Table} {mid mid' : Str}

theorem C108_header (hN : Names u l protos objs) (h1 : E l = none) (h2 : ∀ p ∈ protos ++ objs, E (u ++ (str% "_" ++ (str% "PTR_" ++ p.symbol))) = none)
    (hm : Harmless inc (symbolNames u l protos objs) mid) :
    ∃ E', after inc E (pointerPart u l protos objs ++ (mid ++ headerPart u l protos objs)) = some E' ∧
      Stands E E' u l protos objs
        (Has E u (str% "SEPARATE") && !Has E u (str% "INCLUDED_IN_BODY") && !Has E u (str% "DISABLE_ALIASING") && !Has E u (str% "WRAP_VISIBILITY"))
        (Has E u (str% "SEPARATE") && !Has E u (str% "INCLUDED_IN_BODY") && !Has E u (str% "DISABLE_ALIASING"))
        (Has E u (str% "WRAP_FUNCTIONS") || Has E u (str% "ENABLE_AUTOLOAD")) := by
  obtain ⟨t', e1, e2⟩ := run_harmless hm (fun x => (E x).isSome) (defs (rawName u) (rawBody u l) (protos ++ objs) ++ []) (headerPart u l protos objs)
  refine ⟨_, after_run (t := headerTable u (isDefined (fun x => (E x).isSome) (t' ++ (defs (rawName u) (rawBody u l) (protos ++ objs) ++ []))) (newName u l) protos objs ++
    (t' ++ (defs (rawName u) (rawBody u l) (protos ++ objs) ++ []))) ?_, ?_⟩
  · unfold pointerPart
    rw [run_raw hN.prefixes hN.functions hN.objects, e1, show headerPart u l protos objs = headerPart u l protos objs ++ [] from by simp, headerPart_eq]
    unfold Gdo.Cpp.headerPart
    rw [run_header hN.prefixes hN.functions hN.objects]
    rfl
  · refine (header_tabled hN (Based.mid ?_ e2)).toTabled.stands hN
    rw [List.append_nil]
    exact raw_based hN h1 h2

theorem both (hN : Names u l protos objs) (h1 : E l = none) (h2 : ∀ p ∈ protos ++ objs, E (u ++ (str% "_" ++ (str% "PTR_" ++ p.symbol))) = none)
    (hm : Harmless inc (symbolNames u l protos objs) mid) (hm' : Harmless inc (symbolNames u l protos objs) mid') :
    ∃ E', after inc E (pointerPart u l protos objs ++ (mid ++ (headerPart u l protos objs ++ (mid' ++ bodyPart u l protos objs)))) = some E' ∧
      Stands E E' u l protos objs
        ((Has E u (str% "SEPARATE") && !Has E u (str% "INCLUDED_IN_BODY") && !Has E u (str% "DISABLE_ALIASING") && !Has E u (str% "WRAP_VISIBILITY")) ||
          (!Has E u (str% "SEPARATE") && !Has E u (str% "DISABLE_ALIASING") && !Has E u (str% "WRAP_VISIBILITY")))
        ((Has E u (str% "SEPARATE") && !Has E u (str% "INCLUDED_IN_BODY") && !Has E u (str% "DISABLE_ALIASING")) ||
          (!Has E u (str% "SEPARATE") && !Has E u (str% "DISABLE_ALIASING")))
        (Has E u (str% "WRAP_FUNCTIONS") || Has E u (str% "ENABLE_AUTOLOAD")) := by
  obtain ⟨t', e1, e2⟩ := run_harmless hm (fun x => (E x).isSome) (defs (rawName u) (rawBody u l) (protos ++ objs) ++ [])
    (headerPart u l protos objs ++ (mid' ++ bodyPart u l protos objs))
  rw [headerPart_eq] at e1
  have e3 := run_header hN.prefixes hN.functions hN.objects inc (fun x => (E x).isSome) (t' ++ (defs (rawName u) (rawBody u l) (protos ++ objs) ++ [])) (mid' ++ bodyPart u l protos objs)
  have b1 : Based E (known E (defs (rawName u) (rawBody u l) (protos ++ objs) ++ [])) u l protos objs := by
    rw [List.append_nil]
    exact raw_based hN h1 h2
  have b2 := header_tabled hN (b1.mid e2)
  generalize headerTable u (isDefined (fun x => (E x).isSome) (t' ++ (defs (rawName u) (rawBody u l) (protos ++ objs) ++ []))) (newName u l) protos objs ++
    (t' ++ (defs (rawName u) (rawBody u l) (protos ++ objs) ++ [])) = th at b2 e3
  obtain ⟨t'', e4, e5⟩ := run_harmless hm' (fun x => (E x).isSome) th (bodyPart u l protos objs)
  have b3 := body_tabled hN (b2.mid e5)
  refine ⟨_, after_run ?_, b3.toTabled.stands hN⟩
  unfold pointerPart
  rw [run_raw hN.prefixes hN.functions hN.objects, headerPart_eq, e1]
  unfold Gdo.Cpp.headerPart
  rw [e3, e4, show bodyPart u l protos objs = bodyPart u l protos objs ++ [] from by simp]
  unfold bodyPart
  rw [run_body hN.prefixes hN.functions hN.objects]
  rfl

/-- The body file of separate output: nothing is renamed in it. -/
theorem C108_body (hN : Names u l protos objs) (h1 : E l = none) (h2 : ∀ p ∈ protos ++ objs, E (u ++ (str% "_" ++ (str% "PTR_" ++ p.symbol))) = none)
    (hm : Harmless inc (symbolNames u l protos objs) mid) (hm' : Harmless inc (symbolNames u l protos objs) mid')
    (h3 : Has E u (str% "SEPARATE") = true) (h4 : Has E u (str% "INCLUDED_IN_BODY") = true) :
    ∃ E', after inc E (pointerPart u l protos objs ++ (mid ++ (headerPart u l protos objs ++ (mid' ++ bodyPart u l protos objs)))) = some E' ∧
      Stands E E' u l protos objs false false (Has E u (str% "WRAP_FUNCTIONS") || Has E u (str% "ENABLE_AUTOLOAD")) := by
  have := both (mid := mid) (mid' := mid') hN h1 h2 hm hm'
  rw [h3, h4] at this
  exact this

/-- A single file: the functions are renamed unless their wrappers are visible. -/
theorem C108_single (hN : Names u l protos objs) (h1 : E l = none) (h2 : ∀ p ∈ protos ++ objs, E (u ++ (str% "_" ++ (str% "PTR_" ++ p.symbol))) = none)
    (hm : Harmless inc (symbolNames u l protos objs) mid) (hm' : Harmless inc (symbolNames u l protos objs) mid') (h3 : Has E u (str% "SEPARATE") = false) :
    ∃ E', after inc E (pointerPart u l protos objs ++ (mid ++ (headerPart u l protos objs ++ (mid' ++ bodyPart u l protos objs)))) = some E' ∧
      Stands E E' u l protos objs (!Has E u (str% "DISABLE_ALIASING") && !Has E u (str% "WRAP_VISIBILITY")) (!Has E u (str% "DISABLE_ALIASING"))
        (Has E u (str% "WRAP_FUNCTIONS") || Has E u (str% "ENABLE_AUTOLOAD")) := by
  have := both (mid := mid) (mid' := mid') hN h1 h2 hm hm'
  rw [h3] at this
  simpa using this

/-! ### Where the code is wrong -/

/-- A function with the name of the namespace: the name of every other function becomes
something that is no expression (cxx.hpp 427, 507). -/
theorem C108_space_violated : (after (fun _ => []) separate
      (pointerPart (str% "GDO") (str% "gdo") [{ aFunction with symbol := str% "gdo" }, aFunction] [] ++ headerPart (str% "GDO") (str% "gdo") [{ aFunction with symbol := str% "gdo" }, aFunction] [])).bind
      (fun E' => (expand E' 20 [⟨[], true, .ident (str% "foo")⟩]).map (·.map (·.tok))) =
    some [.ident (str% "GDO_FUNC_ALIAS"), .punct (str% "("), .ident (str% "gdo"), .punct (str% ")"), .punct (str% "::"), .ident (str% "GDO_PTR_foo")] := by
  decide +kernel

/-- Where objects are renamed, `object[i]` is `*` of `prefix::PTR_object[i]`: there are no
parentheses around the macro (cxx.hpp 511, cxx.cpp 1083). -/
theorem C108_object_violated {a w : Bool} (h : Stands E E' u l protos objs a true w) {o : Proto} (ho : o ∈ objs) (i : Str) :
    ∃ k, ∀ sp s1 s2 s3 n, ∃ out, expand E' (n + k) [⟨[], sp, .ident o.symbol⟩, ⟨[], s1, .punct (str% "[")⟩, ⟨[], s2, .num i⟩, ⟨[], s3, .punct (str% "]")⟩] = some out ∧
      out.map (·.tok) = .punct (str% "*") :: pointer u l o ++ [.punct (str% "["), .num i, .punct (str% "]")] ∧
      out.map (·.tok) ≠ .punct (str% "(") :: .punct (str% "*") :: pointer u l o ++ [.punct (str% ")"), .punct (str% "["), .num i, .punct (str% "]")] := by
  obtain ⟨k, hk⟩ := h.object rfl o ho
  refine ⟨k + 4, fun sp s1 s2 s3 n => ?_⟩
  obtain ⟨out, e1, e2⟩ := hk sp [⟨[], s1, .punct (str% "[")⟩, ⟨[], s2, .num i⟩, ⟨[], s3, .punct (str% "]")⟩] (n + 4)
  rw [show n + (k + 4) = n + 4 + k from by omega, e2]
  refine ⟨out ++ [⟨[], s1, .punct (str% "[")⟩, ⟨[], s2, .num i⟩, ⟨[], s3, .punct (str% "]")⟩], by simp [expand], ?_, ?_⟩
  · rw [List.map_append, e1]
    rfl
  · rw [List.map_append, e1]
    simp [pointer]

/-! ### Examples -/

theorem named : Names (str% "GDO") (str% "gdo") [aFunction] [anObject] := by
  refine ⟨Gdo.Cpp.named.prefixes, Gdo.Cpp.named.functions, Gdo.Cpp.named.objects, Gdo.Cpp.named.own, ?_, ?_, ?_⟩ <;> decide

/-- What the renamed names mean in separate output. -/
example : ∃ E', after (fun _ => []) separate (pointerPart (str% "GDO") (str% "gdo") [aFunction] [anObject] ++ ([] ++ headerPart (str% "GDO") (str% "gdo") [aFunction] [anObject])) = some E' ∧
    Becomes E' (str% "foo") [.ident (str% "gdo"), .punct (str% "::"), .ident (str% "GDO_PTR_foo")] ∧
    Becomes E' (str% "bar") [.punct (str% "*"), .ident (str% "gdo"), .punct (str% "::"), .ident (str% "GDO_PTR_bar")] := by
  obtain ⟨E', h1, h2⟩ := C108_header (E := separate) (inc := fun _ => []) (mid := []) named (by decide) (by decide) (.inl rfl)
  exact ⟨E', h1, h2.function (by decide) (by decide) aFunction (by simp), h2.object (by decide) anObject (by simp)⟩

/-- The body. -/
example : ∃ E', after (fun _ => []) inBody (pointerPart (str% "GDO") (str% "gdo") [aFunction] [anObject] ++ ([] ++ (headerPart (str% "GDO") (str% "gdo") [aFunction] [anObject] ++
      ([] ++ bodyPart (str% "GDO") (str% "gdo") [aFunction] [anObject])))) = some E' ∧
    Stands inBody E' (str% "GDO") (str% "gdo") [aFunction] [anObject] false false false :=
  C108_body named (by decide) (by decide) (.inl rfl) (.inl rfl) (by decide) (by decide)

/-- A single file whose wrappers are visible: unlike in C the functions keep their names. -/
example : ∃ E', after (fun _ => []) visible (pointerPart (str% "GDO") (str% "gdo") [aFunction] [anObject] ++ ([] ++
      (headerPart (str% "GDO") (str% "gdo") [aFunction] [anObject] ++ ([] ++ bodyPart (str% "GDO") (str% "gdo") [aFunction] [anObject])))) = some E' ∧
    Stands visible E' (str% "GDO") (str% "gdo") [aFunction] [anObject] false true true :=
  C108_single named (by decide) (by decide) (.inl rfl) (.inl rfl) (by decide)

end Gdo.Cpp.Cxx
