import Verif.Props.GenerateText

/-!
Properties C40, C41 and C62: definitions, header guards and `#line` directives of the
header.
-/

namespace Gdo.Gen
open Gdo Tpl Opt GenSpec Sub

/-! ### C40 -/

/-- A guarded definition. -/
def guarded (name value : Str) : Str :=
  str% "#ifndef " ++ name ++ str% "\n# define " ++ name ++ value ++ str% "\n#endif\n"

/-- The name of a definition: not empty, without white space around it. -/
def Core (n : Str) : Prop :=
  n ≠ [] ∧ (∀ c, n.head? = some c → isSpace c = false) ∧ ∀ c, n.getLast? = some c → isSpace c = false

/-- `-D name=value`, with white space around the name. -/
theorem C40_define (s : Settings) (p n q v : Str) (hp : ∀ c ∈ p, isSpace c = true) (hq : ∀ c ∈ q, isSpace c = true) (hn : Core n)
    (he : '=' ∉ n) : addDef (p ++ n ++ q ++ str% "=" ++ v) s = { s with defines := s.defines ++ guarded n (str% " " ++ v) } := by
  have hno : '=' ∉ p ++ n ++ q := by
    have hs : isSpace '=' = false := by decide
    simp only [List.mem_append, not_or]
    refine ⟨⟨fun h => ?_, he⟩, fun h => ?_⟩
    · rw [hp _ h] at hs; cases hs
    · rw [hq _ h] at hs; cases hs
  have hsplit : splitFirst (str% "=") (p ++ n ++ q ++ str% "=" ++ v) = some (p ++ n ++ q, v) := by
    apply splitFirst_eq
    intro a b h
    by_cases hl : (p ++ n ++ q).length ≤ a.length
    · exact hl
    · exfalso
      rw [List.append_assoc (p ++ n ++ q), List.append_assoc a] at h
      have h1 := congrArg (fun l : Str => l[a.length]?) h
      simp only [List.getElem?_append_left (Nat.lt_of_not_le hl), List.getElem?_append_right (Nat.le_refl _)] at h1
      simp only [Nat.sub_self, List.cons_append, List.getElem?_cons_zero] at h1
      exact hno (List.mem_of_getElem? h1)
  unfold addDef
  simp only [hsplit, stripSpaces_core hp hq hn.2.1 hn.2.2 hn.1]
  rw [if_neg (by simp [List.isEmpty_iff, hn.1])]
  simp [guarded]

/-- `-D name`. -/
theorem C40_define_plain (s : Settings) (p n q : Str) (hp : ∀ c ∈ p, isSpace c = true) (hq : ∀ c ∈ q, isSpace c = true) (hn : Core n)
    (he : '=' ∉ n) : addDef (p ++ n ++ q) s = { s with defines := s.defines ++ guarded n [] } := by
  have hsplit : splitFirst (str% "=") (p ++ n ++ q) = none := by
    rw [splitFirst_none]
    rintro ⟨a, b, h⟩
    have hs : isSpace '=' = false := by decide
    have hm : '=' ∈ p ++ n ++ q := by rw [h]; simp
    simp only [List.mem_append] at hm
    rcases hm with (h | h) | h
    · rw [hp _ h] at hs; cases hs
    · exact he h
    · rw [hq _ h] at hs; cases hs
  unfold addDef
  simp only [hsplit, stripSpaces_core hp hq hn.2.1 hn.2.2 hn.1]
  rw [if_neg (by simp [List.isEmpty_iff, hn.1])]
  simp [guarded]

example : Core (str% "A B") ∧ '=' ∉ (str% "A B") := by
  refine ⟨⟨by decide, ?_, ?_⟩, by decide⟩ <;> · intro c hc; cases hc; decide

/-- A definition without a name is dropped without a message. -/
theorem C40_violated (s : Settings) (p v : Str) (hp : ∀ c ∈ p, isSpace c = true) : addDef (p ++ str% "=" ++ v) s = s := by
  have hno : '=' ∉ p := by
    have hs : isSpace '=' = false := by decide
    intro h
    rw [hp _ h] at hs; cases hs
  have hsplit : splitFirst (str% "=") (p ++ str% "=" ++ v) = some (p, v) := by
    apply splitFirst_eq
    intro a b h
    by_cases hl : p.length ≤ a.length
    · exact hl
    · exfalso
      rw [List.append_assoc, List.append_assoc] at h
      have h1 := congrArg (fun l : Str => l[a.length]?) h
      simp only [List.getElem?_append_left (Nat.lt_of_not_le hl), List.getElem?_append_right (Nat.le_refl _)] at h1
      simp only [Nat.sub_self, List.cons_append, List.getElem?_cons_zero] at h1
      exact hno (List.mem_of_getElem? h1)
  unfold addDef
  simp only [hsplit]
  rw [if_pos (by simp [stripSpaces, stripBack_spaces hp, stripFront])]

example : ∀ c ∈ (str% " "), isSpace c = true := by decide

/-- A text enclosed in quotes or angle brackets. -/
def Enclosed (s : Str) : Prop := ∃ x, s = str% "\"" ++ x ++ str% "\"" ∨ s = str% "<" ++ x ++ str% ">"

theorem enclosed_iff (s : Str) : (2 ≤ s.length && (((str% "<").isPrefixOf s && (str% ">").isSuffixOf s) ||
    ((str% "\"").isPrefixOf s && (str% "\"").isSuffixOf s))) = true ↔ Enclosed s := by
  simp only [Bool.and_eq_true, Bool.or_eq_true, decide_eq_true_eq, List.isPrefixOf_iff_prefix, List.isSuffixOf_iff_suffix]
  constructor
  · rintro ⟨hl, ⟨⟨a, rfl⟩, ⟨b, hb⟩⟩ | ⟨⟨a, rfl⟩, ⟨b, hb⟩⟩⟩
    · cases b with
      | nil => simp at hb
      | cons c b =>
        simp only [List.cons_append, List.nil_append, List.cons.injEq] at hb
        exact ⟨b, .inr (by simp [hb.2])⟩
    · cases b with
      | nil =>
        simp at hb
        subst hb
        simp at hl
      | cons c b =>
        simp only [List.cons_append, List.nil_append, List.cons.injEq] at hb
        exact ⟨b, .inl (by simp [hb.2])⟩
  · rintro ⟨x, rfl | rfl⟩
    · exact ⟨by simp, .inr ⟨⟨x ++ str% "\"", by simp⟩, ⟨str% "\"" ++ x, by simp⟩⟩⟩
    · exact ⟨by simp, .inl ⟨⟨x ++ str% ">", by simp⟩, ⟨str% "<" ++ x, by simp⟩⟩⟩

/-- What `-include` adds. -/
theorem C40_include (s : Settings) (inc : Str) :
    (∀ m x, inc = m ++ x → m.map toLowerC = str% "nq:" → x ≠ [] → addInc inc s = { s with includes := s.includes ++ [x] }) ∧
    (¬ HasMode (str% "nq:") inc → Enclosed inc → addInc inc s = { s with includes := s.includes ++ [inc] }) ∧
    (¬ HasMode (str% "nq:") inc → ¬ Enclosed inc → addInc inc s = { s with includes := s.includes ++ [str% "\"" ++ inc ++ str% "\""] }) := by
  refine ⟨?_, ?_, ?_⟩
  · rintro m x rfl hm hx
    have hp : prefixedAndLongerCase (m ++ x) (str% "nq:") = true := (mode_iff _ _ rfl).mpr ⟨m, x, rfl, hm, hx⟩
    have hl : m.length = 3 := by have := congrArg List.length hm; simpa using this
    unfold addInc
    simp only
    rw [if_pos hp, show (3 : Nat) = m.length from hl.symm, List.drop_left]
  · intro h1 h2
    unfold addInc
    simp only
    rw [if_neg (mt (mode_iff _ _ rfl).mp h1), if_pos ((enclosed_iff inc).mpr h2)]
  · intro h1 h2
    unfold addInc
    simp only
    rw [if_neg (mt (mode_iff _ _ rfl).mp h1), if_neg (mt (enclosed_iff inc).mp h2)]

example : Enclosed (str% "<stdio.h>") ∧ ¬ HasMode (str% "nq:") (str% "<stdio.h>") :=
  ⟨⟨str% "stdio.h", .inr rfl⟩, fun h => by have := (mode_iff _ _ rfl).mpr h; revert this; decide⟩

theorem mid_infix (env : Env) (s : Settings) (d body : Str) (k : Nat) : midText env s d <:+: headerText env s d body k := by
  unfold headerText
  exact ⟨headText env s ++ (lineDirectiveText (headLines env s) s.lineDirective (headerName s)).1,
    body ++ (lineDirectiveText (headLines env s + (lineDirectiveText (headLines env s) s.lineDirective (headerName s)).2 +
      midLines env s d + k) s.lineDirective (headerName s)).1 ++
      guardEnd (headerName s) (toUpper s.pfx) s.pragmaOnce (Format.isCxx s.format), by simp only [List.append_assoc]⟩

/-- The definitions and the `#include` lines are part of the header. -/
theorem C40_written (env : Env) (s : Settings) (body : Str) (k : Nat) :
    s.defines <:+: headerText env s (allDefines env s) body k ∧
    ∀ i ∈ s.includes, str% "#include " ++ i ++ str% "\n" <:+: headerText env s (allDefines env s) body k := by
  constructor
  · refine List.IsInfix.trans ?_ (mid_infix env s _ body k)
    have : s.defines <:+: extraDefines (allDefines env s) := by
      unfold extraDefines
      split
      · rename_i h
        have h' : allDefines env s = [] := List.isEmpty_iff.mp h
        unfold allDefines at h'
        rw [(List.append_eq_nil_iff.mp h').1]
        exact ⟨[], [], rfl⟩
      · unfold allDefines
        exact ⟨str% "/* extra defines */\n", addedDefines s (isSeparate s)
          ((Common.getCommonPrefix (env.symbols.protos.map (·.symbol)) (env.symbols.objs.map (·.symbol))).getD []) env.symbols.protos ++ str% "\n",
          by simp only [List.append_assoc]⟩
    refine this.trans ?_
    exact ⟨guardBegin (headerName s) (toUpper s.pfx) s.pragmaOnce (Format.isCxx s.format) ++ savedText s (env.builtin .filenameMacros),
      includesText s.includes (Format.isCxx s.format) ++ typedefsText env.symbols.typedefs, by simp only [midText, List.append_assoc]⟩
  · intro i hi
    refine List.IsInfix.trans ?_ (mid_infix env s _ body k)
    obtain ⟨l, r, hlr⟩ := List.append_of_mem hi
    have : str% "#include " ++ i ++ str% "\n" <:+: includesText s.includes (Format.isCxx s.format) := by
      unfold includesText
      rw [hlr, List.flatMap_append, List.flatMap_cons]
      exact ⟨str% "/* extra headers */\n" ++
        (if Format.isCxx s.format then str% "#include <cstddef>\n#include <cstring>\n" else str% "#include <stddef.h>\n#include <string.h>\n") ++
        (l.flatMap fun e => str% "#include " ++ e ++ str% "\n"), (r.flatMap fun e => str% "#include " ++ e ++ str% "\n") ++ str% "\n", by
        simp only [List.append_assoc]⟩
    refine this.trans ?_
    exact ⟨guardBegin (headerName s) (toUpper s.pfx) s.pragmaOnce (Format.isCxx s.format) ++ savedText s (env.builtin .filenameMacros) ++
      extraDefines (allDefines env s), typedefsText env.symbols.typedefs, by simp only [midText, List.append_assoc]⟩

/-- The standard headers of the language are included, and a header in C can be used from
    C++; a header that is not written to a file has the extension of the language. -/
theorem C40_standard (env : Env) (s : Settings) (body : Str) (k : Nat) :
    (s.format = .cxx ∨ s.format = .minimalCxx →
      str% "#include <cstddef>\n#include <cstring>\n" <:+: headerText env s (allDefines env s) body k ∧
      (s.output = str% "-" → headerName s = s.pfx ++ str% ".hpp")) ∧
    (s.format = .c ∨ s.format = .minimal ∨ s.format = .plugin →
      str% "#include <stddef.h>\n#include <string.h>\n" <:+: headerText env s (allDefines env s) body k ∧
      str% "#ifdef __cplusplus\nextern \"C\" {\n#endif\n" <:+: headerText env s (allDefines env s) body k ∧
      str% "#ifdef __cplusplus\n} /* extern \"C\" */\n#endif\n" <:+: headerText env s (allDefines env s) body k ∧
      (s.output = str% "-" → headerName s = s.pfx ++ str% ".h")) := by
  have inc : ∀ cxx, Format.isCxx s.format = cxx →
      (if cxx then str% "#include <cstddef>\n#include <cstring>\n" else str% "#include <stddef.h>\n#include <string.h>\n") <:+:
        headerText env s (allDefines env s) body k := by
    intro cxx h
    refine List.IsInfix.trans ?_ (mid_infix env s _ body k)
    subst h
    refine List.IsInfix.trans (l₂ := includesText s.includes (Format.isCxx s.format)) ?_ ?_
    · exact ⟨str% "/* extra headers */\n", (s.includes.flatMap fun e => str% "#include " ++ e ++ str% "\n") ++ str% "\n", by
        simp only [includesText, List.append_assoc]⟩
    · exact ⟨guardBegin (headerName s) (toUpper s.pfx) s.pragmaOnce (Format.isCxx s.format) ++ savedText s (env.builtin .filenameMacros) ++
        extraDefines (allDefines env s), typedefsText env.symbols.typedefs, by simp only [midText, List.append_assoc]⟩
  constructor
  · intro h
    have hc : Format.isCxx s.format = true := by rcases h with h | h <;> rw [h] <;> rfl
    refine ⟨inc true hc, ?_⟩
    intro ho
    unfold headerName
    rw [if_pos ho, hc]
    rfl
  · intro h
    have hc : Format.isCxx s.format = false := by rcases h with h | h | h <;> rw [h] <;> rfl
    refine ⟨inc false hc, ?_, ?_, ?_⟩
    · refine List.IsInfix.trans ?_ (mid_infix env s _ body k)
      unfold midText guardBegin
      rw [hc]
      exact ⟨if s.pragmaOnce then str% "\n#pragma once\n\n" else str% "\n#ifndef " ++ guardName (headerName s) (toUpper s.pfx) ++ str% "\n#define " ++
        guardName (headerName s) (toUpper s.pfx) ++ str% "\n\n", str% "\n" ++ (savedText s (env.builtin .filenameMacros) ++
        (extraDefines (allDefines env s) ++ (includesText s.includes false ++ typedefsText env.symbols.typedefs))), by
        rw [if_neg (show ¬ (false = true) by decide), show (str% "#ifdef __cplusplus\nextern \"C\" {\n#endif\n\n") = str% "#ifdef __cplusplus\nextern \"C\" {\n#endif\n" ++ str% "\n" from rfl]
        simp only [List.append_assoc]⟩
    · refine List.IsInfix.trans (l₂ := guardEnd (headerName s) (toUpper s.pfx) s.pragmaOnce (Format.isCxx s.format)) ?_ ?_
      · unfold guardEnd
        rw [hc, if_neg (by decide)]
        exact ⟨[], _, rfl⟩
      · unfold headerText
        exact (List.suffix_append _ _).isInfix
    · intro ho
      unfold headerName
      rw [if_pos ho, hc]
      rfl

example : ({ format := .minimalCxx } : Settings).format = .cxx ∨ ({ format := .minimalCxx } : Settings).format = .minimalCxx := .inr rfl

/-! ### C41 -/

theorem toUpper_ident {s : Str} : ∀ c ∈ toUpper s, isIdent c = true := by
  intro c hc
  unfold toUpper at hc
  simp only [if_true, List.mem_map] at hc
  obtain ⟨d, _, rfl⟩ := hc
  split
  · rename_i h
    unfold toUpperC
    split
    · rename_i hl
      have key : ∀ k : Fin 26, isIdent (Char.ofNat (65 + k)) = true := by decide
      unfold isLower at hl
      simp only [Bool.and_eq_true, decide_eq_true_eq, Char.le_def, UInt32.le_iff_toNat_le] at hl
      have h1 : 97 ≤ d.toNat := hl.1
      have h2 : d.toNat ≤ 122 := hl.2
      have := key ⟨d.toNat - 97, by omega⟩
      rw [show 65 + ((⟨d.toNat - 97, by omega⟩ : Fin 26) : Nat) = d.toNat - 32 by show 65 + (d.toNat - 97) = _; omega] at this
      exact this
    · simp [isIdent, h]
  · decide

/-- The name of the guard is an identifier. -/
theorem C41_name (header pfx : Str) : ∀ c ∈ guardName header (toUpper pfx), isIdent c = true := by
  intro c hc
  unfold guardName at hc
  simp only [List.mem_append, List.mem_singleton] at hc
  rcases hc with (((rfl | h) | rfl) | h) | rfl
  · decide
  · exact toUpper_ident c h
  · decide
  · exact toUpper_ident c h
  · decide

theorem ident_no_nl {s : Str} (h : ∀ c ∈ s, isIdent c = true) : '\n' ∉ s := fun hc => by
  have := h _ hc
  revert this
  decide

theorem guard_no_nl (header pfx : Str) : '\n' ∉ guardName header (toUpper pfx) := ident_no_nl (C41_name header pfx)

theorem externC_begin : Balanced (str% "#ifdef __cplusplus\nextern \"C\" {\n#endif\n\n") :=
  ⟨.inr ⟨str% "#ifdef __cplusplus\nextern \"C\" {\n#endif\n", rfl⟩, fun _ => rfl⟩

theorem externC_end : Balanced (str% "#ifdef __cplusplus\n} /* extern \"C\" */\n#endif\n") :=
  ⟨.inr ⟨str% "#ifdef __cplusplus\n} /* extern \"C\" */\n#endif", rfl⟩, fun _ => rfl⟩

theorem bal_includes {incs : List Str} (h : ∀ i ∈ incs, '\n' ∉ i) (cxx : Bool) : Balanced (includesText incs cxx) := by
  unfold includesText
  refine ((Balanced.append ?_ ?_).append (Balanced.flatMap fun i hi => ?_)).append ⟨.inr ⟨[], rfl⟩, fun _ => rfl⟩
  · exact ⟨.inr ⟨str% "/* extra headers */", rfl⟩, fun _ => rfl⟩
  · split
    · exact ⟨.inr ⟨str% "#include <cstddef>\n#include <cstring>", rfl⟩, fun _ => rfl⟩
    · exact ⟨.inr ⟨str% "#include <stddef.h>\n#include <string.h>", rfl⟩, fun _ => rfl⟩
  · exact Balanced.line (by simp [h i hi]) rfl rfl

theorem bal_typedefs {ts : List Str} (h : ∀ i ∈ ts, '\n' ∉ i) : Balanced (typedefsText ts) := by
  unfold typedefsText
  split
  · exact Balanced.nil
  · refine (Balanced.append ?_ (Balanced.flatMap fun i hi => ?_)).append ⟨.inr ⟨[], rfl⟩, fun _ => rfl⟩
    · exact ⟨.inr ⟨str% "/* typedefs */", rfl⟩, fun _ => rfl⟩
    · have := Balanced.line (l := str% "typedef " ++ i ++ str% ";") (by simp [h i hi]) rfl rfl
      simpa using this

theorem bal_extra {d : Str} (h : Balanced d) : Balanced (extraDefines d) := by
  unfold extraDefines
  split
  · exact Balanced.nil
  · exact (Balanced.append ⟨.inr ⟨str% "/* extra defines */", rfl⟩, fun _ => rfl⟩ h).append ⟨.inr ⟨[], rfl⟩, fun _ => rfl⟩

theorem digits_no_nl (n : Nat) : '\n' ∉ Nat.toDigits 10 n := fun hc => by
  have := Nat.isDigit_of_mem_toDigits (by omega) (by omega) hc
  revert this
  decide

theorem bal_lineDirective {header : Str} (h : '\n' ∉ header) (n : Nat) (on : Bool) : Balanced (lineDirectiveText n on header).1 := by
  unfold lineDirectiveText
  split
  · have := Balanced.line (l := str% "#line " ++ Nat.toDigits 10 (n + 2) ++ str% " \"" ++ header ++ str% "\"")
      (by simp [h, digits_no_nl]) rfl rfl
    simpa using this
  · exact Balanced.nil

/-- `-D` keeps conditionals balanced. -/
theorem C41_define (s : Settings) (d : Str) (hd : '\n' ∉ d) (h : Balanced s.defines) : Balanced (addDef d s).defines := by
  have key : ∀ n v : Str, '\n' ∉ n → '\n' ∉ v → Balanced (guarded n v) := by
    intro n v hn hv
    have h1 : Balanced (str% "# define " ++ n ++ v ++ str% "\n") := Balanced.line (by simp [hn, hv]) rfl rfl
    have := Balanced.wrap (o := str% "#ifndef " ++ n) (c := str% "#endif") (by simp [hn]) rfl h1 (by decide) rfl rfl
    unfold guarded
    simpa using this
  have hstrip : ∀ x : Str, '\n' ∉ x → '\n' ∉ stripSpaces x := by
    intro x hx hc
    obtain ⟨_, p, q, e, _, _⟩ := stripSpaces_spec x
    exact hx (by rw [e]; simp [hc])
  unfold addDef
  cases hsp : splitFirst (str% "=") d with
  | none =>
    simp only
    split
    · exact h
    · have := h.append (key (stripSpaces d) [] (hstrip d hd) (by simp))
      simpa [guarded] using this
  | some r =>
    obtain ⟨a, b⟩ := r
    have e := (splitFirst_some hsp).1
    have ha : '\n' ∉ a := fun hc => hd (by rw [e]; simp [hc])
    have hb : '\n' ∉ b := fun hc => hd (by rw [e]; simp [hc])
    simp only
    split
    · exact h
    · have := h.append (key (stripSpaces a) (str% " " ++ b) (hstrip a ha) (by simp [hb]))
      simpa [guarded] using this

/-- The parts of the header that come from the templates and from the input. -/
structure Parts (env : Env) (s : Settings) (defines body : Str) : Prop where
  name : '\n' ∉ headerName s
  macros : Balanced (savedText s (env.builtin .filenameMacros))
  defines : Balanced defines
  includes : ∀ i ∈ s.includes, '\n' ∉ i
  typedefs : ∀ t ∈ env.symbols.typedefs, '\n' ∉ t
  body : Balanced body

theorem bal_inside {env : Env} {s : Settings} {defines body : Str} (h : Parts env s defines body) (n : Nat) :
    Balanced ((if Format.isCxx s.format then [] else str% "#ifdef __cplusplus\nextern \"C\" {\n#endif\n\n") ++
      savedText s (env.builtin .filenameMacros) ++ extraDefines defines ++ includesText s.includes (Format.isCxx s.format) ++
      typedefsText env.symbols.typedefs ++ body ++ (lineDirectiveText n s.lineDirective (headerName s)).1 ++
      (if Format.isCxx s.format then [] else str% "#ifdef __cplusplus\n} /* extern \"C\" */\n#endif\n")) := by
  refine Balanced.append (Balanced.append (Balanced.append (Balanced.append (Balanced.append (Balanced.append (Balanced.append ?_ h.macros)
    (bal_extra h.defines)) (bal_includes h.includes _)) (bal_typedefs h.typedefs)) h.body) (bal_lineDirective h.name _ _)) ?_
  · split
    · exact Balanced.nil
    · exact externC_begin
  · split
    · exact Balanced.nil
    · exact externC_end

/-- With an include guard, the header is a part in front of the guard, the guard, and the
    rest, whose conditionals are balanced, so that the last `#endif` belongs to the guard. -/
theorem C41_guard (env : Env) (s : Settings) (defines body : Str) (k : Nat) (hp : s.pragmaOnce = false) (h : Parts env s defines body) :
    ∃ inside, headerText env s defines body k =
        headText env s ++ (lineDirectiveText (headLines env s) s.lineDirective (headerName s)).1 ++ str% "\n" ++
        (str% "#ifndef " ++ guardName (headerName s) (toUpper s.pfx) ++ str% "\n" ++
         (str% "#define " ++ guardName (headerName s) (toUpper s.pfx) ++ str% "\n" ++ inside) ++
         str% "#endif //" ++ guardName (headerName s) (toUpper s.pfx) ++ str% "\n") ∧
      Balanced inside ∧
      Balanced (str% "#ifndef " ++ guardName (headerName s) (toUpper s.pfx) ++ str% "\n" ++
         (str% "#define " ++ guardName (headerName s) (toUpper s.pfx) ++ str% "\n" ++ inside) ++
         str% "#endif //" ++ guardName (headerName s) (toUpper s.pfx) ++ str% "\n") := by
  have hb := bal_inside h (headLines env s + (lineDirectiveText (headLines env s) s.lineDirective (headerName s)).2 + midLines env s defines + k)
  have hin := (Balanced.append (a := str% "\n") ⟨.inr ⟨[], rfl⟩, fun _ => rfl⟩ hb).append (b := str% "\n") ⟨.inr ⟨[], rfl⟩, fun _ => rfl⟩
  refine ⟨_, ?_, hin, ?_⟩
  · unfold headerText midText guardBegin guardEnd
    rw [hp]
    simp
  · have hg := guard_no_nl (headerName s) s.pfx
    have h1 := Balanced.wrap (o := str% "#ifndef " ++ guardName (headerName s) (toUpper s.pfx))
      (c := str% "#endif //" ++ guardName (headerName s) (toUpper s.pfx)) (by simp [hg]) rfl
      ((Balanced.line (l := str% "#define " ++ guardName (headerName s) (toUpper s.pfx)) (by simp [hg]) rfl rfl).append hin) (by simp [hg]) rfl rfl
    simpa using h1

/-- Without an include guard, there is a `#pragma once`, and the conditionals of the rest
    are balanced. -/
theorem C41_pragma (env : Env) (s : Settings) (defines body : Str) (k : Nat) (hp : s.pragmaOnce = true) (h : Parts env s defines body) :
    ∃ inside, headerText env s defines body k =
        headText env s ++ (lineDirectiveText (headLines env s) s.lineDirective (headerName s)).1 ++ str% "\n#pragma once\n\n" ++ inside ∧
      Balanced inside := by
  refine ⟨_, ?_, bal_inside h (headLines env s + (lineDirectiveText (headLines env s) s.lineDirective (headerName s)).2 + midLines env s defines + k)⟩
  unfold headerText midText guardBegin guardEnd
  rw [hp]
  simp

example : Parts demoEnv { pragmaOnce := false } (str% "#define A\n") (str% "#if 1\nint f;\n#endif\n") :=
  ⟨by decide, ⟨.inr ⟨str% "built-in filename_macros.h", by decide⟩, fun _ => rfl⟩, ⟨.inr ⟨str% "#define A", rfl⟩, fun _ => rfl⟩,
    by simp, by simp [demoEnv], ⟨.inr ⟨str% "#if 1\nint f;\n#endif", rfl⟩, fun _ => rfl⟩⟩

/-! ### C62 -/

/-- A text that ends with a `#line` directive which carries the number of the line that
    follows it. -/
def EndsWithLine (name t : Str) : Prop :=
  ∃ pre, t = pre ++ (str% "#line " ++ Nat.toDigits 10 (nlCount t + 1) ++ str% " \"" ++ name ++ str% "\"\n")

theorem lineDirective_ends {pre name : Str} (hn : '\n' ∉ name) {n : Nat} (h : n = countLinefeed pre) :
    EndsWithLine name (pre ++ (lineDirectiveText n true name).1) := by
  refine ⟨pre, ?_⟩
  have h1 : nlCount (lineDirectiveText n true name).1 = 1 := by
    have hd : nlCount (Nat.toDigits 10 (n + 2)) = 0 := nl_zero (digits_no_nl _)
    simp only [lineDirectiveText, if_true, nl_append, hd, nl_zero hn]
    rfl
  rw [nl_append, h1, ← countLinefeed_eq, ← h]
  rfl

/-- The first `#line` directive of the header. -/
theorem C62_first (env : Env) (s : Settings) (defines body : Str) (k : Nat) (hl : s.lineDirective = true) (hn : '\n' ∉ headerName s) :
    ∃ t, t <+: headerText env s defines body k ∧ EndsWithLine (headerName s) t ∧ headText env s <+: t := by
  refine ⟨_, ?_, lineDirective_ends (pre := headText env s) hn (headLines_eq env s), ⟨_, rfl⟩⟩
  unfold headerText
  rw [hl]
  simp only [List.append_assoc]
  rw [← List.append_assoc (headText env s)]
  exact List.prefix_append _ _

/-- The last `#line` directive, if the number of lines of the templates is known. -/
theorem C62_last_partial (env : Env) (s : Settings) (defines : Str) (css : List (List (List Chunk))) (k : Nat) (hl : s.lineDirective = true)
    (hn : '\n' ∉ headerName s) (hs : headerSubst env s = .ok (css, k))
    (h1 : ∀ p ∈ env.symbols.protos ++ env.symbols.objs, OneLine p)
    (h2 : ∀ t ∈ (listNames s).1, ∀ e ∈ srcList env s t, NotDropped (subConfig env s) e) :
    ∃ t, headerText env s defines (bytes css.flatten.flatten) k =
        t ++ guardEnd (headerName s) (toUpper s.pfx) s.pragmaOnce (Format.isCxx s.format) ∧ EndsWithLine (headerName s) t := by
  have hk := C25_partial env.n (subConfig env s) ((listNames s).1.map (srcList env s)) h1
    (by
      intro l hl e he
      obtain ⟨t, ht, rfl⟩ := List.mem_map.mp hl
      exact h2 t ht e he) css k hs
  refine ⟨_, ?_, lineDirective_ends (pre := headText env s ++ (lineDirectiveText (headLines env s) true (headerName s)).1 ++
    midText env s defines ++ bytes css.flatten.flatten)
    (n := headLines env s + (lineDirectiveText (headLines env s) true (headerName s)).2 + midLines env s defines + k) hn ?_⟩
  · unfold headerText
    rw [hl]
  · have hd : nlCount (Nat.toDigits 10 (headLines env s + 2)) = 0 := nl_zero (digits_no_nl _)
    have h3 : countLinefeed (lineDirectiveText (headLines env s) true (headerName s)).1 = (lineDirectiveText (headLines env s) true (headerName s)).2 := by
      rw [countLinefeed_eq]
      simp only [lineDirectiveText, if_true, nl_append, hd, nl_zero hn]
      rfl
    rw [countLinefeed_append, countLinefeed_append, countLinefeed_append, h3, ← headLines_eq, ← midLines_eq, countLinefeed_eq, hk]

example : '\n' ∉ headerName { lineDirective := true } ∧
    headerSubst demoEnv { lineDirective := true, format := .minimal } = .ok ([[[.text (str% "built-in minimal.h")]]], 1) ∧
    NotDropped (subConfig demoEnv { lineDirective := true }) (demoEntry (str% "built-in minimal.h")) :=
  ⟨by decide, by rfl, fun _ => by decide, fun h => by have := (findKeyword_iff _ _).mpr h; revert this; decide⟩

end Gdo.Gen
