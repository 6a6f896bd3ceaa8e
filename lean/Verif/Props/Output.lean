import Verif.Props.Generate
import Verif.Props.GenerateHeader

/-!
Properties C78 and C79: the output files and the macros that configure the generated code.
-/

namespace Gdo.Gen
open Gdo Tpl Opt GenSpec

/-! ### C78 -/

theorem takeWhile_all {p : Char → Bool} {r : Str} (h : ∀ c ∈ r, p c = true) : r.takeWhile p = r := by
  induction r with
  | nil => rfl
  | cons c r ih =>
    rw [List.takeWhile_cons, if_pos (h c (by simp)), ih fun e he => h e (by simp [he])]

theorem filename_of {d f : Str} (hd : d = [] ∨ ∃ x, d = x ++ str% "/") (hf : '/' ∉ f) : filename (d ++ f) = f := by
  have key : ∀ x r : Str, (∀ c ∈ r, c ≠ '/') → (r ++ '/' :: x).takeWhile (fun c => decide (c ≠ '/')) = r := by
    intro x r hr
    induction r with
    | nil => simp
    | cons c r ih =>
      have h1 : c ≠ '/' := hr c (by simp)
      simp only [List.cons_append, List.takeWhile_cons, h1, ne_eq, not_false_eq_true, decide_true, if_true]
      rw [ih fun e he => hr e (by simp [he])]
  have hr : ∀ c ∈ f.reverse, c ≠ '/' := by
    intro c hc he
    subst he
    exact hf (by simpa using hc)
  unfold filename
  rcases hd with rfl | ⟨x, rfl⟩
  · have : f.reverse.takeWhile (fun c => decide (c ≠ '/')) = f.reverse := by
      apply takeWhile_all
      intro c hc
      simpa using hr c hc
    simp only [List.nil_append]
    rw [this, List.reverse_reverse]
  · rw [List.reverse_append, List.reverse_append]
    simp only [List.reverse_cons, List.reverse_nil, List.nil_append, List.cons_append]
    rw [key _ _ hr, List.reverse_reverse]

/-- A file name with an extension. -/
structure Extended (stem ext : Str) : Prop where
  some : stem ≠ []
  slash : '/' ∉ stem ++ ext
  dot : '.' ∉ ext
  /-- the file name is not `..` -/
  parent : stem ≠ str% "." ∨ ext ≠ []

theorem replaceExtension_of {d stem ext e : Str} (hd : d = [] ∨ ∃ x, d = x ++ str% "/") (h : Extended stem ext) :
    replaceExtension (d ++ stem ++ str% "." ++ ext) e = d ++ stem ++ str% "." ++ e := by
  have hs1 : '/' ∉ stem := fun hm => h.slash (List.mem_append_left _ hm)
  have hs2 : '/' ∉ ext := fun hm => h.slash (List.mem_append_right _ hm)
  have hf : filename (d ++ stem ++ str% "." ++ ext) = stem ++ str% "." ++ ext := by
    rw [show d ++ stem ++ str% "." ++ ext = d ++ (stem ++ str% "." ++ ext) by simp]
    exact filename_of hd (by simp [hs1, hs2])
  have hl : extensionLength (d ++ stem ++ str% "." ++ ext) = ext.length + 1 := by
    unfold extensionLength
    simp only [hf]
    rw [if_neg]
    · have ht : (stem ++ str% "." ++ ext).reverse.takeWhile (fun c => decide (c ≠ '.')) = ext.reverse := by
        simp only [List.reverse_append, List.reverse_cons, List.reverse_nil, List.nil_append, List.cons_append]
        have hr : ∀ c ∈ ext.reverse, c ≠ '.' := by
          intro c hc he
          subst he
          exact h.dot (by simpa using hc)
        generalize ext.reverse = r at hr
        induction r with
        | nil => simp
        | cons c r ih =>
          have h1 : c ≠ '.' := hr c (by simp)
          simp only [List.cons_append, List.takeWhile_cons, h1, ne_eq, not_false_eq_true, decide_true, if_true]
          rw [ih fun e he => hr e (by simp [he])]
      rw [ht, if_pos]
      · simp
      · have : 0 < stem.length := List.length_pos_iff.mpr h.some
        simp
        omega
    · have h0 : 0 < stem.length := List.length_pos_iff.mpr h.some
      rintro (h1 | h1)
      · have := congrArg List.length h1
        simp at this
        omega
      · have hlen := congrArg List.length h1
        simp at hlen
        have he : ext = [] := List.length_eq_zero_iff.mp (by omega)
        subst he
        rcases h.parent with h2 | h2
        · apply h2
          have : stem ++ str% "." = str% "." ++ str% "." := by simpa using h1
          exact List.append_cancel_right this
        · exact h2 rfl
  unfold replaceExtension
  rw [hl]
  congr 2
  rw [show d ++ stem ++ str% "." ++ ext = (d ++ stem) ++ (str% "." ++ ext) by simp]
  rw [List.take_append_of_le_length (by simp; omega), List.take_of_length_le (by simp; omega)]

theorem replaceExtension_none {d f e : Str} (hd : d = [] ∨ ∃ x, d = x ++ str% "/") (hs : '/' ∉ f)
    (h : '.' ∉ f ∨ (∃ g, f = str% "." ++ g ∧ '.' ∉ g) ∨ f = str% "..") : replaceExtension (d ++ f) e = d ++ f ++ str% "." ++ e := by
  have hl : extensionLength (d ++ f) = 0 := by
    unfold extensionLength
    simp only [filename_of hd hs]
    split
    · rfl
    · rename_i hn
      have hd' : ∀ r : Str, '.' ∉ r → r.takeWhile (fun c => decide (c ≠ '.')) = r := by
        intro r hr
        apply takeWhile_all
        intro c hc
        have : c ≠ '.' := fun he => hr (he ▸ hc)
        simpa using this
      rcases h with h | ⟨g, rfl, h⟩ | rfl
      · rw [hd' _ (by simpa using h), if_neg]
        simp
      · have ht : (str% "." ++ g).reverse.takeWhile (fun c => decide (c ≠ '.')) = g.reverse := by
          simp only [List.cons_append, List.nil_append, List.reverse_cons]
          have hr : ∀ c ∈ g.reverse, c ≠ '.' := by
            intro c hc he
            subst he
            exact h (by simpa using hc)
          generalize g.reverse = r at hr
          induction r with
          | nil => simp
          | cons c r ih =>
            have h1 : c ≠ '.' := hr c (by simp)
            simp only [List.cons_append, List.takeWhile_cons, h1, ne_eq, not_false_eq_true, decide_true, if_true]
            rw [ih fun e he => hr e (by simp [he])]
        rw [ht, if_neg]
        simp
      · exact absurd (Or.inr rfl) hn
  unfold replaceExtension
  rw [hl, Nat.sub_zero, List.take_length]

/-- The extension of a header. -/
def headerExt (s : Settings) : Str := if Format.isCxx s.format then str% "hpp" else str% "h"

/-- The extension of a body. -/
def bodyExt (s : Settings) : Str := if Format.isCxx s.format then str% "cpp" else str% "c"

theorem separate_output {s : Settings} (h : isSeparate s = true) : s.output ≠ str% "-" := by
  unfold isSeparate at h
  simp only [Bool.and_eq_true] at h
  simpa using h.1.2

theorem separate_eq {s : Settings} (h : isSeparate s = true) :
    outputPaths s = (replaceExtension s.output (headerExt s), replaceExtension s.output (bodyExt s)) := by
  unfold outputPaths
  rw [if_neg (separate_output h), if_pos h]
  rfl

/-- Separate files: the extension of the output file is replaced, whatever it is. -/
theorem C78_extension (s : Settings) (h : isSeparate s = true) (d stem ext : Str) (hd : d = [] ∨ ∃ x, d = x ++ str% "/")
    (he : Extended stem ext) (ho : s.output = d ++ stem ++ str% "." ++ ext) :
    outputPaths s = (d ++ stem ++ str% "." ++ headerExt s, d ++ stem ++ str% "." ++ bodyExt s) ∧ headerName s = stem ++ str% "." ++ headerExt s := by
  have hp : outputPaths s = (d ++ stem ++ str% "." ++ headerExt s, d ++ stem ++ str% "." ++ bodyExt s) := by
    rw [separate_eq h, ho, replaceExtension_of hd he, replaceExtension_of hd he]
  refine ⟨hp, ?_⟩
  unfold headerName
  rw [if_neg (separate_output h), hp]
  dsimp only
  rw [show d ++ stem ++ str% "." ++ headerExt s = d ++ (stem ++ str% "." ++ headerExt s) by simp]
  refine filename_of hd ?_
  have hs1 : '/' ∉ stem := fun hm => he.slash (List.mem_append_left _ hm)
  unfold headerExt
  split <;> simp [hs1]

/-- An output file without an extension, or one whose name begins with the only dot: the
    extension is appended. -/
theorem C78_no_extension (s : Settings) (h : isSeparate s = true) (d f : Str) (hd : d = [] ∨ ∃ x, d = x ++ str% "/") (hs : '/' ∉ f)
    (hf : '.' ∉ f ∨ (∃ g, f = str% "." ++ g ∧ '.' ∉ g) ∨ f = str% "..") (ho : s.output = d ++ f) :
    outputPaths s = (d ++ f ++ str% "." ++ headerExt s, d ++ f ++ str% "." ++ bodyExt s) ∧ headerName s = f ++ str% "." ++ headerExt s := by
  have hp : outputPaths s = (d ++ f ++ str% "." ++ headerExt s, d ++ f ++ str% "." ++ bodyExt s) := by
    rw [separate_eq h, ho, replaceExtension_none hd hs hf, replaceExtension_none hd hs hf]
  refine ⟨hp, ?_⟩
  unfold headerName
  rw [if_neg (separate_output h), hp]
  dsimp only
  rw [show d ++ f ++ str% "." ++ headerExt s = d ++ (f ++ str% "." ++ headerExt s) by simp]
  refine filename_of hd ?_
  unfold headerExt
  split <;> simp [hs]

/-- Each path is of one of the two kinds. -/
theorem C78_kinds (p : Str) : ∃ d f, p = d ++ f ∧ (d = [] ∨ ∃ x, d = x ++ str% "/") ∧ '/' ∉ f ∧
    ((∃ stem ext, f = stem ++ str% "." ++ ext ∧ Extended stem ext) ∨ ('.' ∉ f ∨ (∃ g, f = str% "." ++ g ∧ '.' ∉ g) ∨ f = str% "..")) := by
  have last : ∀ (x : Char) (q : Str), x ∉ q ∨ ∃ a b, q = a ++ x :: b ∧ x ∉ b := by
    intro x q
    induction q with
    | nil => exact Or.inl (by simp)
    | cons c r ih =>
      rcases ih with h | ⟨a, b, h, hb⟩
      · by_cases hc : c = x
        · subst hc
          exact Or.inr ⟨[], r, rfl, h⟩
        · exact Or.inl (by simp [h, Ne.symm hc])
      · exact Or.inr ⟨c :: a, b, by simp [h], hb⟩
  obtain ⟨d, f, hp, hd, hs⟩ : ∃ d f, p = d ++ f ∧ (d = [] ∨ ∃ x, d = x ++ str% "/") ∧ '/' ∉ f := by
    rcases last '/' p with h | ⟨a, b, h, hb⟩
    · exact ⟨[], p, rfl, Or.inl rfl, h⟩
    · exact ⟨a ++ str% "/", b, by simp [h], Or.inr ⟨a, rfl⟩, hb⟩
  refine ⟨d, f, hp, hd, hs, ?_⟩
  rcases last '.' f with h | ⟨a, b, h, hb⟩
  · exact Or.inr (Or.inl h)
  · by_cases ha : a = []
    · subst ha
      exact Or.inr (Or.inr (Or.inl ⟨b, h, hb⟩))
    · by_cases hpar : a = str% "." ∧ b = []
      · obtain ⟨rfl, rfl⟩ := hpar
        exact Or.inr (Or.inr (Or.inr h))
      · refine Or.inl ⟨a, b, by simp [h], ha, ?_, hb, ?_⟩
        · intro hm
          apply hs
          rw [h]
          rcases List.mem_append.mp hm with h1 | h1 <;> simp [h1]
        · by_cases h1 : a = str% "."
          · exact Or.inr fun h2 => hpar ⟨h1, h2⟩
          · exact Or.inl h1

/-- Header and body are different files in one directory; the body includes the header by
    its name in that directory. -/
theorem C78_pair (s : Settings) (h : isSeparate s = true) : (outputPaths s).1 ≠ (outputPaths s).2 ∧
    ∃ d stem, (d = [] ∨ ∃ x, d = x ++ str% "/") ∧ (outputPaths s).1 = d ++ headerName s ∧ (outputPaths s).2 = d ++ stem ++ str% "." ++ bodyExt s ∧
      headerName s = stem ++ str% "." ++ headerExt s ∧ '/' ∉ headerName s := by
  have hne : headerExt s ≠ bodyExt s := by
    unfold headerExt bodyExt
    split <;> decide
  obtain ⟨d, f, hp, hd, hs, hk⟩ := C78_kinds s.output
  have main : ∃ stem, '/' ∉ stem ∧ outputPaths s = (d ++ stem ++ str% "." ++ headerExt s, d ++ stem ++ str% "." ++ bodyExt s) ∧
      headerName s = stem ++ str% "." ++ headerExt s := by
    rcases hk with ⟨stem, ext, rfl, he⟩ | hk
    · exact ⟨stem, fun hm => he.slash (List.mem_append_left _ hm), C78_extension s h d stem ext hd he (by rw [hp]; simp)⟩
    · exact ⟨f, hs, C78_no_extension s h d f hd hs hk hp⟩
  obtain ⟨stem, hs', h1, h2⟩ := main
  refine ⟨?_, d, stem, hd, ?_, ?_, h2, ?_⟩
  · rw [h1]
    intro he
    exact hne (List.append_cancel_left (show (d ++ stem ++ str% ".") ++ headerExt s = (d ++ stem ++ str% ".") ++ bodyExt s from he))
  · rw [h1, h2]
    simp
  · rw [h1]
  · rw [h2]
    unfold headerExt
    split <;> simp [hs']

/-- A single file is written to the given path, with that name in its guard. -/
theorem C78_single (s : Settings) (h : isSeparate s = false) (ho : s.output ≠ str% "-") :
    outputPaths s = (s.output, s.output) ∧ headerName s = filename s.output := by
  have hp : outputPaths s = (s.output, s.output) := by
    unfold outputPaths
    rw [if_neg ho, if_neg (by simp [h])]
  refine ⟨hp, ?_⟩
  unfold headerName
  rw [if_neg ho, hp]

/-- A run with separate files and the built-in templates that can create both files:
    afterwards they hold the whole header and the whole body, and nothing else has
    changed. -/
theorem C78_written (env : Env) (s : Settings) (st : State) (hf : ∀ t, Fresh st.mem t) (hsep : isSeparate s = true)
    (ht : s.templatesPath = []) (a b : Nat) (hab : a ≠ b) (ha : env.res (outputPaths s).1 = .at a) (hb : env.res (outputPaths s).2 = .at b)
    (hca : env.canCreate a = true) (hcb : env.canCreate b = true) (hna : st.node a = none) (hnb : st.node b = none)
    (css : List (List (List Sub.Chunk))) (k : Nat) (hs : headerSubst env s = .ok (css, k))
    (bss : List (List (List Sub.Chunk))) (j : Nat) (hbs : bodySubst env s = .ok (bss, j)) :
    ∃ st', generate env s st = .ok () st' ∧
      st'.node a = some (.file (headerText env s (allDefines env s) (Sub.bytes css.flatten.flatten) k)) ∧
      st'.node b = some (.file (bodyText env s (Sub.bytes bss.flatten.flatten))) ∧
      (∀ l, l ≠ a → l ≠ b → st'.node l = st.node l) ∧ st'.stdout = st.stdout := by
  obtain ⟨h1, h2⟩ := separate_paths hsep
  have hr : Readable env s := by
    intro h
    rw [ht] at h
    cases h
  have hopen : opened env (outputPaths s).1 s.force st.node = some (some a, fun k => if k = a then some (.file []) else st.node k) := by
    unfold opened
    rw [if_neg h1, ha]
    simp [hna, replaceable, hca]
  obtain ⟨bs, st2, e, ⟨m, w⟩, n, hlic, hbp, _⟩ := generate_split hr hf hopen hs
  have hnb2 : st2.node b = none := by
    rw [w.frame b (by simp [hab])]
    simp [hab.symm, hnb]
  have ho : opened env (outputPaths s).2 s.force ({ st2 with out := none } : State).node =
      some (some b, fun k => if k = b then some (.file []) else st2.node k) := by
    unfold opened
    rw [if_neg h2, hb]
    simp [hnb2, replaceable, hcb]
  have hne : bs.isEmpty = false := by
    rw [separate_body hsep] at n
    cases bs with
    | nil => cases n
    | cons _ _ => rfl
  have hsub : Sub.substitute env.n (subConfig env s) (bs.map fun p => srcList env s p.1) = .ok (bss, j) := by
    rw [← hbs, bodySubst, ← n, List.map_map]
    rfl
  obtain ⟨st3, e3, w3⟩ := writeBody_run (st := { st2 with out := none }) (by rw [ht]; rfl) ho hlic (fun p hp => (hbp p hp).1) hsub
  have file : ∀ {x y : State} {t : Str} {l : Nat}, Step x t y → x.out = some l → x.node l = some (.file []) → y.node l = some (.file t) := by
    intro x y t l hst hxo hxn
    have htx := hst.text
    have hyo := hst.out.trans hxo
    rcases hst.good with hg | ⟨l', d, hl, hd⟩
    · rw [hyo] at hg; cases hg
    · rw [hyo] at hl
      cases hl
      simp only [cur, hyo, hxo, hd, hxn, List.nil_append] at htx
      rw [hd, htx]
  have fa : st2.node a = some (.file (headerText env s (allDefines env s) (Sub.bytes css.flatten.flatten) k)) := file w rfl (by simp)
  refine ⟨st3, ?_, ?_, file w3 rfl (by simp), ?_, ?_⟩
  · rw [e, hne]
    exact e3
  · rw [w3.frame a (by simp [hab.symm])]
    simp [hab, fa]
  · intro l hla hlb
    rw [w3.frame l (by simp [hlb.symm])]
    simp only [hlb, if_false]
    rw [w.frame l (by simp [hla.symm])]
    simp [hla]
  · rw [w3.std b rfl]
    exact w.std a rfl

example : isSeparate { output := str% "out/x.y.c", separate := true } = true ∧ Extended (str% "x.y") (str% "c") ∧
    outputPaths { output := str% "out/x.y.c", separate := true } = (str% "out/x.y.h", str% "out/x.y.c") :=
  ⟨by decide, ⟨by decide, by decide, by decide, by decide⟩, by decide⟩

example : outputPaths { output := str% ".x", separate := true, format := .cxx } = (str% ".x.hpp", str% ".x.cpp") := by decide

example : ∃ st css k bss j, headerSubst demoEnv { output := str% "x.c", separate := true } = .ok (css, k) ∧
    bodySubst demoEnv { output := str% "x.c", separate := true } = .ok (bss, j) ∧
    generate demoEnv { output := str% "x.c", separate := true } (demoState false) = .ok () st := ⟨_, _, _, _, _, rfl, rfl, rfl⟩

/-- The body names the header: this is its only `#include` outside of the templates. -/
theorem C78_include (env : Env) (s : Settings) (body : Str) :
    str% "#define " ++ toUpper s.pfx ++ str% "_INCLUDED_IN_BODY\n#include \"" ++ headerName s ++ str% "\"\n" <:+: bodyText env s body := by
  refine ⟨noteText s.printDate env.date ++ savedText s (env.builtin .license) ++ str% "\n", str% "\n" ++ body, ?_⟩
  simp [bodyText, includeHeader]

/-! ### C79 -/

theorem splitColon_parts {s a b : Str} (h : splitColon s = some (a, b)) : ∃ r, s = a ++ r ++ b := by
  unfold splitColon at h
  split at h
  · cases h
  · obtain ⟨h1, _⟩ := splitFirst_some h
    exact ⟨str% ":", by simp [h1]⟩

theorem quoteLib_no_nl {s : Str} (h : '\n' ∉ s) (w : Bool) : '\n' ∉ quoteLib s w := by
  unfold quoteLib
  repeat' split
  all_goals simp [h]

theorem libTexts_no_nl {s u a w : Str} (h : '\n' ∉ s) (hu : '\n' ∉ u) (he : libTexts s u = some (a, w)) : '\n' ∉ a ∧ '\n' ∉ w := by
  have hd : ∀ n, '\n' ∉ s.drop n := fun n hm => h (List.mem_of_mem_drop hm)
  unfold libTexts at he
  dsimp only at he
  split at he
  · split at he
    · cases he
      exact ⟨hd 3, hd 3⟩
    · cases he
  · split at he
    · split at he
      · cases he
        simp [quoteLib_no_nl (hd 4), hu]
      · cases he
    · split at he
      · split at he
        · cases hc : splitColon (s.drop 4) with
          | none => rw [hc] at he; cases he
          | some m =>
            obtain ⟨x, y⟩ := m
            rw [hc] at he
            obtain ⟨r, hr⟩ := splitColon_parts hc
            have h4 := hd 4
            rw [hr] at h4
            simp only [List.mem_append, not_or] at h4
            cases he
            simp [hu, h4.1.1, h4.2]
        · cases he
      · cases he
        exact ⟨quoteLib_no_nl h _, quoteLib_no_nl h _⟩

/-- The lines of the added definitions. -/
def addedLines (s : Settings) (separate : Bool) (common : Str) (protos : List Proto) : List Str :=
  (if separate then [str% "#define " ++ toUpper s.pfx ++ str% "_SEPARATE"] else []) ++
  (if s.defaultLib.isEmpty then [] else
    match libTexts s.defaultLib (toUpper s.pfx) with
    | none => []
    | some (a, w) => [str% "#define " ++ toUpper s.pfx ++ str% "_HARDCODED_DEFAULT_LIBA " ++ a,
                      str% "#define " ++ toUpper s.pfx ++ str% "_HARDCODED_DEFAULT_LIBW " ++ w]) ++
  [str% "#define " ++ toUpper s.pfx ++ str% "_COMMON_PREFIX \"" ++ common ++ str% "\""] ++
  (protos.filter fun p => (str% "...").isSuffixOf p.args).map fun p => str% "#define " ++ toUpper s.pfx ++ str% "_HAS_VA_ARGS_" ++ p.symbol ++ str% " 1"

theorem addedDefines_lines (s : Settings) (separate : Bool) (common : Str) (protos : List Proto) :
    addedDefines s separate common protos = (addedLines s separate common protos).flatMap (· ++ str% "\n") := by
  have h1 : (if separate then str% "#define " ++ toUpper s.pfx ++ str% "_SEPARATE\n" else []) =
      (if separate then [str% "#define " ++ toUpper s.pfx ++ str% "_SEPARATE"] else []).flatMap (· ++ str% "\n") := by
    cases separate <;> simp
  have h2 : (if s.defaultLib.isEmpty then [] else formatLibname s.defaultLib (toUpper s.pfx)) =
      (if s.defaultLib.isEmpty then [] else
        match libTexts s.defaultLib (toUpper s.pfx) with
        | none => []
        | some (a, w) => [str% "#define " ++ toUpper s.pfx ++ str% "_HARDCODED_DEFAULT_LIBA " ++ a,
                          str% "#define " ++ toUpper s.pfx ++ str% "_HARDCODED_DEFAULT_LIBW " ++ w]).flatMap (· ++ str% "\n") := by
    unfold formatLibname
    split
    · rfl
    · cases libTexts s.defaultLib (toUpper s.pfx) with
      | none => rfl
      | some m => simp
  unfold addedDefines addedLines
  dsimp only
  rw [h1, h2, List.flatMap_append, List.flatMap_append, List.flatMap_append, List.flatMap_map]
  simp

theorem lines_flat {ls : List Str} (h : ∀ l ∈ ls, '\n' ∉ l) : lines (ls.flatMap (· ++ str% "\n")) = ls ++ [[]] := by
  induction ls with
  | nil => rfl
  | cons l r ih =>
    rw [List.flatMap_cons, List.append_assoc]
    simp only [List.cons_append, List.nil_append]
    rw [lines_line (h l (by simp)), ih fun x hx => h x (by simp [hx])]

theorem addedLines_no_nl {s : Settings} {separate : Bool} {common : Str} {protos : List Proto} (hl : '\n' ∉ s.defaultLib) (hc : '\n' ∉ common)
    (hp : ∀ p ∈ protos, '\n' ∉ p.symbol) : ∀ l ∈ addedLines s separate common protos, '\n' ∉ l := by
  have hu : '\n' ∉ toUpper s.pfx := ident_no_nl toUpper_ident
  intro l h
  unfold addedLines at h
  simp only [List.mem_append, List.mem_map, List.mem_filter, List.mem_singleton] at h
  rcases h with ((h | h) | h) | ⟨p, ⟨h, _⟩, rfl⟩
  · split at h
    · rw [List.mem_singleton] at h
      subst h
      simp [hu]
    · cases h
  · split at h
    · cases h
    · split at h
      · cases h
      · rename_i a w he
        obtain ⟨h1, h2⟩ := libTexts_no_nl hl hu he
        simp only [List.mem_cons, List.not_mem_nil, or_false] at h
        rcases h with rfl | rfl <;> simp [hu, h1, h2]
  · subst h
    simp [hu, hc]
  · simp [hu, hp p h]

/-- The common prefix that the header declares (C31). -/
def commonOf (env : Env) : Str :=
  (Common.getCommonPrefix (env.symbols.protos.map (·.symbol)) (env.symbols.objs.map (·.symbol))).getD []

/-- The part of the definitions that the generator adds to those of the user. -/
def generated (env : Env) (s : Settings) : Str := addedDefines s (isSeparate s) (commonOf env) env.symbols.protos

/-- Names without line ends. -/
structure OneLined (env : Env) (s : Settings) : Prop where
  lib : '\n' ∉ s.defaultLib
  protos : ∀ p ∈ env.symbols.protos, '\n' ∉ p.symbol
  objs : ∀ p ∈ env.symbols.objs, '\n' ∉ p.symbol

theorem commonOf_prefix (env : Env) : ∀ p ∈ env.symbols.protos ++ env.symbols.objs, commonOf env <+: p.symbol := by
  intro p hp
  unfold commonOf
  cases h : Common.getCommonPrefix (env.symbols.protos.map (·.symbol)) (env.symbols.objs.map (·.symbol)) with
  | none => exact absurd h (Common.C31_safe _ _)
  | some r =>
    refine Common.C31_prefix _ _ r h p.symbol ?_
    rw [← List.map_append]
    exact List.mem_map.mpr ⟨p, hp, rfl⟩

theorem commonOf_no_nl {env : Env} {s : Settings} (h : OneLined env s) : '\n' ∉ commonOf env := by
  cases hp : env.symbols.protos ++ env.symbols.objs with
  | nil =>
    obtain ⟨h1, h2⟩ := List.append_eq_nil_iff.mp hp
    unfold commonOf
    rw [h1, h2]
    decide
  | cons p r =>
    have hm : p ∈ env.symbols.protos ++ env.symbols.objs := by rw [hp]; simp
    intro hc
    have := (commonOf_prefix env p hm).subset hc
    rcases List.mem_append.mp hm with h1 | h1
    · exact h.protos p h1 this
    · exact h.objs p h1 this

theorem generated_lines {env : Env} {s : Settings} (h : OneLined env s) :
    lines (generated env s) = addedLines s (isSeparate s) (commonOf env) env.symbols.protos ++ [[]] := by
  unfold generated
  rw [addedDefines_lines, lines_flat (addedLines_no_nl h.lib (commonOf_no_nl h) h.protos)]

/-- A line of the form of those that are added. -/
def defineLine (s : Settings) (rest : Str) : Str := str% "#define " ++ toUpper s.pfx ++ rest

theorem defineLine_inj {s : Settings} {a b : Str} : str% "#define " ++ toUpper s.pfx ++ a = str% "#define " ++ toUpper s.pfx ++ b ↔ a = b :=
  ⟨List.append_cancel_left, fun h => by rw [h]⟩

/-- The macro for separate files is defined if and only if header and body are separate. -/
theorem C79_separate (env : Env) (s : Settings) (h : OneLined env s) :
    defineLine s (str% "_SEPARATE") ∈ lines (generated env s) ↔ isSeparate s = true := by
  rw [generated_lines h]
  unfold defineLine addedLines
  constructor
  · intro hm
    simp only [List.mem_append, List.mem_map, List.mem_singleton] at hm
    rcases hm with (((hm | hm) | hm) | ⟨p, _, hm⟩) | hm
    · split at hm
      · assumption
      · cases hm
    · split at hm
      · cases hm
      · split at hm
        · cases hm
        · simp only [List.mem_cons, List.not_mem_nil, or_false, List.append_assoc, List.append_cancel_left_eq] at hm
          simp at hm
    · simp only [List.append_assoc, List.append_cancel_left_eq] at hm
      simp at hm
    · simp only [List.append_assoc, List.append_cancel_left_eq] at hm
      simp at hm
    · simp at hm
  · intro hs
    simp [hs]

/-- The macro for variable arguments of a function is defined if and only if there is a
    function with this name whose parameters end with three dots. -/
theorem C79_variadic (env : Env) (s : Settings) (h : OneLined env s) (f : Str) :
    defineLine s (str% "_HAS_VA_ARGS_" ++ f ++ str% " 1") ∈ lines (generated env s) ↔
      ∃ p ∈ env.symbols.protos, p.symbol = f ∧ ∃ x, p.args = x ++ str% "..." := by
  rw [generated_lines h]
  unfold defineLine addedLines
  constructor
  · intro hm
    simp only [List.mem_append, List.mem_map, List.mem_singleton, List.mem_filter] at hm
    rcases hm with (((hm | hm) | hm) | ⟨p, ⟨hp, hd⟩, hm⟩) | hm
    · split at hm
      · simp only [List.mem_singleton, List.append_assoc, List.append_cancel_left_eq] at hm
        simp at hm
      · cases hm
    · split at hm
      · cases hm
      · split at hm
        · cases hm
        · simp only [List.mem_cons, List.not_mem_nil, or_false, List.append_assoc, List.append_cancel_left_eq] at hm
          simp at hm
    · simp only [List.append_assoc, List.append_cancel_left_eq] at hm
      simp at hm
    · refine ⟨p, hp, ?_, ?_⟩
      · simp only [List.append_assoc, List.append_cancel_left_eq] at hm
        exact List.append_cancel_right hm
      · obtain ⟨x, hx⟩ := List.isSuffixOf_iff_suffix.mp hd
        exact ⟨x, hx.symm⟩
    · simp at hm
  · rintro ⟨p, hp, rfl, x, hx⟩
    simp only [List.mem_append, List.mem_map, List.mem_filter]
    refine Or.inl (Or.inr ⟨p, ⟨hp, List.isSuffixOf_iff_suffix.mpr ⟨x, hx.symm⟩⟩, ?_⟩)
    simp

/-- The common prefix is defined once, as a string that begins each symbol's name. -/
theorem C79_common (env : Env) (s : Settings) (h : OneLined env s) (c : Str) :
    (defineLine s (str% "_COMMON_PREFIX \"" ++ c ++ str% "\"") ∈ lines (generated env s) ↔ c = commonOf env) ∧
    ∀ p ∈ env.symbols.protos ++ env.symbols.objs, commonOf env <+: p.symbol := by
  refine ⟨?_, commonOf_prefix env⟩
  rw [generated_lines h]
  unfold defineLine addedLines
  constructor
  · intro hm
    simp only [List.mem_append, List.mem_map, List.mem_singleton, List.mem_filter] at hm
    rcases hm with (((hm | hm) | hm) | ⟨p, _, hm⟩) | hm
    · split at hm
      · simp only [List.mem_singleton, List.append_assoc, List.append_cancel_left_eq] at hm
        simp at hm
      · cases hm
    · split at hm
      · cases hm
      · split at hm
        · cases hm
        · simp only [List.mem_cons, List.not_mem_nil, or_false, List.append_assoc, List.append_cancel_left_eq] at hm
          simp at hm
    · simp only [List.append_assoc, List.append_cancel_left_eq] at hm
      exact List.append_cancel_right hm
    · simp only [List.append_assoc, List.append_cancel_left_eq] at hm
      simp at hm
    · simp at hm
  · rintro rfl
    simp

/-- The definitions are a part of each header, in whole lines. -/
theorem C79_written (env : Env) (s : Settings) (body : Str) (k : Nat) (hd : s.defines = [] ∨ ∃ x, s.defines = x ++ str% "\n") :
    ∃ pre post, headerText env s (allDefines env s) body k = pre ++ str% "\n" ++ generated env s ++ post ∧ ∃ x, generated env s = x ++ str% "\n" := by
  have hne : ∃ x, generated env s = x ++ str% "\n" := by
    unfold generated
    rw [addedDefines_lines]
    have hn : addedLines s (isSeparate s) (commonOf env) env.symbols.protos ≠ [] := by
      unfold addedLines
      simp
    generalize addedLines s (isSeparate s) (commonOf env) env.symbols.protos = ls at hn
    obtain ⟨r, l, rfl⟩ : ∃ r l, ls = r ++ [l] := ⟨ls.dropLast, ls.getLast hn, (List.dropLast_concat_getLast hn).symm⟩
    exact ⟨r.flatMap (· ++ str% "\n") ++ l, by simp⟩
  have hx : ∃ pre, extraDefines (allDefines env s) = pre ++ str% "\n" ++ generated env s ++ str% "\n" := by
    have hg : allDefines env s = s.defines ++ generated env s := rfl
    obtain ⟨x, hx⟩ := hne
    have h0 : (allDefines env s).isEmpty = false := by
      rw [hg, hx]
      simp
    unfold extraDefines
    rw [h0, hg]
    rcases hd with hd | ⟨y, hd⟩
    · exact ⟨str% "/* extra defines */", by simp [hd]⟩
    · exact ⟨str% "/* extra defines */\n" ++ y, by simp [hd]⟩
  obtain ⟨a, b, hab⟩ := mid_infix env s (allDefines env s) body k
  obtain ⟨pre, hpre⟩ := hx
  refine ⟨a ++ guardBegin (headerName s) (toUpper s.pfx) s.pragmaOnce (Format.isCxx s.format) ++ savedText s (env.builtin .filenameMacros) ++ pre,
    str% "\n" ++ includesText s.includes (Format.isCxx s.format) ++ typedefsText env.symbols.typedefs ++ b, ?_, hne⟩
  rw [← hab, midText, hpre]
  simp only [List.append_assoc]

/-- Symbols for the examples. -/
def variadicEnv : Env := { demoEnv with symbols := { demoEnv.symbols with protos := [{ kind := .function, type := str% "int", symbol := str% "prt", args := str% "const char *f, ..." }] } }

example : OneLined variadicEnv { separate := true, output := str% "x.c", defaultLib := str% "x.so" } ∧
    defineLine {} (str% "_HAS_VA_ARGS_prt 1") ∈ lines (generated variadicEnv { separate := true, output := str% "x.c", defaultLib := str% "x.so" }) ∧
    defineLine {} (str% "_SEPARATE") ∈ lines (generated variadicEnv { separate := true, output := str% "x.c", defaultLib := str% "x.so" }) :=
  ⟨⟨by decide, by decide, by decide⟩, by decide, by decide⟩

/-! ### C62: custom templates -/

/-- The name by which a custom template is known. -/
def shownName (p : Str) : Str := if p = str% "-" then str% "<STDIN>" else p

/-- With a custom template the output consists of the processed template, behind a `#line`
    directive for its first line if these are enabled. -/
theorem C62_custom (env : Env) (s : Settings) (printed : Str) (st : State) (o : Option Nat) (nd : Nat → Option Node) (text : Str)
    (css : List (List Sub.Chunk)) (k : Nat) (b : Bool) (hp : s.printSymbols = false) (hc : s.customTemplate ≠ [])
    (hr : env.read s.customTemplate = some text) (ho : opened env s.output s.force st.node = some (o, nd))
    (hs : Sub.customTemplate env.n (subConfig env s) text = .ok (css, k, b)) :
    ∃ st', run env s printed st = .ok () st' ∧
      (s.lineDirective = true → Step { st with node := nd, out := o }
        (str% "#line 1 \"" ++ shownName s.customTemplate ++ str% "\"\n" ++ Sub.bytes css.flatten) st') ∧
      (s.lineDirective = false → Step { st with node := nd, out := o } (Sub.bytes css.flatten) st') := by
  obtain ⟨a1, e1, s1, m1⟩ := write_run (customLine s) (open_good ho st.mem st.stdout)
  obtain ⟨a2, e2, s2, m2⟩ := write_run (Sub.bytes css.flatten) s1.good
  have hst := s1.trans s2
  refine ⟨a2, ?_, ?_, ?_⟩
  · unfold run
    rw [hp, if_neg (by simp), if_pos (by simpa using hc)]
    unfold customTemplate
    rw [hr]
    dsimp only
    rw [bind_ok (open_run ho), bind_ok e1, hs]
    exact e2
  · intro hl
    unfold customLine at hst
    rw [if_pos hl] at hst
    exact hst
  · intro hl
    unfold customLine at hst
    rw [if_neg (by simp [hl])] at hst
    exact hst

example : ∃ st, run { demoEnv with read := fun _ => some (str% "a\nb") } { customTemplate := str% "-", lineDirective := true } [] (demoState false) = .ok () st ∧
    st.stdout = str% "#line 1 \"<STDIN>\"\na\nb\n" := ⟨_, rfl, by decide⟩

end Gdo.Gen
