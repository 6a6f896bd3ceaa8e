import Verif.Lemmas.CMacroBecome

/-!
Lemmas: the lines of the C++ templates that define the names of symbols.
-/

set_option maxRecDepth 20000

namespace Gdo.Cpp.Cxx
open Gdo Rename Tmpl Builtin Sub

variable {u l : Str} {E : Str → Option Macro}

/-- What stands for a pointer. -/
def rawBody (u l : Str) (p : Proto) : List T := [⟨true, .ident l⟩, ⟨false, .punct (str% "::")⟩, ⟨false, .ident (u ++ str% "_PTR_" ++ p.symbol)⟩]

theorem prefix_text (hp : Prefixes u l) : WordText l := by
  have h := lower_word hp (s := []) (fun _ h => nomatch h)
  rwa [List.append_nil] at h

theorem defLine_raw (hp : Prefixes u l) {p : Proto} (hs : Identifier p.symbol) (k : Nat) :
    DefLine (str% "#define " ++ (u ++ str% "_RAWPTR_") ++ (p.symbol ++ List.replicate k ' ') ++ str% " " ++ l ++ str% "::" ++ (u ++ str% "_PTR_") ++ p.symbol)
      (u ++ str% "_RAWPTR_" ++ p.symbol) (rawBody u l p) := by
  have hx := symbol_word hp (s := str% "_RAWPTR_") (by decide) hs
  have hy := symbol_word hp (s := str% "_PTR_") (by decide) hs
  have hl := prefix_text hp
  have ht : ∀ (A B C : Str) (k : Nat) (x : Str), str% "#define " ++ A ++ (x ++ List.replicate k ' ') ++ str% " " ++ B ++ str% "::" ++ C ++ x ++ ['\n'] =
      textOf (defPieces false (A ++ x) k [.word B, .other ':', .other ':', .word (C ++ x), .other '\n']) := by
    intro A B C k x
    rw [show ∀ y z : Str, y ++ (x ++ List.replicate k ' ') ++ str% " " ++ z = y ++ x ++ ' ' :: (List.replicate k ' ' ++ z) from fun y z => blank_last y x z k]
    simp only [defPieces, if_neg (show ¬ false = true by simp), List.nil_append, textOf_cons, textOf_blanks, Piece.text, textOf_nil]
    simp
  refine defLine_of (sp := false) (k := k) hx (ht _ _ _ _ _) ?_ ?_ ?_ ?_
  · exact ⟨hl.ne, hl.word, fun _ e => (nomatch e), by decide, by decide, hy.ne, hy.word, fun _ e => (nomatch e), by decide, trivial⟩
  · rw [lex_wordOther hl.head (by decide) (by decide)]
    rw [lex]
    show ((lex (.punct false (str% "::")) (.word _ :: _)).map _).map _ = _
    rw [lex_punctWord hy.head, lex_wordEnd (by decide) (by decide)]
    rfl
  · intro t ht
    simp only [rawBody, List.mem_cons, List.not_mem_nil, or_false] at ht
    rcases ht with rfl | rfl | rfl <;> simp
  · intro t ht
    cases ht
    rfl

/-- The definitions for pointers (cxx.hpp 427-428). -/
def rawLines : List Str := [str% "#define GDO_RAWPTR_%%func_symbol_pad%% gdo::GDO_PTR_%%func_symbol%%", str% "#define GDO_RAWPTR_%%obj_symbol_pad%% gdo::GDO_PTR_%%obj_symbol%%"]

def rawText (w : Nat) (u l : Str) (p : Proto) : Str :=
  str% "#define " ++ (u ++ str% "_RAWPTR_") ++ Tmpl.fill w p.symbol ++ str% " " ++ l ++ str% "::" ++ (u ++ str% "_PTR_") ++ p.symbol

theorem written_raw (u l : Str) (protos objs : List Proto) :
    rawLines.flatMap (written u l protos objs) = protos.map (rawText (width protos) u l) ++ objs.map (rawText (width objs) u l) := by
  have e1 : written u l protos objs (str% "#define GDO_RAWPTR_%%func_symbol_pad%% gdo::GDO_PTR_%%func_symbol%%") = protos.map (rawText (width protos) u l) := by
    rw [written_function u l protos objs (ps := [.other '#', .word (str% "define"), .other ' ', .word (str% "GDO_RAWPTR_"), .kw (str% "func_symbol_pad"), .other ' ',
      .word (str% "gdo"), .other ':', .other ':', .word (str% "GDO_PTR_"), .kw (str% "func_symbol")]) (by decide +kernel) (by decide)]
    refine List.map_congr_left fun p _ => ?_
    have k1 : functionValues (width protos) p (str% "func_symbol_pad") = some (Tmpl.fill (width protos) p.symbol, false) := rfl
    have k2 : functionValues (width protos) p (str% "func_symbol") = some (p.symbol, false) := rfl
    have n1 : newName u l (str% "GDO_RAWPTR_") = u ++ str% "_RAWPTR_" := newName_upper u l (str% "RAWPTR_")
    have n2 : newName u l (str% "GDO_PTR_") = u ++ str% "_PTR_" := newName_upper u l (str% "PTR_")
    have n3 : newName u l (str% "gdo") = l := by simp [newName, List.isPrefixOf]
    have n4 : newName u l (str% "define") = str% "define" := rfl
    simp [fillIn, k1, k2, n1, n2, n3, n4, rawText]
  have e2 : written u l protos objs (str% "#define GDO_RAWPTR_%%obj_symbol_pad%% gdo::GDO_PTR_%%obj_symbol%%") = objs.map (rawText (width objs) u l) := by
    rw [written_object u l protos objs (ps := [.other '#', .word (str% "define"), .other ' ', .word (str% "GDO_RAWPTR_"), .kw (str% "obj_symbol_pad"), .other ' ',
      .word (str% "gdo"), .other ':', .other ':', .word (str% "GDO_PTR_"), .kw (str% "obj_symbol")]) (by decide +kernel) (by decide)]
    refine List.map_congr_left fun p _ => ?_
    have k1 : objectValues (width objs) p (str% "obj_symbol_pad") = some (Tmpl.fill (width objs) p.symbol, false) := rfl
    have k2 : objectValues (width objs) p (str% "obj_symbol") = some (p.symbol, false) := rfl
    have n1 : newName u l (str% "GDO_RAWPTR_") = u ++ str% "_RAWPTR_" := newName_upper u l (str% "RAWPTR_")
    have n2 : newName u l (str% "GDO_PTR_") = u ++ str% "_PTR_" := newName_upper u l (str% "PTR_")
    have n3 : newName u l (str% "gdo") = l := by simp [newName, List.isPrefixOf]
    have n4 : newName u l (str% "define") = str% "define" := rfl
    simp [fillIn, k1, k2, n1, n2, n3, n4, rawText]
  simp only [rawLines, List.flatMap_cons, List.flatMap_nil, e1, e2, List.append_nil]

/-- The lines of the body behind the last section. -/
def bodyStart : List Str := ((texts .cxxBody).drop 1047).take 7

def bodyEnd : List Str := [str% "", str% "#endif //!GDO_SEPARATE", str% "", str% "#undef GDO_SET_LAST_ERRNO"]

/-- The header ends as that for C. -/
theorem header_tail : (texts .cxxHeader).drop 459 = (texts .cHeader).drop 241 := by
  have : decide ((texts .cxxHeader).drop 459 = (texts .cHeader).drop 241) = true := by decide +kernel
  exact of_decide_eq_true this

theorem body_tail : (texts .cxxBody).drop 1047 = bodyStart ++ aliasLine :: middleLines' ++ objectLine :: bodyEnd := by
  have : decide ((texts .cxxBody).drop 1047 = bodyStart ++ aliasLine :: middleLines' ++ objectLine :: bodyEnd) = true := by decide +kernel
  exact of_decide_eq_true this

theorem raw_lines : ((texts .cxxHeader).drop 426).take 2 = rawLines := by
  have : decide (((texts .cxxHeader).drop 426).take 2 = rawLines) = true := by decide +kernel
  exact of_decide_eq_true this

def bodyTest (D : Str → Bool) (r : Option (Table × List Cc.Cond)) : Bool := r = some ([], nested (bodyActive D) (!D (str% "GDO_WRAP_VISIBILITY")))

theorem bodyTest_congr (D D' : Str → Bool) (r : Option (Table × List Cc.Cond)) (h : ∀ x ∈ aliasTested, D x = D' x) : bodyTest D r = bodyTest D' r := by
  unfold bodyTest bodyActive
  rw [h (str% "GDO_SEPARATE") (by decide), h (str% "GDO_DISABLE_ALIASING") (by decide), h (str% "GDO_WRAP_VISIBILITY") (by decide)]

theorem bodyStart_whole : wholeLines bodyStart = some (wl bodyStart) := wl_whole (by decide +kernel)

theorem bodyStart_check : checkLines aliasTested aliasNames (wl bodyStart) bodyTest = true := by decide +kernel

/-- The definitions behind the end of the body. -/
def bodyTable (u : Str) (D : Str → Bool) (f : Str → Str) (protos objs : List Proto) : Table :=
  (f (str% "GDO_SET_LAST_ERRNO"), none) ::
  ((if bodyActive (fun w => D (f w)) then defs symbolOf (objectBody u) objs else []) ++
    (if bodyActive (fun w => D (f w)) && !D (f (str% "GDO_WRAP_VISIBILITY")) then defs symbolOf (aliasBody u) protos else []))

theorem run_body (hp : Prefixes u l) {protos objs : List Proto} (h1 : ∀ p ∈ protos, Identifier p.symbol) (h2 : ∀ p ∈ objs, Identifier p.symbol)
    (inc : List T → Table) (D : Str → Bool) (t : Table) (b : Str) :
    run inc D (t, []) (unlines (((texts .cxxBody).drop 1047).flatMap (written u l protos objs)) ++ b) =
      run inc D (bodyTable u (isDefined D t) (newName u l) protos objs ++ t, []) b := by
  have plain : ∀ {ls : List Str}, plainText ls = true → ls.flatMap (written u l protos objs) = ls.map (renamedLine u l) := fun h => written_lines hp protos objs h
  rw [body_tail]
  simp only [List.flatMap_append, List.flatMap_cons, written_alias, written_objectLine, unlines_append, List.append_assoc]
  rw [plain (ls := bodyStart) (by decide +kernel), plain (ls := middleLines') (by decide +kernel), plain (ls := bodyEnd) (by decide +kernel)]
  rw [run_template hp bodyStart_whole]
  obtain ⟨c1, c2⟩ := checkLines_spec bodyStart_check bodyTest_congr (fun w => isDefined D t (newName u l w))
  have c3 := (runLines_ren (u := u) (l := l) (apart_inj aliasNames_apart) inc (fun _ => []) (isDefined D t) c1 (t := []) (fun _ h => nomatch h) []).1
  have c2 := of_decide_eq_true (show decide _ = true from c2)
  rw [c2] at c3
  rw [runLines_start, show (([], []) : Table × List Cc.Cond) = (renTable (newName u l) [], []) from rfl, c3]
  simp only [Option.map_some, Option.bind_some]
  rw [run_defLines (text := aliasText (width protos) u) (name := symbolOf) (body := aliasBody u) fun p hp' => defLine_alias hp (h1 p hp') _, active_nested]
  unfold nested
  rw [run_endif hp (ls := middleLines') (a := []) (b := [[], []]) (by decide +kernel) (by simp) (by simp)]
  rw [run_defLines (text := objectText (width objs) u) (name := symbolOf) (body := objectBody u) fun p hp' => defLine_object hp (h2 p hp') _]
  rw [show bodyEnd = [str% "", str% "#endif //!GDO_SEPARATE", str% ""] ++ [str% "#undef GDO_SET_LAST_ERRNO"] from rfl, List.map_append, unlines_append,
    List.append_assoc, run_endif hp (ls := [str% "", str% "#endif //!GDO_SEPARATE", str% ""]) (a := [[]]) (b := [[]]) (by decide +kernel) (by simp) (by simp)]
  rw [run_template hp (ls := [str% "#undef GDO_SET_LAST_ERRNO"])
    (lns := [[⟨true, .punct (str% "#")⟩, ⟨false, .ident (str% "undef")⟩, ⟨true, .ident (str% "GDO_SET_LAST_ERRNO")⟩]]) (by decide +kernel)]
  have eu : newName u l (str% "undef") = str% "undef" := rfl
  have undef : ∀ (t : Table) (x : Str), runLine inc D (t, []) (([⟨true, .punct (str% "#")⟩, ⟨false, .ident (str% "undef")⟩, ⟨true, .ident x⟩] : List T).map (renT (newName u l))) =
      some ((newName u l x, none) :: t, []) := by
    intro t x
    simp only [List.map_cons, List.map_nil, renT, renTok, eu]
    rfl
  simp only [List.map_cons, List.map_nil] at undef ⊢
  rw [runLines, undef]
  simp only [Option.bind_some]
  rw [runLines]
  simp only [Option.bind_some, bodyTable, List.append_assoc, List.cons_append]
  congr 2
  cases bodyActive (fun w => isDefined D t (newName u l w)) <;> rfl

/-- The definitions for pointers. -/
theorem run_raw (hp : Prefixes u l) {protos objs : List Proto} (h1 : ∀ p ∈ protos, Identifier p.symbol) (h2 : ∀ p ∈ objs, Identifier p.symbol)
    (inc : List T → Table) (D : Str → Bool) (t : Table) (b : Str) :
    run inc D (t, []) (unlines ((((texts .cxxHeader).drop 426).take 2).flatMap (written u l protos objs)) ++ b) =
      run inc D (defs (rawName u) (rawBody u l) (protos ++ objs) ++ t, []) b := by
  rw [raw_lines, written_raw, unlines_append, List.append_assoc]
  rw [run_defLines (text := rawText (width protos) u l) (name := rawName u) (body := rawBody u l) fun p hp' => defLine_raw hp (h1 p hp') _,
    run_defLines (text := rawText (width objs) u l) (name := rawName u) (body := rawBody u l) fun p hp' => defLine_raw hp (h2 p hp') _]
  simp only [show Cc.active [] = true from rfl, if_true, defs, List.map_append, List.reverse_append, List.append_assoc]

/-- A pointer. -/
theorem turns_raw {hs : List Str} {p : Proto} (h1 : E (rawName u p) = some ⟨none, false, rawBody u l p⟩) (h2 : E l = none)
    (h3 : E (u ++ str% "_PTR_" ++ p.symbol) = none) (hh : rawName u p ∉ hs) :
    Turns E hs (rawName u p) [.ident l, .punct (str% "::"), .ident (u ++ str% "_PTR_" ++ p.symbol)] 4 := by
  intro sp r n
  refine ⟨withSpace sp (painted (rawName u p :: hs) ((rawBody u l p).map toH)), rfl, ?_⟩
  rw [show n + 4 = (n + 3) + 1 from rfl, expand_object hh h1 (by
    intro t ht
    simp only [rawBody, List.mem_cons, List.not_mem_nil, or_false] at ht
    rcases ht with rfl | rfl | rfl <;> simp)]
  show expand E (n + 3) (⟨rawName u p :: hs ++ [], sp, .ident l⟩ :: ⟨rawName u p :: hs ++ [], false, .punct (str% "::")⟩ ::
    ⟨rawName u p :: hs ++ [], false, .ident (u ++ str% "_PTR_" ++ p.symbol)⟩ :: r) = _
  rw [show n + 3 = (n + 2) + 1 from rfl, expand_cons (fun w hw => by cases hw; exact .inr h2), show n + 2 = (n + 1) + 1 from rfl, expand_cons (fun w hw => by cases hw),
    expand_cons (fun w hw => by cases hw; exact .inr h3)]
  cases expand E n r <;> rfl

/-- An object. -/
theorem turns_object {p : Proto} (h0 : E p.symbol = some ⟨none, false, objectBody u p⟩) (h1 : E (rawName u p) = some ⟨none, false, rawBody u l p⟩)
    (h2 : E l = none) (h3 : E (u ++ str% "_PTR_" ++ p.symbol) = none) (hn : rawName u p ≠ p.symbol) :
    Turns E [] p.symbol [.punct (str% "*"), .ident l, .punct (str% "::"), .ident (u ++ str% "_PTR_" ++ p.symbol)] 6 := by
  intro sp r n
  obtain ⟨out, e1, e2⟩ := turns_raw h1 h2 h3 (hs := [p.symbol]) (by simpa using hn) false r n
  refine ⟨⟨[p.symbol], sp, .punct (str% "*")⟩ :: out, by rw [List.map_cons, e1], ?_⟩
  rw [show n + 6 = (n + 4 + 1) + 1 from rfl, expand_object (by simp) h0 (by
    intro t ht
    simp only [objectBody, List.mem_cons, List.not_mem_nil, or_false] at ht
    rcases ht with rfl | rfl <;> simp)]
  show expand E (n + 4 + 1) (⟨[p.symbol], sp, .punct (str% "*")⟩ :: ⟨[p.symbol], false, .ident (rawName u p)⟩ :: r) = _
  rw [expand_cons (fun w hw => by cases hw), e2]
  cases expand E n r <;> rfl

end Gdo.Cpp.Cxx
