import Verif.Lemmas.CMacroBecome

/-!
Lemmas: the lines of the minimal templates that define the names of symbols.  The flag is
true for `minimal_cxxeh.hpp` and false for `minimal.h`.
-/

set_option maxRecDepth 20000

namespace Gdo.Cpp.Min
open Gdo Rename Tmpl Builtin Sub

variable {u l : Str} {E : Str → Option Macro}

/-- The template. -/
def template : Bool → Gen.TName
  | true => .minCxxHeader
  | false => .minCHeader

/-- What the pointers belong to: the namespace or the handle. -/
def owner : Bool → Str → Str
  | true, l => l
  | false, l => l ++ str% "_hndl"

def access : Bool → Str
  | true => str% "::"
  | false => str% "."

/-- What stands for a function. -/
def functionBody (cxx : Bool) (u l : Str) (p : Proto) : List T :=
  [⟨true, .ident (owner cxx l)⟩, ⟨false, .punct (access cxx)⟩, ⟨false, .ident (u ++ str% "_PTR_" ++ p.symbol)⟩]

/-- What stands for an object. -/
def objectBody (cxx : Bool) (u l : Str) (p : Proto) : List T :=
  [⟨true, .punct (str% "*")⟩, ⟨false, .ident (owner cxx l)⟩, ⟨false, .punct (access cxx)⟩, ⟨false, .ident (u ++ str% "_PTR_" ++ p.symbol)⟩]

theorem owner_word (hp : Prefixes u l) (cxx : Bool) : WordText (owner cxx l) := by
  cases cxx with
  | true =>
    have h := lower_word hp (s := []) (fun _ h => nomatch h)
    rwa [List.append_nil] at h
  | false => exact lower_word hp (s := str% "_hndl") (by decide)

def accessPieces : Bool → List Piece
  | true => [.other ':', .other ':']
  | false => [.other '.']

theorem lex_access (cxx : Bool) {w : Str} (hw : startsDigit w = false) (r : List Piece) {sp : Bool} {v : Str} :
    lex (.word sp v) (accessPieces cxx ++ .word w :: r) = (lex (.word false w) r).map fun a => (a.1, ⟨sp, .ident v⟩ :: ⟨false, .punct (access cxx)⟩ :: a.2) := by
  cases cxx with
  | true =>
    show lex (.word sp v) (.other ':' :: .other ':' :: .word w :: r) = _
    rw [lex_wordEnd (by decide) (by decide), lex]
    show ((lex (.punct false (str% "::")) (.word _ :: _)).map _).map _ = _
    rw [lex_punctWord hw]
    cases lex (.word false w) r <;> rfl
  | false =>
    show lex (.word sp v) (.other '.' :: .word w :: r) = _
    rw [lex_wordEnd (by decide) (by decide)]
    show (lex (.punct false (str% ".")) (.word _ :: _)).map _ = _
    rw [lex_punctWord hw]
    cases lex (.word false w) r <;> rfl

theorem text_access (cxx : Bool) (ps : List Piece) : textOf (accessPieces cxx ++ ps) = access cxx ++ textOf ps := by
  cases cxx <;> simp [accessPieces, access, textOf_cons, Piece.text]

theorem valid_access (cxx : Bool) {ps : List Piece} (h : Valid ps) : Valid (accessPieces cxx ++ ps) := by
  cases cxx
  · exact ⟨by decide, h⟩
  · exact ⟨by decide, by decide, h⟩

theorem access_head (cxx : Bool) (ps : List Piece) : ∀ w, (accessPieces cxx ++ ps).head? ≠ some (.word w) := by
  cases cxx <;> exact fun _ e => nomatch e

theorem blanks_last (y x z : Str) (k : Nat) : y ++ (x ++ List.replicate k ' ') ++ str% "  " ++ z = y ++ x ++ ' ' :: (List.replicate (k + 1) ' ' ++ z) := by
  have := blank_last y x (' ' :: z) k
  rw [show y ++ (x ++ List.replicate k ' ') ++ str% "  " ++ z = y ++ (x ++ List.replicate k ' ') ++ str% " " ++ (' ' :: z) from by simp, this, List.replicate_succ']
  simp

theorem lex_word {w : Str} (hw : startsDigit w = false) (sp : Bool) (r : List Piece) : lex (.gap sp) (.word w :: r) = lex (.word sp w) r := by
  rw [lex]
  have e : step (.gap sp) (.word w) = some (.word sp w, []) := by simp [step, begin, hw]
  rw [e]
  show (lex (.word sp w) r).map _ = _
  cases lex (.word sp w) r <;> rfl

theorem defLine_function (hp : Prefixes u l) (cxx : Bool) {p : Proto} (hs : Identifier p.symbol) (k : Nat) :
    DefLine (str% "#define " ++ (p.symbol ++ List.replicate k ' ') ++ str% "  " ++ (owner cxx l ++ access cxx) ++ (u ++ str% "_PTR_") ++ p.symbol) p.symbol (functionBody cxx u l p) := by
  have hx := WordText.of hs
  have hy := symbol_word hp (s := str% "_PTR_") (by decide) hs
  have hl := owner_word hp cxx
  have ht : ∀ (B C : Str) (k : Nat) (x : Str), str% "#define " ++ (x ++ List.replicate k ' ') ++ str% "  " ++ (B ++ access cxx) ++ C ++ x ++ ['\n'] =
      textOf (defPieces false x (k + 1) (.word B :: (accessPieces cxx ++ [.word (C ++ x), .other '\n']))) := by
    intro B C k x
    rw [show ∀ y z : Str, y ++ (x ++ List.replicate k ' ') ++ str% "  " ++ z = y ++ x ++ ' ' :: (List.replicate (k + 1) ' ' ++ z) from fun y z => blanks_last y x z k]
    simp only [defPieces, if_neg (show ¬ false = true by simp), List.nil_append, textOf_cons, textOf_blanks, text_access, Piece.text, textOf_nil]
    simp
  refine defLine_of (sp := false) (k := k + 1) hx (ht _ _ _ _) ?_ ?_ ?_ ?_
  · exact ⟨hl.ne, hl.word, access_head cxx _, valid_access cxx ⟨hy.ne, hy.word, fun _ e => (nomatch e), by decide, trivial⟩⟩
  · rw [lex_word hl.head, lex_access cxx hy.head, lex_wordEnd (by decide) (by decide)]
    rfl
  · intro t ht
    simp only [functionBody, List.mem_cons, List.not_mem_nil, or_false] at ht
    rcases ht with rfl | rfl | rfl <;> simp
  · intro t ht
    cases ht
    rfl

theorem defLine_object (hp : Prefixes u l) (cxx : Bool) {p : Proto} (hs : Identifier p.symbol) (k : Nat) :
    DefLine (str% "#define " ++ (p.symbol ++ List.replicate k ' ') ++ str% "  " ++ (str% "*" ++ (owner cxx l ++ access cxx)) ++ (u ++ str% "_PTR_") ++ p.symbol) p.symbol (objectBody cxx u l p) := by
  have hx := WordText.of hs
  have hy := symbol_word hp (s := str% "_PTR_") (by decide) hs
  have hl := owner_word hp cxx
  have ht : ∀ (B C : Str) (k : Nat) (x : Str), str% "#define " ++ (x ++ List.replicate k ' ') ++ str% "  " ++ (str% "*" ++ (B ++ access cxx)) ++ C ++ x ++ ['\n'] =
      textOf (defPieces false x (k + 1) (.other '*' :: .word B :: (accessPieces cxx ++ [.word (C ++ x), .other '\n']))) := by
    intro B C k x
    rw [show ∀ y z : Str, y ++ (x ++ List.replicate k ' ') ++ str% "  " ++ z = y ++ x ++ ' ' :: (List.replicate (k + 1) ' ' ++ z) from fun y z => blanks_last y x z k]
    simp only [defPieces, if_neg (show ¬ false = true by simp), List.nil_append, textOf_cons, textOf_blanks, text_access, Piece.text, textOf_nil]
    simp
  refine defLine_of (sp := false) (k := k + 1) hx (ht _ _ _ _) ?_ ?_ ?_ ?_
  · exact ⟨by decide, hl.ne, hl.word, access_head cxx _, valid_access cxx ⟨hy.ne, hy.word, fun _ e => (nomatch e), by decide, trivial⟩⟩
  · rw [lex]
    show (lex (.punct true (str% "*")) (.word _ :: _)).map _ = _
    rw [lex_punctWord hl.head, lex_access cxx hy.head, lex_wordEnd (by decide) (by decide)]
    rfl
  · intro t ht
    simp only [objectBody, List.mem_cons, List.not_mem_nil, or_false] at ht
    rcases ht with rfl | rfl | rfl | rfl <;> simp
  · intro t ht
    cases ht
    rfl

/-! ### The texts of the templates -/

def functionText (cxx : Bool) (w : Nat) (u l : Str) (p : Proto) : Str :=
  str% "#define " ++ Tmpl.fill w p.symbol ++ str% "  " ++ (owner cxx l ++ access cxx) ++ (u ++ str% "_PTR_") ++ p.symbol

def objectText (cxx : Bool) (w : Nat) (u l : Str) (p : Proto) : Str :=
  str% "#define " ++ Tmpl.fill w p.symbol ++ str% "  " ++ (str% "*" ++ (owner cxx l ++ access cxx)) ++ (u ++ str% "_PTR_") ++ p.symbol

/-- The definitions for names (minimal.h 111-112, minimal_cxxeh.hpp 151-152). -/
def functionLine : Bool → Str
  | true => str% "#define %%func_symbol_pad%%  gdo::GDO_PTR_%%func_symbol%%"
  | false => str% "#define %%func_symbol_pad%%  gdo_hndl.GDO_PTR_%%func_symbol%%"

def objectLine : Bool → Str
  | true => str% "#define %%obj_symbol_pad%%  *gdo::GDO_PTR_%%obj_symbol%%"
  | false => str% "#define %%obj_symbol_pad%%  *gdo_hndl.GDO_PTR_%%obj_symbol%%"

def ownerPart : Bool → List Part
  | true => [.word (str% "gdo"), .other ':', .other ':']
  | false => [.word (str% "gdo_hndl"), .other '.']

theorem written_functionLine (cxx : Bool) (u l : Str) (protos objs : List Proto) : written u l protos objs (functionLine cxx) = protos.map (functionText cxx (width protos) u l) := by
  rw [written_function u l protos objs (ps := [.other '#', .word (str% "define"), .other ' ', .kw (str% "func_symbol_pad"), .other ' ', .other ' '] ++ ownerPart cxx ++
    [.word (str% "GDO_PTR_"), .kw (str% "func_symbol")]) (by cases cxx <;> decide +kernel) (by cases cxx <;> decide)]
  refine List.map_congr_left fun p _ => ?_
  have k1 : functionValues (width protos) p (str% "func_symbol_pad") = some (Tmpl.fill (width protos) p.symbol, false) := rfl
  have k2 : functionValues (width protos) p (str% "func_symbol") = some (p.symbol, false) := rfl
  have n2 : newName u l (str% "GDO_PTR_") = u ++ str% "_PTR_" := newName_upper u l (str% "PTR_")
  have n3 : newName u l (str% "gdo") = l := by simp [newName, List.isPrefixOf]
  have n5 : newName u l (str% "gdo_hndl") = l ++ str% "_hndl" := by simp [newName, List.isPrefixOf]
  have n4 : newName u l (str% "define") = str% "define" := rfl
  cases cxx <;> simp [fillIn, k1, k2, n2, n3, n4, n5, functionText, ownerPart, owner, access]

theorem written_objectLine (cxx : Bool) (u l : Str) (protos objs : List Proto) : written u l protos objs (objectLine cxx) = objs.map (objectText cxx (width objs) u l) := by
  rw [written_object u l protos objs (ps := [.other '#', .word (str% "define"), .other ' ', .kw (str% "obj_symbol_pad"), .other ' ', .other ' ', .other '*'] ++ ownerPart cxx ++
    [.word (str% "GDO_PTR_"), .kw (str% "obj_symbol")]) (by cases cxx <;> decide +kernel) (by cases cxx <;> decide)]
  refine List.map_congr_left fun p _ => ?_
  have k1 : objectValues (width objs) p (str% "obj_symbol_pad") = some (Tmpl.fill (width objs) p.symbol, false) := rfl
  have k2 : objectValues (width objs) p (str% "obj_symbol") = some (p.symbol, false) := rfl
  have n2 : newName u l (str% "GDO_PTR_") = u ++ str% "_PTR_" := newName_upper u l (str% "PTR_")
  have n3 : newName u l (str% "gdo") = l := by simp [newName, List.isPrefixOf]
  have n5 : newName u l (str% "gdo_hndl") = l ++ str% "_hndl" := by simp [newName, List.isPrefixOf]
  have n4 : newName u l (str% "define") = str% "define" := rfl
  cases cxx <;> simp [fillIn, k1, k2, n2, n3, n4, n5, objectText, ownerPart, owner, access]

/-! ### Running them -/

/-- Where the definitions begin. -/
def begins : Bool → Nat
  | true => 137
  | false => 97

def startLines : List Str := [str% "#if !defined(GDO_DISABLE_ALIASING)", str% "", str% "/**", str% " * Aliases to raw symbol pointers", str% " */"]

def endLines : List Str := [str% "", str% "#endif // !GDO_DISABLE_ALIASING", str% ""]

theorem tail_lines (cxx : Bool) : (texts (template cxx)).drop (begins cxx) = startLines ++ functionLine cxx :: objectLine cxx :: endLines := by
  cases cxx
  · have : decide ((texts (template false)).drop (begins false) = startLines ++ functionLine false :: objectLine false :: endLines) = true := by decide +kernel
    exact of_decide_eq_true this
  · have : decide ((texts (template true)).drop (begins true) = startLines ++ functionLine true :: objectLine true :: endLines) = true := by decide +kernel
    exact of_decide_eq_true this

def startTest (D : Str → Bool) (r : Option (Table × List Cc.Cond)) : Bool :=
  r = some ([], [⟨!D (str% "GDO_DISABLE_ALIASING"), !D (str% "GDO_DISABLE_ALIASING"), false⟩])

theorem startTest_congr (D D' : Str → Bool) (r : Option (Table × List Cc.Cond)) (h : ∀ x ∈ [str% "GDO_DISABLE_ALIASING"], D x = D' x) : startTest D r = startTest D' r := by
  unfold startTest
  rw [h (str% "GDO_DISABLE_ALIASING") (by decide)]

theorem start_whole : wholeLines startLines = some (wl startLines) := wl_whole (by decide +kernel)

theorem start_check : checkLines [str% "GDO_DISABLE_ALIASING"] [str% "GDO_DISABLE_ALIASING"] (wl startLines) startTest = true := by decide +kernel

theorem start_apart : apartNames [str% "GDO_DISABLE_ALIASING"] = true := by decide +kernel

/-- The definitions behind the end. -/
def endTable (cxx : Bool) (u l : Str) (on : Bool) (protos objs : List Proto) : Table :=
  if on then defs symbolOf (objectBody cxx u l) objs ++ defs symbolOf (functionBody cxx u l) protos else []

theorem run_end (hp : Prefixes u l) (cxx : Bool) {protos objs : List Proto} (h1 : ∀ p ∈ protos, Identifier p.symbol) (h2 : ∀ p ∈ objs, Identifier p.symbol)
    (inc : List T → Table) (D : Str → Bool) (t : Table) (b : Str) :
    run inc D (t, []) (unlines (((texts (template cxx)).drop (begins cxx)).flatMap (written u l protos objs)) ++ b) =
      run inc D (endTable cxx u l (!isDefined D t (newName u l (str% "GDO_DISABLE_ALIASING"))) protos objs ++ t, []) b := by
  have plain : ∀ {ls : List Str}, plainText ls = true → ls.flatMap (written u l protos objs) = ls.map (renamedLine u l) := fun h => written_lines hp protos objs h
  rw [tail_lines]
  simp only [List.flatMap_append, List.flatMap_cons, written_functionLine, written_objectLine, unlines_append, List.append_assoc]
  rw [plain (ls := startLines) (by decide +kernel), plain (ls := endLines) (by decide +kernel)]
  rw [run_template hp start_whole]
  obtain ⟨c1, c2⟩ := checkLines_spec start_check startTest_congr (fun w => isDefined D t (newName u l w))
  have c3 := (runLines_ren (u := u) (l := l) (apart_inj start_apart) inc (fun _ => []) (isDefined D t) c1 (t := []) (fun _ h => nomatch h) []).1
  have c2 := of_decide_eq_true (show decide _ = true from c2)
  rw [c2] at c3
  rw [runLines_start, show (([], []) : Table × List Cc.Cond) = (renTable (newName u l) [], []) from rfl, c3]
  simp only [Option.map_some, Option.bind_some]
  rw [run_defLines (text := functionText cxx (width protos) u l) (name := symbolOf) (body := functionBody cxx u l) fun p hp' => defLine_function hp cxx (h1 p hp') _,
    run_defLines (text := objectText cxx (width objs) u l) (name := symbolOf) (body := objectBody cxx u l) fun p hp' => defLine_object hp cxx (h2 p hp') _]
  rw [run_endif hp (ls := endLines) (a := [[]]) (b := [[]]) (by decide +kernel) (by simp) (by simp)]
  unfold endTable
  cases isDefined D t (newName u l (str% "GDO_DISABLE_ALIASING")) <;> simp [Cc.active, renTable]

/-! ### What the names become -/

theorem turns_function {cxx : Bool} {p : Proto} (h1 : E p.symbol = some ⟨none, false, functionBody cxx u l p⟩) (h2 : E (owner cxx l) = none)
    (h3 : E (u ++ str% "_PTR_" ++ p.symbol) = none) :
    Turns E [] p.symbol [.ident (owner cxx l), .punct (access cxx), .ident (u ++ str% "_PTR_" ++ p.symbol)] 4 := by
  intro sp r n
  refine ⟨withSpace sp (painted [p.symbol] ((functionBody cxx u l p).map toH)), rfl, ?_⟩
  rw [show n + 4 = (n + 3) + 1 from rfl, expand_object (by simp) h1 (by
    intro t ht
    simp only [functionBody, List.mem_cons, List.not_mem_nil, or_false] at ht
    rcases ht with rfl | rfl | rfl <;> simp <;> cases cxx <;> decide)]
  show expand E (n + 3) (⟨[p.symbol], sp, .ident (owner cxx l)⟩ :: ⟨[p.symbol], false, .punct (access cxx)⟩ ::
    ⟨[p.symbol], false, .ident (u ++ str% "_PTR_" ++ p.symbol)⟩ :: r) = _
  rw [show n + 3 = (n + 2) + 1 from rfl, expand_cons (fun w hw => by cases hw; exact .inr h2), show n + 2 = (n + 1) + 1 from rfl, expand_cons (fun w hw => by cases hw),
    expand_cons (fun w hw => by cases hw; exact .inr h3)]
  cases expand E n r <;> rfl

theorem turns_object {cxx : Bool} {p : Proto} (h1 : E p.symbol = some ⟨none, false, objectBody cxx u l p⟩) (h2 : E (owner cxx l) = none)
    (h3 : E (u ++ str% "_PTR_" ++ p.symbol) = none) :
    Turns E [] p.symbol [.punct (str% "*"), .ident (owner cxx l), .punct (access cxx), .ident (u ++ str% "_PTR_" ++ p.symbol)] 5 := by
  intro sp r n
  refine ⟨withSpace sp (painted [p.symbol] ((objectBody cxx u l p).map toH)), rfl, ?_⟩
  rw [show n + 5 = (n + 4) + 1 from rfl, expand_object (by simp) h1 (by
    intro t ht
    simp only [objectBody, List.mem_cons, List.not_mem_nil, or_false] at ht
    rcases ht with rfl | rfl | rfl | rfl <;> simp <;> cases cxx <;> decide)]
  show expand E (n + 4) (⟨[p.symbol], sp, .punct (str% "*")⟩ :: ⟨[p.symbol], false, .ident (owner cxx l)⟩ :: ⟨[p.symbol], false, .punct (access cxx)⟩ ::
    ⟨[p.symbol], false, .ident (u ++ str% "_PTR_" ++ p.symbol)⟩ :: r) = _
  rw [show n + 4 = (n + 3) + 1 from rfl, expand_cons (fun w hw => by cases hw), show n + 3 = (n + 2) + 1 from rfl, expand_cons (fun w hw => by cases hw; exact .inr h2),
    show n + 2 = (n + 1) + 1 from rfl, expand_cons (fun w hw => by cases hw), expand_cons (fun w hw => by cases hw; exact .inr h3)]
  cases expand E n r <;> rfl

end Gdo.Cpp.Min
