import Verif.Lemmas.CMacroAlias

/-!
Lemmas: what the names of symbols are replaced by.
-/

set_option maxRecDepth 20000

namespace Gdo.Cpp
open Gdo Rename Tmpl Builtin Sub

variable {u l : Str} {E : Str → Option Macro}

theorem tokens_ident {w : Str} (h : WordText w) : tokens w = some [⟨true, .ident w⟩] := by
  unfold tokens
  rw [pieces_word h]
  simp [lex, step, begin, h.head, flush]

/-- As `Becomes`, for a token that comes from the macros `hs`, in `k` steps. -/
def Turns (E : Str → Option Macro) (hs : List Str) (x : Str) (ts : List PTok) (k : Nat) : Prop :=
  ∀ sp r n, ∃ out, out.map (·.tok) = ts ∧ expand E (n + k) (⟨hs, sp, .ident x⟩ :: r) = (expand E n r).map (out ++ ·)

theorem Turns.becomes {x : Str} {ts : List PTok} {k : Nat} (h : Turns E [] x ts k) : Becomes E x ts := ⟨k, h⟩

/-- Nothing happens to a name that is not a macro. -/
theorem turns_none {x : Str} (hs : List Str) (h : E x = none) : Turns E hs x [.ident x] 1 := by
  intro sp r n
  refine ⟨[⟨hs, sp, .ident x⟩], rfl, ?_⟩
  rw [expand_cons]
  · rfl
  · intro w hw
    cases hw
    exact .inr h

/-- A pointer. -/
theorem turns_raw {hs : List Str} {p : Proto} (h1 : E (rawName u p) = some ⟨none, false, rawBody u l p⟩) (h2 : E (l ++ str% "_hndl") = none)
    (h3 : E (u ++ str% "_PTR_" ++ p.symbol) = none) (hh : rawName u p ∉ hs) :
    Turns E hs (rawName u p) [.ident (l ++ str% "_hndl"), .punct (str% "."), .ident (u ++ str% "_PTR_" ++ p.symbol)] 4 := by
  intro sp r n
  refine ⟨withSpace sp (painted (rawName u p :: hs) ((rawBody u l p).map toH)), rfl, ?_⟩
  rw [show n + 4 = (n + 3) + 1 from rfl, expand_object hh h1 (by
    intro t ht
    simp only [rawBody, List.mem_cons, List.not_mem_nil, or_false] at ht
    rcases ht with rfl | rfl | rfl <;> simp)]
  show expand E (n + 3) (⟨rawName u p :: hs ++ [], sp, .ident (l ++ str% "_hndl")⟩ :: ⟨rawName u p :: hs ++ [], false, .punct (str% ".")⟩ ::
    ⟨rawName u p :: hs ++ [], false, .ident (u ++ str% "_PTR_" ++ p.symbol)⟩ :: r) = _
  rw [show n + 3 = (n + 2) + 1 from rfl, expand_cons (fun w hw => by cases hw; exact .inr h2), show n + 2 = (n + 1) + 1 from rfl, expand_cons (fun w hw => by cases hw),
    expand_cons (fun w hw => by cases hw; exact .inr h3)]
  cases expand E n r <;> rfl

/-- An object. -/
theorem turns_object {p : Proto} (h0 : E p.symbol = some ⟨none, false, objectBody u p⟩) (h1 : E (rawName u p) = some ⟨none, false, rawBody u l p⟩)
    (h2 : E (l ++ str% "_hndl") = none) (h3 : E (u ++ str% "_PTR_" ++ p.symbol) = none) (hn : rawName u p ≠ p.symbol) :
    Turns E [] p.symbol [.punct (str% "*"), .ident (l ++ str% "_hndl"), .punct (str% "."), .ident (u ++ str% "_PTR_" ++ p.symbol)] 6 := by
  intro sp r n
  obtain ⟨out, e1, e2⟩ := turns_raw h1 h2 h3 (hs := [p.symbol]) (by simpa using hn) false r n
  refine ⟨⟨[p.symbol], sp, .punct (str% "*")⟩ :: out, by rw [List.map_cons, e1], ?_⟩
  rw [show n + 6 = (n + 4 + 1) + 1 from rfl, expand_object (by simp) h0 (by
    intro t ht
    simp only [objectBody, List.mem_cons, List.not_mem_nil, or_false] at ht
    rcases ht with rfl | rfl <;> simp)]
  show expand E (n + 4 + 1) (⟨[p.symbol], sp, .punct (str% "*")⟩ :: ⟨[p.symbol], false, .ident (rawName u p)⟩ :: r) = _
  rw [expand_cons (fun w hw => by cases hw), e2]
  cases expand E n r <;> rfl

/-- The macro for function names. -/
def aliasDef (x : Str) : Macro := ⟨some [str% "x"], false, [⟨true, .ident x⟩, ⟨false, .punct (str% "##")⟩, ⟨false, .ident (str% "x")⟩]⟩

theorem fill_paste' {x : Str} (hx : x ≠ str% "x") {s : Str} (hw : WordText (x ++ s)) (hs : List Str) (s2 : Bool) (ex : List (Str × Option (List H))) :
    fill true [(str% "x", [⟨hs, s2, .ident s⟩])] ex [⟨true, .ident x⟩, ⟨false, .punct (str% "##")⟩, ⟨false, .ident (str% "x")⟩] = some [⟨[], true, .ident (x ++ s)⟩] := by
  rw [fill.eq_def]
  simp only []
  rw [if_pos ⟨trivial, rfl⟩, if_neg (by decide)]
  have e1 : operand [(str% "x", [⟨hs, s2, .ident s⟩])] ⟨true, .ident x⟩ = [⟨[], true, .ident x⟩] := by
    simp [operand, List.lookup, beq_eq_false_iff_ne.mpr hx]
  have e2 : operand [(str% "x", [⟨hs, s2, .ident s⟩])] ⟨false, .ident (str% "x")⟩ = [⟨hs, false, .ident s⟩] := rfl
  rw [e1, e2]
  simp only [paste, spell]
  rw [tokens_ident hw]
  rfl

theorem fill_paste {x : Str} (hx : x ≠ str% "x") {s : Str} (hw : WordText (x ++ s)) (hs : List Str) (ex : List (Str × Option (List H))) :
    fill true [(str% "x", [⟨hs, false, .ident s⟩])] ex [⟨true, .ident x⟩, ⟨false, .punct (str% "##")⟩, ⟨false, .ident (str% "x")⟩] = some [⟨[], true, .ident (x ++ s)⟩] :=
  fill_paste' hx hw hs false ex

theorem turns_alias {p : Proto} {x : Str} {ts : List PTok} {k : Nat} (h0 : E p.symbol = some ⟨none, false, aliasBody u p⟩) (h1 : E (u ++ str% "_FUNC_ALIAS") = some (aliasDef x))
    (hx : x ≠ str% "x") (hw : WordText (x ++ p.symbol)) (hn : u ++ str% "_FUNC_ALIAS" ≠ p.symbol)
    (h : Turns E [u ++ str% "_FUNC_ALIAS", p.symbol] (x ++ p.symbol) ts k) : Turns E [] p.symbol ts (k + 2) := by
  intro sp r n
  obtain ⟨out, e1, e2⟩ := h sp r n
  refine ⟨out, e1, ?_⟩
  rw [show n + (k + 2) = (n + k + 1) + 1 from by omega, expand_object (by simp) h0 (by
    intro t ht
    simp only [aliasBody, List.mem_cons, List.not_mem_nil, or_false] at ht
    rcases ht with rfl | rfl | rfl | rfl <;> simp)]
  show expand E (n + k + 1) (⟨[p.symbol], sp, .ident (u ++ str% "_FUNC_ALIAS")⟩ :: ⟨[p.symbol], false, .punct (str% "(")⟩ :: ⟨[p.symbol], false, .ident p.symbol⟩ ::
    ⟨[p.symbol], false, .punct (str% ")")⟩ :: r) = _
  rw [expand]
  simp only []
  rw [if_neg (by simpa using hn), h1]
  simp only [aliasDef]
  rw [if_pos trivial]
  have ea : arguments 0 [] (⟨[p.symbol], false, .ident p.symbol⟩ :: ⟨[p.symbol], false, .punct (str% ")")⟩ :: r) = some ([[⟨[p.symbol], false, .ident p.symbol⟩]], [p.symbol], r) := by
    simp [arguments]
  rw [ea]
  simp only [Option.bind_some]
  have eb : bindings [str% "x"] false [[(⟨[p.symbol], false, .ident p.symbol⟩ : H)]] = some [(str% "x", [⟨[p.symbol], false, .ident p.symbol⟩])] := by
    simp [bindings]
  rw [eb]
  simp only [Option.bind_some]
  rw [fill_paste hx hw]
  simp only [Option.bind_some]
  have ep : withSpace sp (painted ((u ++ str% "_FUNC_ALIAS") :: List.filter (fun x => decide (x ∈ [p.symbol])) [p.symbol]) [⟨[], true, .ident (x ++ p.symbol)⟩]) =
      [⟨[u ++ str% "_FUNC_ALIAS", p.symbol], sp, .ident (x ++ p.symbol)⟩] := by
    simp [painted, withSpace]
  rw [ep]
  exact e2

/-! ### The macro for wrapper functions -/

def wrapLines : List Str := ((texts .commonHeader).drop 226).take 10

def wrapNames : List Str := [str% "GDO_WRAP_VISIBILITY", str% "GDO_WRAP_DECL", str% "GDO_WRAP"]

def wrapMacro (vis : Bool) : Macro :=
  ⟨some [str% "x"], false, if vis then [⟨true, .ident (str% "x")⟩] else [⟨true, .ident (str% "GDO_WRAP_")⟩, ⟨false, .punct (str% "##")⟩, ⟨false, .ident (str% "x")⟩]⟩

def wrapTable (vis : Bool) : Table :=
  [(str% "GDO_WRAP", some (wrapMacro vis)),
   (str% "GDO_WRAP_DECL", some ⟨none, false, if vis then [⟨true, .ident (str% "GDO_WRAP_VISIBILITY")⟩] else [⟨true, .ident (str% "static")⟩, ⟨true, .ident (str% "inline")⟩]⟩)]

def wrapTest (D : Str → Bool) (r : Option (Table × List Cc.Cond)) : Bool := r = some (wrapTable (D (str% "GDO_WRAP_VISIBILITY")), [])

theorem wrapLines_whole : wholeLines wrapLines = some (wl wrapLines) := wl_whole (by decide +kernel)

theorem wrapLines_check : checkLines [str% "GDO_WRAP_VISIBILITY"] wrapNames (wl wrapLines) wrapTest = true := by decide +kernel

theorem wrapNames_apart : apartNames wrapNames = true := by decide +kernel

theorem run_wrap (hp : Prefixes u l) (protos objs : List Proto) (inc : List T → Table) (D : Str → Bool) (b : Str) :
    run inc D ([], []) (unlines (wrapLines.flatMap (written u l protos objs)) ++ b) =
      run inc D (renTable (newName u l) (wrapTable (D (newName u l (str% "GDO_WRAP_VISIBILITY")))), []) b := by
  rw [written_lines hp protos objs (by decide +kernel), run_template hp wrapLines_whole]
  obtain ⟨c1, c2⟩ := checkLines_spec wrapLines_check (fun D D' r h => by unfold wrapTest; rw [h _ (by simp)]) (fun w => D (newName u l w))
  have c3 := (runLines_ren (u := u) (l := l) (apart_inj wrapNames_apart) inc (fun _ => []) D c1 (t := []) (fun _ h => nomatch h) []).1
  have c2 := of_decide_eq_true (show decide _ = true from c2)
  rw [c2] at c3
  rw [show (([], []) : Table × List Cc.Cond) = (renTable (newName u l) [], []) from rfl, c3]
  rfl

end Gdo.Cpp
