import Verif.Lemmas.CLexSym

/-!
Lemmas: the lines of a template as rows of tokens, and which of them the preprocessor
leaves, for all prefixes and symbols at once.
-/

namespace Gdo.Cc
open Gdo Tpl Tmpl Sub Rename Builtin

/-! ### Rows -/

/-- A line of text, or lines that are repeated. -/
inductive Row
  | line (ts : List STok)
  | rep (k : Kind) (ts : List STok)
  deriving DecidableEq, Repr

/-- The complete lines, and what comes behind the last one; `cur`: the beginning of the
    first line. -/
def splitNl : List STok → List STok → List (List STok) × List STok
  | cur, [] => ([], cur)
  | cur, .nl :: r => (cur :: (splitNl [] r).1, (splitNl [] r).2)
  | cur, t :: r => splitNl (cur ++ [t]) r

/-- The keywords that are understood in lines for each kind of symbols. -/
def kwsOf : Kind → List Str
  | .function => [str% "func_symbol", str% "func_symbol_pad", str% "type", str% "args"]
  | .object => [str% "obj_symbol", str% "obj_symbol_pad", str% "obj_type"]
  | .symbol => [str% "symbol", str% "sym_type"]

/-- A part that may be in a line for a kind of symbols. -/
def partOk (k : Kind) : Part → Bool
  | .kw n => decide (n ∈ kwsOf k)
  | _ => true

/-- The rows of a template; `s`: the state of the scanner, `cur`: the tokens of the line
    that was begun. -/
def symFile : SScan → List STok → List Str → Option (List Row)
  | s, cur, [] => if s = .code ∧ cur = [] then some [] else none
  | s, cur, d :: ds =>
    let ps := parts d
    match firstKind ps with
    | none =>
      if ps.all (fun q => !isKw q) then
        (symScan s (ps ++ [.other '\n'])).bind fun a =>
          (symFile a.1 (splitNl cur a.2).2 ds).map ((splitNl cur a.2).1.map .line ++ ·)
      else none
    | some k =>
      if s = .code ∧ cur = [] ∧ ps.all (partOk k) then
        (symScan .code (ps ++ [.other '\n'])).bind fun a =>
          if a.1 = .code then (symFile .code [] ds).map (.rep k a.2 :: ·) else none
      else none

variable {u l : Str}

/-- The tokens of rows in the generated text. -/
def closeRow (u l : Str) (I : Insts) : Row → Option (List Tok)
  | .line ts => (closeAll u l ts).map (· ++ [.nl])
  | .rep k ts => closeAll u l ((I k).flatMap fun val => ts.map (STok.inst val))

def closeRows (u l : Str) (I : Insts) : List Row → Option (List Tok)
  | [] => some []
  | r :: rs => (closeRow u l I r).bind fun a => (closeRows u l I rs).map (a ++ ·)

theorem closeRows_cons {I : Insts} {r : Row} {rs : List Row} {a b : List Tok} (h1 : closeRow u l I r = some a) (h2 : closeRows u l I rs = some b) :
    closeRows u l I (r :: rs) = some (a ++ b) := by
  rw [closeRows, h1]
  simp [h2]

theorem closeRows_append {I : Insts} {xs ys : List Row} {a b : List Tok} (h1 : closeRows u l I xs = some a) (h2 : closeRows u l I ys = some b) :
    closeRows u l I (xs ++ ys) = some (a ++ b) := by
  induction xs generalizing a with
  | nil => cases h1; exact h2
  | cons x xs ih =>
    rw [closeRows] at h1
    obtain ⟨p, hp, h1⟩ := bind_some_eq h1
    obtain ⟨q, hq, rfl⟩ := map_some_eq h1
    rw [List.cons_append, closeRows_cons hp (ih hq)]
    simp

theorem inst_none (t : STok) : t.inst (fun _ => none) = t := by
  cases t with
  | word n => cases n <;> rfl
  | str n => cases n <;> rfl
  | chr n => cases n <;> rfl
  | text n => cases n <;> rfl
  | _ => rfl

theorem map_inst_none (ts : List STok) : ts.map (STok.inst (fun _ => none)) = ts := by
  have : STok.inst (fun _ => none) = id := funext inst_none
  rw [this, List.map_id]

/-- Splitting lines, then closing them. -/
theorem splitNl_close {I : Insts} {cur ts : List STok} {a b : List Tok} (h1 : closeAll u l cur = some a) (h2 : closeAll u l ts = some b) :
    ∃ x y, closeRows u l I ((splitNl cur ts).1.map .line) = some x ∧ closeAll u l (splitNl cur ts).2 = some y ∧ a ++ b = x ++ y := by
  induction ts generalizing cur a b with
  | nil =>
    cases h2
    exact ⟨[], a, rfl, h1, by simp⟩
  | cons t ts ih =>
    rw [closeAll] at h2
    obtain ⟨p, hp, h2⟩ := bind_some_eq h2
    obtain ⟨q, hq, rfl⟩ := map_some_eq h2
    by_cases ht : t = .nl
    · subst ht
      cases hp
      obtain ⟨x, y, e1, e2, e3⟩ := ih (cur := []) (a := []) rfl hq
      refine ⟨(a ++ [.nl]) ++ x, y, ?_, e2, ?_⟩
      · show closeRows u l I (.line cur :: (splitNl [] ts).1.map .line) = _
        exact closeRows_cons (by rw [closeRow, h1]; rfl) e1
      · have : q = x ++ y := by simpa using e3
        simp [this]
    · have e : splitNl cur (t :: ts) = splitNl (cur ++ [t]) ts := by
        cases t <;> first | rfl | exact absurd rfl ht
      rw [e]
      obtain ⟨x, y, e1, e2, e3⟩ := ih (cur := cur ++ [t]) (closeAll_append h1 (by rw [closeAll, hp]; rfl)) hq
      refine ⟨x, y, e1, e2, ?_⟩
      rw [← e3]
      simp

/-- The data of symbols are as expected. -/
def InstsOk (I : Insts) : Prop := ∀ k, ∀ val ∈ I k, ∀ n ∈ kwsOf k, KwOk val n

theorem written_insts (protos objs : List Proto) (d : Str) : written u l protos objs d =
    match firstKind (parts d) with
    | some k => (insts protos objs k).map fun val => fillIn u l val false (parts d)
    | none => [fillIn u l (fun _ => none) false (parts d)] := by
  unfold written
  dsimp only
  cases h : firstKind (parts d) with
  | none => rfl
  | some k => cases k <;> simp [insts, List.map_map, Function.comp_def]

theorem unlines_map_scan {vals : List Values} {ps : List Part} {f : Values → List Tok}
    (h : ∀ v ∈ vals, scan .code (fillIn u l v false ps ++ str% "\n") = some (.code, f v)) :
    scan .code (unlines (vals.map fun v => fillIn u l v false ps)) = some (.code, vals.flatMap f) := by
  induction vals with
  | nil => rfl
  | cons v vs ih =>
    rw [List.map_cons, CForm.unlines_cons, List.flatMap_cons]
    exact scan_trans (h v (by simp)) (ih fun x hx => h x (by simp [hx]))

theorem closeAll_flatMap {vals : List Values} {ts : List STok} {f : Values → List Tok}
    (h : ∀ v ∈ vals, closeAll u l (ts.map (STok.inst v)) = some (f v)) :
    closeAll u l (vals.flatMap fun v => ts.map (STok.inst v)) = some (vals.flatMap f) := by
  induction vals with
  | nil => rfl
  | cons v vs ih =>
    rw [List.flatMap_cons, List.flatMap_cons]
    exact closeAll_append (h v (by simp)) (ih fun x hx => h x (by simp [hx]))

theorem parts_others (d : Str) : ∀ c, .other c ∈ parts d → isWord c = false := by
  have key : ∀ (n : Nat) (qs : List Piece), Valid qs → ∀ c, .other c ∈ partsFrom n qs → isWord c = false := by
    intro n qs
    induction qs generalizing n with
    | nil => intro _ c hc; rw [partsFrom] at hc; cases hc
    | cons p r ih =>
      intro hv c hc
      have hr : Valid r := by
        cases p with
        | word w => exact hv.2.2.2
        | other c => exact hv.2
      cases n with
      | succ n => rw [partsFrom] at hc; exact ih n hr c hc
      | zero =>
        unfold partsFrom at hc
        split at hc
        · rcases List.mem_cons.mp hc with h | h
          · cases h
          · exact ih 4 hr c h
        · split at hc
          · rcases List.mem_cons.mp hc with h | h
            · cases h
            · exact ih 0 hr c h
          · rcases List.mem_cons.mp hc with h | h
            · cases h
              exact hv.1
            · exact ih 0 hr c h
  exact key 0 _ (pieces_valid d)

/-- The rows of a template are the tokens of the text it stands for. -/
theorem symFile_sound (hu : ∀ c ∈ u, isWord c = true) (hl : ∀ c ∈ l, isWord c = true) (hln : l ≠ []) {protos objs : List Proto}
    (hI : InstsOk (insts protos objs)) {ds : List Str} {s : SScan} (hs : s.Known (fun _ => none)) {cur : List STok} {a : List Tok}
    (hc : closeAll u l cur = some a) {rows : List Row} (h : symFile s cur ds = some rows) :
    ∃ b, scan (s.fill u l (fun _ => none)) (unlines (ds.flatMap (written u l protos objs))) = some (.code, b) ∧
      closeRows u l (insts protos objs) rows = some (a ++ b) := by
  induction ds generalizing s cur a rows with
  | nil =>
    rw [symFile] at h
    obtain ⟨⟨rfl, rfl⟩, h⟩ := if_some_eq h
    cases h
    cases hc
    exact ⟨[], rfl, rfl⟩
  | cons d ds ih =>
    have hwords : WordsOk (parts d) := splits_words (splits _) (pieces_valid _)
    have hwords' : ∀ w, .word w ∈ parts d ++ [.other '\n'] → w ≠ [] ∧ ∀ c ∈ w, isWord c = true := by
      intro w hw
      exact hwords w (by simpa using hw)
    have hothers : ∀ c, .other c ∈ parts d ++ [.other '\n'] → isWord c = false := by
      intro c hc
      rcases List.mem_append.mp hc with h | h
      · exact parts_others d c h
      · cases List.mem_singleton.mp h
        rfl
    rw [symFile] at h
    rw [List.flatMap_cons, CForm.unlines_append, written_insts]
    cases hk : firstKind (parts d) with
    | none =>
      rw [hk] at h
      dsimp only at h
      obtain ⟨hall, h⟩ := if_some_eq h
      obtain ⟨x, hx, h⟩ := bind_some_eq h
      obtain ⟨rs, hrs, rfl⟩ := map_some_eq h
      have hno : KwsOk (fun _ => none) (parts d ++ [.other '\n']) := fun k hk => by
        rcases List.mem_append.mp hk with h | h
        · have := List.all_eq_true.mp hall _ h
          cases this
        · cases List.mem_singleton.mp h
      obtain ⟨k1, t1, e1, e2⟩ := symScan_sound hu hl hln hwords' hothers hno hs hx
      rw [CForm.fillIn_nl] at e1
      rw [map_inst_none] at e2
      obtain ⟨p, q, e3, e4, e5⟩ := splitNl_close (I := insts protos objs) hc e2
      obtain ⟨b, e6, e7⟩ := ih k1 e4 hrs
      refine ⟨t1 ++ b, ?_, ?_⟩
      · refine scan_trans ?_ e6
        dsimp only
        rw [CForm.unlines_cons]
        show scan _ (_ ++ []) = _
        rw [List.append_nil]
        exact e1
      · rw [closeRows_append e3 e7, ← List.append_assoc, ← e5, List.append_assoc]
    | some k =>
      rw [hk] at h
      dsimp only at h
      obtain ⟨hif, h⟩ := if_some_eq h
      obtain ⟨x, hx, h⟩ := bind_some_eq h
      obtain ⟨hcode, h⟩ := if_some_eq h
      obtain ⟨rs, hrs, rfl⟩ := map_some_eq h
      obtain ⟨rfl, rfl, hall⟩ := hif
      cases hc
      have each : ∀ val ∈ insts protos objs k, ∃ t, scan .code (fillIn u l val false (parts d) ++ str% "\n") = some (.code, t) ∧
          closeAll u l (x.2.map (STok.inst val)) = some t := by
        intro val hval
        have hkw : KwsOk val (parts d ++ [.other '\n']) := fun n hn => by
          rcases List.mem_append.mp hn with h | h
          · have := List.all_eq_true.mp hall _ h
            exact hI k val hval n (by simpa [partOk] using this)
          · cases List.mem_singleton.mp h
        obtain ⟨_, t, e1, e2⟩ := symScan_sound hu hl hln hwords' hothers hkw (s := .code) trivial (show symScan .code _ = some (x.1, x.2) from hx)
        rw [CForm.fillIn_nl] at e1
        refine ⟨t, ?_, e2⟩
        rw [hcode] at e1
        exact e1
      have hf : ∃ f : Values → List Tok, ∀ val ∈ insts protos objs k, scan .code (fillIn u l val false (parts d) ++ str% "\n") = some (.code, f val) ∧
          closeAll u l (x.2.map (STok.inst val)) = some (f val) :=
        ⟨fun val => (closeAll u l (x.2.map (STok.inst val))).getD [], fun val hval => by
          obtain ⟨t, e1, e2⟩ := each val hval
          dsimp only
          rw [e2]
          exact ⟨e1, rfl⟩⟩
      obtain ⟨f, hf⟩ := hf
      obtain ⟨b, e6, e7⟩ := ih (s := .code) trivial (cur := []) (a := []) rfl hrs
      refine ⟨(insts protos objs k).flatMap f ++ b, ?_, ?_⟩
      · exact scan_trans (unlines_map_scan fun v hv => (hf v hv).1) e6
      · rw [closeRows_cons (show closeRow u l _ (.rep k x.2) = _ from closeAll_flatMap fun v hv => (hf v hv).2) e7]
        simp

/-- The rows of lines after each other. -/
theorem symFile_append {s : SScan} {cur : List STok} {a b : List Str} {x y : List Row} (h1 : symFile s cur a = some x)
    (h2 : symFile .code [] b = some y) : symFile s cur (a ++ b) = some (x ++ y) := by
  induction a generalizing s cur x with
  | nil =>
    rw [symFile] at h1
    obtain ⟨⟨rfl, rfl⟩, h⟩ := if_some_eq h1
    cases h
    exact h2
  | cons d ds ih =>
    rw [symFile] at h1
    rw [List.cons_append, symFile]
    cases hk : firstKind (parts d) with
    | none =>
      rw [hk] at h1
      dsimp only at h1 ⊢
      obtain ⟨hall, h⟩ := if_some_eq h1
      obtain ⟨p, hx, h⟩ := bind_some_eq h
      obtain ⟨rs, hrs, rfl⟩ := map_some_eq h
      rw [if_pos hall, hx]
      simp [ih hrs]
    | some k =>
      rw [hk] at h1
      dsimp only at h1 ⊢
      obtain ⟨hall, h⟩ := if_some_eq h1
      obtain ⟨p, hx, h⟩ := bind_some_eq h
      obtain ⟨hcode, h⟩ := if_some_eq h
      obtain ⟨rs, hrs, rfl⟩ := map_some_eq h
      rw [if_pos hall, hx]
      simp [ih hrs, hcode]

end Gdo.Cc
