import Verif.Lemmas.CMacroName

/-!
Lemmas: the expansion of the file name macros.
-/

namespace Gdo.Cpp
open Gdo Rename Tmpl Builtin

/-! ### Expansion -/

def toH (t : T) : H := ⟨[], t.sp, t.tok⟩

theorem fill_object {b : List T} (h : ∀ t ∈ b, t.tok ≠ .punct (str% "##")) : fill false [] [] b = some (b.map toH) := by
  induction b with
  | nil => rfl
  | cons t b ih =>
    have ih := ih fun x hx => h x (List.mem_cons_of_mem _ hx)
    have ht := h t (by simp)
    obtain ⟨sp, t⟩ := t
    cases b with
    | nil =>
      cases t with
      | punct p =>
        have : p ≠ str% "##" := fun e => ht (by rw [e])
        simp [fill, this, toH]
      | _ => rfl
    | cons t' b =>
      have ht' : ¬ (t'.tok = .punct (str% "##") ∧ isOperator t = false) := fun e => h t' (by simp) e.1
      cases t with
      | punct p =>
        have : p ≠ str% "##" := fun e => ht (by rw [e])
        rw [fill.eq_def]; simp only []
        rw [if_neg ht', if_neg this, if_neg (by simp), ih]
        rfl
      | _ =>
        rw [fill.eq_def]; simp only []
        rw [if_neg ht', ih]
        rfl

/-- A token that is not a macro, or not any more. -/
def Inert (E : Str → Option Macro) (t : H) : Prop := ∀ w, t.tok = .ident w → w ∈ t.hide ∨ E w = none

theorem expand_cons {E : Str → Option Macro} {t : H} (h : Inert E t) (n : Nat) (r : List H) : expand E (n + 1) (t :: r) = (expand E n r).map (t :: ·) := by
  obtain ⟨hs, sp, t⟩ := t
  cases t with
  | ident w =>
    rw [expand]
    simp only []
    have : (if w ∈ hs then none else E w) = none := by
      rcases h w rfl with h | h
      · rw [if_pos h]
      · rw [h, ite_self]
    rw [this]
  | _ => rfl

theorem expand_inert {E : Str → Option Macro} {ts : List H} (h : ∀ t ∈ ts, Inert E t) {n : Nat} (hn : ts.length < n) : expand E n ts = some ts := by
  induction ts generalizing n with
  | nil =>
    cases n with
    | zero => cases hn
    | succ n => rfl
  | cons t r ih =>
    cases n with
    | zero => cases hn
    | succ n =>
      rw [expand_cons (h t (by simp)), ih (fun x hx => h x (List.mem_cons_of_mem _ hx)) (by simpa using hn)]
      rfl

/-- A macro without parameters. -/
theorem expand_object {E : Str → Option Macro} {w : Str} {hs : List Str} (hw : w ∉ hs) {b : List T} {va : Bool} (he : E w = some ⟨none, va, b⟩)
    (hb : ∀ t ∈ b, t.tok ≠ .punct (str% "##")) (n : Nat) (sp : Bool) (r : List H) :
    expand E (n + 1) (⟨hs, sp, .ident w⟩ :: r) = expand E n (withSpace sp (painted (w :: hs) (b.map toH)) ++ r) := by
  rw [expand]
  simp only []
  rw [if_neg hw, he]
  simp only []
  rw [fill_object hb]
  rfl

/-- No parentheses or commas. -/
def Simple (ts : List H) : Prop := ∀ t ∈ ts, t.tok ≠ .punct (str% "(") ∧ t.tok ≠ .punct (str% ")") ∧ t.tok ≠ .punct (str% ",")

theorem arguments_simple {a : List H} (h : Simple a) (cur r : List H) : arguments 0 cur (a ++ r) = arguments 0 (cur ++ a) r := by
  induction a generalizing cur with
  | nil => simp
  | cons t a ih =>
    obtain ⟨h1, h2, h3⟩ := h t (by simp)
    rw [List.cons_append, arguments, if_neg h2, if_neg h1, if_neg (by simp [h3]), ih fun x hx => h x (List.mem_cons_of_mem _ hx)]
    simp

/-- Two arguments. -/
theorem arguments_two {a b : List H} (ha : Simple a) (hb : Simple b) {c p : H} (hc : c.tok = .punct (str% ",")) (hp : p.tok = .punct (str% ")")) (r : List H) :
    arguments 0 [] (a ++ c :: (b ++ p :: r)) = some ([a, b], p.hide, r) := by
  rw [arguments_simple ha, List.nil_append, arguments, if_neg (by rw [hc]; simp), if_neg (by rw [hc]; simp), if_pos (by simp [hc]), arguments_simple hb,
    List.nil_append, arguments, if_pos hp]
  rfl

def paramNames : List Str := [str% "NAME", str% "API"]

/-- A macro with the parameters of the file name macros. -/
theorem expand_function {E : Str → Option Macro} {w : Str} {hs : List Str} (hw : w ∉ hs) {body : List T} (he : E w = some ⟨some paramNames, false, body⟩)
    {a b : List H} (ha : Simple a) (hb : Simple b) {o c p : H} (ho : o.tok = .punct (str% "(")) (hc : c.tok = .punct (str% ",")) (hp : p.tok = .punct (str% ")"))
    (n : Nat) {x : List H} (hx : fill true [(str% "NAME", a), (str% "API", b)] [(str% "NAME", expand E n a), (str% "API", expand E n b)] body = some x)
    (sp : Bool) (r : List H) :
    expand E (n + 1) (⟨hs, sp, .ident w⟩ :: o :: (a ++ c :: (b ++ p :: r))) =
      expand E n (withSpace sp (painted (w :: hs.filter (· ∈ p.hide)) x) ++ r) := by
  rw [expand]
  simp only []
  rw [if_neg hw, he]
  simp only []
  rw [if_pos ho, arguments_two ha hb hc hp]
  simp only [Option.bind_some]
  have : bindings paramNames false [a, b] = some [(str% "NAME", a), (str% "API", b)] := by
    unfold bindings
    rw [if_neg (by simp [paramNames]), if_neg (by simp), if_pos (by simp [paramNames])]
    rfl
  rw [this]
  simp only [Option.bind_some, List.map_cons, List.map_nil]
  rw [hx]
  rfl

/-! ### String literals -/

def strLit (s : Str) : PTok := .str [] s

/-- What the file name macro of a system stands for. -/
def nameBody : System → List T
  | .mingw => [⟨true, strLit (str% "lib")⟩, ⟨true, .punct (str% "#")⟩, ⟨false, .ident (str% "NAME")⟩, ⟨true, strLit (str% "-")⟩,
      ⟨true, .punct (str% "#")⟩, ⟨false, .ident (str% "API")⟩, ⟨true, strLit (str% ".dll")⟩]
  | .windows => [⟨true, .punct (str% "#")⟩, ⟨false, .ident (str% "NAME")⟩, ⟨true, strLit (str% "-")⟩,
      ⟨true, .punct (str% "#")⟩, ⟨false, .ident (str% "API")⟩, ⟨true, strLit (str% ".dll")⟩]
  | .macos => [⟨true, strLit (str% "lib")⟩, ⟨true, .punct (str% "#")⟩, ⟨false, .ident (str% "NAME")⟩, ⟨true, strLit (str% ".")⟩,
      ⟨true, .punct (str% "#")⟩, ⟨false, .ident (str% "API")⟩, ⟨true, strLit (str% ".dylib")⟩]
  | .aix32 => [⟨true, strLit (str% "lib")⟩, ⟨true, .punct (str% "#")⟩, ⟨false, .ident (str% "NAME")⟩, ⟨true, strLit (str% ".a(shr.o)")⟩]
  | .aix64 => [⟨true, strLit (str% "lib")⟩, ⟨true, .punct (str% "#")⟩, ⟨false, .ident (str% "NAME")⟩, ⟨true, strLit (str% ".a(shr_64.o)")⟩]
  | .android => [⟨true, strLit (str% "lib")⟩, ⟨true, .punct (str% "#")⟩, ⟨false, .ident (str% "NAME")⟩, ⟨true, strLit (str% ".so")⟩]
  | .elf => [⟨true, strLit (str% "lib")⟩, ⟨true, .punct (str% "#")⟩, ⟨false, .ident (str% "NAME")⟩, ⟨true, strLit (str% ".so.")⟩,
      ⟨true, .punct (str% "#")⟩, ⟨false, .ident (str% "API")⟩]

/-- The literals of a file name. -/
def nameStrs (a b : Str) : System → List Str
  | .mingw => [str% "lib", a, str% "-", b, str% ".dll"]
  | .windows => [a, str% "-", b, str% ".dll"]
  | .macos => [str% "lib", a, str% ".", b, str% ".dylib"]
  | .aix32 => [str% "lib", a, str% ".a(shr.o)"]
  | .aix64 => [str% "lib", a, str% ".a(shr_64.o)"]
  | .android => [str% "lib", a, str% ".so"]
  | .elf => [str% "lib", a, str% ".so.", b]

def litH (hs : List Str) (s : Str) : H := ⟨hs, true, strLit s⟩

theorem fill_name (sys : System) (a b : List H) (ex : List (Str × Option (List H))) (hex : ex.lookup (str% "lib") = none) :
    fill true [(str% "NAME", a), (str% "API", b)] ex (nameBody sys) = some ((nameStrs (stringify a) (stringify b) sys).map (litH [])) := by
  cases sys <;> rfl

theorem literal_strs (hs : List Str) (ss : List Str) : literal (ss.map (litH hs)) = some (false, ss.flatten) := by
  induction ss with
  | nil => rfl
  | cons s ss ih =>
    rw [List.map_cons, literal]
    simp only [litH, strLit]
    rw [if_pos trivial, ih]
    rfl

theorem nameStrs_flatten (a b : Str) (sys : System) : (nameStrs a b sys).flatten = sys.fileName a b := by
  cases sys <;> simp [nameStrs, System.fileName]

theorem strs_inert (E : Str → Option Macro) (hs : List Str) (ss : List Str) : ∀ t ∈ ss.map (litH hs), Inert E t := by
  intro t ht
  obtain ⟨s, _, rfl⟩ := List.mem_map.mp ht
  intro w hw
  cases hw

theorem painted_strs (hs : List Str) (ss : List Str) : withSpace true (painted hs (ss.map (litH []))) = ss.map (litH hs) := by
  have : painted hs (ss.map (litH [])) = ss.map (litH hs) := by simp [painted, litH]
  rw [this]
  cases ss <;> rfl

theorem nameStrs_length (a b : Str) (sys : System) : (nameStrs a b sys).length ≤ 5 ∧ nameStrs a b sys ≠ [] := by
  cases sys <;> simp [nameStrs]

/-- The tokens of a name as an argument. -/
theorem simple_tight {Q : Str → Prop} {ts : List T} (h : Tight Q ts) (f : T → H) (hf : ∀ t, (f t).tok = t.tok) : Simple (ts.map f) := by
  intro t ht
  obtain ⟨x, hx, rfl⟩ := List.mem_map.mp ht
  have := (h x hx).2.1
  rw [hf]
  refine ⟨?_, ?_, ?_⟩ <;> intro e <;> rw [e] at this <;> revert this <;> decide

theorem stringify_tail {r : List H} (h : ∀ t ∈ r, t.sp = false ∧ plainTok t.tok = true) :
    (r.flatMap fun t => (if t.sp then str% " " else []) ++ quoted t.tok) = r.flatMap fun t => spell t.tok := by
  induction r with
  | nil => rfl
  | cons t r ih =>
    rw [List.flatMap_cons, List.flatMap_cons, ih fun x hx => h x (List.mem_cons_of_mem _ hx)]
    obtain ⟨h1, h2⟩ := h t (by simp)
    obtain ⟨hs, sp, t⟩ := t
    cases h1
    cases t with
    | str e s => cases h2
    | chr e s => cases h2
    | _ => rfl

theorem stringify_plain {ts : List H} (h : ∀ t ∈ ts, plainTok t.tok = true) (ht : ∀ t ∈ ts.tail, t.sp = false) :
    stringify ts = ts.flatMap fun t => spell t.tok := by
  cases ts with
  | nil => rfl
  | cons t r =>
    rw [stringify, stringify_tail (r := r) (fun x hx => ⟨ht x hx, h x (List.mem_cons_of_mem _ hx)⟩), List.flatMap_cons]
    congr 1
    have := h t (by simp)
    obtain ⟨hs, sp, t⟩ := t
    cases t with
    | str e s => cases this
    | chr e s => cases this
    | _ => rfl

/-! ### The file name macros -/

def wideLit : T := ⟨true, .str (str% "L") []⟩

def punctT (sp : Bool) (p : Str) : T := ⟨sp, .punct p⟩

/-- The body of a macro that hands its parameters to another one. -/
def callBody (w : Str) (sp : Bool) : List T :=
  [⟨true, .ident w⟩, punctT false (str% "("), ⟨false, .ident (str% "NAME")⟩, punctT false (str% ","), ⟨sp, .ident (str% "API")⟩, punctT false (str% ")")]

/-- The file name macros of a system; `wide`: whether the general ones are for wide
    characters. -/
structure FileMacros (E : Str → Option Macro) (u : Str) (sys : System) (wide : Bool) : Prop where
  extA : E (u ++ str% "_LIBEXTA") = some ⟨none, false, [⟨true, strLit sys.extension⟩]⟩
  nameA : E (u ++ str% "_LIBNAMEA") = some ⟨some paramNames, false, nameBody sys⟩
  extW : E (u ++ str% "_LIBEXTW") = some ⟨none, false, [wideLit, ⟨true, .ident (u ++ str% "_LIBEXTA")⟩]⟩
  nameW : E (u ++ str% "_LIBNAMEW") = some ⟨some paramNames, false, wideLit :: callBody (u ++ str% "_LIBNAMEA") false⟩
  ext : E (u ++ str% "_LIBEXT") = some ⟨none, false, [⟨true, .ident (u ++ (if wide then str% "_LIBEXTW" else str% "_LIBEXTA"))⟩]⟩
  name : E (u ++ str% "_LIBNAME") = some ⟨some paramNames, false, callBody (u ++ (if wide then str% "_LIBNAMEW" else str% "_LIBNAMEA")) true⟩

variable {E : Str → Option Macro} {u : Str} {sys : System} {wide : Bool}

/-- The narrow file name macro. -/
theorem expand_nameA (hE : FileMacros E u sys wide) {hs : List Str} (hw : u ++ str% "_LIBNAMEA" ∉ hs) {a b : List H} (ha : Simple a) (hb : Simple b)
    {o c p : H} (ho : o.tok = .punct (str% "(")) (hc : c.tok = .punct (str% ",")) (hp : p.tok = .punct (str% ")")) {n : Nat} (hn : 7 ≤ n) :
    ∃ hs', expand E n (⟨hs, true, .ident (u ++ str% "_LIBNAMEA")⟩ :: o :: (a ++ c :: (b ++ [p]))) =
      some ((nameStrs (stringify a) (stringify b) sys).map (litH hs')) := by
  obtain ⟨n, rfl⟩ : ∃ m, n = m + 1 := ⟨n - 1, by omega⟩
  refine ⟨(u ++ str% "_LIBNAMEA") :: hs.filter (· ∈ p.hide), ?_⟩
  rw [expand_function hw hE.nameA ha hb ho hc hp n (fill_name sys a b _ rfl) true [], painted_strs, List.append_nil]
  refine expand_inert (strs_inert E _ _) ?_
  rw [List.length_map]
  have := (nameStrs_length (stringify a) (stringify b) sys).1
  omega

theorem suffix_ne {u a b : Str} (h : a ≠ b) : u ++ a ≠ u ++ b := fun e => h (List.append_cancel_left e)

/-- Tokens that are no macros. -/
def NoMacro (E : Str → Option Macro) (ts : List T) : Prop := ∀ t ∈ ts, ∀ w, t.tok = .ident w → E w = none

theorem painted_append (hs : List Str) (a b : List H) : painted hs (a ++ b) = painted hs a ++ painted hs b := by simp [painted]

theorem simple_painted {hs : List Str} {a : List H} (h : Simple a) : Simple (painted hs a) := by
  intro t ht
  obtain ⟨x, hx, rfl⟩ := List.mem_map.mp ht
  exact h x hx

theorem simple_withSpace {sp : Bool} {a : List H} (h : Simple a) : Simple (withSpace sp a) := by
  cases a with
  | nil => exact h
  | cons t r =>
    intro x hx
    rcases List.mem_cons.mp hx with rfl | hx
    · exact h t (by simp)
    · exact h x (List.mem_cons_of_mem _ hx)

theorem stringify_painted (hs : List Str) (a : List H) : stringify (painted hs a) = stringify a := by
  cases a with
  | nil => rfl
  | cons t r =>
    show quoted t.tok ++ _ = quoted t.tok ++ _
    congr 1
    induction r with
    | nil => rfl
    | cons x r ih =>
      rw [List.map_cons, List.flatMap_cons, List.flatMap_cons, ih]

theorem stringify_withSpace (sp : Bool) (a : List H) : stringify (withSpace sp a) = stringify a := by
  cases a <;> rfl

theorem fill_call (w : Str) (hwn : w ≠ str% "NAME" ∧ w ≠ str% "API") (sp : Bool) (a b x y : List H) :
    fill true [(str% "NAME", a), (str% "API", b)] [(str% "NAME", some x), (str% "API", some y)] (callBody w sp) =
      some (toH ⟨true, .ident w⟩ :: toH (punctT false (str% "(")) :: (withSpace false x ++ toH (punctT false (str% ",")) :: (withSpace sp y ++ [toH (punctT false (str% ")"))]))) := by
  have e1 : List.lookup w [(str% "NAME", some x), (str% "API", some y)] = none := by
    simp [List.lookup, show (w == str% "NAME") = false from by simpa using hwn.1, show (w == str% "API") = false from by simpa using hwn.2]
  unfold callBody
  rw [fill]
  simp only [e1]
  rfl

theorem suffix_param {u s : Str} (h1 : ¬ s <:+ str% "NAME") (h2 : ¬ s <:+ str% "API") : u ++ s ≠ str% "NAME" ∧ u ++ s ≠ str% "API" :=
  ⟨fun e => h1 ⟨u, e⟩, fun e => h2 ⟨u, e⟩⟩

/-- The wide file name macro. -/
theorem expand_nameW (hE : FileMacros E u sys wide) {hs : List Str} (hw : u ++ str% "_LIBNAMEA" ∉ hs) (hw' : u ++ str% "_LIBNAMEW" ∉ hs)
    {a b : List H} (ha : Simple a) (hb : Simple b) (ia : ∀ t ∈ a, Inert E t) (ib : ∀ t ∈ b, Inert E t)
    {o c p : H} (ho : o.tok = .punct (str% "(")) (hc : c.tok = .punct (str% ",")) (hp : p.tok = .punct (str% ")")) {n : Nat} (hn : a.length + b.length + 9 ≤ n) :
    ∃ hs' hs'', expand E n (⟨hs, true, .ident (u ++ str% "_LIBNAMEW")⟩ :: o :: (a ++ c :: (b ++ [p]))) =
      some (⟨hs', true, .str (str% "L") []⟩ :: (nameStrs (stringify a) (stringify b) sys).map (litH hs'')) := by
  obtain ⟨n, rfl⟩ : ∃ m, n = m + 2 := ⟨n - 2, by omega⟩
  have hne := suffix_param (u := u) (s := str% "_LIBNAMEA") (by decide) (by decide)
  have hfill : fill true [(str% "NAME", a), (str% "API", b)] [(str% "NAME", expand E (n + 1) a), (str% "API", expand E (n + 1) b)]
      (wideLit :: callBody (u ++ str% "_LIBNAMEA") false) = some (toH wideLit :: (toH ⟨true, .ident (u ++ str% "_LIBNAMEA")⟩ :: toH (punctT false (str% "(")) ::
        (withSpace false a ++ toH (punctT false (str% ",")) :: (withSpace false b ++ [toH (punctT false (str% ")"))])))) := by
    rw [expand_inert ia (by omega), expand_inert ib (by omega)]
    have e := fill_call (u ++ str% "_LIBNAMEA") hne false a b a b
    show Option.map (fun x => toH wideLit :: x) (fill true [(str% "NAME", a), (str% "API", b)] [(str% "NAME", some a), (str% "API", some b)]
      (callBody (u ++ str% "_LIBNAMEA") false)) = _
    rw [e]
    rfl
  rw [expand_function hw' hE.nameW ha hb ho hc hp (n + 1) hfill true []]
  have hq : ∀ hs : List Str, withSpace true (painted hs (toH wideLit :: (toH ⟨true, .ident (u ++ str% "_LIBNAMEA")⟩ :: toH (punctT false (str% "(")) ::
        (withSpace false a ++ toH (punctT false (str% ",")) :: (withSpace false b ++ [toH (punctT false (str% ")"))]))))) ++ [] =
      ⟨hs ++ [], true, .str (str% "L") []⟩ :: ⟨hs ++ [], true, .ident (u ++ str% "_LIBNAMEA")⟩ :: ⟨hs ++ [], false, .punct (str% "(")⟩ ::
        (painted hs (withSpace false a) ++ ⟨hs ++ [], false, .punct (str% ",")⟩ :: (painted hs (withSpace false b) ++ [⟨hs ++ [], false, .punct (str% ")")⟩])) := by
    intro hs
    simp [painted, withSpace, toH, wideLit, punctT]
  rw [hq, expand_cons (fun w h => by cases h)]
  obtain ⟨hs', e⟩ := expand_nameA (n := n) hE (hs := ((u ++ str% "_LIBNAMEW") :: hs.filter (· ∈ p.hide)) ++ []) (by
      intro hm
      simp only [List.append_nil, List.mem_cons, List.mem_filter] at hm
      rcases hm with e | hm
      · exact suffix_ne (u := u) (by decide) e
      · exact hw hm.1)
    (simple_painted (hs := (u ++ str% "_LIBNAMEW") :: hs.filter (· ∈ p.hide)) (simple_withSpace (sp := false) ha))
    (simple_painted (hs := (u ++ str% "_LIBNAMEW") :: hs.filter (· ∈ p.hide)) (simple_withSpace (sp := false) hb)) rfl rfl rfl (by omega)
    (o := ⟨((u ++ str% "_LIBNAMEW") :: hs.filter (· ∈ p.hide)) ++ [], false, .punct (str% "(")⟩)
    (c := ⟨((u ++ str% "_LIBNAMEW") :: hs.filter (· ∈ p.hide)) ++ [], false, .punct (str% ",")⟩)
    (p := ⟨((u ++ str% "_LIBNAMEW") :: hs.filter (· ∈ p.hide)) ++ [], false, .punct (str% ")")⟩)
  rw [e]
  rw [stringify_painted, stringify_painted, stringify_withSpace, stringify_withSpace]
  exact ⟨_, _, rfl⟩

theorem yields_narrow {ts : List H} {a b : Str} (N : Nat) (h : ∀ n, N ≤ n → ∃ hs, expand E n ts = some ((nameStrs a b sys).map (litH hs))) :
    Yields E ts false (sys.fileName a b) := by
  refine ⟨N, fun n hn => ?_⟩
  obtain ⟨hs, e⟩ := h n hn
  refine ⟨_, e, ?_, ?_⟩
  · intro h
    exact (nameStrs_length a b sys).2 (List.map_eq_nil_iff.mp h)
  · rw [literal_strs, nameStrs_flatten]

theorem yields_wide {ts : List H} {a b : Str} (N : Nat)
    (h : ∀ n, N ≤ n → ∃ hs hs', expand E n ts = some (⟨hs, true, .str (str% "L") []⟩ :: (nameStrs a b sys).map (litH hs'))) :
    Yields E ts true (sys.fileName a b) := by
  refine ⟨N, fun n hn => ?_⟩
  obtain ⟨hs, hs', e⟩ := h n hn
  refine ⟨_, e, by simp, ?_⟩
  show Option.map (fun a => (true, [] ++ a.2)) (literal ((nameStrs a b sys).map (litH hs'))) = _
  rw [literal_strs, nameStrs_flatten]
  rfl

end Gdo.Cpp
