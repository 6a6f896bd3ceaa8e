import Verif.Lemmas.CCallWrap
import Verif.Props.CCode

/-!
Lemmas: the functions of the generated C code call each other.
-/

set_option maxRecDepth 10000

namespace Gdo.Cc
open Gdo Tmpl Rt Rename Gen Opt

/-! ### Finding a function -/

theorem lookup_append (f : Str) (a b : List Top) : lookup f (a ++ b) = (lookup f a).or (lookup f b) := by
  induction a with
  | nil => rfl
  | cons t r ih =>
    cases t with
    | fn x =>
      simp only [List.cons_append, lookup]
      by_cases h : x.name = f
      · simp [h]
      · simp [h, ih]
    | throwing x =>
      simp only [List.cons_append, lookup]
      by_cases h : x.name = f
      · simp [h]
      · simp [h, ih]
    | decl ts => simpa only [List.cons_append, lookup] using ih
    | struct _ _ _ => simpa only [List.cons_append, lookup] using ih
    | decls _ => simpa only [List.cons_append, lookup] using ih
    | space _ => simpa only [List.cons_append, lookup] using ih
    | spaceEnd => simpa only [List.cons_append, lookup] using ih
    | exception _ => simpa only [List.cons_append, lookup] using ih

theorem lookup_inst (I : Insts) (f : Str) (a : List Top) : lookup f (a.map (Top.inst I)) = (lookup f a).map (Fn.inst I) := by
  induction a with
  | nil => rfl
  | cons t r ih =>
    cases t with
    | fn x =>
      simp only [List.map_cons, Top.inst, lookup]
      have : (x.inst I).name = x.name := rfl
      rw [this]
      by_cases h : x.name = f
      · simp [h]
      · simp [h, ih]
    | throwing x =>
      simp only [List.map_cons, Top.inst, lookup]
      have : (x.inst I).name = x.name := rfl
      rw [this]
      by_cases h : x.name = f
      · simp [h]
      · simp [h, ih]
    | decl ts => simpa only [List.map_cons, Top.inst, lookup] using ih
    | struct _ _ _ => simpa only [List.map_cons, Top.inst, lookup] using ih
    | decls _ => simpa only [List.map_cons, Top.inst, lookup] using ih
    | space _ => simpa only [List.map_cons, Top.inst, lookup] using ih
    | spaceEnd => simpa only [List.map_cons, Top.inst, lookup] using ih
    | exception _ => simpa only [List.map_cons, Top.inst, lookup] using ih

/-- The names of the functions. -/
def fnNames : List Top → List Str
  | [] => []
  | .fn x :: r => x.name :: fnNames r
  | .decl _ :: r => fnNames r
  | .struct _ _ _ :: r => fnNames r
  | .decls _ :: r => fnNames r
  | .throwing x :: r => x.name :: fnNames r
  | .space _ :: r => fnNames r
  | .spaceEnd :: r => fnNames r
  | .exception _ :: r => fnNames r

theorem lookup_none (f : Str) (a : List Top) (h : f ∉ fnNames a) : lookup f a = none := by
  induction a with
  | nil => rfl
  | cons t r ih =>
    cases t with
    | fn x =>
      simp only [fnNames, List.mem_cons, not_or] at h
      rw [lookup, if_neg (fun e => h.1 e.symm)]
      exact ih h.2
    | throwing x =>
      simp only [fnNames, List.mem_cons, not_or] at h
      rw [lookup, if_neg (fun e => h.1 e.symm)]
      exact ih h.2
    | decl ts => exact ih h
    | struct _ _ _ => exact ih h
    | decls _ => exact ih h
    | space _ => exact ih h
    | spaceEnd => exact ih h
    | exception _ => exact ih h

theorem lookup_part {ns : List Str} {a : List Top} (h : ∀ x ∈ fnNames a, x ∈ ns) (f : Str) (hf : f ∉ ns) : lookup f a = none :=
  lookup_none f a fun hm => hf (h f hm)

/-- The functions that are not always there. -/
def optional : List Str :=
  [str% "_gdo_call_dlopen", str% "_gdo_call_dladdr", str% "_gdo_fullpath_procmap", str% "gdo_library_path", str% "_gdo_libpath_dlinfo", str% "_gdo_libpath_dladdr",
   str% "_gdo_noop", str% "_gdo_print_error", str% "_gdo_wrap_check_loaded"]

/-- What is assumed about the macros, the loader and the configuration. -/
structure Config (u l : Str) (D : Str → Bool) (L : Loader) (c : Cfg) : Prop where
  winapi : D (str% "GDO_WINAPI") = false
  win32 : D (str% "_WIN32") = false
  aix : D (str% "_AIX") = false
  lib : D (str% "GDO_DEFAULT_LIB") = true
  dlinfo : D (str% "GDO_HAVE_DLINFO") = c.haveDlinfo
  dladdr : D (str% "GDO_HAVE_DLADDR") = c.haveDladdr
  linux : D (str% "__linux__") = c.linux
  /-- without `dlmopen` nothing is loaded into another namespace -/
  dlmopen : D (str% "GDO_HAVE_DLMOPEN") = true ∨ ∀ t n f, L.dlopen t n f true = L.dlopen t n f false
  auto : D (str% "GDO_ENABLE_AUTOLOAD") = decide (c.mode ≠ .wrap)
  lazy : D (str% "GDO_ENABLE_AUTOLOAD_LAZY") = decide (c.mode = .lazy)
  free : c.freeName = newName u l (str% "gdo_force_free_lib")
  lower : '\\' ∉ l

/-- Whether there are wrapper functions. -/
def Wraps (names : ParamNames) (D : Str → Bool) : Prop :=
  names ≠ .skip ∧ (D (str% "GDO_WRAP_FUNCTIONS") = true ∨ D (str% "GDO_ENABLE_AUTOLOAD") = true)

section
variable {u l : Str} {names : ParamNames} {D : Str → Bool} {L : Loader} {c : Cfg}

/-- The code, with the parts that are left out. -/
theorem lookup_program (h : Config u l D L c) (f : Str) :
    lookup f (program names D) =
      ((lookup f (commonPart1 false)).or <| (lookup f (commonPart2 c.haveDladdr (D (str% "GDO_HAVE_DLMOPEN")) false)).or <|
      (lookup f (commonPart4 c.haveDlinfo (D (str% "PROCMAP_QUERY")) c.linux)).or <| (lookup f (cPart6 false false)).or <|
      (lookup f (cPart7 true false)).or <| (lookup f (cPart9 false)).or <| (lookup f (cPart10 c.haveDladdr c.haveDlinfo false false)).or <|
      (lookup f (cPart13 c.haveDlinfo c.linux)).or <| (lookup f (cPart14 c.haveDladdr)).or <|
      lookup f (if names = .skip then [] else cPart16 (c.mode ≠ .wrap) (c.mode = .lazy) (D (str% "GDO_USE_MESSAGE_BOX")) (D (str% "GDO_WRAP_FUNCTIONS"))
        (D (str% "_MSC_VER")) false (D (str% "__GNUC__")))) := by
  have e1 : ∀ a b, lookup f (cPart1 a b) = none := by intro a b; cases a <;> cases b <;> rfl
  have e2 : ∀ a b, lookup f (cPart2 a b) = none := by intro a b; cases a <;> cases b <;> rfl
  have e3 : ∀ a, lookup f (cPart3 false a) = none := by intro a; cases a <;> rfl
  have e4 : lookup f (cPart4 false false) = none := rfl
  have e5 : ∀ a b, lookup f (cPart5 a b) = none := by intro a b; cases a <;> cases b <;> rfl
  have e8 : ∀ a b, lookup f (cPart8 a false b) = none := fun _ _ => rfl
  have e11 : ∀ a b, lookup f (cPart11 a b false) = none := fun _ _ => rfl
  have e12 : lookup f (cPart12 false) = none := rfl
  have e17 : lookup f cPart17 = none := rfl
  have e18 : ∀ a b d, lookup f (cPart18 a b d) = none := by intro a b d; cases a <;> cases b <;> cases d <;> rfl
  have e0 : lookup f (commonPart3 false) = none := rfl
  have es : lookup f (if (decide (names = .skip)) = true then [] else cPart15 ++
      cPart16 (c.mode ≠ .wrap) (c.mode = .lazy) (D (str% "GDO_USE_MESSAGE_BOX")) (D (str% "GDO_WRAP_FUNCTIONS"))
        (D (str% "_MSC_VER")) false (D (str% "__GNUC__"))) = lookup f (if names = .skip then [] else
      cPart16 (c.mode ≠ .wrap) (c.mode = .lazy) (D (str% "GDO_USE_MESSAGE_BOX")) (D (str% "GDO_WRAP_FUNCTIONS"))
        (D (str% "_MSC_VER")) false (D (str% "__GNUC__"))) := by
    by_cases hs : names = .skip <;> simp only [hs, decide_true, decide_false, if_true, if_false, Bool.false_eq_true]
    rfl
  unfold program commonProg cProg
  rw [h.winapi, h.win32, h.aix, h.lib, h.dlinfo, h.dladdr, h.linux, h.auto, h.lazy]
  simp only [lookup_append, es, e0, e1, e2, e3, e4, e5, e8, e11, e12, e17, e18, Option.none_or, Option.or_none, Option.or_assoc]

/-- The functions that are always there. -/
theorem lookup_always (h : Config u l D L c) (f : Str) (hf : f ∉ optional) :
    lookup f (program names D) = lookup f (commonPart1 false ++ cPart6 false false ++ cPart7 true false ++ cPart9 false) := by
  have n2 : ∀ a b, lookup f (commonPart2 a b false) = none := fun a b => lookup_part (by cases a <;> cases b <;> decide) f hf
  have n4 : ∀ a b d, lookup f (commonPart4 a b d) = none := fun a b d => lookup_part (by cases a <;> cases b <;> cases d <;> decide) f hf
  have n10 : ∀ a b, lookup f (cPart10 a b false false) = none := fun a b => lookup_part (by cases a <;> cases b <;> decide) f hf
  have n13 : ∀ a b, lookup f (cPart13 a b) = none := fun a b => lookup_part (by cases a <;> cases b <;> decide) f hf
  have n14 : ∀ a, lookup f (cPart14 a) = none := fun a => lookup_part (by cases a <;> decide) f hf
  have n16 : ∀ a b d e g i, lookup f (cPart16 a b d e g false i) = none := fun a b d e g i =>
    lookup_part (by cases a <;> cases b <;> cases d <;> cases e <;> cases g <;> cases i <;> decide) f hf
  rw [lookup_program h]
  have ns : ∀ a b d e g i, lookup f (if names = .skip then [] else cPart16 a b d e g false i) = none := by
    intros
    split
    · rfl
    · exact n16 ..
  simp only [lookup_append, n2, n4, n10, n13, n14, ns, Option.none_or, Option.or_none, Option.or_assoc]

theorem lookup_call_dlopen (h : Config u l D L c) :
    lookup (str% "_gdo_call_dlopen") (program names D) = some (fnOf (C.fn_gdo_call_dlopen (D (str% "GDO_HAVE_DLMOPEN")))) := by
  rw [lookup_program h]
  cases D (str% "GDO_HAVE_DLMOPEN") <;> rfl

theorem lookup_call_dladdr (h : Config u l D L c) (hc : c.haveDladdr = true) :
    lookup (str% "_gdo_call_dladdr") (program names D) = some (fnOf C.fn_gdo_call_dladdr) := by
  rw [lookup_program h, hc]
  rfl

theorem lookup_library_path (h : Config u l D L c) :
    lookup (str% "gdo_library_path") (program names D) = some (fnOf (C.gdo_library_path c.haveDladdr c.haveDlinfo false false)) := by
  have n2 : ∀ a b, lookup (str% "gdo_library_path") (commonPart2 a b false) = none := by intro a b; cases a <;> cases b <;> rfl
  have n4 : ∀ a b d, lookup (str% "gdo_library_path") (commonPart4 a b d) = none := by intro a b d; cases a <;> cases b <;> cases d <;> rfl
  rw [lookup_program h, n2, n4]
  rfl

theorem lookup_libpath_dlinfo (h : Config u l D L c) (hc : c.haveDlinfo = true) :
    lookup (str% "_gdo_libpath_dlinfo") (program names D) = some (fnOf (C.fn_gdo_libpath_dlinfo c.linux)) := by
  have n2 : ∀ a b, lookup (str% "_gdo_libpath_dlinfo") (commonPart2 a b false) = none := by intro a b; cases a <;> cases b <;> rfl
  have n4 : ∀ a b d, lookup (str% "_gdo_libpath_dlinfo") (commonPart4 a b d) = none := by intro a b d; cases a <;> cases b <;> cases d <;> rfl
  rw [lookup_program h, n2, n4, hc]
  rfl

theorem lookup_libpath_dladdr (h : Config u l D L c) (hc : c.haveDladdr = true) :
    lookup (str% "_gdo_libpath_dladdr") (program names D) = some (fnOf C.fn_gdo_libpath_dladdr) := by
  have n2 : ∀ a b, lookup (str% "_gdo_libpath_dladdr") (commonPart2 a b false) = none := by intro a b; cases a <;> cases b <;> rfl
  have n4 : ∀ a b d, lookup (str% "_gdo_libpath_dladdr") (commonPart4 a b d) = none := by intro a b d; cases a <;> cases b <;> cases d <;> rfl
  have n13 : ∀ a b, lookup (str% "_gdo_libpath_dladdr") (cPart13 a b) = none := by intro a b; cases a <;> cases b <;> rfl
  rw [lookup_program h, n2, n4, n13, hc]
  rfl

theorem lookup_wrap (h : Config u l D L c) (hw : Wraps names D) (f : Str) (hf : f = str% "_gdo_print_error" ∨ f = str% "_gdo_wrap_check_loaded") :
    lookup f (program names D) = lookup f [C.fn_gdo_print_error (D (str% "GDO_USE_MESSAGE_BOX")) false, C.fn_gdo_wrap_check_loaded (c.mode ≠ .wrap) (c.mode = .lazy)] := by
  have n2 : ∀ a b, lookup f (commonPart2 a b false) = none := by intro a b; rcases hf with rfl | rfl <;> cases a <;> cases b <;> rfl
  have n4 : ∀ a b d, lookup f (commonPart4 a b d) = none := by intro a b d; rcases hf with rfl | rfl <;> cases a <;> cases b <;> cases d <;> rfl
  have n13 : ∀ a b, lookup f (cPart13 a b) = none := by intro a b; rcases hf with rfl | rfl <;> cases a <;> cases b <;> rfl
  have n14 : ∀ a, lookup f (cPart14 a) = none := by intro a; rcases hf with rfl | rfl <;> cases a <;> rfl
  have n10 : ∀ a b, lookup f (cPart10 a b false false) = none := by intro a b; rcases hf with rfl | rfl <;> rfl
  have n : lookup f (commonPart1 false) = none ∧ lookup f (cPart6 false false) = none ∧ lookup f (cPart7 true false) = none ∧ lookup f (cPart9 false) = none := by
    rcases hf with rfl | rfl <;> exact ⟨rfl, rfl, rfl, rfl⟩
  have n16 : ∀ a b d e g i, (e || a) = true → lookup f (cPart16 a b d e g false i) = lookup f [C.fn_gdo_print_error d false, C.fn_gdo_wrap_check_loaded a b] := by
    intro a b d e g i he
    unfold cPart16
    rw [he]
    rcases hf with rfl | rfl <;> cases g <;> cases i <;> rfl
  rw [lookup_program h, n2, n4, n13, n14, n10, n.1, n.2.1, n.2.2.1, n.2.2.2]
  simp only [Option.none_or]
  rw [if_neg hw.1]
  apply n16
  have := hw.2
  rw [h.auto] at this
  simpa [or_comm] using this

/-! ### The functions and what they do -/

/-- The functions of the code. -/
def isFnOf (names : ParamNames) (D : Str → Bool) (I : Insts) (w : Str) : Bool := (lookup w ((program names D).map (Top.inst I))).isSome

/-- A function is in the code and does what is said. -/
def Runs (u l : Str) (names : ParamNames) (D : Str → Bool) (L : Loader) (c : Cfg) (I : Insts) (k : Entry) : Prop :=
  ∀ other lim as m R, k.run as m = some R →
    ∃ F, lookup k.name (program names D) = some F ∧ (F.inst I).call (kctx u l L c (isFnOf names D I) other lim k.rank) as m = R

theorem always (h : Config u l D L c) (f : Str) (hf : f ∉ optional) {F : Fn}
    (e : lookup f (commonPart1 false ++ cPart6 false false ++ cPart7 true false ++ cPart9 false) = some F) : lookup f (program names D) = some F :=
  (lookup_always h f hf).trans e

variable {I : Insts} {rows : List (Str × Str)}

theorem runs (h : Config u l D L c) (hr : Rows I c rows) (k : Entry) (hk : k ∈ known L c) (hw : k.rank = 5 → k.name = str% "_gdo_print_error" → Wraps names D) :
    Runs u l names D L c I k := by
  intro other lim as m R e
  obtain ⟨s, fr⟩ := m
  simp only [known, List.mem_cons, List.not_mem_nil, or_false] at hk
  have hfn : isFnOf names D I (str% "gdo_force_free_lib") = true := by
    unfold isFnOf
    rw [lookup_inst, always h (str% "gdo_force_free_lib") (by decide) rfl]
    rfl
  rcases hk with rfl | rfl | rfl | rfl | rfl | rfl | rfl | rfl | rfl | rfl | rfl | rfl | rfl | rfl | rfl | rfl | rfl | rfl | rfl | rfl | rfl | rfl | rfl | rfl | rfl | rfl | rfl | rfl | rfl | rfl | rfl
  · dsimp only at e
    split at e
    · cases e
      exact ⟨_, always h _ (by dsimp only; decide) rfl, run_call_dlsym u l L c _ other lim I _ _ _⟩
    · cases e
  · dsimp only at e
    split at e
    · cases e
      exact ⟨_, always h _ (by dsimp only; decide) rfl, run_call_dlclose u l L c _ other lim I _ _ _⟩
    · cases e
  · dsimp only at e
    split at e
    · cases e
      exact ⟨_, lookup_call_dlopen h, run_call_dlopen u l L c _ other lim I _ false (.inr (.inl rfl)) _ _ _⟩
    · cases e
      exact ⟨_, lookup_call_dlopen h, run_call_dlopen u l L c _ other lim I _ true (h.dlmopen.imp_right .inr) _ _ _⟩
    · cases e
  · dsimp only at e
    split at e
    · split at e
      · rename_i hc
        obtain ⟨hc, rfl⟩ := hc
        obtain ⟨vs, hv, rfl⟩ := Option.map_eq_some_iff.mp e
        exact ⟨_, lookup_call_dladdr h hc, run_call_dladdr_null u l L c _ other lim I _ _ _ _ _ hv⟩
      · cases e
    · split at e
      · rename_i hc
        obtain ⟨hc, rfl⟩ := hc
        obtain ⟨vs, hv, rfl⟩ := Option.map_eq_some_iff.mp e
        exact ⟨_, lookup_call_dladdr h hc, run_call_dladdr_ptr u l L c _ other lim I _ _ _ _ _ _ hv⟩
      · cases e
    · cases e
  · dsimp only at e
    split at e
    · split at e
      · rename_i hb
        subst hb
        cases e
        exact ⟨_, always h _ (by dsimp only; decide) rfl, run_tcsstr u l L c _ other lim I _ _ _⟩
      · cases e
    · cases e
  · dsimp only at e
    split at e
    · cases e
      exact ⟨_, always h _ (by dsimp only; decide) rfl, run_save_to_errbuf_null u l L c _ other lim I _ _⟩
    · cases e
      exact ⟨_, always h _ (by dsimp only; decide) rfl, run_save_to_errbuf_str u l L c _ other lim I _ _ _⟩
    · cases e
  · dsimp only at e
    split at e
    · cases e
      exact ⟨_, always h _ (by dsimp only; decide) rfl, run_clear_error u l L c _ other lim I _ _⟩
    · cases e
  · dsimp only at e
    split at e
    · cases e
      exact ⟨_, always h _ (by dsimp only; decide) rfl, run_save_error u l L c _ other lim I _ _ _⟩
    · cases e
  · dsimp only at e
    split at e
    · cases e
      exact ⟨_, always h _ (by dsimp only; decide) rfl, run_no_library u l L c _ other lim I _ _⟩
    · cases e
  · dsimp only at e
    split at e
    · cases e
      exact ⟨_, always h _ (by dsimp only; decide) rfl, run_last_error u l L c _ other lim I _ _⟩
    · cases e
  · dsimp only at e
    split at e
    · obtain ⟨msg, hv, rfl⟩ := Option.map_eq_some_iff.mp e
      exact ⟨_, (lookup_wrap h (hw rfl rfl) _ (.inl rfl)).trans rfl, run_print_error u l L c _ other lim I _ _ _ _ _ _ hv _⟩
    · cases e
  · dsimp only at e
    split at e
    · cases e
      exact ⟨_, always h _ (by dsimp only; decide) rfl, run_lib_is_loaded u l L c _ other lim I _ _⟩
    · cases e
  · dsimp only at e
    split at e
    · cases e
      exact ⟨_, always h _ (by dsimp only; decide) rfl, run_load_library u l L c _ other lim I _ _ false _ _⟩
    · cases e
      exact ⟨_, always h _ (by dsimp only; decide) rfl, run_load_library u l L c _ other lim I _ _ true _ _⟩
    · cases e
  · dsimp only at e
    split at e
    · cases e
      exact ⟨_, always h _ (by dsimp only; decide) rfl, run_load_lib_args u l L c _ other lim I none _ false _ _⟩
    · cases e
      exact ⟨_, always h _ (by dsimp only; decide) rfl, run_load_lib_args u l L c _ other lim I none _ true _ _⟩
    · cases e
      exact ⟨_, always h _ (by dsimp only; decide) rfl, run_load_lib_args u l L c _ other lim I (some _) _ false _ _⟩
    · cases e
      exact ⟨_, always h _ (by dsimp only; decide) rfl, run_load_lib_args u l L c _ other lim I (some _) _ true _ _⟩
    · cases e
  · dsimp only at e
    split at e
    · cases e
      exact ⟨_, always h _ (by dsimp only; decide) rfl, run_load_lib_name u l L c _ other lim I none _ _⟩
    · cases e
      exact ⟨_, always h _ (by dsimp only; decide) rfl, run_load_lib_name u l L c _ other lim I (some _) _ _⟩
    · cases e
  · dsimp only at e
    split at e
    · cases e
      exact ⟨_, always h _ (by dsimp only; decide) rfl, run_load_lib u l L c _ other lim I _ _⟩
    · cases e
  · dsimp only at e
    split at e
    · cases e
      exact ⟨_, always h _ (by dsimp only; decide) rfl, run_load_lib_name_and_symbols u l L c _ other lim I none _ _⟩
    · cases e
      exact ⟨_, always h _ (by dsimp only; decide) rfl, run_load_lib_name_and_symbols u l L c _ other lim I (some _) _ _⟩
    · cases e
  · dsimp only at e
    split at e
    · cases e
      exact ⟨_, always h _ (by dsimp only; decide) rfl, run_load_lib_and_symbols u l L c _ other lim I _ _⟩
    · cases e
  · dsimp only at e
    split at e
    · cases e
      exact ⟨_, always h _ (by dsimp only; decide) rfl, run_free_lib u l L c _ other lim I hr _ _⟩
    · cases e
  · dsimp only at e
    split at e
    · cases e
      exact ⟨_, always h _ (by dsimp only; decide) rfl, run_force_free_lib u l L c _ other lim I hr _ _⟩
    · cases e
  · dsimp only at e
    split at e
    · cases e
      exact ⟨_, always h _ (by dsimp only; decide) rfl, run_enable_autorelease u l L c _ other lim I h.free h.lower hfn _ _⟩
    · cases e
  · dsimp only at e
    split at e
    · cases e
      exact ⟨_, always h _ (by dsimp only; decide) rfl, run_all_symbols_loaded u l L c _ other lim I hr _ _⟩
    · cases e
  · dsimp only at e
    split at e
    · cases e
      exact ⟨_, always h _ (by dsimp only; decide) rfl, run_no_symbols_loaded u l L c _ other lim I hr _ _⟩
    · cases e
  · dsimp only at e
    split at e
    · cases e
      exact ⟨_, always h _ (by dsimp only; decide) rfl, run_any_symbol_loaded u l L c _ other lim I hr _ _⟩
    · cases e
  · dsimp only at e
    split at e
    · rename_i hs
      cases e
      exact ⟨_, always h _ (by dsimp only; decide) rfl, run_sym u l L c _ other lim I _ _ _ _ hs _⟩
    · cases e
  · dsimp only at e
    split at e
    · cases e
      exact ⟨_, always h _ (by dsimp only; decide) rfl, run_load_all_symbols u l L c _ other lim I hr _ _⟩
    · cases e
  · dsimp only at e
    split at e
    · cases e
      exact ⟨_, always h _ (by dsimp only; decide) rfl, run_load_symbol u l L c _ other lim I hr _ _ _⟩
    · cases e
  · dsimp only at e
    split at e
    · obtain ⟨n, hn, rfl⟩ := Option.map_eq_some_iff.mp e
      exact ⟨_, always h _ (by dsimp only; decide) rfl, run_load_symbol_name u l L c _ other lim I hr _ _ hn _ _⟩
    · cases e
  · dsimp only at e
    split at e
    · rename_i hs
      split at e
      · rename_i hc
        cases e
        exact ⟨_, lookup_libpath_dlinfo h hc, run_libpath_dlinfo u l L c _ other lim I _ _ hs _⟩
      · cases e
    · cases e
  · dsimp only at e
    split at e
    · split at e
      · rename_i hc
        cases e
        exact ⟨_, lookup_libpath_dladdr h hc, run_libpath_dladdr u l L c _ other lim I hc hr _ _⟩
      · cases e
    · cases e
  · dsimp only at e
    split at e
    · cases e
      exact ⟨_, lookup_library_path h, run_library_path u l L c _ other lim I _ _⟩
    · cases e

/-! ### Calls inside of each other -/

/-- The code that is linked with the system. -/
abbrev linked (u l : Str) (names : ParamNames) (D : Str → Bool) (L : Loader) (c : Cfg) (I : Insts) : Nat → Str → List V → M St → R St V :=
  link (rtSem u l L c) ((program names D).map (Top.inst I))

theorem linked_fn (n : Nat) (f : Str) (hs : (sysTable L rtText).lookup f = none) {F : Fn} (hF : lookup f (program names D) = some F) (as : List V) (m : M St) :
    linked u l names D L c I (n + 1) f as m = (F.inst I).call ⟨rtSem u l L c, isFnOf names D I, linked u l names D L c I n, n⟩ as m := by
  have hl : lookup f ((program names D).map (Top.inst I)) = some (F.inst I) := by rw [lookup_inst, hF]; rfl
  have hS : (rtSem u l L c).system f = none := hs
  simp only [linked, link, hS, hl]
  rfl

theorem linked_entry (h : Config u l D L c) (hr : Rows I c rows) (k : Entry) (hk : k ∈ known L c)
    (hw : k.rank = 5 → k.name = str% "_gdo_print_error" → Wraps names D) (hs : (sysTable L rtText).lookup k.name = none) (n : Nat)
    (ih : linked u l names D L c I n = knownCall L c k.rank (linked u l names D L c I n)) (as : List V) (m : M St) (R : R St V) (e : k.run as m = some R) :
    linked u l names D L c I (n + 1) k.name as m = R := by
  obtain ⟨F, hF, eF⟩ := runs h hr k hk hw (linked u l names D L c I n) n as m R e
  rw [linked_fn n k.name hs hF, ← eF]
  show (F.inst I).call ⟨rtSem u l L c, isFnOf names D I, linked u l names D L c I n, n⟩ as m =
    (F.inst I).call ⟨rtSem u l L c, isFnOf names D I, knownCall L c k.rank (linked u l names D L c I n), n⟩ as m
  rw [← ih]

theorem level (h : Config u l D L c) (hr : Rows I c rows) (r : Nat) :
    (r ≤ 5 ∨ Wraps names D) → ∀ n, r < n → linked u l names D L c I n = knownCall L c r (linked u l names D L c I n) := by
  induction r using Nat.strongRecOn with
  | _ r ih =>
    intro hw n hn
    obtain ⟨n, rfl⟩ : ∃ k, n = k + 1 := ⟨n - 1, by omega⟩
    funext f as m
    unfold knownCall
    cases hl : (sysTable L rtText).lookup f with
    | some g =>
      have hS : (rtSem u l L c).system f = some g := hl
      simp only [linked, link, hS]
    | none =>
      dsimp only
      cases hf : (known L c).find? fun k => k.name = f && decide (k.rank < r) with
      | none => rfl
      | some k =>
        have hm := List.mem_of_find?_eq_some hf
        have hp := List.find?_some hf
        simp only [Bool.and_eq_true, decide_eq_true_eq] at hp
        obtain ⟨rfl, hk⟩ := hp
        dsimp only
        cases e : k.run as m with
        | none => rfl
        | some R =>
          refine linked_entry h hr k hm ?_ hl n (ih k.rank hk ?_ n (by omega)) as m R e
          · intro h5 _
            rcases hw with hw | hw
            · omega
            · exact hw
          · rcases hw with hw | hw
            · exact .inl (by omega)
            · exact .inr hw

/-- The result of a function of the table, called by the program. -/
theorem linked_known (h : Config u l D L c) (hr : Rows I c rows) (k : Entry) (hk : k ∈ known L c) (hn : k.name ≠ str% "_gdo_print_error")
    (h5 : k.rank ≤ 5) (hs : (sysTable L rtText).lookup k.name = none) {n : Nat} (h7 : 7 ≤ n) (as : List V) (m : M St) (R : R St V) (e : k.run as m = some R) :
    linked u l names D L c I n k.name as m = R := by
  obtain ⟨n, rfl⟩ : ∃ k, n = k + 1 := ⟨n - 1, by omega⟩
  exact linked_entry h hr k hk (fun _ hp => absurd hp hn) hs n (level h hr k.rank (.inl h5) n (by omega)) as m R e

/-- `_gdo_wrap_check_loaded`, called by the program. -/
theorem linked_wrap (h : Config u l D L c) (hr : Rows I c rows) (hw : Wraps names D) {n : Nat} (h8 : 8 ≤ n) (i : Nat) (hi : i < c.syms.length) (s : St) (fr : List Frame) :
    done L c (linked u l names D L c I n (str% "_gdo_wrap_check_loaded") [.ofPtr (s.ptr i), .int i, .str c.syms[i]] ⟨s, fr⟩) = some (wrapCheckLoaded L c i s) := by
  obtain ⟨n, rfl⟩ : ∃ k, n = k + 1 := ⟨n - 1, by omega⟩
  have hF : lookup (str% "_gdo_wrap_check_loaded") (program names D) = some (fnOf (C.fn_gdo_wrap_check_loaded (c.mode ≠ .wrap) (c.mode = .lazy))) :=
    (lookup_wrap h hw _ (.inr rfl)).trans rfl
  rw [linked_fn n _ rfl hF, level h hr 6 (.inr hw) n (by omega)]
  exact run_wrap_check_loaded u l L c _ _ n I i hi s fr

end

end Gdo.Cc
