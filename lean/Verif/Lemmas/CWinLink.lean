import Verif.Lemmas.CWinWrap
import Verif.Lemmas.CCallLink

/-!
Lemmas: the functions of the generated C code call each other, when it is compiled for
Windows.
-/

set_option maxRecDepth 10000

namespace Gdo.Cc.W
open Gdo Tmpl Win Rename Gen Opt
open Gdo.Rt (Ev)

/-- The functions that are not always there. -/
def optional : List Str :=
  [str% "_gdo_mbstowcs", str% "_gdo_load_library_ex", str% "gdo_library_path", str% "_gdo_library_path", str% "_gdo_noop", str% "_gdo_print_error",
   str% "_gdo_wrap_check_loaded"]

/-- What is assumed about the macros, the system and the configuration. -/
structure Config (u l : Str) (D : Str → Bool) (L : Loader) (c : Cfg) : Prop where
  winapi : D (str% "GDO_WINAPI") = true
  win32 : D (str% "_WIN32") = true
  aix : D (str% "_AIX") = false
  lib : D (str% "GDO_DEFAULT_LIB") = true
  dlinfo : D (str% "GDO_HAVE_DLINFO") = false
  dladdr : D (str% "GDO_HAVE_DLADDR") = false
  wide : D (str% "_GDO_TARGET_WIDECHAR") = c.wide
  convert : D (str% "GDO_CONVERT_FILENAME") = c.convert
  box : D (str% "GDO_USE_MESSAGE_BOX") = c.box
  auto : D (str% "GDO_ENABLE_AUTOLOAD") = decide (c.mode ≠ .wrap)
  lazy : D (str% "GDO_ENABLE_AUTOLOAD_LAZY") = decide (c.mode = .lazy)
  free : c.freeName = newName u l (str% "gdo_force_free_lib")
  lower : '\\' ∉ l
  /-- nothing but the empty string is converted to the empty string -/
  widen : ∀ t x, x ≠ [] → L.widen t x ≠ some []

section
variable {u l : Str} {names : ParamNames} {D : Str → Bool} {L : Loader} {c : Cfg}

/-- The code, with the parts that are left out. -/
theorem lookup_program (h : Config u l D L c) (f : Str) :
    lookup f (program names D) =
      ((lookup f (commonPart1 true)).or <| (lookup f (cPart6 true true)).or <|
      (lookup f (cPart7 true true)).or <| (lookup f (cPart8 c.convert true c.wide)).or <| (lookup f (cPart9 true)).or <| (lookup f (cPart10 false false false true)).or <|
      (lookup f (cPart11 (D (str% "GDO_DLFCN_WIN32")) true true)).or <|
      lookup f (if names = .skip then [] else cPart16 (c.mode ≠ .wrap) (c.mode = .lazy) c.box (D (str% "GDO_WRAP_FUNCTIONS"))
        (D (str% "_MSC_VER")) true (D (str% "__GNUC__")))) := by
  have e1 : ∀ a b, lookup f (cPart1 a b) = none := by intro a b; cases a <;> cases b <;> rfl
  have e2 : ∀ a b, lookup f (cPart2 a b) = none := by intro a b; cases a <;> cases b <;> rfl
  have e3 : ∀ a, lookup f (cPart3 true a) = none := by intro a; cases a <;> rfl
  have e4 : lookup f (cPart4 false true) = none := rfl
  have e5 : lookup f (cPart5 false false) = none := rfl
  have e12 : lookup f (cPart12 false) = none := rfl
  have e13 : ∀ a, lookup f (cPart13 false a) = none := fun _ => rfl
  have e14 : lookup f (cPart14 false) = none := rfl
  have e17 : lookup f cPart17 = none := rfl
  have e18 : ∀ a b d, lookup f (cPart18 a b d) = none := by intro a b d; cases a <;> cases b <;> cases d <;> rfl
  have e0 : lookup f (commonPart3 false) = none := rfl
  have f2 : ∀ a, lookup f (commonPart2 false a true) = none := fun _ => rfl
  have f4 : ∀ a b, lookup f (commonPart4 false a b) = none := fun _ _ => rfl
  have es : lookup f (if (decide (names = .skip)) = true then [] else cPart15 ++
      cPart16 (c.mode ≠ .wrap) (c.mode = .lazy) c.box (D (str% "GDO_WRAP_FUNCTIONS"))
        (D (str% "_MSC_VER")) true (D (str% "__GNUC__"))) = lookup f (if names = .skip then [] else
      cPart16 (c.mode ≠ .wrap) (c.mode = .lazy) c.box (D (str% "GDO_WRAP_FUNCTIONS"))
        (D (str% "_MSC_VER")) true (D (str% "__GNUC__"))) := by
    by_cases hs : names = .skip <;> simp only [hs, decide_true, decide_false, if_true, if_false, Bool.false_eq_true]
    rfl
  unfold program commonProg cProg
  rw [h.winapi, h.win32, h.aix, h.lib, h.dlinfo, h.dladdr, h.auto, h.lazy, h.wide, h.convert, h.box]
  simp only [lookup_append, es, e0, e1, e2, e3, e4, e5, e12, e13, e14, e17, e18, f2, f4, Option.none_or, Option.or_none, Option.or_assoc]

/-- The functions that are always there. -/
theorem lookup_always (h : Config u l D L c) (f : Str) (hf : f ∉ optional) :
    lookup f (program names D) = lookup f (commonPart1 true ++ cPart6 true true ++ cPart7 true true ++ cPart9 true) := by
  have n8 : ∀ a b, lookup f (cPart8 a true b) = none := fun a b => lookup_part (by cases a <;> cases b <;> decide) f hf
  have n10 : lookup f (cPart10 false false false true) = none := lookup_part (by decide) f hf
  have n11 : ∀ a, lookup f (cPart11 a true true) = none := fun a => lookup_part (by cases a <;> decide) f hf
  have n16 : ∀ a b d e g i, lookup f (cPart16 a b d e g true i) = none := fun a b d e g i =>
    lookup_part (by cases a <;> cases b <;> cases d <;> cases e <;> cases g <;> cases i <;> decide) f hf
  rw [lookup_program h]
  have ns : ∀ a b d e g i, lookup f (if names = .skip then [] else cPart16 a b d e g true i) = none := by
    intros
    split
    · rfl
    · exact n16 ..
  simp only [lookup_append, n8, n10, n11, ns, Option.none_or, Option.or_none, Option.or_assoc]

theorem lookup_mbstowcs (h : Config u l D L c) (hc : (!c.wide && c.convert) = true) :
    lookup (str% "_gdo_mbstowcs") (program names D) = some (fnOf C.fn_gdo_mbstowcs) := by
  rw [lookup_program h]
  rw [Bool.and_eq_true, Bool.not_eq_true'] at hc
  rw [hc.1, hc.2]
  rfl

theorem lookup_load_library_ex (h : Config u l D L c) :
    lookup (str% "_gdo_load_library_ex") (program names D) = some (fnOf (C.fn_gdo_load_library_ex c.convert c.wide)) := by
  rw [lookup_program h]
  cases c.wide <;> cases c.convert <;> rfl

theorem lookup_library_path (h : Config u l D L c) :
    lookup (str% "gdo_library_path") (program names D) = some (fnOf (C.gdo_library_path false false false true)) := by
  have n8 : ∀ a b, lookup (str% "gdo_library_path") (cPart8 a true b) = none := by intro a b; cases a <;> cases b <;> rfl
  rw [lookup_program h, n8]
  rfl

theorem lookup_query_path (h : Config u l D L c) :
    lookup (str% "_gdo_library_path") (program names D) = some (fnOf (C.fn_gdo_library_path (D (str% "GDO_DLFCN_WIN32")) true)) := by
  have n8 : ∀ a b, lookup (str% "_gdo_library_path") (cPart8 a true b) = none := by intro a b; cases a <;> cases b <;> rfl
  rw [lookup_program h, n8]
  rfl

theorem lookup_wrap (h : Config u l D L c) (hw : Wraps names D) (f : Str) (hf : f = str% "_gdo_print_error" ∨ f = str% "_gdo_wrap_check_loaded") :
    lookup f (program names D) = lookup f [C.fn_gdo_print_error c.box true, C.fn_gdo_wrap_check_loaded (c.mode ≠ .wrap) (c.mode = .lazy)] := by
  have n8 : ∀ a b, lookup f (cPart8 a true b) = none := by intro a b; rcases hf with rfl | rfl <;> cases a <;> cases b <;> rfl
  have n11 : ∀ a, lookup f (cPart11 a true true) = none := by intro a; rcases hf with rfl | rfl <;> cases a <;> rfl
  have n10 : lookup f (cPart10 false false false true) = none := by rcases hf with rfl | rfl <;> rfl
  have n : lookup f (commonPart1 true) = none ∧ lookup f (cPart6 true true) = none ∧ lookup f (cPart7 true true) = none ∧ lookup f (cPart9 true) = none := by
    rcases hf with rfl | rfl <;> exact ⟨rfl, rfl, rfl, rfl⟩
  have n16 : ∀ a b d e g i, (e || a) = true → lookup f (cPart16 a b d e g true i) = lookup f [C.fn_gdo_print_error d true, C.fn_gdo_wrap_check_loaded a b] := by
    intro a b d e g i he
    unfold cPart16
    rw [he]
    rcases hf with rfl | rfl <;> cases g <;> cases i <;> rfl
  rw [lookup_program h, n8, n11, n10, n.1, n.2.1, n.2.2.1, n.2.2.2]
  simp only [Option.none_or]
  rw [if_neg hw.1]
  apply n16
  have := hw.2
  rw [h.auto] at this
  simpa [or_comm] using this

/-! ### The functions and what they do -/

/-- A function is in the code and does what is said. -/
def Runs (u l : Str) (names : ParamNames) (D : Str → Bool) (L : Loader) (c : Cfg) (B : Nat) (I : Insts) (k : Entry) : Prop :=
  ∀ other lim, B ≤ lim → ∀ as m R, k.run as m = some R →
    ∃ F, lookup k.name (program names D) = some F ∧ (F.inst I).call (kctx u l L c B (isFnOf names D I) other lim k.rank) as m = R

theorem always (h : Config u l D L c) (f : Str) (hf : f ∉ optional) {F : Fn}
    (e : lookup f (commonPart1 true ++ cPart6 true true ++ cPart7 true true ++ cPart9 true) = some F) : lookup f (program names D) = some F :=
  (lookup_always h f hf).trans e

variable {B : Nat} {I : Insts} {rows : List (Str × Str)}

theorem runs (h : Config u l D L c) (hr : Rows I c.toCfg rows) (hB : c.lib.length < B) (k : Entry) (hk : k ∈ known L c B)
    (hw : k.name = str% "_gdo_print_error" → Wraps names D) : Runs u l names D L c B I k := by
  intro other lim hlim as m R e
  obtain ⟨⟨s, hp⟩, fr⟩ := m
  simp only [known, List.mem_cons, List.not_mem_nil, or_false] at hk
  have hfn : isFnOf names D I (str% "gdo_force_free_lib") = true := by
    unfold isFnOf
    rw [lookup_inst, always h (str% "gdo_force_free_lib") (by decide) rfl]
    rfl
  rcases hk with rfl | rfl | rfl | rfl | rfl | rfl | rfl | rfl | rfl | rfl | rfl | rfl | rfl | rfl | rfl | rfl | rfl | rfl | rfl | rfl | rfl | rfl | rfl | rfl | rfl | rfl | rfl | rfl | rfl | rfl
  · dsimp only at e
    split at e
    · cases e
      exact ⟨_, always h _ (by dsimp only; decide) rfl, run_call_dlsym u l L c B _ other lim I _ _ _⟩
    · cases e
  · dsimp only at e
    split at e
    · cases e
      exact ⟨_, always h _ (by dsimp only; decide) rfl, run_call_dlclose u l L c B _ other lim I _ _ _ _⟩
    · cases e
  · dsimp only at e
    split at e
    · split at e
      · rename_i hb
        subst hb
        cases e
        exact ⟨_, always h _ (by dsimp only; decide) rfl, run_tcsstr u l L c B _ other lim I _ _ _ _⟩
      · cases e
    · cases e
  · dsimp only at e
    split at e
    · cases e
      exact ⟨_, always h _ (by dsimp only; decide) rfl, run_save_to_errbuf u l L c B _ other lim I _ _ _ _⟩
    · cases e
  · dsimp only at e
    split at e
    · cases e
      exact ⟨_, always h _ (by dsimp only; decide) rfl, run_clear_error u l L c B _ other lim I _ _ _⟩
    · cases e
  · dsimp only at e
    split at e
    · cases e
      exact ⟨_, always h _ (by dsimp only; decide) rfl, run_save_error u l L c B _ other lim I _ _ _ _⟩
    · cases e
  · dsimp only at e
    split at e
    · cases e
      exact ⟨_, always h _ (by dsimp only; decide) rfl, run_no_library u l L c B _ other lim I _ _ _⟩
    · cases e
  · dsimp only at e
    split at e
    · cases e
      exact ⟨_, always h _ (by dsimp only; decide) rfl, run_last_error u l L c B _ other lim I _ _ _⟩
    · cases e
  · dsimp only at e
    split at e
    · split at e
      · cases e
      · rename_i hb
        obtain ⟨msg, hv, rfl⟩ := Option.map_eq_some_iff.mp e
        exact ⟨_, (lookup_wrap h (hw rfl) _ (.inl rfl)).trans rfl, run_print_error u l L c B _ other lim I _ _ _ _ _ _ hv hb _⟩
    · cases e
  · dsimp only at e
    split at e
    · cases e
      exact ⟨_, always h _ (by dsimp only; decide) rfl, run_lib_is_loaded u l L c B _ other lim I _ _ _⟩
    · cases e
  · dsimp only at e
    split at e
    · split at e
      · rename_i hb
        obtain ⟨t, hv, rfl⟩ := Option.map_eq_some_iff.mp e
        exact ⟨_, lookup_mbstowcs h hb, run_mbstowcs u l L c B _ other lim I _ _ _ _ _ hv⟩
      · cases e
    · cases e
  · dsimp only at e
    split at e
    · obtain ⟨t, hv, e⟩ := Option.bind_eq_some_iff.mp e
      split at e
      · cases e
      · rename_i ht
        cases e
        exact ⟨_, lookup_load_library_ex h, run_load_library_ex u l L c B _ other lim I h.widen _ _ _ _ _ _ hv ht⟩
    · cases e
  · dsimp only at e
    split at e
    · split at e
      · rename_i hn
        cases e
        exact ⟨_, always h _ (by dsimp only; decide) rfl, run_load_library u l L c B _ other lim I _ _ _ _ _ _ _ (by omega)⟩
      · cases e
    · cases e
  · dsimp only at e
    split at e
    · cases e
      exact ⟨_, always h _ (by dsimp only; decide) rfl, run_load_lib_args u l L c B _ other lim I none _ _ _ _ _ (by intro n hn; cases hn)⟩
    · split at e
      · rename_i hn
        cases e
        exact ⟨_, always h _ (by dsimp only; decide) rfl, run_load_lib_args u l L c B _ other lim I (some _) _ _ _ _ _ (by intro n e; cases e; exact hn)⟩
      · cases e
    · cases e
  · dsimp only at e
    split at e
    · cases e
      exact ⟨_, always h _ (by dsimp only; decide) rfl, run_load_lib_name u l L c B _ other lim I none _ _ _ (by intro n hn; cases hn)⟩
    · split at e
      · rename_i hn
        cases e
        exact ⟨_, always h _ (by dsimp only; decide) rfl, run_load_lib_name u l L c B _ other lim I (some _) _ _ _ (by intro n e; cases e; exact hn)⟩
      · cases e
    · cases e
  · dsimp only at e
    split at e
    · cases e
      exact ⟨_, always h _ (by dsimp only; decide) rfl, run_load_lib u l L c B _ other lim I _ _ _ hB⟩
    · cases e
  · dsimp only at e
    split at e
    · cases e
      exact ⟨_, always h _ (by dsimp only; decide) rfl, run_load_lib_name_and_symbols u l L c B _ other lim I none _ _ _ (by intro n hn; cases hn)⟩
    · split at e
      · rename_i hn
        cases e
        exact ⟨_, always h _ (by dsimp only; decide) rfl, run_load_lib_name_and_symbols u l L c B _ other lim I (some _) _ _ _ (by intro n e; cases e; exact hn)⟩
      · cases e
    · cases e
  · dsimp only at e
    split at e
    · cases e
      exact ⟨_, always h _ (by dsimp only; decide) rfl, run_load_lib_and_symbols u l L c B _ other lim I _ _ _⟩
    · cases e
  · dsimp only at e
    split at e
    · cases e
      exact ⟨_, always h _ (by dsimp only; decide) rfl, run_free_lib u l L c B _ other lim I hr _ _ _⟩
    · cases e
  · dsimp only at e
    split at e
    · cases e
      exact ⟨_, always h _ (by dsimp only; decide) rfl, run_force_free_lib u l L c B _ other lim I hr _ _ _⟩
    · cases e
  · dsimp only at e
    split at e
    · cases e
      exact ⟨_, always h _ (by dsimp only; decide) rfl, run_enable_autorelease u l L c B _ other lim I h.free h.lower hfn _ _ _⟩
    · cases e
  · dsimp only at e
    split at e
    · cases e
      exact ⟨_, always h _ (by dsimp only; decide) rfl, run_all_symbols_loaded u l L c B _ other lim I hr _ _ _⟩
    · cases e
  · dsimp only at e
    split at e
    · cases e
      exact ⟨_, always h _ (by dsimp only; decide) rfl, run_no_symbols_loaded u l L c B _ other lim I hr _ _ _⟩
    · cases e
  · dsimp only at e
    split at e
    · cases e
      exact ⟨_, always h _ (by dsimp only; decide) rfl, run_any_symbol_loaded u l L c B _ other lim I hr _ _ _⟩
    · cases e
  · dsimp only at e
    split at e
    · rename_i hs
      split at e
      · rename_i ht
        subst ht
        cases e
        exact ⟨_, always h _ (by dsimp only; decide) rfl, run_sym u l L c B _ other lim I _ _ _ hs _ _⟩
      · cases e
    · cases e
  · dsimp only at e
    split at e
    · cases e
      exact ⟨_, always h _ (by dsimp only; decide) rfl, run_load_all_symbols u l L c B _ other lim I hr _ _ _⟩
    · cases e
  · dsimp only at e
    split at e
    · cases e
      exact ⟨_, always h _ (by dsimp only; decide) rfl, run_load_symbol u l L c B _ other lim I hr _ _ _ _⟩
    · cases e
  · dsimp only at e
    split at e
    · obtain ⟨n, hn, rfl⟩ := Option.map_eq_some_iff.mp e
      exact ⟨_, always h _ (by dsimp only; decide) rfl, run_load_symbol_name u l L c B _ other lim I hr _ _ hn _ _ _⟩
    · cases e
  · dsimp only at e
    split at e
    · rename_i hs
      cases e
      exact ⟨_, lookup_query_path h, run_query_path u l L c B _ other lim I _ _ _ hs _ _⟩
    · cases e
  · dsimp only at e
    split at e
    · cases e
      exact ⟨_, lookup_library_path h, run_library_path u l L c B _ other lim I _ _ _⟩
    · cases e

/-! ### Calls inside of each other -/

/-- The code that is linked with the system. -/
abbrev linked (u l : Str) (names : ParamNames) (D : Str → Bool) (L : Loader) (c : Cfg) (I : Insts) : Nat → Str → List V → M World → R World V :=
  link (sem u l L c) ((program names D).map (Top.inst I))

theorem linked_fn (n : Nat) (f : Str) (hs : (sysTable L c).lookup f = none) {F : Fn} (hF : lookup f (program names D) = some F) (as : List V) (m : M World) :
    linked u l names D L c I (n + 1) f as m = (F.inst I).call ⟨sem u l L c, isFnOf names D I, linked u l names D L c I n, n⟩ as m := by
  have hl : lookup f ((program names D).map (Top.inst I)) = some (F.inst I) := by rw [lookup_inst, hF]; rfl
  have hS : (sem u l L c).system f = none := hs
  simp only [linked, link, hS, hl]
  rfl

theorem linked_entry (h : Config u l D L c) (hr : Rows I c.toCfg rows) (hB : c.lib.length < B) (k : Entry) (hk : k ∈ known L c B)
    (hw : k.name = str% "_gdo_print_error" → Wraps names D) (hs : (sysTable L c).lookup k.name = none) (n : Nat) (hn : B ≤ n)
    (ih : linked u l names D L c I n = knownCall L c B k.rank (linked u l names D L c I n)) (as : List V) (m : M World) (R : R World V) (e : k.run as m = some R) :
    linked u l names D L c I (n + 1) k.name as m = R := by
  obtain ⟨F, hF, eF⟩ := runs h hr hB k hk hw (linked u l names D L c I n) n hn as m R e
  rw [linked_fn n k.name hs hF, ← eF]
  show (F.inst I).call ⟨sem u l L c, isFnOf names D I, linked u l names D L c I n, n⟩ as m =
    (F.inst I).call ⟨sem u l L c, isFnOf names D I, knownCall L c B k.rank (linked u l names D L c I n), n⟩ as m
  rw [← ih]

theorem print_rank (k : Entry) (hk : k ∈ known L c B) (hn : k.name = str% "_gdo_print_error") : k.rank = 6 := by
  have : ∀ x ∈ (known L c B).map (fun k => (k.name, k.rank)), x.1 = str% "_gdo_print_error" → x.2 = 6 := by
    rw [show (known L c B).map (fun k => (k.name, k.rank)) = (known L c 0).map (fun k => (k.name, k.rank)) from rfl]
    unfold known
    simp only [List.map_cons, List.map_nil]
    decide
  exact this (k.name, k.rank) (List.mem_map_of_mem hk) hn

theorem level (h : Config u l D L c) (hr : Rows I c.toCfg rows) (hB : c.lib.length < B) (r : Nat) :
    (r ≤ 6 ∨ Wraps names D) → ∀ n, B + r < n → linked u l names D L c I n = knownCall L c B r (linked u l names D L c I n) := by
  induction r using Nat.strongRecOn with
  | _ r ih =>
    intro hw n hn
    obtain ⟨n, rfl⟩ : ∃ k, n = k + 1 := ⟨n - 1, by omega⟩
    funext f as m
    unfold knownCall
    cases hl : (sysTable L c).lookup f with
    | some g =>
      have hS : (sem u l L c).system f = some g := hl
      simp only [linked, link, hS]
    | none =>
      dsimp only
      cases hf : (known L c B).find? fun k => k.name = f && decide (k.rank < r) with
      | none => rfl
      | some k =>
        have hm := List.mem_of_find?_eq_some hf
        have hp := List.find?_some hf
        simp only [Bool.and_eq_true, decide_eq_true_eq] at hp
        obtain ⟨rfl, hk⟩ := hp
        dsimp only
        cases e : k.run as m with
        | none => rfl
        | some R =>
          refine linked_entry h hr hB k hm ?_ hl n (by omega) (ih k.rank hk ?_ n (by omega)) as m R e
          · intro hn
            have := print_rank k hm hn
            rcases hw with hw | hw
            · omega
            · exact hw
          · rcases hw with hw | hw
            · exact .inl (by omega)
            · exact .inr hw

/-- The result of a function of the table, called by the program. -/
theorem linked_known (h : Config u l D L c) (hr : Rows I c.toCfg rows) (hB : c.lib.length < B) (k : Entry) (hk : k ∈ known L c B) (hn : k.name ≠ str% "_gdo_print_error")
    (h6 : k.rank ≤ 6) (hs : (sysTable L c).lookup k.name = none) {n : Nat} (h8 : B + 8 ≤ n) (as : List V) (m : M World) (R : R World V) (e : k.run as m = some R) :
    linked u l names D L c I n k.name as m = R := by
  obtain ⟨n, rfl⟩ : ∃ k, n = k + 1 := ⟨n - 1, by omega⟩
  exact linked_entry h hr hB k hk (fun hp => absurd hp hn) hs n (by omega) (level h hr hB k.rank (.inl h6) n (by omega)) as m R e

/-- `_gdo_wrap_check_loaded`, called by the program. -/
theorem linked_wrap (h : Config u l D L c) (hr : Rows I c.toCfg rows) (hB : c.lib.length < B) (hw : Wraps names D) {n : Nat} (h9 : B + 9 ≤ n) (i : Nat)
    (hi : i < c.syms.length) (s : St) (hp : List Block) (fr : List Frame) :
    done L c hp (linked u l names D L c I n (str% "_gdo_wrap_check_loaded") [.ofPtr (s.ptr i), .int i, .str c.syms[i]] ⟨⟨s, hp⟩, fr⟩) =
      some (wrapCheckLoaded L c i s, hp) := by
  obtain ⟨n, rfl⟩ : ∃ k, n = k + 1 := ⟨n - 1, by omega⟩
  have hF : lookup (str% "_gdo_wrap_check_loaded") (program names D) = some (fnOf (C.fn_gdo_wrap_check_loaded (c.mode ≠ .wrap) (c.mode = .lazy))) :=
    (lookup_wrap h hw _ (.inr rfl)).trans rfl
  rw [linked_fn n _ rfl hF, level h hr hB 7 (.inr hw) n (by omega)]
  exact run_wrap_check_loaded u l L c B _ _ n I i hi s hp fr

end

end Gdo.Cc.W
