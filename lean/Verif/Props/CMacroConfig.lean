import Verif.Lemmas.CMacroSeg
import Verif.Model.CSystemPlug

/-!
C104: the macros that the code of the templates uses, as a preprocessor finds them defined.
-/

set_option maxRecDepth 20000

namespace Gdo.Cpp
open Gdo Rename Tmpl Builtin Gdo.Sub Opt Tpl Gen Pfx

variable {u l : Str} {E : Str → Option Macro} {inc : List T → Table} {protos objs : List Proto}

/-- What must be known about the prefix and the symbols. -/
structure Plain (u l : Str) (protos objs : List Proto) : Prop where
  prefixes : Prefixes u l
  calm : ∀ p ∈ protos ++ objs, CalmProto p
  named : ∀ p ∈ protos, Named p.symbol

/-- The code has no directives that define or remove macros. -/
def noNames (_ : Str) : Bool := false

theorem still (h : Plain u l protos objs) {X : List Str} (hi : ∀ r, ∀ y ∈ X, (inc r).lookup y = none) {ds : List Str}
    (hw : walkEntries noNames noNames ⟨.code, [], []⟩ ds = some ⟨.code, [], []⟩) : Harmless inc X (entriesText u l protos objs ds) :=
  walk_harmless (okA := noNames) (okB := noNames) ⟨h.prefixes, hi, fun _ h => by cases h⟩ h.calm h.named (fun _ _ _ h => by cases h) hw

theorem entries_append (u l : Str) (protos objs : List Proto) (a b : List Str) : entriesText u l protos objs (a ++ b) = entriesText u l protos objs a ++ entriesText u l protos objs b := by
  unfold entriesText
  rw [List.flatMap_append, unlines_app]

theorem Gives.congr {E E' : Str → Option Macro} {line : Str} (h : Gives E u l line) (he : ∀ p, macroOf line = some p → E' (newName u l p.1) = E (newName u l p.1)) : Gives E' u l line := by
  obtain ⟨n, m, h1, h2⟩ := h
  exact ⟨n, m, h1, (he _ h1).trans h2⟩

theorem after_nil (inc : List T → Table) (E : Str → Option Macro) : after inc E [] = some E := by
  have := after_run (inc := inc) (E := E) (text := []) (t := []) rfl
  rw [this]
  rfl

/-! ### `c.c` -/

/-- The definitions in `c.c` that the code uses, from what is defined before. -/
def bodyMacros (D : Str → Bool) : List Str :=
  [if D (str% "_GDO_TARGET_WIDECHAR") then str% "GDO_XHS L\"%hs\"" else str% "GDO_XHS \"%s\"",
   if D (str% "GDO_STATIC") then str% "GDO_LINKAGE GDO_DECL" else str% "GDO_LINKAGE",
   if D (str% "GDO_STATIC") then str% "GDO_OBJ_LINKAGE GDO_OBJ_DECL" else str% "GDO_OBJ_LINKAGE",
   str% "GDO_UNUSED_REF(x) (void)(x)"] ++
  (if D (str% "_countof") then [] else [str% "_countof(array) (sizeof(array) / sizeof(array[0]))"]) ++
  [if D (str% "_WIN32") then str% "GDO_SNPRINTF(DEST, FORMAT, ...) _sntprintf_s(DEST, _countof(DEST), _TRUNCATE, FORMAT, __VA_ARGS__)"
   else str% "GDO_SNPRINTF(DEST, FORMAT, ...) snprintf(DEST, _countof(DEST), FORMAT, __VA_ARGS__)",
   if D (str% "GDO_WINAPI") then str% "GDO_SET_LAST_ERRNO(x) do { gdo_hndl.last_errno = x; } while(0)" else str% "GDO_SET_LAST_ERRNO(x)"]

def bodyTested : List Str :=
  [str% "_GDO_TARGET_WIDECHAR", str% "GDO_STATIC", str% "_countof", str% "_WIN32", str% "GDO_WINAPI", str% "_AIX", str% "GDO_HAVE_DLINFO", str% "GDO_HAVE_DLADDR"]

def bodyDefined : List Str :=
  [str% "GDO_XHS", str% "GDO_LINKAGE", str% "GDO_OBJ_LINKAGE", str% "GDO_UNUSED_REF", str% "GDO_SNPRINTF", str% "GDO_SET_LAST_ERRNO"]

def bodySeg : List Str := ((texts .cBody).drop 13).take 77

theorem bodySeg_ok : segOk bodySeg bodyTested (bodyTested ++ bodyDefined) bodyMacros = true := by decide +kernel

theorem bodyMacros_on : DependsOn bodyTested bodyMacros := by
  intro D D' h
  unfold bodyMacros
  rw [h _ (show str% "_GDO_TARGET_WIDECHAR" ∈ bodyTested by decide), h _ (show str% "GDO_STATIC" ∈ bodyTested by decide), h _ (show str% "_countof" ∈ bodyTested by decide),
    h _ (show str% "_WIN32" ∈ bodyTested by decide), h _ (show str% "GDO_WINAPI" ∈ bodyTested by decide)]

theorem body_front (on : Bool) : walkEntries noNames noNames ⟨.code, [], []⟩ (lineEntry on .cBody ++ (texts .cBody).take 13) = some ⟨.code, [], []⟩ := by
  cases on <;> decide +kernel

theorem front_has {E E1 : Str → Option Macro} {V : List Str} {f : (Str → Bool) → List Str} (hf : DependsOn V f) (h : ∀ x ∈ V.map (newName u l), E1 x = E x) :
    (f fun w => (E1 (newName u l w)).isSome) = f fun w => (E (newName u l w)).isSome :=
  hf _ _ fun x hx => by rw [h _ (List.mem_map.mpr ⟨x, hx, rfl⟩)]

/-- The macros that the code in `c.c` uses, behind the part of the file that defines them. -/
theorem C104_body (h : Plain u l protos objs) (hi : ∀ r, ∀ x ∈ bodyTested, (inc r).lookup (newName u l x) = none) (on : Bool) :
    ∃ E', after inc E (entriesText u l protos objs (lineEntry on .cBody ++ (texts .cBody).take 90)) = some E' ∧
      ∀ line ∈ bodyMacros fun w => (E (newName u l w)).isSome, Gives E' u l line := by
  rw [show 90 = 13 + 77 from rfl, List.take_add, ← List.append_assoc, entries_append]
  obtain ⟨E1, h1, e1⟩ := after_lead (E := E) (b := entriesText u l protos objs (((texts .cBody).drop 13).take 77))
    (still h (X := bodyTested.map (newName u l)) (fun r y hy => by obtain ⟨x, hx, rfl⟩ := List.mem_map.mp hy; exact hi r x hx) (body_front on))
  obtain ⟨E2, e2, g2, -⟩ := after_seg h.prefixes bodySeg_ok bodyMacros_on protos objs inc E1 []
  rw [List.append_nil, after_nil] at e2
  refine ⟨E2, e1.trans e2, ?_⟩
  rw [← front_has bodyMacros_on h1]
  exact g2

theorem body_rest1 : walkEntries noNames noNames ⟨.code, [], []⟩ (((texts .cBody).drop 90).take 140) = some ⟨.code, [], []⟩ := by decide +kernel
theorem body_rest2 : walkEntries noNames noNames ⟨.code, [], []⟩ (((texts .cBody).drop 230).take 220) = some ⟨.code, [], []⟩ := by decide +kernel
theorem body_rest3 : walkEntries noNames noNames ⟨.code, [], []⟩ (((texts .cBody).drop 450).take 206) = some ⟨.code, [], []⟩ := by decide +kernel
theorem body_rest4 : walkEntries noNames noNames ⟨.code, [], []⟩ (((texts .cBody).drop 656).take 190) = some ⟨.code, [], []⟩ := by decide +kernel
theorem body_rest5 (names : ParamNames) : walkEntries noNames noNames ⟨.code, [], []⟩ (shown names none (((texts .cBody).drop 846).take 101)) = some ⟨.code, [], []⟩ := by
  cases names <;> decide +kernel

/-- The code of `c.c`: no directives in it define or remove macros. -/
theorem C104_body_rest (h : Plain u l protos objs) (names : ParamNames) (X : List Str) (hi : ∀ r, ∀ y ∈ X, (inc r).lookup y = none) :
    Harmless inc X (entriesText u l protos objs (((texts .cBody).drop 90).take 756 ++ shown names none (((texts .cBody).drop 846).take 101))) := by
  refine still h hi (walkEntries_append ?_ (body_rest5 names))
  have e : ∀ (a m n : Nat), ((texts .cBody).drop a).take (m + n) = ((texts .cBody).drop a).take m ++ ((texts .cBody).drop (a + m)).take n := fun a m n => by
    rw [List.take_add, List.drop_drop]
  rw [show 756 = 140 + (220 + (206 + 190)) from rfl, e, e, e]
  exact walkEntries_append body_rest1 (walkEntries_append body_rest2 (walkEntries_append body_rest3 body_rest4))

/-- These are the texts that `c.c` begins with. -/
theorem C104_body_text (s : Settings) (protos objs : List Proto) : templateText s protos objs .cBody =
    entriesText (toUpper s.pfx) (toLower s.pfx) protos objs (lineEntry s.lineDirective .cBody ++ (texts .cBody).take 90) ++
    (entriesText (toUpper s.pfx) (toLower s.pfx) protos objs (((texts .cBody).drop 90).take 756 ++ shown s.names none (((texts .cBody).drop 846).take 101)) ++
      bodyPart (toUpper s.pfx) (toLower s.pfx) protos objs) := by
  unfold templateText
  rw [unlines_app, C102_bodyPart]
  unfold shownPart
  rw [show 947 = 846 + 101 from rfl, List.take_add, shown_plain s.names fun d hd => eq_of_beq (List.all_eq_true.mp body_plain d hd), show 846 = 90 + 756 from rfl, List.take_add]
  unfold entriesText
  simp only [List.flatMap_append, lineEntry_written, unlines_app, List.append_assoc]
  rfl

/-! ### `plugin.c` -/

/-- The definitions in `plugin.c` that the code uses. -/
def pluginMacros (D : Str → Bool) : List Str :=
  [if D (str% "GDO_STATIC") then str% "GDO_LINKAGE static inline" else str% "GDO_LINKAGE",
   if D (str% "GDO_WINAPI") then str% "GDO_LOAD_LIB(x) LoadLibraryEx(x, NULL, GDO_DEFAULT_FLAGS)" else str% "GDO_LOAD_LIB(x) dlopen(x, GDO_DEFAULT_FLAGS)",
   if D (str% "GDO_WINAPI") then str% "GDO_STRDUP _tcsdup" else str% "GDO_STRDUP strdup"]

def pluginTested : List Str := [str% "GDO_STATIC", str% "GDO_WINAPI"]

theorem pluginSeg_ok : segOk (((texts .pluginBody).drop 10).take 14) pluginTested (pluginTested ++ [str% "GDO_LINKAGE", str% "GDO_LOAD_LIB", str% "GDO_STRDUP"]) pluginMacros = true := by
  decide +kernel

theorem pluginMacros_on : DependsOn pluginTested pluginMacros := by
  intro D D' h
  unfold pluginMacros
  rw [h _ (show str% "GDO_STATIC" ∈ pluginTested by decide), h _ (show str% "GDO_WINAPI" ∈ pluginTested by decide)]

theorem plugin_front (on : Bool) : walkEntries noNames noNames ⟨.code, [], []⟩ (lineEntry on .pluginBody ++ (texts .pluginBody).take 10) = some ⟨.code, [], []⟩ := by
  cases on <;> decide +kernel

theorem C104_plugin (h : Plain u l protos objs) (hi : ∀ r, ∀ x ∈ pluginTested, (inc r).lookup (newName u l x) = none) (on : Bool) :
    ∃ E', after inc E (entriesText u l protos objs (lineEntry on .pluginBody ++ (texts .pluginBody).take 24)) = some E' ∧
      ∀ line ∈ pluginMacros fun w => (E (newName u l w)).isSome, Gives E' u l line := by
  rw [show 24 = 10 + 14 from rfl, List.take_add, ← List.append_assoc, entries_append]
  obtain ⟨E1, h1, e1⟩ := after_lead (E := E) (b := entriesText u l protos objs (((texts .pluginBody).drop 10).take 14))
    (still h (X := pluginTested.map (newName u l)) (fun r y hy => by obtain ⟨x, hx, rfl⟩ := List.mem_map.mp hy; exact hi r x hx) (plugin_front on))
  obtain ⟨E2, e2, g2, -⟩ := after_seg h.prefixes pluginSeg_ok pluginMacros_on protos objs inc E1 []
  rw [List.append_nil, after_nil] at e2
  refine ⟨E2, e1.trans e2, ?_⟩
  rw [← front_has pluginMacros_on h1]
  exact g2

theorem plugin_rest : walkEntries noNames noNames ⟨.code, [], []⟩ ((texts .pluginBody).drop 24) = some ⟨.code, [], []⟩ := by decide +kernel

/-- The code of `plugin.c`: no directives in it define or remove macros. -/
theorem C104_plugin_rest (h : Plain u l protos objs) (X : List Str) (hi : ∀ r, ∀ y ∈ X, (inc r).lookup y = none) :
    Harmless inc X (entriesText u l protos objs ((texts .pluginBody).drop 24)) := still h hi plugin_rest

/-! ### `minimal.h` -/

/-- Whether the Windows API is used. -/
def usesWindows (D : Str → Bool) : Bool := D (str% "GDO_WINAPI") || (D (str% "_WIN32") && !D (str% "GDO_USE_DLOPEN"))

def minTested : List Str := [str% "_WIN32", str% "GDO_USE_DLOPEN"]

def minNames : List Str := [str% "GDO_WINAPI", str% "GDO_STATIC"]

def minStart (D : Str → Bool) (r : Option (Table × List Cc.Cond)) : Bool :=
  let c := D (str% "_WIN32") && !D (str% "GDO_USE_DLOPEN")
  decide (r = some (if c then [(str% "GDO_WINAPI", some emptyMacro)] else [], [⟨c, c, false⟩]))

theorem minStart_whole : (wholeLines ((texts .minCHeader).take 2)).isSome = true ∧ (wholeLines (((texts .minCHeader).drop 2).take 4)).isSome = true ∧
    plainText ((texts .minCHeader).take 6) = true := by decide +kernel

theorem minStart_check : checkLines minTested (minTested ++ minNames) (wl ((texts .minCHeader).take 2)) minStart = true := by decide +kernel

theorem minStart_apart : apartNames (minTested ++ minNames) = true ∧ changesApart minNames (wl (((texts .minCHeader).drop 2).take 4)) = true ∧
    shapeLines minNames [false] (wl (((texts .minCHeader).drop 2).take 4)) = some [] := by decide +kernel

theorem min_front (h : Plain u l protos objs) (hi : ∀ r, ∀ x ∈ minNames, (inc r).lookup (newName u l x) = none) (b : Str) :
    ∃ E1 : Str → Option Macro, after inc E (entriesText u l protos objs ((texts .minCHeader).take 6) ++ b) = after inc E1 b ∧
      (E1 (newName u l (str% "GDO_WINAPI"))).isSome = usesWindows (fun w => (E (newName u l w)).isSome) ∧ E1 (newName u l (str% "GDO_STATIC")) = E (newName u l (str% "GDO_STATIC")) := by
  obtain ⟨w1, w2, w3⟩ := minStart_whole
  obtain ⟨a1, a2, a3⟩ := minStart_apart
  obtain ⟨c1, c2⟩ := checkLines_spec minStart_check (fun D D' r h => by
    unfold minStart
    rw [h _ (show str% "_WIN32" ∈ minTested by decide), h _ (show str% "GDO_USE_DLOPEN" ∈ minTested by decide)]) (fun w => (E (newName u l w)).isSome)
  have c2 := of_decide_eq_true (show decide _ = true from c2)
  obtain ⟨c3, -⟩ := runLines_ren (u := u) (l := l) (apart_inj a1) inc (fun _ => []) (fun x => (E x).isSome) c1 (t := []) (fun _ h => nomatch h) []
  rw [c2] at c3
  obtain ⟨t', st', r1, r2, r3⟩ := runLines_shape (inc := inc) (u := u) (l := l)
    (fun r y hy => by obtain ⟨x, hx, rfl⟩ := List.mem_map.mp hy; exact hi r x hx) (fun x => (E x).isSome) (changesApart_spec (u := u) (l := l) a2)
    (t := renTable (newName u l) (if (E (newName u l (str% "_WIN32"))).isSome && !(E (newName u l (str% "GDO_USE_DLOPEN"))).isSome then [(str% "GDO_WINAPI", some emptyMacro)] else []))
    (st := [⟨(E (newName u l (str% "_WIN32"))).isSome && !(E (newName u l (str% "GDO_USE_DLOPEN"))).isSome,
      (E (newName u l (str% "_WIN32"))).isSome && !(E (newName u l (str% "GDO_USE_DLOPEN"))).isSome, false⟩]) a3
  have hst : st' = [] := by simpa using r2
  subst hst
  have hrun : run inc (fun x => (E x).isSome) ([], []) (entriesText u l protos objs ((texts .minCHeader).take 6) ++ b) = run inc (fun x => (E x).isSome) (t', []) b := by
    unfold entriesText
    rw [written_lines h.prefixes protos objs w3, show 6 = 2 + 4 from rfl, List.take_add, List.map_append, unlines_app, List.append_assoc, run_template h.prefixes (wl_whole w1),
      show (([], []) : Table × List Cc.Cond) = (renTable (newName u l) [], []) from rfl, c3]
    simp only [Option.map_some, Option.bind_some]
    rw [run_template h.prefixes (wl_whole w2), r1]
    rfl
  refine ⟨known E t', after_table hrun, ?_, ?_⟩
  · unfold known
    rw [r3 _ (List.mem_map.mpr ⟨_, by decide, rfl⟩)]
    unfold usesWindows
    split
    · rename_i m hm
      split at hm
      · rename_i hc
        simp only [renTable, List.map_cons, List.map_nil, List.lookup, beq_self_eq_true] at hm
        cases hm
        simp only [hc, Bool.or_true]
        rfl
      · cases hm
    · rename_i hm
      split at hm
      · simp [renTable] at hm
      · rename_i hc
        simp only [Bool.not_eq_true] at hc
        simp only [hc, Bool.or_false]
  · unfold known
    rw [r3 _ (List.mem_map.mpr ⟨_, by decide, rfl⟩)]
    have hne : newName u l (str% "GDO_WINAPI") ≠ newName u l (str% "GDO_STATIC") := fun e => absurd (apart_inj a1 _ (by decide) _ (by decide) e) (by decide)
    rw [lookup_other]
    intro p hp e
    split at hp
    · cases List.mem_singleton.mp hp
      exact hne e
    · cases hp

def minLinkage (D : Str → Bool) : List Str := [if D (str% "GDO_STATIC") then str% "GDO_LINKAGE static inline" else str% "GDO_LINKAGE"]

def minLoad (D : Str → Bool) : List Str :=
  [if D (str% "GDO_WINAPI") then str% "_GDO_LOAD_SYM(SYMBOL) (void *)GetProcAddress(gdo_hndl.handle, SYMBOL)" else str% "_GDO_LOAD_SYM(SYMBOL) dlsym(gdo_hndl.handle, SYMBOL)"]

theorem minLinkage_ok : segOk (((texts .minCHeader).drop 6).take 6) [str% "GDO_STATIC"] [str% "GDO_STATIC", str% "GDO_LINKAGE"] minLinkage = true := by decide +kernel

theorem minLoad_ok : segOk (((texts .minCHeader).drop 84).take 5) [str% "GDO_WINAPI"] [str% "GDO_WINAPI", str% "_GDO_LOAD_SYM"] minLoad = true := by decide +kernel

theorem min_rest : walkEntries noNames noNames ⟨.code, [], []⟩ (((texts .minCHeader).drop 12).take 72) = some ⟨.code, [], []⟩ ∧
    walkEntries noNames noNames ⟨.code, [], []⟩ (((texts .minCHeader).drop 89).take 2) = some ⟨.code, [], []⟩ := by
  refine ⟨?_, ?_⟩ <;> decide +kernel

theorem min_split : (texts .minCHeader).take 91 = (texts .minCHeader).take 6 ++ (((texts .minCHeader).drop 6).take 6 ++ (((texts .minCHeader).drop 12).take 72 ++
    (((texts .minCHeader).drop 84).take 5 ++ ((texts .minCHeader).drop 89).take 2))) := by
  have e : ∀ (a m n : Nat), ((texts .minCHeader).drop a).take (m + n) = ((texts .minCHeader).drop a).take m ++ ((texts .minCHeader).drop (a + m)).take n := fun a m n => by
    rw [List.take_add, List.drop_drop]
  rw [show 91 = 6 + (6 + (72 + (5 + 2))) from rfl, List.take_add, e, e, e]

def minUsed : List Str := [str% "GDO_WINAPI", str% "GDO_STATIC", str% "GDO_LINKAGE", str% "_GDO_LOAD_SYM"]

theorem minUsed_apart : apartNames minUsed = true := by decide +kernel

theorem Gives.name {E E' : Str → Option Macro} {line n : Str} {m : Macro} (h : Gives E u l line) (hm : macroOf line = some (n, m)) (he : E' (newName u l n) = E (newName u l n)) : Gives E' u l line :=
  h.congr fun p hp => by rw [hm] at hp; cases hp; exact he

/-- The macros that the code of `minimal.h` uses, at the end of the code that loads the symbols. -/
theorem C104_minimal (h : Plain u l protos objs) (hi : ∀ r, ∀ x ∈ minUsed, (inc r).lookup (newName u l x) = none) :
    ∃ E', after inc E (entriesText u l protos objs ((texts .minCHeader).take 91)) = some E' ∧
      Gives E' u l (if usesWindows fun w => (E (newName u l w)).isSome then str% "_GDO_LOAD_SYM(SYMBOL) (void *)GetProcAddress(gdo_hndl.handle, SYMBOL)"
        else str% "_GDO_LOAD_SYM(SYMBOL) dlsym(gdo_hndl.handle, SYMBOL)") ∧
      Gives E' u l (if (E (newName u l (str% "GDO_STATIC"))).isSome then str% "GDO_LINKAGE static inline" else str% "GDO_LINKAGE") := by
  have hx : ∀ {X : List Str}, (∀ x ∈ X, x ∈ minUsed) → ∀ r, ∀ y ∈ X.map (newName u l), (inc r).lookup y = none := fun hX r y hy => by
    obtain ⟨x, hx, rfl⟩ := List.mem_map.mp hy
    exact hi r x (hX x hx)
  have hne : ∀ {x y : Str}, x ∈ minUsed → y ∈ minUsed → x ≠ y → newName u l x ≠ newName u l y := fun h1 h2 h3 e => h3 (apart_inj minUsed_apart _ h1 _ h2 e)
  have link : ∀ b : Bool, ∃ m, macroOf (if b then str% "GDO_LINKAGE static inline" else str% "GDO_LINKAGE") = some (str% "GDO_LINKAGE", m) := by
    intro b
    cases b
    · exact ⟨_, by rfl⟩
    · exact ⟨_, by rfl⟩
  have load : ∀ b : Bool, ∃ m, macroOf (if b then str% "_GDO_LOAD_SYM(SYMBOL) (void *)GetProcAddress(gdo_hndl.handle, SYMBOL)" else str% "_GDO_LOAD_SYM(SYMBOL) dlsym(gdo_hndl.handle, SYMBOL)") =
      some (str% "_GDO_LOAD_SYM", m) := by
    intro b
    cases b
    · exact ⟨_, by rfl⟩
    · exact ⟨_, by rfl⟩
  rw [min_split]
  simp only [entries_append]
  obtain ⟨E1, e1, w1, s1⟩ := min_front (E := E) (inc := inc) h (fun r x hx => hi r x (by revert x; decide))
    (entriesText u l protos objs (((texts .minCHeader).drop 6).take 6) ++ (entriesText u l protos objs (((texts .minCHeader).drop 12).take 72) ++
      (entriesText u l protos objs (((texts .minCHeader).drop 84).take 5) ++ entriesText u l protos objs (((texts .minCHeader).drop 89).take 2))))
  obtain ⟨E2, e2, g2, o2⟩ := after_seg h.prefixes minLinkage_ok (fun D D' hD => by unfold minLinkage; rw [hD _ (by simp)]) protos objs inc E1
    (entriesText u l protos objs (((texts .minCHeader).drop 12).take 72) ++
      (entriesText u l protos objs (((texts .minCHeader).drop 84).take 5) ++ entriesText u l protos objs (((texts .minCHeader).drop 89).take 2)))
  obtain ⟨E3, h3, e3⟩ := after_lead (E := E2) (b := entriesText u l protos objs (((texts .minCHeader).drop 84).take 5) ++ entriesText u l protos objs (((texts .minCHeader).drop 89).take 2))
    (still h (X := [str% "GDO_WINAPI", str% "GDO_LINKAGE"].map (newName u l)) (hx (by decide)) min_rest.1)
  obtain ⟨E4, e4, g4, o4⟩ := after_seg h.prefixes minLoad_ok (fun D D' hD => by unfold minLoad; rw [hD _ (by simp)]) protos objs inc E3
    (entriesText u l protos objs (((texts .minCHeader).drop 89).take 2))
  obtain ⟨E5, h5, e5⟩ := after_lead (E := E4) (b := [])
    (still h (X := [str% "_GDO_LOAD_SYM", str% "GDO_LINKAGE"].map (newName u l)) (hx (by decide)) min_rest.2)
  rw [List.append_nil, after_nil] at e5
  refine ⟨E5, e1.trans (e2.trans (e3.trans (e4.trans e5))), ?_, ?_⟩
  · have hw : (E3 (newName u l (str% "GDO_WINAPI"))).isSome = usesWindows fun w => (E (newName u l w)).isSome := by
      rw [h3 _ (List.mem_map.mpr ⟨_, by simp, rfl⟩), o2, w1]
      intro line hl p hp
      obtain ⟨m, hm⟩ := link (E1 (newName u l (str% "GDO_STATIC"))).isSome
      rw [List.mem_singleton.mp hl, hm] at hp
      cases hp
      exact hne (x := str% "GDO_LINKAGE") (by decide) (by decide) (by decide)
    have g := g4 _ (List.mem_singleton.mpr rfl)
    simp only [hw] at g
    obtain ⟨m, hm⟩ := load (usesWindows fun w => (E (newName u l w)).isSome)
    exact g.name hm (h5 _ (List.mem_map.mpr ⟨_, by simp, rfl⟩))
  · have g := g2 _ (List.mem_singleton.mpr rfl)
    simp only [s1] at g
    obtain ⟨m, hm⟩ := link (E (newName u l (str% "GDO_STATIC"))).isSome
    refine g.name hm ?_
    rw [h5 _ (List.mem_map.mpr ⟨_, by simp, rfl⟩), o4, h3 _ (List.mem_map.mpr ⟨_, by simp, rfl⟩)]
    intro line hl p hp
    obtain ⟨m, hm⟩ := load (E3 (newName u l (str% "GDO_WINAPI"))).isSome
    rw [List.mem_singleton.mp hl, hm] at hp
    cases hp
    exact hne (x := str% "_GDO_LOAD_SYM") (by decide) (by decide) (by decide)

/-! ### `common.h` and `c.h` -/

def lengthMacros (D : Str → Bool) : List Str := [if D (str% "_WIN32") then str% "GDO_BUFLEN (32*1024)" else str% "GDO_BUFLEN (8*1024)"]

theorem length_ok : segOk (((texts .commonHeader).drop 112).take 5) [str% "_WIN32"] [str% "_WIN32", str% "GDO_BUFLEN"] lengthMacros = true := by decide +kernel

theorem length_rest : restOk ((texts .commonHeader).take 112) [str% "_WIN32"] = true ∧ restOk (((texts .commonHeader).drop 117).take 288) [str% "GDO_BUFLEN"] = true := by
  refine ⟨?_, ?_⟩ <;> decide +kernel

/-- The length of the buffers. -/
theorem C104_length (h : Plain u l protos objs) (hi : ∀ r, ∀ x ∈ [str% "_WIN32", str% "GDO_BUFLEN"], (inc r).lookup (newName u l x) = none) :
    ∃ E', after inc E (entriesText u l protos objs commonLines) = some E' ∧
      Gives E' u l (if (E (str% "_WIN32")).isSome then str% "GDO_BUFLEN (32*1024)" else str% "GDO_BUFLEN (8*1024)") := by
  have e : commonLines = (texts .commonHeader).take 112 ++ (((texts .commonHeader).drop 112).take 5 ++ ((texts .commonHeader).drop 117).take 288) := by
    have e : ∀ (a m n : Nat), ((texts .commonHeader).drop a).take (m + n) = ((texts .commonHeader).drop a).take m ++ ((texts .commonHeader).drop (a + m)).take n := fun a m n => by
      rw [List.take_add, List.drop_drop]
    unfold commonLines
    rw [show 405 = 112 + (5 + 288) from rfl, List.take_add, e]
  have hw : newName u l (str% "_WIN32") = str% "_WIN32" := newName_fixed (by decide)
  rw [e, entries_append, entries_append]
  obtain ⟨E1, h1, e1⟩ := after_lead (E := E) (b := entriesText u l protos objs (((texts .commonHeader).drop 112).take 5) ++ entriesText u l protos objs (((texts .commonHeader).drop 117).take 288))
    (rest_harmless (inc := inc) h.prefixes length_rest.1 protos objs (fun r y hy => by obtain ⟨x, hx, rfl⟩ := List.mem_map.mp hy; exact hi r x (by simp [List.mem_singleton.mp hx])))
  obtain ⟨E2, e2, g2, -⟩ := after_seg h.prefixes length_ok (fun D D' hD => by unfold lengthMacros; rw [hD _ (by simp)]) protos objs inc E1
    (entriesText u l protos objs (((texts .commonHeader).drop 117).take 288))
  obtain ⟨E3, h3, e3⟩ := after_lead (E := E2) (b := [])
    (rest_harmless (inc := inc) h.prefixes length_rest.2 protos objs (fun r y hy => by obtain ⟨x, hx, rfl⟩ := List.mem_map.mp hy; exact hi r x (by simp [List.mem_singleton.mp hx])))
  rw [List.append_nil, after_nil] at e3
  refine ⟨E3, e1.trans (e2.trans e3), ?_⟩
  have g := g2 _ (List.mem_singleton.mpr rfl)
  have hs : E1 (str% "_WIN32") = E (str% "_WIN32") := h1 _ (List.mem_map.mpr ⟨_, List.mem_singleton.mpr rfl, hw⟩)
  simp only [hw, hs] at g
  have : ∀ b : Bool, ∃ m, macroOf (if b then str% "GDO_BUFLEN (32*1024)" else str% "GDO_BUFLEN (8*1024)") = some (str% "GDO_BUFLEN", m) := by
    intro b
    cases b
    · exact ⟨_, by rfl⟩
    · exact ⟨_, by rfl⟩
  obtain ⟨m, hm⟩ := this (E (str% "_WIN32")).isSome
  exact g.name hm (h3 _ (List.mem_map.mpr ⟨_, by simp, rfl⟩))

/-- The macros of `c.h` in front of the declarations. -/
def declMacros (D : Str → Bool) : List Str :=
  if D (str% "GDO_STATIC") then [str% "GDO_DECL static inline", str% "GDO_OBJ_DECL static"] else [str% "GDO_DECL extern", str% "GDO_OBJ_DECL extern"]

def declNames : List Str := [str% "GDO_STATIC", str% "GDO_DECL", str% "GDO_OBJ_DECL", str% "_T", str% "_WIN32"]

theorem declNames_apart : apartNames declNames = true := by decide +kernel

theorem decl_ok : segOk (((texts .cHeader).drop 10).take 9) [str% "GDO_STATIC"] [str% "GDO_STATIC", str% "GDO_DECL", str% "GDO_OBJ_DECL"] declMacros = true := by decide +kernel

theorem decl_front (on : Bool) : walkEntries noNames noNames ⟨.code, [], []⟩ (lineEntry on .cHeader ++ (texts .cHeader).take 4) = some ⟨.code, [], []⟩ := by
  cases on <;> decide +kernel

theorem decl_rest : walkEntries noNames noNames ⟨.code, [], []⟩ (((texts .cHeader).drop 19).take 160) = some ⟨.code, [], []⟩ := by decide +kernel

theorem decl_text : restOk (((texts .cHeader).drop 4).take 6) [str% "GDO_STATIC", str% "_WIN32"] = true := by decide +kernel

def textLines : List (List T) :=
  [[⟨true, .punct (str% "#")⟩, ⟨false, .ident (str% "ifdef")⟩, ⟨true, .ident (str% "_WIN32")⟩],
   [⟨true, .punct (str% "#")⟩, ⟨true, .ident (str% "include")⟩, ⟨true, .punct (str% "<")⟩, ⟨false, .ident (str% "tchar")⟩, ⟨false, .punct (str% ".")⟩, ⟨false, .ident (str% "h")⟩, ⟨false, .punct (str% ">")⟩],
   [⟨true, .punct (str% "#")⟩, ⟨false, .ident (str% "else")⟩],
   [⟨true, .punct (str% "#")⟩, ⟨true, .ident (str% "undef")⟩, ⟨true, .ident (str% "_T")⟩],
   [⟨true, .punct (str% "#")⟩, ⟨true, .ident (str% "define")⟩, ⟨true, .ident (str% "_T")⟩, ⟨false, .punct (str% "(")⟩, ⟨false, .ident (str% "x")⟩, ⟨false, .punct (str% ")")⟩, ⟨true, .ident (str% "x")⟩],
   [⟨true, .punct (str% "#")⟩, ⟨false, .ident (str% "endif")⟩]]

theorem text_run : wl (((texts .cHeader).drop 4).take 6) = textLines := by decide +kernel

theorem textLines_same (u l : Str) : textLines.map (·.map (renT (newName u l))) = textLines := by rfl

theorem textLines_run (inc : List T → Table) : runLines inc (fun _ => false) ([], []) textLines = some ([(str% "_T", (macroOf (str% "_T(x) x")).map (·.2)), (str% "_T", none)], []) := by rfl

theorem text_ok (h : Prefixes u l) (hE : E (str% "_WIN32") = none) (protos objs : List Proto) (b : Str) :
    ∃ E1 : Str → Option Macro, after inc E (entriesText u l protos objs (((texts .cHeader).drop 4).take 6) ++ b) = after inc E1 b ∧ Gives E1 u l (str% "_T(x) x") ∧
      ∀ y, y ≠ str% "_T" → E1 y = E y := by
  have w : (wholeLines (((texts .cHeader).drop 4).take 6)).isSome = true ∧ plainText (((texts .cHeader).drop 4).take 6) = true := by decide +kernel
  have hc : runLines inc (fun x => (E x).isSome) ([], []) textLines = runLines inc (fun _ => false) ([], []) textLines :=
    runLines_congr (fun ln hl x hx => by
      have : ∀ ln ∈ textLines, ∀ x ∈ testedIn ln, x = str% "_WIN32" := by decide +kernel
      rw [this ln hl x hx, hE]
      rfl) _
  have hrun : run inc (fun x => (E x).isSome) ([], []) (entriesText u l protos objs (((texts .cHeader).drop 4).take 6) ++ b) =
      run inc (fun x => (E x).isSome) ([(str% "_T", (macroOf (str% "_T(x) x")).map (·.2)), (str% "_T", none)], []) b := by
    unfold entriesText
    rw [written_lines h protos objs w.2, run_template h (wl_whole w.1), text_run, textLines_same, hc, textLines_run]
    rfl
  refine ⟨_, after_table hrun, ⟨_, _, by rfl, by rfl⟩, fun y hy => ?_⟩
  unfold known
  rw [lookup_other]
  intro p hp
  rcases List.mem_cons.mp hp with rfl | hp
  · exact hy.symm
  · rw [List.mem_singleton.mp hp]
    exact hy.symm

theorem decl_split (on : Bool) : lineEntry on .cHeader ++ (texts .cHeader).take 179 = (lineEntry on .cHeader ++ (texts .cHeader).take 4) ++ (((texts .cHeader).drop 4).take 6 ++
    (((texts .cHeader).drop 10).take 9 ++ ((texts .cHeader).drop 19).take 160)) := by
  have e : ∀ (a m n : Nat), ((texts .cHeader).drop a).take (m + n) = ((texts .cHeader).drop a).take m ++ ((texts .cHeader).drop (a + m)).take n := fun a m n => by
    rw [List.take_add, List.drop_drop]
  rw [show 179 = 4 + (6 + (9 + 160)) from rfl, List.take_add, e, e, List.append_assoc]

/-- The macros of `c.h` behind its declarations; `_T` where `tchar.h` does not define it. -/
theorem C104_header (h : Plain u l protos objs) (hi : ∀ r, ∀ x ∈ declNames, (inc r).lookup (newName u l x) = none) (on : Bool) :
    ∃ E', after inc E (entriesText u l protos objs (leadEntries on)) = some E' ∧ (∀ line ∈ declMacros fun w => (E (newName u l w)).isSome, Gives E' u l line) ∧
      (E (str% "_WIN32") = none → Gives E' u l (str% "_T(x) x")) := by
  have hx : ∀ {X : List Str}, (∀ x ∈ X, x ∈ declNames) → ∀ r, ∀ y ∈ X.map (newName u l), (inc r).lookup y = none := fun hX r y hy => by
    obtain ⟨x, hx, rfl⟩ := List.mem_map.mp hy
    exact hi r x (hX x hx)
  have hne : ∀ {x y : Str}, x ∈ declNames → y ∈ declNames → x ≠ y → newName u l x ≠ newName u l y := fun h1 h2 h3 e => h3 (apart_inj declNames_apart _ h1 _ h2 e)
  have hw : newName u l (str% "_WIN32") = str% "_WIN32" := newName_fixed (by decide)
  have ht : newName u l (str% "_T") = str% "_T" := newName_fixed (by decide)
  have names : ∀ b : Bool, ∀ line ∈ (if b then [str% "GDO_DECL static inline", str% "GDO_OBJ_DECL static"] else [str% "GDO_DECL extern", str% "GDO_OBJ_DECL extern"]),
      ∃ n m, macroOf line = some (n, m) ∧ (n = str% "GDO_DECL" ∨ n = str% "GDO_OBJ_DECL") := by
    intro b line hl
    cases b
    · rcases List.mem_cons.mp hl with rfl | hl
      · exact ⟨_, _, by rfl, .inl rfl⟩
      · rw [List.mem_singleton.mp hl]
        exact ⟨_, _, by rfl, .inr rfl⟩
    · rcases List.mem_cons.mp hl with rfl | hl
      · exact ⟨_, _, by rfl, .inl rfl⟩
      · rw [List.mem_singleton.mp hl]
        exact ⟨_, _, by rfl, .inr rfl⟩
  unfold leadEntries
  rw [decl_split]
  simp only [entries_append]
  rw [← entries_append]
  obtain ⟨E1, h1, e1⟩ := after_lead (E := E) (b := entriesText u l protos objs (((texts .cHeader).drop 4).take 6) ++ (entriesText u l protos objs (((texts .cHeader).drop 10).take 9) ++
      entriesText u l protos objs (((texts .cHeader).drop 19).take 160)))
    (still h (X := [str% "GDO_STATIC", str% "_WIN32"].map (newName u l)) (hx (by decide)) (decl_front on))
  have s1 : ∀ x ∈ [str% "GDO_STATIC", str% "_WIN32"], E1 (newName u l x) = E (newName u l x) := fun x hx => h1 _ (List.mem_map.mpr ⟨x, hx, rfl⟩)
  have hE2 : ∃ E2 : Str → Option Macro, after inc E1 (entriesText u l protos objs (((texts .cHeader).drop 4).take 6) ++ (entriesText u l protos objs (((texts .cHeader).drop 10).take 9) ++
        entriesText u l protos objs (((texts .cHeader).drop 19).take 160))) = after inc E2 (entriesText u l protos objs (((texts .cHeader).drop 10).take 9) ++
        entriesText u l protos objs (((texts .cHeader).drop 19).take 160)) ∧
      E2 (newName u l (str% "GDO_STATIC")) = E1 (newName u l (str% "GDO_STATIC")) ∧ (E (str% "_WIN32") = none → Gives E2 u l (str% "_T(x) x")) := by
    cases hW : E (str% "_WIN32") with
    | none =>
      obtain ⟨E2, a1, a2, a3⟩ := text_ok (inc := inc) h.prefixes (E := E1) (by have := s1 (str% "_WIN32") (by simp); rw [hw] at this; rw [this, hW]) protos objs
        (entriesText u l protos objs (((texts .cHeader).drop 10).take 9) ++ entriesText u l protos objs (((texts .cHeader).drop 19).take 160))
      refine ⟨E2, a1, a3 _ ?_, fun _ => a2⟩
      have := hne (x := str% "GDO_STATIC") (y := str% "_T") (by decide) (by decide) (by decide)
      rwa [ht] at this
    | some m =>
      obtain ⟨E2, a1, a2⟩ := after_lead (E := E1) (b := entriesText u l protos objs (((texts .cHeader).drop 10).take 9) ++ entriesText u l protos objs (((texts .cHeader).drop 19).take 160))
        (rest_harmless (inc := inc) h.prefixes decl_text protos objs (hx (by decide)))
      exact ⟨E2, a2, a1 _ (List.mem_map.mpr ⟨_, by simp, rfl⟩), nofun⟩
  obtain ⟨E2, e2, s2, g2⟩ := hE2
  obtain ⟨E3, e3, g3, o3⟩ := after_seg h.prefixes decl_ok (fun D D' hD => by unfold declMacros; rw [hD _ (by simp)]) protos objs inc E2
    (entriesText u l protos objs (((texts .cHeader).drop 19).take 160))
  obtain ⟨E4, h4, e4⟩ := after_lead (E := E3) (b := [])
    (still h (X := [str% "GDO_DECL", str% "GDO_OBJ_DECL", str% "_T"].map (newName u l)) (hx (by decide)) decl_rest)
  rw [List.append_nil, after_nil] at e4
  refine ⟨E4, e1.trans (e2.trans (e3.trans e4)), fun line hl => ?_, fun hW => ?_⟩
  · have hl' : line ∈ declMacros fun w => (E2 (newName u l w)).isSome := by
      unfold declMacros at hl ⊢
      simp only [s2, s1 _ (List.mem_cons_self ..)]
      exact hl
    obtain ⟨n, m, hm, hn⟩ := names _ line hl'
    refine (g3 line hl').name hm (h4 _ (List.mem_map.mpr ⟨n, ?_, rfl⟩))
    rcases hn with rfl | rfl <;> simp
  · refine (g2 hW).name (n := str% "_T") (by rfl) ?_
    rw [h4 _ (List.mem_map.mpr ⟨_, by simp, rfl⟩), o3]
    intro line hl p hp
    obtain ⟨n, m, hm, hn⟩ := names _ line hl
    rw [hm] at hp
    cases hp
    rcases hn with rfl | rfl
    · exact hne (x := str% "GDO_DECL") (by decide) (by decide) (by decide)
    · exact hne (x := str% "GDO_OBJ_DECL") (by decide) (by decide) (by decide)

/-! ### Examples -/

theorem plain_all : Plain (str% "GDO") (str% "gdo") [aFunction] [anObject] :=
  ⟨named_all.prefixes, calm_all, fun p hp => ⟨named_all.functions p hp, named_all.plain p hp⟩⟩

/-- A system that defines nothing but the words `ws`, without values. -/
def onlyDefined (ws : List Str) (x : Str) : Option Macro := if ws.contains x then some emptyMacro else none

/-- Nothing defined: the file names are narrow, and the functions are visible. -/
example : ∃ E', after (fun _ => []) (onlyDefined []) (entriesText (str% "GDO") (str% "gdo") [aFunction] [anObject] (lineEntry true .cBody ++ (texts .cBody).take 90)) = some E' ∧
    ∀ line ∈ bodyMacros fun _ => false, Gives E' (str% "GDO") (str% "gdo") line :=
  C104_body plain_all (fun _ _ _ => rfl) true

example : (bodyMacros fun _ => false).length ≥ 5 := by decide

/-- On Windows the plug-in loads with other functions. -/
example : ∃ E', after (fun _ => []) (onlyDefined [str% "GDO_WINAPI"]) (entriesText (str% "GDO") (str% "gdo") [aFunction] [anObject] (lineEntry false .pluginBody ++ (texts .pluginBody).take 24)) =
      some E' ∧ ∀ line ∈ pluginMacros fun w => w == str% "GDO_WINAPI", Gives E' (str% "GDO") (str% "gdo") line := by
  obtain ⟨E', h1, h2⟩ := C104_plugin (E := onlyDefined [str% "GDO_WINAPI"]) (inc := fun _ => []) plain_all (fun _ _ _ => rfl) false
  refine ⟨E', h1, fun line hl => h2 line ?_⟩
  rw [pluginMacros_on _ (fun w => w == str% "GDO_WINAPI")]
  · exact hl
  · decide

/-- The minimal header on Windows with `dlopen()`. -/
example : ∃ E', after (fun _ => []) (onlyDefined [str% "_WIN32", str% "GDO_USE_DLOPEN"]) (entriesText (str% "GDO") (str% "gdo") [aFunction] [anObject] ((texts .minCHeader).take 91)) = some E' ∧
    Gives E' (str% "GDO") (str% "gdo") (str% "_GDO_LOAD_SYM(SYMBOL) dlsym(gdo_hndl.handle, SYMBOL)") := by
  obtain ⟨E', h1, h2, -⟩ := C104_minimal (E := onlyDefined [str% "_WIN32", str% "GDO_USE_DLOPEN"]) (inc := fun _ => []) plain_all (fun _ _ _ => rfl)
  exact ⟨E', h1, h2⟩

/-- Outside of Windows the buffers are shorter. -/
example : ∃ E', after (fun _ => []) (onlyDefined []) (entriesText (str% "GDO") (str% "gdo") [aFunction] [anObject] commonLines) = some E' ∧
    Gives E' (str% "GDO") (str% "gdo") (str% "GDO_BUFLEN (8*1024)") :=
  C104_length plain_all (fun _ _ _ => rfl)

/-- The declarations with `GDO_STATIC`. -/
example : ∃ E', after (fun _ => []) (onlyDefined [str% "GDO_STATIC"]) (entriesText (str% "GDO") (str% "gdo") [aFunction] [anObject] (leadEntries true)) = some E' ∧
    Gives E' (str% "GDO") (str% "gdo") (str% "GDO_DECL static inline") ∧ Gives E' (str% "GDO") (str% "gdo") (str% "_T(x) x") := by
  obtain ⟨E', h1, h2, h3⟩ := C104_header (E := onlyDefined [str% "GDO_STATIC"]) (inc := fun _ => []) plain_all (fun _ _ _ => rfl) true
  exact ⟨E', h1, h2 _ (List.mem_cons_self ..), h3 rfl⟩

/-- What such a line means: the name, and the tokens that it is replaced by. -/
example : (macroOf (str% "GDO_BUFLEN (8*1024)")).map (fun p => (p.1, p.2.body.map (·.tok))) =
    some (str% "GDO_BUFLEN", [.punct (str% "("), .num (str% "8"), .punct (str% "*"), .num (str% "1024"), .punct (str% ")")]) := by decide

end Gdo.Cpp
