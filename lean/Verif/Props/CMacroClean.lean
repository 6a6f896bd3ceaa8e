import Verif.Props.CMacroSingle
import Verif.Props.CMacroCxxWhole
import Verif.Props.CMacroMin

/-!
C110: which macros the generated files define or remove.  Behind the header, and behind the
body file, in every format, all names are as before, apart from those that begin with the
prefix, the names of symbols and the constants in `sharedNames`.
-/

set_option maxRecDepth 20000

namespace Gdo.Cpp.Clean
open Gdo Rename Tmpl Builtin Gdo.Sub Opt Tpl Gen Pfx Gdo.Cpp

variable {u l : Str} {E E' E1 E2 : Str → Option Macro} {inc : List T → Table} {D : Str → Bool} {protos objs : List Proto} {y : Str}

/-! ### The names -/

/-- The names without the prefix that the files define if nothing else has: the flags of the
other system, prototypes that some systems lack, and two macros of Windows headers. -/
def sharedNames : List Str :=
  [str% "DLADDR_PROTOTYPE", str% "DLINFO_PROTOTYPE", str% "DLMOPEN_PROTOTYPE", str% "RTLD_DI_LINKMAP", str% "LM_ID_NEWLM",
   str% "RTLD_LAZY", str% "RTLD_NOW", str% "RTLD_GLOBAL", str% "RTLD_LOCAL", str% "RTLD_BINDING_MASK", str% "RTLD_CONFGEN", str% "RTLD_DEEPBIND",
   str% "RTLD_FIRST", str% "RTLD_GROUP", str% "RTLD_MEMBER", str% "RTLD_MODEMASK", str% "RTLD_NOAUTODEFER", str% "RTLD_NODELETE", str% "RTLD_NOLOAD",
   str% "RTLD_PARENT", str% "RTLD_TRACE", str% "RTLD_WORLD", str% "DL_LAZY",
   str% "DONT_RESOLVE_DLL_REFERENCES", str% "LOAD_IGNORE_CODE_AUTHZ_LEVEL", str% "LOAD_LIBRARY_AS_DATAFILE", str% "LOAD_LIBRARY_AS_DATAFILE_EXCLUSIVE",
   str% "LOAD_LIBRARY_AS_IMAGE_RESOURCE", str% "LOAD_LIBRARY_SEARCH_APPLICATION_DIR", str% "LOAD_LIBRARY_SEARCH_DEFAULT_DIRS",
   str% "LOAD_LIBRARY_SEARCH_DLL_LOAD_DIR", str% "LOAD_LIBRARY_SEARCH_SYSTEM32", str% "LOAD_LIBRARY_SEARCH_USER_DIRS", str% "LOAD_WITH_ALTERED_SEARCH_PATH",
   str% "LOAD_LIBRARY_REQUIRE_SIGNED_TARGET", str% "LOAD_LIBRARY_SAFE_CURRENT_DIRS", str% "_T", str% "_countof"]

/-- A name that has nothing to do with the generated files. -/
structure Foreign (u : Str) (protos objs : List Proto) (y : Str) : Prop where
  upper : ¬ (u ++ str% "_") <+: y
  under : ¬ (str% "_" ++ u ++ str% "_") <+: y
  symbol : ∀ p ∈ protos ++ objs, p.symbol ≠ y

theorem Foreign.own (h : Foreign u protos objs y) (x : Str) : u ++ (str% "_" ++ x) ≠ y := fun e => h.upper ⟨x, by rw [List.append_assoc]; exact e⟩

theorem Foreign.own' (h : Foreign u protos objs y) (x : Str) : str% "_" ++ u ++ (str% "_" ++ x) ≠ y := fun e => h.under ⟨x, by rw [List.append_assoc]; exact e⟩

/-- The names of macros in the minimal templates. -/
def prefixed (n : Str) : Bool := (str% "GDO_").isPrefixOf n || (str% "_GDO_").isPrefixOf n

/-- The names of macros in the other templates. -/
def allowed (n : Str) : Bool := prefixed n || (fixedWord n && sharedNames.contains n)

theorem prefixed_other (h : Foreign u protos objs y) {n : Str} (hn : prefixed n = true) : newName u l n ≠ y := by
  unfold prefixed at hn
  rw [Bool.or_eq_true, List.isPrefixOf_iff_prefix, List.isPrefixOf_iff_prefix] at hn
  rcases hn with ⟨x, rfl⟩ | ⟨x, rfl⟩
  · rw [newName_upper]
    exact h.own x
  · rw [newName_under]
    exact h.own' x

theorem allowed_other (h : Foreign u protos objs y) (hs : y ∉ sharedNames) {n : Str} (hn : allowed n = true) : newName u l n ≠ y := by
  unfold allowed at hn
  rw [Bool.or_eq_true, Bool.and_eq_true] at hn
  rcases hn with hn | ⟨h1, h2⟩
  · exact prefixed_other h hn
  · rw [newName_fixed h1]
    rintro rfl
    exact hs (by simpa using h2)

theorem common_allowed : commonDefined.all allowed = true := by decide +kernel

theorem common_other (h : Foreign u protos objs y) (hs : y ∉ sharedNames) : y ∉ commonDefined.map (newName u l) := by
  intro hm
  obtain ⟨n, hn, e⟩ := List.mem_map.mp hm
  exact allowed_other h hs (List.all_eq_true.mp common_allowed n hn) e

theorem okPlain_allowed {n : Str} (h : okPlain n = true) : allowed n = true := by
  have h' : n ∈ ownNames ++ [str% "_T", str% "_countof", str% "_GDO_WRAP_CHECK_LOADED"] := by
    unfold okPlain at h
    simp only [Bool.or_eq_true, beq_iff_eq, List.contains_iff_mem] at h
    simp only [List.mem_append, List.mem_cons, List.not_mem_nil, or_false]
    rcases h with ((h | h) | h) | h <;> simp [h]
  exact List.all_eq_true.mp (show (ownNames ++ [str% "_T", str% "_countof", str% "_GDO_WRAP_CHECK_LOADED"]).all allowed = true from by decide +kernel) n h'

/-! ### Text that leaves a name alone -/

/-- Text of whole lines behind which `y` is what it was in front of it. -/
def Keeps (inc : List T → Table) (y : Str) (a : Str) : Prop := ∀ E : Str → Option Macro, ∃ E1 : Str → Option Macro, E1 y = E y ∧ ∀ b, after inc E (a ++ b) = after inc E1 b

theorem Keeps.append {a b : Str} (ha : Keeps inc y a) (hb : Keeps inc y b) : Keeps inc y (a ++ b) := fun E => by
  obtain ⟨E1, h1, e1⟩ := ha E
  obtain ⟨E2, h2, e2⟩ := hb E1
  exact ⟨E2, h2.trans h1, fun c => by rw [List.append_assoc, e1, e2]⟩

theorem keeps_quiet {a : Str} (h : Quiet a) : Keeps inc y a := fun E => ⟨E, rfl, fun b => h inc E b⟩

theorem keeps_harmless {a : Str} (h : Harmless inc [y] a) : Keeps inc y a := fun E => by
  rcases h with rfl | ⟨x, hw, h⟩
  · exact ⟨E, rfl, fun _ => rfl⟩
  · obtain ⟨t, h1, h2⟩ := h fun x => (E x).isSome
    refine ⟨known E t, ?_, fun b => after_table (by rw [run_whole hw, h1]; rfl)⟩
    unfold known
    rw [h2 y (List.mem_singleton_self y)]

theorem keeps_table {a : Str} (h : ∀ D : Str → Bool, ∃ t : Table, t.lookup y = none ∧ ∀ b, run inc D ([], []) (a ++ b) = run inc D (t, []) b) : Keeps inc y a := fun E => by
  obtain ⟨t, h1, h2⟩ := h fun x => (E x).isSome
  refine ⟨known E t, ?_, fun b => after_table (h2 b)⟩
  unfold known
  rw [h1]

theorem keeps_moves {a : Str} {X : List Str} (hy : y ∉ X) (hi : ∀ r, (inc r).lookup y = none) (h : ∀ E, ∃ E1, Moves inc X E a E1) : Keeps inc y a := fun E => by
  obtain ⟨E1, h1, h2⟩ := h E
  exact ⟨E1, h1 y hy hi, h2⟩

/-! ### The templates -/

/-- What must be known about the symbols. -/
structure Data (u l : Str) (protos objs : List Proto) : Prop extends Plain u l protos objs where
  objects : ∀ p ∈ objs, Identifier p.symbol

theorem Data.functions (h : Data u l protos objs) : ∀ p ∈ protos, Identifier p.symbol := fun p hp => (h.named p hp).1

theorem walked {okA okB : Str → Bool} (h : Data u l protos objs) (hi : ∀ r, (inc r).lookup y = none) (hA : ∀ n, okA n = true → newName u l n ≠ y)
    (hB : ∀ p ∈ protos, ∀ n, okB n = true → ren u l p.symbol n ≠ y) {ds : List Str} (hw : walkEntries okA okB ⟨.code, [], []⟩ ds = some ⟨.code, [], []⟩) :
    Keeps inc y (entriesText u l protos objs ds) :=
  keeps_harmless (walk_harmless (okA := okA) (okB := okB) ⟨h.prefixes, fun r x hx => by rw [List.mem_singleton.mp hx]; exact hi r, fun n hn hm => hA n hn (List.mem_singleton.mp hm)⟩
    h.calm h.named (fun p hp n hn hm => hB p hp n hn (List.mem_singleton.mp hm)) hw)

theorem raw_other (h : Foreign u protos objs y) {body : Proto → List T} : (defs (rawName u) body (protos ++ objs)).lookup y = none :=
  lookup_defs fun p _ e => h.own (str% "RAWPTR_" ++ p.symbol) (by rw [← e]; simp [rawName])

theorem symbols_other (h : Foreign u protos objs y) {body : Proto → List T} : (defs symbolOf body protos).lookup y = none ∧ (defs symbolOf body objs).lookup y = none :=
  ⟨lookup_defs fun p hp => h.symbol p (List.mem_append_left _ hp), lookup_defs fun p hp => h.symbol p (List.mem_append_right _ hp)⟩

theorem if_other {t : Table} (c : Bool) (h : t.lookup y = none) : (if c then t else []).lookup y = none := by
  cases c
  · rfl
  · exact h

theorem cons_other {t : Table} {x : Str} {m : Option Macro} (hx : x ≠ y) (h : t.lookup y = none) : List.lookup y ((x, m) :: t) = none := by
  rw [List.lookup_cons]
  have : (y == x) = false := by simpa using fun e => hx e.symm
  rw [this]
  exact h

theorem keeps_raw (h : Data u l protos objs) (hy : Foreign u protos objs y) : Keeps inc y (pointerPart u l protos objs) :=
  keeps_table fun D => ⟨_, raw_other hy, fun b => by
    have := run_raw h.prefixes h.functions h.objects inc D [] b
    rw [List.append_nil] at this
    exact this⟩

theorem keeps_header (h : Data u l protos objs) (hy : Foreign u protos objs y) : Keeps inc y (headerPart u l protos objs) :=
  keeps_table fun D => ⟨headerTable u (isDefined D []) (newName u l) protos objs,
    lookup_none_append (if_other _ (symbols_other hy).2) (lookup_none_append (if_other _ (symbols_other hy).1) (cons_other (prefixed_other hy (by decide)) rfl)), fun b => by
    have := run_header h.prefixes h.functions h.objects inc D [] b
    rw [List.append_nil] at this
    exact this⟩

theorem keeps_body (h : Data u l protos objs) (hy : Foreign u protos objs y) : Keeps inc y (bodyPart u l protos objs) :=
  keeps_table fun D => ⟨bodyTable u (isDefined D []) (newName u l) protos objs,
    cons_other (prefixed_other hy (by decide)) (cons_other (prefixed_other hy (by decide)) (lookup_none_append (if_other _ (symbols_other hy).2) (if_other _ (symbols_other hy).1))), fun b => by
    have := run_body h.prefixes h.functions h.objects inc D [] b
    rw [List.append_nil] at this
    exact this⟩

theorem keeps_rawCxx (h : Data u l protos objs) (hy : Foreign u protos objs y) : Keeps inc y (Cxx.pointerPart u l protos objs) :=
  keeps_table fun D => ⟨_, raw_other hy, fun b => by
    have := Cxx.run_raw h.prefixes h.functions h.objects inc D [] b
    rw [List.append_nil] at this
    exact this⟩

theorem keeps_bodyCxx (h : Data u l protos objs) (hy : Foreign u protos objs y) : Keeps inc y (Cxx.bodyPart u l protos objs) :=
  keeps_table fun D => ⟨Cxx.bodyTable u (isDefined D []) (newName u l) protos objs,
    cons_other (prefixed_other hy (by decide)) (lookup_none_append (if_other _ (symbols_other hy).2) (if_other _ (symbols_other hy).1)), fun b => by
    have := Cxx.run_body h.prefixes h.functions h.objects inc D [] b
    rw [List.append_nil] at this
    exact this⟩

theorem hook_other (hy : Foreign u protos objs y) (x s : Str) : ren u l s (str% "GDO_" ++ x ++ symbolWord) ≠ y := by
  rw [ren_word _ (List.isPrefixOf_iff_prefix.mpr ⟨x, rfl⟩), newName_upper, List.append_assoc, List.append_assoc]
  exact hy.own _

theorem entriesC (h : Data u l protos objs) (hy : Foreign u protos objs y) (hs : y ∉ sharedNames) (hi : ∀ r, (inc r).lookup y = none) {ds : List Str}
    (hw : walkEntries okPlain okNamed ⟨.code, [], []⟩ ds = some ⟨.code, [], []⟩) : Keeps inc y (entriesText u l protos objs ds) :=
  walked h hi (fun _ hn => allowed_other hy hs (okPlain_allowed hn)) (fun p _ n hn => by
    unfold okNamed at hn
    rw [Bool.or_eq_true, beq_iff_eq, beq_iff_eq] at hn
    rcases hn with rfl | rfl
    · exact hook_other hy (str% "HOOK_") p.symbol
    · exact hook_other hy (str% "WRAP_") p.symbol) hw

theorem entriesCxx (h : Data u l protos objs) (hy : Foreign u protos objs y) (hs : y ∉ sharedNames) (hi : ∀ r, (inc r).lookup y = none) {ds : List Str}
    (hw : walkEntries okPlain Cxx.okNamed ⟨.code, [], []⟩ ds = some ⟨.code, [], []⟩) : Keeps inc y (entriesText u l protos objs ds) :=
  walked h hi (fun _ hn => allowed_other hy hs (okPlain_allowed hn)) (fun p _ n hn => by
    unfold Cxx.okNamed at hn
    rw [beq_iff_eq] at hn
    subst hn
    exact hook_other hy (str% "HOOK_") p.symbol) hw

/-- The templates of the plugin format. -/
theorem plugin_marker : (texts .pluginHeader).all (fun d => markerLine d == none) = true ∧ (texts .pluginBody).all (fun d => markerLine d == none) = true := by
  constructor <;> decide +kernel

theorem pluginHeader_walk (on : Bool) : walkEntries prefixed noNames ⟨.code, [], []⟩ (lineEntry on .pluginHeader ++ texts .pluginHeader) = some ⟨.code, [], []⟩ := by
  cases on <;> decide +kernel

theorem pluginBody_walk (on : Bool) : walkEntries prefixed noNames ⟨.code, [], []⟩ (lineEntry on .pluginBody ++ texts .pluginBody) = some ⟨.code, [], []⟩ := by
  cases on <;> decide +kernel

theorem plain_text (s : Settings) (protos objs : List Proto) {t : Gen.TName} (h : (texts t).all (fun d => markerLine d == none) = true) :
    templateText s protos objs t = entriesText (toUpper s.pfx) (toLower s.pfx) protos objs (lineEntry s.lineDirective t ++ texts t) := by
  have e := shown_plain s.names (ds := texts t) (r := []) fun d hd => eq_of_beq (List.all_eq_true.mp h d hd)
  rw [List.append_nil, show shown s.names none [] = [] from rfl, List.append_nil] at e
  unfold templateText instantiate
  rw [show (blocks (lines t)).map joinLines = texts t from rfl, e]
  unfold entriesText
  rw [List.flatMap_append, lineEntry_written]
  rfl

theorem keeps_plain {s : Settings} {t : Gen.TName} (h : Data (toUpper s.pfx) (toLower s.pfx) protos objs) (hy : Foreign (toUpper s.pfx) protos objs y)
    (hi : ∀ r, (inc r).lookup y = none) (h1 : (texts t).all (fun d => markerLine d == none) = true)
    (h2 : walkEntries prefixed noNames ⟨.code, [], []⟩ (lineEntry s.lineDirective t ++ texts t) = some ⟨.code, [], []⟩) : Keeps inc y (templateText s protos objs t) := by
  rw [plain_text s protos objs h1]
  exact walked (okB := noNames) h hi (fun _ hn => prefixed_other hy hn) (fun _ _ _ hn => nomatch hn) h2

theorem minPlain {n : Str} (h : Min.okPlain n = true) : prefixed n = true := by
  have h' : n ∈ [str% "GDO_WINAPI", str% "GDO_LINKAGE", str% "_GDO_LOAD_SYM"] := by simpa [Min.okPlain] using h
  clear h
  revert n
  decide

/-- `minimal.h` and `minimal_cxxeh.hpp`. -/
theorem C110_minimal (cxx : Bool) (s : Settings) (h : Data (toUpper s.pfx) (toLower s.pfx) protos objs) (hy : Foreign (toUpper s.pfx) protos objs y)
    (hi : ∀ r, (inc r).lookup y = none) : Keeps inc y (templateText s protos objs (Min.template cxx)) := by
  rw [Min.min_text]
  refine (walked (okB := fun _ => false) h hi (fun _ hn => prefixed_other hy (minPlain hn)) (fun _ _ _ hn => nomatch hn) (Min.lead_walk cxx s.lineDirective)).append (keeps_table fun D => ?_)
  refine ⟨Min.endTable cxx (toUpper s.pfx) (toLower s.pfx) (!isDefined D [] (newName (toUpper s.pfx) (toLower s.pfx) (str% "GDO_DISABLE_ALIASING"))) protos objs, ?_, fun b => ?_⟩
  · unfold Min.endTable
    exact if_other _ (lookup_none_append (symbols_other hy).2 (symbols_other hy).1)
  · have := Min.run_end h.prefixes cxx h.functions h.objects inc D [] b
    rw [List.append_nil] at this
    exact this

/-- The templates of the other formats, apart from `common.h`. -/
theorem C110_template (s : Settings) (h : Data (toUpper s.pfx) (toLower s.pfx) protos objs) (hy : Foreign (toUpper s.pfx) protos objs y) (hs : y ∉ sharedNames)
    (hi : ∀ r, (inc r).lookup y = none) {t : Gen.TName} (ht : t ∈ [Gen.TName.commonBody, .cHeader, .cBody, .cxxHeader, .cxxBody, .pluginHeader, .pluginBody]) :
    Keeps inc y (templateText s protos objs t) := by
  simp only [List.mem_cons, List.not_mem_nil, or_false] at ht
  rcases ht with rfl | rfl | rfl | rfl | rfl | rfl | rfl
  · rw [shared_text]
    exact entriesC h hy hs hi (common_walk _)
  · rw [header_text]
    exact (entriesC h hy hs hi (lead_walk _)).append ((keeps_raw h hy).append ((entriesC h hy hs hi (mid_walk _)).append (keeps_header h hy)))
  · rw [own_text]
    exact (entriesC h hy hs hi (own_walk _ _)).append (keeps_body h hy)
  · rw [Cxx.header_text, Cxx.headerPart_eq]
    exact (entriesCxx h hy hs hi (Cxx.lead_walk _)).append ((keeps_rawCxx h hy).append ((entriesCxx h hy hs hi (Cxx.mid_walk _)).append (keeps_header h hy)))
  · rw [Cxx.own_text]
    exact (entriesCxx h hy hs hi (Cxx.own_walk _ _)).append (keeps_bodyCxx h hy)
  · exact keeps_plain h hy hi plugin_marker.1 (pluginHeader_walk _)
  · exact keeps_plain h hy hi plugin_marker.2 (pluginBody_walk _)

/-! ### The files -/

/-- The templates of a file, in the order in which they are written. -/
def filesText (s : Settings) (protos objs : List Proto) (ts : List Gen.TName) : Str := (ts.map (templateText s protos objs)).flatten

theorem C110_templates (s : Settings) (h : Data (toUpper s.pfx) (toLower s.pfx) protos objs) (hy : Foreign (toUpper s.pfx) protos objs y) (hs : y ∉ sharedNames)
    (hi : ∀ r, (inc r).lookup y = none) {ts : List Gen.TName} (ht : ∀ t ∈ ts, t ∈ [Gen.TName.commonBody, .cHeader, .cBody, .cxxHeader, .cxxBody, .pluginHeader, .pluginBody]) :
    Keeps inc y (filesText s protos objs ts) := by
  induction ts with
  | nil => exact fun E => ⟨E, rfl, fun _ => rfl⟩
  | cons t ts ih => exact (C110_template s h hy hs hi (ht t (by simp))).append (ih fun x hx => ht x (by simp [hx]))

theorem quoted_line {name : Str} (h : LiteralText name) : IncludeLine (str% "\"" ++ name ++ str% "\"") := by
  refine ⟨[⟨true, .str [] name⟩], ⟨?_, str% "#include \"" ++ name ++ str% "\"", by simp⟩, by simp⟩
  have e : str% "#include " ++ (str% "\"" ++ name ++ str% "\"") ++ str% "\n" = str% "#include" ++ ' ' :: (str% "\"" ++ name ++ '"' :: ['\n']) := by simp
  rw [e, pieces_sep _ (by decide), lex_append]
  show (some _).bind _ = _
  rw [Option.bind_some]
  show ((lex (.word false (str% "include")) (.other ' ' :: pieces _))).map _ = _
  rw [lex]
  show ((lex (.gap true) (pieces _)).map _).map _ = _
  rw [lex_literal h]
  rfl

/-- The lines that include the header in the body file. -/
theorem keeps_include {s : Settings} (hp : PrefixOk s.pfx) (hn : LiteralText (headerName s)) (hy : Foreign (toUpper s.pfx) protos objs y) (hi : ∀ r, (inc r).lookup y = none) :
    Keeps inc y (includeHeader (headerName s) (toUpper s.pfx)) := by
  have e : includeHeader (headerName s) (toUpper s.pfx) = ['\n'] ++ ((str% "#define " ++ (toUpper s.pfx ++ str% "_INCLUDED_IN_BODY") ++ ['\n']) ++
      ((str% "#include " ++ (str% "\"" ++ headerName s ++ str% "\"") ++ str% "\n") ++ ['\n'])) := by
    simp [includeHeader]
  rw [e]
  refine (keeps_moves (X := []) (by simp) hi fun E => ⟨E, moves_blank E⟩).append
    ((keeps_moves (X := [toUpper s.pfx ++ str% "_INCLUDED_IN_BODY"]) (fun hm => hy.own (str% "INCLUDED_IN_BODY") (List.mem_singleton.mp hm).symm) hi fun E =>
      ⟨_, moves_flag (prefix_word (prefixes_of hp) (s := str% "_INCLUDED_IN_BODY") (by decide)) E⟩).append
    ((keeps_moves (X := []) (by simp) hi fun E => moves_include (quoted_line hn) E).append (keeps_moves (X := []) (by simp) hi fun E => ⟨E, moves_blank E⟩)))

theorem body_templates {s : Settings} (hm : Format.isMinimal s.format = false) :
    (pairOf s.format).1 ∈ [Gen.TName.commonBody, .cHeader, .cBody, .cxxHeader, .cxxBody, .pluginHeader, .pluginBody] ∧
    (pairOf s.format).2 ∈ [Gen.TName.commonBody, .cHeader, .cBody, .cxxHeader, .cxxBody, .pluginHeader, .pluginBody] := by
  revert hm
  cases s.format <;> decide

/-- The body file of separate output: it is accepted, and `y` is what it was in front of it. -/
theorem C110_body {env : Gen.Env} {s : Settings} (h : Leads env s) (hsep : isSeparate s = true) (hD : Data (toUpper s.pfx) (toLower s.pfx) protos objs)
    (hy : Foreign (toUpper s.pfx) protos objs y) (hs : y ∉ sharedNames) (hi : ∀ r, (inc r).lookup y = none) (E : Str → Option Macro) :
    ∃ E', after inc E (bodyText env s (filesText s protos objs (listNames s).2)) = some E' ∧ E' y = E y := by
  have hm : Format.isMinimal s.format = false := by
    unfold isSeparate at hsep
    simp only [Bool.and_eq_true, Bool.not_eq_true'] at hsep
    exact hsep.2
  have k1 : Keeps inc y (noteText s.printDate env.date ++ savedText s (env.builtin .license)) := keeps_quiet (quiet_calm ((note_calm _ h.date).append (license_calm s h.pfx h.license)))
  have k2 : Keeps inc y (filesText s protos objs (listNames s).2) := by
    refine C110_templates s hD hy hs hi fun t ht => ?_
    rw [separate_body hsep] at ht
    simp only [List.mem_cons, List.not_mem_nil, or_false] at ht
    rcases ht with rfl | rfl
    · simp
    · exact (body_templates hm).2
  obtain ⟨E', h1, h2⟩ := (k1.append ((keeps_include h.pfx h.name hy hi).append k2)) E
  refine ⟨E', ?_, h1⟩
  have := h2 []
  rw [List.append_nil, after_nil] at this
  rw [← this]
  unfold bodyText
  simp only [List.append_assoc]

/-- The text in front of the templates. -/
theorem tool_other {s : Settings} (hy : Foreign (toUpper s.pfx) protos objs y) (ps : List Proto) : y ∉ toolNames s ps := by
  intro hm
  obtain ⟨w, e, _⟩ := tool_mem hm
  exact hy.own w e.symm

/-- The header around the templates. -/
theorem header_around {env : Gen.Env} {s : Settings} (h : Leads env s) (hg : E (guardName (headerName s) (toUpper s.pfx)) = none) {defines body : Str} {k : Nat}
    (hf : after inc (opened s E) (frontText env s defines) = some E1) (hb : ∀ b, after inc E1 (body ++ b) = after inc E2 b) :
    after inc E (headerText env s defines body k) = some E2 := by
  obtain ⟨xf, wf⟩ := front_more hf
  have inside : after inc (opened s E) (insideText env s defines body k) = some E2 := by
    rw [inside_text, quiet_openingOf, after_more wf hf, hb, quiet_line _ _ h.name, ← List.append_nil (closingOf s), quiet_closingOf, after_nil]
  unfold opened at inside
  cases hpo : s.pragmaOnce with
  | true =>
    rw [if_pos hpo] at inside
    rw [C105_pragma hpo h.pfx h.license h.date h.name, inside]
  | false =>
    rw [if_neg (by simp [hpo])] at inside
    exact C105_header_first ⟨hpo, h.pfx, h.license, h.date, h.name⟩ _ _ k hg inside

/-- The header, or the single file, in every format: unless the configuration is refused it is
accepted, and `y` is what it is behind the user's definitions. -/
theorem C110_header {env : Gen.Env} {s : Settings} (h : Leads env s) (hF : FrontGiven env s) (hinc : Aside s inc)
    (hg : E (guardName (headerName s) (toUpper s.pfx)) = none) {EU : Str → Option Macro}
    (hU : after inc (opened s E) (savedText s (env.builtin .filenameMacros) ++ s.defines) = some EU)
    (hD : Data (toUpper s.pfx) (toLower s.pfx) env.symbols.protos env.symbols.objs) (hy : Foreign (toUpper s.pfx) env.symbols.protos env.symbols.objs y)
    (hs : Format.isMinimal s.format = false → y ∉ sharedNames) (hi : ∀ r, (inc r).lookup y = none) (k : Nat) :
    if !Format.isMinimal s.format && refused s.names (configured s EU) (toUpper s.pfx) then
      after inc E (headerText env s (allDefines env s) (filesText s env.symbols.protos env.symbols.objs (listNames s).1) k) = none
    else ∃ E', after inc E (headerText env s (allDefines env s) (filesText s env.symbols.protos env.symbols.objs (listNames s).1) k) = some E' ∧ E' y = EU y := by
  have hc : ∀ r, ∀ x ∈ checkedNames (toUpper s.pfx), (inc r).lookup x = none := fun r x hx => hinc r x (List.mem_append_left _ hx)
  obtain ⟨E1, f1, f2, _, f4⟩ := C107_front hF hU fun r x hx => hinc r x (List.mem_append_right _ hx)
  have hcong := refused_congr (names := s.names) (configured_front h.pfx hc f2 f4)
  have hE1 : E1 y = EU y := f2 y (tool_other hy _) hi
  cases hm : Format.isMinimal s.format with
  | true =>
    rw [if_neg (by simp)]
    obtain ⟨cxx, hx⟩ : ∃ cxx, (listNames s).1 = [Min.template cxx] := by
      unfold listNames
      rw [hm]
      revert hm
      cases s.format with
      | minimal => exact fun _ => ⟨false, rfl⟩
      | minimalCxx => exact fun _ => ⟨true, rfl⟩
      | _ => exact fun h => nomatch h
    obtain ⟨E2, e1, e2⟩ := C110_minimal (inc := inc) cxx s hD hy hi E1
    refine ⟨E2, header_around h hg f1 (fun b => ?_), e1.trans hE1⟩
    rw [hx, ← e2]
    simp [filesText]
  | false =>
    obtain ⟨ts, hx, ht⟩ : ∃ ts, (listNames s).1 = .commonHeader :: ts ∧
        ∀ t ∈ ts, t ∈ [Gen.TName.commonBody, .cHeader, .cBody, .cxxHeader, .cxxBody, .pluginHeader, .pluginBody] := by
      obtain ⟨b1, b2⟩ := body_templates hm
      unfold listNames
      simp only [hm, Bool.false_eq_true, reduceIte]
      split
      · exact ⟨_, rfl, fun t ht => by rw [List.mem_singleton.mp ht]; exact b1⟩
      · refine ⟨_, rfl, fun t ht => ?_⟩
        simp only [List.mem_cons, List.not_mem_nil, or_false] at ht
        rcases ht with rfl | rfl | rfl
        · simp
        · exact b1
        · exact b2
    have hx' : filesText s env.symbols.protos env.symbols.objs (listNames s).1 = templateText s env.symbols.protos env.symbols.objs .commonHeader ++
        filesText s env.symbols.protos env.symbols.objs ts := by
      rw [hx]
      simp [filesText]
    rw [hx']
    cases hr : refused s.names (configured s EU) (toUpper s.pfx) with
    | true => exact C107_refused h hF hinc hg hU hr _ k
    | false =>
      rw [if_neg (by simp)]
      obtain ⟨E2, a1, _, _, a4⟩ := C106_accepted s h.pfx hc env.symbols.protos env.symbols.objs (hcong.1.trans hr)
      obtain ⟨E3, e1, e2⟩ := C110_templates (inc := inc) s hD hy (hs hm) hi ht E2
      refine ⟨E3, header_around h hg f1 (fun b => by rw [List.append_assoc, a1, e2]), ?_⟩
      rw [e1, a4 y (common_other hy (hs hm)) hi, hE1]

/-- Without definitions of the user: nothing is changed by reading the header. -/
theorem C110_untouched {env : Gen.Env} {s : Settings} (h : Leads env s) (hF : FrontGiven env s) (hinc : Aside s inc) (hd : s.defines = [])
    (hg : E (guardName (headerName s) (toUpper s.pfx)) = none)
    (hD : Data (toUpper s.pfx) (toLower s.pfx) env.symbols.protos env.symbols.objs) (hy : Foreign (toUpper s.pfx) env.symbols.protos env.symbols.objs y)
    (hs : Format.isMinimal s.format = false → y ∉ sharedNames) (hi : ∀ r, (inc r).lookup y = none) (k : Nat)
    (hE : after inc E (headerText env s (allDefines env s) (filesText s env.symbols.protos env.symbols.objs (listNames s).1) k) = some E') : E' y = E y := by
  have m := moves_file (inc := inc) s h.pfx hF.file (opened s E)
  have hU := m.2 s.defines
  rw [show after inc (known (opened s E) _) s.defines = some (known (opened s E) _) from by rw [hd]; exact after_nil inc _] at hU
  have key := C110_header h hF hinc hg hU hD hy hs hi k
  split at key
  · rw [hE] at key
    cases key
  · obtain ⟨E2, e1, e2⟩ := key
    rw [hE] at e1
    cases e1
    rw [e2, m.1 y ?_ hi]
    · unfold opened
      split
      · rfl
      · unfold withEmpty
        rw [if_neg]
        intro e
        exact hy.own' (toUpper (headerName s) ++ str% "_") (by rw [e]; simp [guardName])
    · intro hm
      obtain ⟨n, hn, e⟩ := List.mem_map.mp hm
      exact prefixed_other hy (List.all_eq_true.mp (show fileNames.all prefixed = true from by decide) n hn) e

theorem files_all {s : Settings} (hl : s.lineDirective = false) (sy : Symbols) (ts : List Gen.TName) : allText s sy ts = filesText s sy.protos sy.objs ts := by
  unfold allText filesText
  induction ts with
  | nil => rfl
  | cons t ts ih =>
    rw [List.flatMap_cons, unlines_append, ih, List.map_cons, List.flatten_cons]
    unfold templateText
    rw [hl]
    rfl

/-- A successful run for symbols of a text file, in every format: the header that was written
is refused or leaves `y` as it is behind the user's definitions, and the body file leaves it
alone. -/
theorem C110_program (w : Program.World) (win : Bool) (argv : List Str) (node : Nat → Option Node) (s : Settings) (ws : List Str)
    (hparse : parseCmdline win argv = some (some (.settings s ws))) (hb : ∀ t, compiledList t = some (w.env.builtin t))
    (s' : Settings) (sy : Symbols) (htok : Program.tokenize w s = some (.ok (s', sy))) (hft : Props.FromText sy)
    (hne : sy.protos ++ sy.objs ≠ []) (hps : s.printSymbols = false) (hct : s.customTemplate = []) (htp : s.templatesPath = [])
    (hp : PrefixOk s'.pfx) (hl : s'.lineDirective = false)
    (hdate : ∀ c ∈ w.env.date, c ≠ '\\' ∧ c ≠ '\n') (hname : LiteralText (headerName s')) (hinc : ∀ e ∈ s'.includes, IncludeLine e)
    (hlib : s'.defaultLib = [] ∨ ∃ sys f t, Opens sys s'.defaultLib f t) (hdef : s'.defines = [] ∨ ∃ x, Whole s'.defines x)
    (hn : ∀ p ∈ sy.protos, Named p.symbol) (ho : ∀ p ∈ sy.objs, Identifier p.symbol) :
    ∃ N, ∀ n, N ≤ n → ∀ m st', Program.main { w with env := { w.env with n } } win argv node = .exit 0 m st' →
      ∃ text st1, Written w.env (outputPaths s').1 (Program.start node) text st1 ∧
        (∀ inc E EU, Aside s' inc → E (guardName (headerName s') (toUpper s'.pfx)) = none →
          after inc (opened s' E) (savedText s' (w.env.builtin .filenameMacros) ++ s'.defines) = some EU →
          ∀ y, Foreign (toUpper s'.pfx) sy.protos sy.objs y → (Format.isMinimal s'.format = false → y ∉ sharedNames) → (∀ r, (inc r).lookup y = none) →
            if !Format.isMinimal s'.format && refused s'.names (configured s' EU) (toUpper s'.pfx) then after inc E text = none
            else ∃ E', after inc E text = some E' ∧ E' y = EU y) ∧
        if isSeparate s' then ∃ body, Written w.env (outputPaths s').2 st1 body st' ∧
          ∀ inc E y, Foreign (toUpper s'.pfx) sy.protos sy.objs y → y ∉ sharedNames → (∀ r, (inc r).lookup y = none) → ∃ E', after inc E body = some E' ∧ E' y = E y
        else st1 = st' := by
  obtain ⟨N, h⟩ := C94_program w win argv node s ws hparse hb s' sy htok hft hne hps hct htp hp hl
  refine ⟨N, fun n hn' m st' hm => ?_⟩
  have h := h n hn' m st' hm
  dsimp only at h
  have hL : Leads { w.env with symbols := sy } s' := ⟨hp, hb .license, hdate, hname⟩
  have hF : FrontGiven { w.env with symbols := sy } s' := by
    refine ⟨hp, hb .filenameMacros, CForm.text_word hft, hinc, fun t ht c hc => ?_, hlib, hdef⟩
    have hs := (Props.C84_characters_partial sy hft).2 t ht
    refine ⟨?_, ?_, ?_, ?_, ?_, ?_⟩ <;> rintro rfl <;> exact Props.harmless_not hs (by decide) (by decide) hc
  have hD : Data (toUpper s'.pfx) (toLower s'.pfx) sy.protos sy.objs := ⟨⟨prefixes_of hp, C102_text sy hft, hn⟩, ho⟩
  have head := fun (inc : List T → Table) (E EU : Str → Option Macro) (hA : Aside s' inc) (hg : E (guardName (headerName s') (toUpper s'.pfx)) = none)
      (hU : after inc (opened s' E) (savedText s' (w.env.builtin .filenameMacros) ++ s'.defines) = some EU) (y : Str) hy hs hi =>
    C110_header (env := { w.env with symbols := sy }) (y := y) hL hF hA hg hU hD hy hs hi 0
  rw [files_all hl] at h
  split at h
  next hsep =>
    obtain ⟨st1, hw1, hw2⟩ := h
    rw [files_all hl] at hw2
    refine ⟨_, st1, hw1, head, ?_⟩
    rw [if_pos hsep]
    exact ⟨_, hw2, fun inc E y hy hs hi => C110_body hL hsep hD hy hs hi E⟩
  next hsep =>
    refine ⟨_, st', h, head, ?_⟩
    rw [if_neg hsep]

/-- The flags of the other system are defined, although nothing asks for them: `common.h` in a
program that does not use the Windows API defines `LOAD_LIBRARY_SEARCH_SYSTEM32` and the like,
so the exception for `sharedNames` is needed. -/
theorem C110_flags : (after (fun _ => []) (fun _ => none) (templateText lone [] [] .commonHeader)).map
    (fun E' => ((E' (str% "LOAD_LIBRARY_SEARCH_SYSTEM32")).isSome, (E' (str% "RTLD_DEEPBIND")).isSome)) = some (true, true) := by
  decide +kernel

/-! ### Examples -/

theorem data_example : Data (str% "GDO") (str% "gdo") [aFunction] [anObject] :=
  ⟨⟨Gdo.Cpp.named.prefixes, calm_all, fun p hp => ⟨Gdo.Cpp.named.functions p hp, named_all.plain p hp⟩⟩, Gdo.Cpp.named.objects⟩

theorem foreign_example : Foreign (str% "GDO") [aFunction] [anObject] (str% "NDEBUG") := ⟨by decide, by decide, by decide⟩

/-- A plugin in a single file, without and with separate output. -/
def plugin (b : Bool) : Settings := { lone with format := .plugin, separate := b, output := str% "out.c", defines := [] }

example : isSeparate (plugin true) = true ∧ isSeparate (plugin false) = false := by decide

theorem leads_plugin (b : Bool) : Leads fullEnv (plugin b) :=
  ⟨prefix_example, compiledList_eq .license (ok_all .license), by decide, by cases b <;> unfold LiteralText <;> decide⟩

theorem front_plugin (b : Bool) : FrontGiven fullEnv (plugin b) :=
  ⟨prefix_example, compiledList_eq .filenameMacros (ok_all .filenameMacros), by decide, front_separated.includes, front_separated.typedefs, front_separated.library, .inl rfl⟩

/-- `NDEBUG`, defined before as a macro with an empty text, is that behind the file too. -/
example (b : Bool) : ∃ E', after (fun _ => []) (withEmpty (fun _ => none) (str% "NDEBUG")) (headerText fullEnv (plugin b) (allDefines fullEnv (plugin b))
      (filesText (plugin b) [aFunction] [anObject] (listNames (plugin b)).1) 1) = some E' ∧ E' (str% "NDEBUG") = some emptyMacro := by
  have m := moves_file (inc := fun _ => []) (plugin b) prefix_example (front_plugin b).file (opened (plugin b) (withEmpty (fun _ => none) (str% "NDEBUG")))
  have hU := m.2 (plugin b).defines
  rw [show (plugin b).defines = [] from rfl, after_nil] at hU
  have key := C110_header (E := withEmpty (fun _ => none) (str% "NDEBUG")) (inc := fun _ => []) (leads_plugin b) (front_plugin b) (fun _ _ _ => rfl)
    (by cases b <;> decide) hU data_example foreign_example (fun _ => by decide) (fun _ => rfl) 1
  rw [if_neg (by cases b <;> decide +kernel)] at key
  obtain ⟨E', e1, e2⟩ := key
  exact ⟨E', e1, e2.trans (by cases b <;> decide +kernel)⟩

example (E : Str → Option Macro) : ∃ E', after (fun _ => []) E (bodyText fullEnv (plugin true) (filesText (plugin true) [aFunction] [anObject] (listNames (plugin true)).2)) = some E' ∧
    E' (str% "NDEBUG") = E (str% "NDEBUG") :=
  C110_body (leads_plugin true) (by decide) data_example foreign_example (by decide) (fun _ => rfl) E

end Gdo.Cpp.Clean
