import Verif.Lemmas.CMacroWalk
import Verif.Props.CMacroAlias
import Verif.Props.CForm
import Verif.Props.TextData

/-!
C102: the macros for the names of the symbols, with all the text of the templates.
-/

set_option maxRecDepth 20000

namespace Gdo.Cpp
open Gdo Rename Tmpl Builtin Sub Opt Tpl Gen Pfx

/-! ### The texts -/

/-- What is generated from a template. -/
def templateText (s : Settings) (protos objs : List Proto) (t : TName) : Str :=
  unlines ((if s.lineDirective then [Builtin.lineText t] else []) ++ instantiate (toUpper s.pfx) (toLower s.pfx) s.names protos objs (lines t))

/-- The `#line` directive in front of a template. -/
def lineEntry (on : Bool) (t : TName) : List Str := if on then [Builtin.lineText t] else []

theorem lineEntry_written (u l : Str) (on : Bool) (t : TName) (protos objs : List Proto) : (lineEntry on t).flatMap (written u l protos objs) = lineEntry on t := by
  cases on with
  | false => rfl
  | true => simp [lineEntry, lineText_written]

/-- The entries in front of the definitions for pointers in the header. -/
def leadEntries (on : Bool) : List Str := lineEntry on .cHeader ++ (texts .cHeader).take 179

/-- The entries between these and the end of the header. -/
def midEntries (names : ParamNames) : List Str := shown names none (((texts .cHeader).drop 181).take 60)

/-- The entries of the body in front of its end. -/
def bodyEntries (on : Bool) (names : ParamNames) : List Str :=
  lineEntry on .commonBody ++ (texts .commonBody ++ (lineEntry on .cBody ++ shown names none ((texts .cBody).take 947)))

def entriesText (u l : Str) (protos objs : List Proto) (ds : List Str) : Str := unlines (ds.flatMap (written u l protos objs))

theorem header_text (s : Settings) (protos objs : List Proto) : templateText s protos objs .cHeader =
    entriesText (toUpper s.pfx) (toLower s.pfx) protos objs (leadEntries s.lineDirective) ++ (pointerPart (toUpper s.pfx) (toLower s.pfx) protos objs ++
      (entriesText (toUpper s.pfx) (toLower s.pfx) protos objs (midEntries s.names) ++ headerPart (toUpper s.pfx) (toLower s.pfx) protos objs)) := by
  unfold templateText
  rw [unlines_app, C102_headerPart]
  unfold entriesText leadEntries
  rw [List.flatMap_append, lineEntry_written, unlines_app, List.append_assoc]
  rfl

theorem common_free : (texts .commonBody).all (fun d => markerLine d == none) = true := by decide +kernel

theorem shared_text (s : Settings) (protos objs : List Proto) : templateText s protos objs .commonBody =
    entriesText (toUpper s.pfx) (toLower s.pfx) protos objs (lineEntry s.lineDirective .commonBody ++ texts .commonBody) := by
  have e : instantiate (toUpper s.pfx) (toLower s.pfx) s.names protos objs (lines .commonBody) = (texts .commonBody).flatMap (written (toUpper s.pfx) (toLower s.pfx) protos objs) := by
    unfold instantiate
    rw [show (blocks (lines .commonBody)).map joinLines = texts .commonBody ++ [] from (List.append_nil _).symm,
      shown_plain s.names fun d hd => eq_of_beq (List.all_eq_true.mp common_free d hd), show shown s.names none [] = [] from rfl, List.append_nil]
  unfold templateText entriesText
  rw [e, List.flatMap_append, lineEntry_written]
  rfl

theorem own_text (s : Settings) (protos objs : List Proto) : templateText s protos objs .cBody =
    entriesText (toUpper s.pfx) (toLower s.pfx) protos objs (lineEntry s.lineDirective .cBody ++ shown s.names none ((texts .cBody).take 947)) ++
      bodyPart (toUpper s.pfx) (toLower s.pfx) protos objs := by
  unfold templateText
  rw [unlines_app, C102_bodyPart]
  unfold entriesText shownPart
  simp only [List.flatMap_append, lineEntry_written, unlines_app, List.append_assoc]
  rfl

theorem body_text (s : Settings) (protos objs : List Proto) : templateText s protos objs .commonBody ++ templateText s protos objs .cBody =
    entriesText (toUpper s.pfx) (toLower s.pfx) protos objs (bodyEntries s.lineDirective s.names) ++ bodyPart (toUpper s.pfx) (toLower s.pfx) protos objs := by
  rw [shared_text, own_text]
  unfold entriesText bodyEntries
  simp only [List.flatMap_append, unlines_app, List.append_assoc]

/-! ### The names -/

/-- What may be asked about the names, with all the text of the templates: none of them is
defined there for something else. -/
structure AllNames (u l : Str) (protos objs : List Proto) : Prop extends Names u l protos objs where
  free : ∀ p ∈ protos ++ objs, p.symbol ∉ [str% "_T", str% "_countof", str% "_" ++ (u ++ str% "_WRAP_CHECK_LOADED")]
  wrap : ∀ p ∈ protos, p.symbol ∉ [str% "FUNCTIONS", str% "VISIBILITY", str% "IS_VISIBLE"]
  plain : ∀ p ∈ protos, p.symbol ∉ encodings

/-- The names that the templates define or remove. -/
def ownNames : List Str :=
  [str% "GDO_DECL", str% "GDO_OBJ_DECL", str% "GDO_BUILTIN_VA_ARG_PACK", str% "GDO_XHS", str% "GDO_LINKAGE", str% "GDO_OBJ_LINKAGE", str% "GDO_UNUSED_REF", str% "GDO_SNPRINTF",
   str% "GDO_SET_LAST_ERRNO"]

def okPlain (n : Str) : Bool := ownNames.contains n || n == str% "_T" || n == str% "_countof" || n == str% "_GDO_WRAP_CHECK_LOADED"

/-- The names that they define for each function. -/
def okNamed (n : Str) : Bool := n == str% "GDO_HOOK_" ++ symbolWord || n == str% "GDO_WRAP_" ++ symbolWord

theorem under_rotate {u : Str} : ∀ {a b : Str}, '_' :: (u ++ a) = u ++ ('_' :: b) → ('_' :: a) = '_' :: b := by
  induction u with
  | nil => exact fun h => h
  | cons c u ih =>
    intro a b h
    simp only [List.cons_append, List.cons.injEq] at h
    obtain ⟨rfl, h⟩ := h
    exact ih h

theorem not_symbolName {u l : Str} {protos objs : List Proto} {y : Str} (h1 : y ≠ l ++ str% "_hndl")
    (h2 : ∀ x ∈ [str% "WRAP_FUNCTIONS", str% "ENABLE_AUTOLOAD", str% "SEPARATE", str% "INCLUDED_IN_BODY", str% "DISABLE_ALIASING", str% "WRAP_VISIBILITY", str% "WRAP_IS_VISIBLE",
      str% "FUNC_ALIAS"], y ≠ u ++ (str% "_" ++ x)) (h3 : ∀ p ∈ protos ++ objs, y ≠ p.symbol)
    (h4 : ∀ s, y ≠ u ++ (str% "_" ++ (str% "RAWPTR_" ++ s)) ∧ y ≠ u ++ (str% "_" ++ (str% "PTR_" ++ s))) : y ∉ symbolNames u l protos objs := by
  intro hm
  unfold symbolNames at hm
  rcases List.mem_cons.mp hm with h | h
  · exact h1 h
  rcases List.mem_append.mp h with h | h
  · obtain ⟨x, hx, e⟩ := List.mem_map.mp h
    exact h2 x hx e.symm
  · obtain ⟨p, hp, h⟩ := List.mem_flatMap.mp h
    simp only [List.mem_cons, List.not_mem_nil, or_false] at h
    rcases h with h | h | h
    · exact h3 p hp h
    · exact (h4 _).1 h
    · exact (h4 _).2 h

theorem hndl_last (l : Str) : (l ++ str% "_hndl").getLast? = some 'l' := by
  rw [List.getLast?_append]
  rfl

theorem line_in {u x y : Str} (h : y = u ++ (str% "_" ++ x)) (hu : u ≠ []) : '_' ∈ y.tail := by
  subst h
  cases u with
  | nil => exact absurd rfl hu
  | cons c u => simp

theorem plain_free {u l : Str} {protos objs : List Proto} (hN : AllNames u l protos objs) {n : Str} (h : okPlain n = true) : newName u l n ∉ symbolNames u l protos objs := by
  unfold okPlain at h
  simp only [Bool.or_eq_true, beq_iff_eq] at h
  have fixed : ∀ y ∈ [str% "_T", str% "_countof"], newName u l y = y ∧ y.getLast? ≠ some 'l' ∧ '_' ∉ y.tail := by
    intro y hy
    refine ⟨newName_fixed ?_, ?_⟩ <;> revert y <;> decide
  have done : ∀ y ∈ [str% "_T", str% "_countof"], newName u l y ∉ symbolNames u l protos objs := by
    intro y hy
    obtain ⟨e1, e2, e3⟩ := fixed y hy
    rw [e1]
    refine not_symbolName (fun e => e2 (by rw [e, hndl_last])) (fun x _ e => e3 (line_in e hN.prefixes.upper_ne)) (fun p hp e => ?_)
      fun s => ⟨fun e => e3 (line_in e hN.prefixes.upper_ne), fun e => e3 (line_in e hN.prefixes.upper_ne)⟩
    have := hN.free p hp
    rw [← e] at this
    refine this ?_
    simp only [List.mem_cons, List.not_mem_nil, or_false] at hy ⊢
    rcases hy with rfl | rfl <;> simp
  rcases h with ((h | rfl) | rfl) | rfl
  · obtain ⟨x, hx, rfl⟩ : ∃ x ∈ [str% "DECL", str% "OBJ_DECL", str% "BUILTIN_VA_ARG_PACK", str% "XHS", str% "LINKAGE", str% "OBJ_LINKAGE", str% "UNUSED_REF", str% "SNPRINTF",
        str% "SET_LAST_ERRNO"], n = str% "GDO_" ++ x := by
      have h' : n ∈ ownNames := by simpa using h
      refine ⟨n.drop 4, ?_, ?_⟩ <;> clear h <;> revert n <;> decide
    rw [newName_upper]
    refine not_symbolName (fun e => hN.handle' x e.symm) (fun y hy e => ?_) (fun p hp e => hN.own p hp x e.symm) fun s => ⟨fun e => ?_, fun e => ?_⟩
    · have := prefixed_inj e
      subst this
      revert hy hx
      clear e h hN
      revert x
      decide
    · have := congrArg (List.take 2) (prefixed_inj e)
      revert this
      clear e h
      revert x
      simp
    · have := congrArg (List.take 2) (prefixed_inj e)
      revert this
      clear e h
      revert x
      simp
  · exact done _ (by simp)
  · exact done _ (by simp)
  · have e1 : newName u l (str% "_GDO_WRAP_CHECK_LOADED") = str% "_" ++ (u ++ (str% "_" ++ str% "WRAP_CHECK_LOADED")) := by
      rw [show str% "_GDO_WRAP_CHECK_LOADED" = str% "_GDO_" ++ str% "WRAP_CHECK_LOADED" from rfl, newName_under, List.append_assoc]
    rw [e1]
    have other : ∀ {y : Str}, (y.head? ≠ some '_') → str% "_" ++ (u ++ (str% "_" ++ str% "WRAP_CHECK_LOADED")) ≠ u ++ (str% "_" ++ y) := by
      intro y hy e
      have := under_rotate (u := u) (a := str% "_WRAP_CHECK_LOADED") (b := y) e
      rw [(List.cons.inj this).2.symm] at hy
      exact hy rfl
    refine not_symbolName (fun e => ?_) (fun x hx => other ?_) (fun p hp e => ?_) fun s => ⟨other (by simp), other (by simp)⟩
    · have := congrArg List.getLast? e
      rw [hndl_last, List.getLast?_append, List.getLast?_append] at this
      revert this
      simp
    · revert x
      decide
    · have := hN.free p hp
      rw [← e] at this
      exact this (by simp)

theorem named_free {u l : Str} {protos objs : List Proto} (hN : AllNames u l protos objs) {p : Proto} (hp : p ∈ protos) {n : Str} (h : okNamed n = true) :
    ren u l p.symbol n ∉ symbolNames u l protos objs := by
  unfold okNamed at h
  simp only [Bool.or_eq_true, beq_iff_eq] at h
  obtain ⟨x, hx, e⟩ : ∃ x, (x = str% "HOOK_" ∨ x = str% "WRAP_") ∧ ren u l p.symbol n = u ++ (str% "_" ++ (x ++ p.symbol)) := by
    rcases h with rfl | rfl
    · refine ⟨_, .inl rfl, ?_⟩
      rw [ren_word _ (by decide), show str% "GDO_HOOK_" = str% "GDO_" ++ str% "HOOK_" from rfl, newName_upper]
      simp
    · refine ⟨_, .inr rfl, ?_⟩
      rw [ren_word _ (by decide), show str% "GDO_WRAP_" = str% "GDO_" ++ str% "WRAP_" from rfl, newName_upper]
      simp
  rw [e]
  refine not_symbolName (fun e => hN.handle' _ e.symm) (fun y hy e => ?_) (fun q hq e => hN.own q hq _ e.symm) fun s => ⟨fun e => ?_, fun e => ?_⟩
  · have e2 := prefixed_inj e
    have hw := hN.wrap p hp
    simp only [List.mem_cons, List.not_mem_nil, or_false, not_or] at hw
    rcases hx with rfl | rfl
    · have := congrArg (List.take 5) e2
      revert this
      clear e2 e
      revert y
      simp
    · simp only [List.mem_cons, List.not_mem_nil, or_false] at hy
      rcases hy with rfl | rfl | rfl | rfl | rfl | rfl | rfl | rfl <;> simp at e2 <;> simp [e2] at hw
  · have := prefixed_inj e
    rcases hx with rfl | rfl <;> simp at this
  · have := prefixed_inj e
    rcases hx with rfl | rfl <;> simp at this

/-! ### The text between -/

theorem lead_walk (on : Bool) : walkEntries okPlain okNamed ⟨.code, [], []⟩ (leadEntries on) = some ⟨.code, [], []⟩ := by
  cases on <;> decide +kernel

theorem mid_walk (names : ParamNames) : walkEntries okPlain okNamed ⟨.code, [], []⟩ (midEntries names) = some ⟨.code, [], []⟩ := by
  cases names <;> decide +kernel

theorem walkEntries_append {okA okB : Str → Bool} {a b : List Str} {w w' w'' : Walk} (h1 : walkEntries okA okB w a = some w') (h2 : walkEntries okA okB w' b = some w'') :
    walkEntries okA okB w (a ++ b) = some w'' := by
  induction a generalizing w with
  | nil => cases h1; exact h2
  | cons d a ih =>
    rw [List.cons_append, walkEntries]
    rw [walkEntries] at h1
    cases hk : firstKind (parts d) with
    | none =>
      rw [hk] at h1
      simp only [] at h1 ⊢
      cases hw : walkLines okA okB false w (splitNl (parts d)) with
      | none => rw [hw] at h1; cases h1
      | some w1 => rw [hw] at h1; exact ih h1
    | some k =>
      rw [hk] at h1
      simp only [] at h1 ⊢
      split at h1
      · rename_i h
        rw [if_pos h]
        exact ih h1
      · cases h1

theorem common_walk (on : Bool) : walkEntries okPlain okNamed ⟨.code, [], []⟩ (lineEntry on .commonBody ++ texts .commonBody) = some ⟨.code, [], []⟩ := by
  cases on <;> decide +kernel

theorem body_plain : ((texts .cBody).take 846).all (fun d => markerLine d == none) = true := by decide +kernel

theorem body_walk1 : walkEntries okPlain okNamed ⟨.code, [], []⟩ ((texts .cBody).take 230) = some ⟨.code, [], []⟩ := by decide +kernel

theorem body_walk2 : walkEntries okPlain okNamed ⟨.code, [], []⟩ (((texts .cBody).drop 230).take 220) = some ⟨.code, [], []⟩ := by decide +kernel

theorem body_walk3 : walkEntries okPlain okNamed ⟨.code, [], []⟩ (((texts .cBody).drop 450).take 206) = some ⟨.code, [], []⟩ := by decide +kernel

theorem body_walk4 : walkEntries okPlain okNamed ⟨.code, [], []⟩ (((texts .cBody).drop 656).take 190) = some ⟨.code, [], []⟩ := by decide +kernel

theorem body_walk5 (names : ParamNames) : walkEntries okPlain okNamed ⟨.code, [], []⟩ (shown names none (((texts .cBody).drop 846).take 101)) = some ⟨.code, [], []⟩ := by
  cases names <;> decide +kernel

theorem walk_take {okA okB : Str → Bool} {ds : List Str} {w w' w'' : Walk} (a b : Nat) (h1 : walkEntries okA okB w (ds.take a) = some w')
    (h2 : walkEntries okA okB w' ((ds.drop a).take b) = some w'') : walkEntries okA okB w (ds.take (a + b)) = some w'' := by
  rw [List.take_add]
  exact walkEntries_append h1 h2

theorem own_walk (on : Bool) (names : ParamNames) :
    walkEntries okPlain okNamed ⟨.code, [], []⟩ (lineEntry on .cBody ++ shown names none ((texts .cBody).take 947)) = some ⟨.code, [], []⟩ := by
  refine walkEntries_append (w' := ⟨.code, [], []⟩) (by cases on <;> decide +kernel) ?_
  rw [show 947 = 846 + 101 from rfl, List.take_add, shown_plain names fun d hd => eq_of_beq (List.all_eq_true.mp body_plain d hd)]
  exact walkEntries_append (walk_take 656 190 (walk_take 450 206 (walk_take 230 220 body_walk1 body_walk2) body_walk3) body_walk4) (body_walk5 names)

theorem body_walk (on : Bool) (names : ParamNames) : walkEntries okPlain okNamed ⟨.code, [], []⟩ (bodyEntries on names) = some ⟨.code, [], []⟩ := by
  unfold bodyEntries
  rw [← List.append_assoc]
  exact walkEntries_append (common_walk on) (own_walk on names)

/-! ### C102 -/

variable {E : Str → Option Macro} {inc : List T → Table} {protos objs : List Proto}

theorem entries_harmless {u l : Str} (hN : AllNames u l protos objs) (hc : ∀ p ∈ protos ++ objs, CalmProto p)
    (hinc : ∀ r, ∀ y ∈ symbolNames u l protos objs, (inc r).lookup y = none) {ds : List Str} (h : walkEntries okPlain okNamed ⟨.code, [], []⟩ ds = some ⟨.code, [], []⟩) :
    Harmless inc (symbolNames u l protos objs) (entriesText u l protos objs ds) :=
  walk_harmless ⟨hN.prefixes, hinc, fun _ => plain_free hN⟩ hc (fun p hp => ⟨hN.functions p hp, hN.plain p hp⟩) (fun _ hp _ => named_free hN hp) h

theorem run_start (inc : List T → Table) (D : Str → Bool) (t : Table) (b : Str) : run inc D (t, []) b = (run inc (isDefined D t) ([], []) b).map fun s => (s.1 ++ t, s.2) := by
  unfold run
  generalize tokens b = y
  cases y with
  | none => rfl
  | some ts =>
    simp only [Option.bind_some]
    exact runLines_start inc D t [] (splitLines ts)

/-- Text in front that leaves the names alone. -/
theorem after_lead {X : List Str} {a b : Str} (h : Harmless inc X a) : ∃ E1 : Str → Option Macro, (∀ x ∈ X, E1 x = E x) ∧ after inc E (a ++ b) = after inc E1 b := by
  obtain ⟨t, e1, e2⟩ := run_harmless h (fun x => (E x).isSome) [] b
  rw [List.append_nil] at e1
  refine ⟨known E t, fun x hx => by unfold known; rw [e2 x hx], ?_⟩
  have e3 : definitions inc (fun x => (known E t x).isSome) b = definitions inc (isDefined (fun x => (E x).isSome) t) b :=
    congrArg (fun D => definitions inc D b) (funext fun x => (isDefined_isSome E t x).symm)
  have e4 : definitions inc (fun x => (E x).isSome) (a ++ b) = (definitions inc (isDefined (fun x => (E x).isSome) t) b).map (· ++ t) := by
    rw [definitions_run, e1, run_start, definitions_run]
    generalize run inc (isDefined (fun x => (E x).isSome) t) ([], []) b = y
    rcases y with _ | ⟨y1, y2⟩
    · rfl
    · simp only [Option.map_some, Option.bind_some]
      split <;> rfl
  unfold after
  rw [e3, e4, Option.map_map]
  generalize definitions inc (isDefined (fun x => (E x).isSome) t) b = y
  cases y with
  | none => rfl
  | some y =>
    simp only [Option.map_some, Function.comp]
    refine congrArg some (funext fun x => ?_)
    unfold known
    rw [List.lookup_append]
    generalize List.lookup x y = z
    cases z <;> rfl

theorem Stands.front {E E1 E' : Str → Option Macro} {u l : Str} {a b w : Bool} (h : ∀ x ∈ symbolNames u l protos objs, E1 x = E x)
    (hs : Stands E1 E' u l protos objs a b w) : Stands E E' u l protos objs a b w := by
  have sym : ∀ p ∈ protos ++ objs, E1 p.symbol = E p.symbol := fun p hp =>
    h _ (List.mem_cons_of_mem _ (List.mem_append_right _ (List.mem_flatMap.mpr ⟨p, hp, by simp⟩)))
  refine ⟨hs.raw, hs.wrapper, hs.function, hs.renamed, fun ha p hp => ?_, hs.object, fun hb p hp => ?_⟩
  · rw [hs.noFunction ha p hp, sym p (List.mem_append_left _ hp)]
  · rw [hs.noObject hb p hp, sym p (List.mem_append_right _ hp)]

theorem has_front {E E1 : Str → Option Macro} {u l x : Str} (h : ∀ x ∈ symbolNames u l protos objs, E1 x = E x) (hx : x ∈ configNames) : Has E1 u x = Has E u x := by
  unfold Has
  rw [h]
  refine List.mem_cons_of_mem _ (List.mem_append_left _ (List.mem_map.mpr ⟨x, ?_, rfl⟩))
  unfold configNames at hx
  simp only [List.mem_cons, List.not_mem_nil, or_false] at hx ⊢
  rcases hx with h | h | h | h | h | h | h <;> simp [h]

/-- What must be known about the text that the templates are put in: the settings, the
names, plain data, and that neither headers nor the text before define the names used. -/
structure Placed (s : Settings) (inc : List T → Table) (E : Str → Option Macro) (protos objs : List Proto) : Prop where
  names : AllNames (toUpper s.pfx) (toLower s.pfx) protos objs
  calm : ∀ p ∈ protos ++ objs, CalmProto p
  headers : ∀ r, ∀ y ∈ symbolNames (toUpper s.pfx) (toLower s.pfx) protos objs, (inc r).lookup y = none
  handle : E (toLower s.pfx ++ str% "_hndl") = none
  members : ∀ p ∈ protos ++ objs, E (toUpper s.pfx ++ (str% "_" ++ (str% "PTR_" ++ p.symbol))) = none

theorem Placed.front {s : Settings} {E1 : Str → Option Macro} (h : Placed s inc E protos objs)
    (h1 : ∀ x ∈ symbolNames (toUpper s.pfx) (toLower s.pfx) protos objs, E1 x = E x) : Placed s inc E1 protos objs := by
  refine ⟨h.names, h.calm, h.headers, ?_, fun p hp => ?_⟩
  · rw [h1 _ (List.mem_cons_self ..), h.handle]
  · rw [h1 _ (List.mem_cons_of_mem _ (List.mem_append_right _ (List.mem_flatMap.mpr ⟨p, hp, by simp⟩))), h.members p hp]

/-- What the names stand for behind all of `c.h`, in the header of separate output. -/
theorem C102_header_file (s : Settings) (h : Placed s inc E protos objs) :
    ∃ E', after inc E (templateText s protos objs .cHeader) = some E' ∧
      Stands E E' (toUpper s.pfx) (toLower s.pfx) protos objs
        (Has E (toUpper s.pfx) (str% "SEPARATE") && !Has E (toUpper s.pfx) (str% "INCLUDED_IN_BODY") && !Has E (toUpper s.pfx) (str% "DISABLE_ALIASING") &&
          !Has E (toUpper s.pfx) (str% "WRAP_VISIBILITY"))
        (Has E (toUpper s.pfx) (str% "SEPARATE") && !Has E (toUpper s.pfx) (str% "INCLUDED_IN_BODY") && !Has E (toUpper s.pfx) (str% "DISABLE_ALIASING"))
        (Has E (toUpper s.pfx) (str% "WRAP_FUNCTIONS") || Has E (toUpper s.pfx) (str% "ENABLE_AUTOLOAD")) := by
  have hh := fun {ds} => entries_harmless (ds := ds) h.names h.calm h.headers
  obtain ⟨E1, h1, e1⟩ := after_lead (E := E) (b := pointerPart (toUpper s.pfx) (toLower s.pfx) protos objs ++
    (entriesText (toUpper s.pfx) (toLower s.pfx) protos objs (midEntries s.names) ++ headerPart (toUpper s.pfx) (toLower s.pfx) protos objs)) (hh (lead_walk s.lineDirective))
  rw [header_text, e1]
  have h' := h.front h1
  obtain ⟨E', r1, r2⟩ := C102_header h'.names.toNames h'.handle h'.members (hh (mid_walk s.names))
  refine ⟨E', r1, ?_⟩
  have r3 := r2.front h1
  simp only [has_front h1 (show str% "SEPARATE" ∈ configNames from by decide), has_front h1 (show str% "INCLUDED_IN_BODY" ∈ configNames from by decide),
    has_front h1 (show str% "DISABLE_ALIASING" ∈ configNames from by decide), has_front h1 (show str% "WRAP_VISIBILITY" ∈ configNames from by decide),
    has_front h1 (show str% "WRAP_FUNCTIONS" ∈ configNames from by decide), has_front h1 (show str% "ENABLE_AUTOLOAD" ∈ configNames from by decide)] at r3
  exact r3

/-- All of `c.h`, `common.c` and `c.c`. -/
theorem all_text (s : Settings) (h : Placed s inc E protos objs) :
    ∃ E1 mid mid', (∀ x ∈ symbolNames (toUpper s.pfx) (toLower s.pfx) protos objs, E1 x = E x) ∧ Harmless inc (symbolNames (toUpper s.pfx) (toLower s.pfx) protos objs) mid ∧
      Harmless inc (symbolNames (toUpper s.pfx) (toLower s.pfx) protos objs) mid' ∧
      after inc E (templateText s protos objs .cHeader ++ templateText s protos objs .commonBody ++ templateText s protos objs .cBody) =
        after inc E1 (pointerPart (toUpper s.pfx) (toLower s.pfx) protos objs ++ (mid ++ (headerPart (toUpper s.pfx) (toLower s.pfx) protos objs ++
          (mid' ++ bodyPart (toUpper s.pfx) (toLower s.pfx) protos objs)))) := by
  have hh := fun {ds} => entries_harmless (ds := ds) h.names h.calm h.headers
  obtain ⟨E1, h1, e1⟩ := after_lead (E := E) (b := pointerPart (toUpper s.pfx) (toLower s.pfx) protos objs ++
    (entriesText (toUpper s.pfx) (toLower s.pfx) protos objs (midEntries s.names) ++ (headerPart (toUpper s.pfx) (toLower s.pfx) protos objs ++
      (entriesText (toUpper s.pfx) (toLower s.pfx) protos objs (bodyEntries s.lineDirective s.names) ++ bodyPart (toUpper s.pfx) (toLower s.pfx) protos objs))))
    (hh (lead_walk s.lineDirective))
  refine ⟨E1, _, _, h1, hh (mid_walk s.names), hh (body_walk s.lineDirective s.names), ?_⟩
  rw [← e1, List.append_assoc, header_text, body_text]
  simp only [List.append_assoc]

/-- What the names stand for in the body of separate output: nothing is renamed in it. -/
theorem C102_body_file (s : Settings) (h : Placed s inc E protos objs) (h3 : Has E (toUpper s.pfx) (str% "SEPARATE") = true)
    (h4 : Has E (toUpper s.pfx) (str% "INCLUDED_IN_BODY") = true) :
    ∃ E', after inc E (templateText s protos objs .cHeader ++ templateText s protos objs .commonBody ++ templateText s protos objs .cBody) = some E' ∧
      Stands E E' (toUpper s.pfx) (toLower s.pfx) protos objs false false (Has E (toUpper s.pfx) (str% "WRAP_FUNCTIONS") || Has E (toUpper s.pfx) (str% "ENABLE_AUTOLOAD")) := by
  obtain ⟨E1, mid, mid', h1, m1, m2, e⟩ := all_text s h
  have h' := h.front h1
  obtain ⟨E', r1, r2⟩ := C102_body h'.names.toNames h'.handle h'.members m1 m2 ((has_front h1 (by decide)).trans h3) ((has_front h1 (by decide)).trans h4)
  refine ⟨E', e.trans r1, ?_⟩
  have r3 := r2.front h1
  simp only [has_front h1 (show str% "WRAP_FUNCTIONS" ∈ configNames from by decide), has_front h1 (show str% "ENABLE_AUTOLOAD" ∈ configNames from by decide)] at r3
  exact r3

/-- All of `common.c`, `c.h` and `c.c` in a single file, in every case. -/
theorem C102_single_file_exact (s : Settings) (h : Placed s inc E protos objs) (h3 : Has E (toUpper s.pfx) (str% "SEPARATE") = false) :
    ∃ E', after inc E (templateText s protos objs .commonBody ++ templateText s protos objs .cHeader ++ templateText s protos objs .cBody) = some E' ∧
      Stands E E' (toUpper s.pfx) (toLower s.pfx) protos objs (!Has E (toUpper s.pfx) (str% "DISABLE_ALIASING") && !Has E (toUpper s.pfx) (str% "WRAP_IS_VISIBLE"))
        (!Has E (toUpper s.pfx) (str% "DISABLE_ALIASING")) (Has E (toUpper s.pfx) (str% "WRAP_FUNCTIONS") || Has E (toUpper s.pfx) (str% "ENABLE_AUTOLOAD")) := by
  have hh := fun {ds} => entries_harmless (ds := ds) h.names h.calm h.headers
  obtain ⟨E0, h0, e0⟩ := after_lead (E := E) (b := templateText s protos objs .cHeader ++ templateText s protos objs .cBody) (hh (common_walk s.lineDirective))
  obtain ⟨E1, h1, e1⟩ := after_lead (E := E0) (b := pointerPart (toUpper s.pfx) (toLower s.pfx) protos objs ++
    (entriesText (toUpper s.pfx) (toLower s.pfx) protos objs (midEntries s.names) ++ (headerPart (toUpper s.pfx) (toLower s.pfx) protos objs ++
      (entriesText (toUpper s.pfx) (toLower s.pfx) protos objs (lineEntry s.lineDirective .cBody ++ shown s.names none ((texts .cBody).take 947)) ++
        bodyPart (toUpper s.pfx) (toLower s.pfx) protos objs))))
    (hh (lead_walk s.lineDirective))
  have h1 : ∀ x ∈ symbolNames (toUpper s.pfx) (toLower s.pfx) protos objs, E1 x = E x := fun x hx => (h1 x hx).trans (h0 x hx)
  have h' := h.front h1
  obtain ⟨E', r1, r2⟩ := C102_single_exact h'.names.toNames h'.handle h'.members (hh (mid_walk s.names)) (hh (own_walk s.lineDirective s.names)) ((has_front h1 (by decide)).trans h3)
  refine ⟨E', ?_, ?_⟩
  · rw [List.append_assoc, shared_text, e0, header_text, own_text]
    simp only [List.append_assoc]
    exact e1.trans r1
  · have r3 := r2.front h1
    simp only [has_front h1 (show str% "DISABLE_ALIASING" ∈ configNames from by decide), has_front h1 (show str% "WRAP_IS_VISIBLE" ∈ configNames from by decide),
      has_front h1 (show str% "WRAP_FUNCTIONS" ∈ configNames from by decide), has_front h1 (show str% "ENABLE_AUTOLOAD" ∈ configNames from by decide)] at r3
    exact r3

/-- What the names stand for behind all the text of a single file, in which `common.c` comes
first.  Missing: the case that `WRAP_VISIBILITY` is defined and `WRAP_IS_VISIBLE` is not. -/
theorem C102_single_file_partial (s : Settings) (h : Placed s inc E protos objs) (h3 : Has E (toUpper s.pfx) (str% "SEPARATE") = false)
    (h4 : Has E (toUpper s.pfx) (str% "WRAP_IS_VISIBLE") = Has E (toUpper s.pfx) (str% "WRAP_VISIBILITY")) :
    ∃ E', after inc E (templateText s protos objs .commonBody ++ templateText s protos objs .cHeader ++ templateText s protos objs .cBody) = some E' ∧
      Stands E E' (toUpper s.pfx) (toLower s.pfx) protos objs (!Has E (toUpper s.pfx) (str% "DISABLE_ALIASING") && !Has E (toUpper s.pfx) (str% "WRAP_VISIBILITY"))
        (!Has E (toUpper s.pfx) (str% "DISABLE_ALIASING")) (Has E (toUpper s.pfx) (str% "WRAP_FUNCTIONS") || Has E (toUpper s.pfx) (str% "ENABLE_AUTOLOAD")) := by
  rw [← h4]
  exact C102_single_file_exact s h h3

/-- Symbols that come from a text file have plain data. -/
theorem C102_text (sy : Symbols) (h : Props.FromText sy) : ∀ p ∈ sy.protos ++ sy.objs, CalmProto p := by
  intro p hp
  obtain ⟨⟨_, _⟩, h2, h3, h4⟩ := (Props.C84_characters_partial sy h).1 p hp
  have calm : ∀ {s : Str}, Props.Harmless s → Calm s := by
    intro s hs c hc
    refine ⟨?_, ?_, ?_, ?_, ?_, ?_⟩ <;> rintro rfl <;> exact Props.harmless_not hs (by decide) (by decide) hc
  exact ⟨calm h2, calm h3, calm h4, CForm.text_word h p hp⟩

/-! ### Where the code is wrong -/

/-- A function called `FUNCTIONS`: its wrapper has the name of the macro that asks for
wrappers, so that the wrapper gets no name at all. -/
theorem C102_name_violated : ∃ E', after (fun _ => []) wrapping (wrapperPart (str% "GDO") (str% "gdo") [{ aFunction with symbol := str% "FUNCTIONS" }] []) = some E' ∧
    (expand E' 6 [⟨[], true, .ident (str% "GDO_WRAP")⟩, ⟨[], false, .punct (str% "(")⟩, ⟨[], false, .ident (str% "FUNCTIONS")⟩, ⟨[], false, .punct (str% ")")⟩]).map (·.map (·.tok)) =
      some [] := by
  have e := run_wrap (u := str% "GDO") (l := str% "gdo") named.prefixes [{ aFunction with symbol := str% "FUNCTIONS" }] [] (fun _ => []) (fun x => (wrapping x).isSome) []
  rw [List.append_nil] at e
  exact ⟨_, after_run e, by decide⟩

/-! ### Examples -/

theorem named_all : AllNames (str% "GDO") (str% "gdo") [aFunction] [anObject] := by
  refine ⟨named, ?_, ?_, ?_⟩ <;> decide

theorem calm_all : ∀ p ∈ [aFunction] ++ [anObject], CalmProto p := by
  have : ∀ p ∈ [aFunction] ++ [anObject], (∀ c ∈ p.type, c ≠ '"' ∧ c ≠ '\'' ∧ c ≠ '\\' ∧ c ≠ '/' ∧ c ≠ '#' ∧ c ≠ '\n') ∧
      (∀ c ∈ p.args, c ≠ '"' ∧ c ≠ '\'' ∧ c ≠ '\\' ∧ c ≠ '/' ∧ c ≠ '#' ∧ c ≠ '\n') ∧
      (∀ c ∈ p.paramNames, c ≠ '"' ∧ c ≠ '\'' ∧ c ≠ '\\' ∧ c ≠ '/' ∧ c ≠ '#' ∧ c ≠ '\n') ∧ ∀ c ∈ p.symbol, isWord c = true := by decide
  intro p hp
  obtain ⟨h1, h2, h3, h4⟩ := this p hp
  exact ⟨h1, h2, h3, h4⟩

theorem placed {E : Str → Option Macro} (h1 : E (str% "gdo_hndl") = none) (h2 : ∀ p ∈ [aFunction] ++ [anObject], E (str% "GDO" ++ (str% "_" ++ (str% "PTR_" ++ p.symbol))) = none) :
    Placed {} (fun _ => []) E [aFunction] [anObject] :=
  ⟨named_all, calm_all, fun _ _ _ => rfl, h1, h2⟩

/-- The header of separate output, with wrappers. -/
example : ∃ E', after (fun _ => []) separate (templateText {} [aFunction] [anObject] .cHeader) = some E' ∧
    Becomes E' (str% "foo") [.ident (str% "gdo_hndl"), .punct (str% "."), .ident (str% "GDO_PTR_foo")] ∧
    Becomes E' (str% "bar") [.punct (str% "*"), .ident (str% "gdo_hndl"), .punct (str% "."), .ident (str% "GDO_PTR_bar")] := by
  obtain ⟨E', h1, h2⟩ := C102_header_file {} (placed (E := separate) (by decide) (by decide))
  exact ⟨E', h1, h2.function (by decide) (by decide) aFunction (by simp), h2.object (by decide) anObject (by simp)⟩

/-- The body. -/
example : ∃ E', after (fun _ => []) inBody (templateText {} [aFunction] [anObject] .cHeader ++ templateText {} [aFunction] [anObject] .commonBody ++
      templateText {} [aFunction] [anObject] .cBody) = some E' ∧ Stands inBody E' (str% "GDO") (str% "gdo") [aFunction] [anObject] false false false :=
  C102_body_file {} (placed (E := inBody) (by decide) (by decide)) (by decide) (by decide)

/-- A single file. -/
example : ∃ E', after (fun _ => []) wrapping (templateText {} [aFunction] [anObject] .commonBody ++ templateText {} [aFunction] [anObject] .cHeader ++
      templateText {} [aFunction] [anObject] .cBody) = some E' ∧ Stands wrapping E' (str% "GDO") (str% "gdo") [aFunction] [anObject] true true true :=
  C102_single_file_partial {} (placed (E := wrapping) (by decide) (by decide)) (by decide) (by decide)

/-- Data with a directive in it would change the names. -/
example : ¬ Calm (str% "int\n#undef foo\n") := fun h => (h '#' (by decide)).2.2.2.2.1 rfl

end Gdo.Cpp
