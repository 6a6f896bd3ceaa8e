import Verif.Props.CMacroCxx

/-!
C108 for all the text of the C++ templates: what is generated from `cxx.hpp`, `common.c` and
`cxx.cpp` leaves the names of symbols alone, except where it defines them.
-/

set_option maxRecDepth 20000

namespace Gdo.Cpp.Cxx
open Gdo Rename Tmpl Builtin Gdo.Sub Opt Tpl Gen Pfx

/-! ### The texts -/

/-- The entries in front of the definitions for pointers in the header. -/
def leadEntries (on : Bool) : List Str := lineEntry on .cxxHeader ++ (texts .cxxHeader).take 426

/-- The entries between these and the end of the header. -/
def midEntries (names : ParamNames) : List Str := shown names none (((texts .cxxHeader).drop 428).take 31)

/-- The entries of the body in front of its end. -/
def bodyEntries (on : Bool) (names : ParamNames) : List Str :=
  lineEntry on .commonBody ++ (texts .commonBody ++ (lineEntry on .cxxBody ++ shown names none ((texts .cxxBody).take 1047)))

theorem header_text (s : Settings) (protos objs : List Proto) : templateText s protos objs .cxxHeader =
    entriesText (toUpper s.pfx) (toLower s.pfx) protos objs (leadEntries s.lineDirective) ++ (pointerPart (toUpper s.pfx) (toLower s.pfx) protos objs ++
      (entriesText (toUpper s.pfx) (toLower s.pfx) protos objs (midEntries s.names) ++ headerPart (toUpper s.pfx) (toLower s.pfx) protos objs)) := by
  unfold templateText
  rw [unlines_app, C108_headerPart]
  unfold entriesText leadEntries
  rw [List.flatMap_append, lineEntry_written, unlines_app, List.append_assoc]
  rfl

theorem own_text (s : Settings) (protos objs : List Proto) : templateText s protos objs .cxxBody =
    entriesText (toUpper s.pfx) (toLower s.pfx) protos objs (lineEntry s.lineDirective .cxxBody ++ shown s.names none ((texts .cxxBody).take 1047)) ++
      bodyPart (toUpper s.pfx) (toLower s.pfx) protos objs := by
  unfold templateText
  rw [unlines_app, C108_bodyPart]
  unfold entriesText shownPart
  simp only [List.flatMap_append, lineEntry_written, unlines_app, List.append_assoc]
  rfl

theorem body_text (s : Settings) (protos objs : List Proto) : templateText s protos objs .commonBody ++ templateText s protos objs .cxxBody =
    entriesText (toUpper s.pfx) (toLower s.pfx) protos objs (bodyEntries s.lineDirective s.names) ++ bodyPart (toUpper s.pfx) (toLower s.pfx) protos objs := by
  rw [shared_text, own_text]
  unfold entriesText bodyEntries
  simp only [List.flatMap_append, unlines_app, List.append_assoc]

/-! ### The names -/

/-- What may be asked about the names, with all the text of the templates: none of them is
defined there for something else. -/
structure AllNames (u l : Str) (protos objs : List Proto) : Prop extends Names u l protos objs where
  free : ∀ p ∈ protos ++ objs, p.symbol ∉ [str% "_T", str% "_countof", str% "_" ++ (u ++ str% "_WRAP_CHECK_LOADED")]
  under : l ∉ [str% "_T", str% "_countof"]
  plain : ∀ p ∈ protos, p.symbol ∉ encodings

/-- The names that they define for each function. -/
def okNamed (n : Str) : Bool := n == str% "GDO_HOOK_" ++ symbolWord

theorem not_symbolName {u l : Str} {protos objs : List Proto} {y : Str} (h1 : y ≠ l)
    (h2 : ∀ x ∈ [str% "WRAP_FUNCTIONS", str% "ENABLE_AUTOLOAD", str% "SEPARATE", str% "INCLUDED_IN_BODY", str% "DISABLE_ALIASING", str% "WRAP_VISIBILITY", str% "WRAP_IS_VISIBLE",
      str% "FUNC_ALIAS"], y ≠ u ++ (str% "_" ++ x)) (h3 : ∀ p ∈ protos ++ objs, y ≠ p.symbol)
    (h4 : ∀ s, y ≠ u ++ (str% "_" ++ (str% "RAWPTR_" ++ s)) ∧ y ≠ u ++ (str% "_" ++ (str% "PTR_" ++ s))) : y ∉ symbolNames u l protos objs := by
  intro hm
  unfold symbolNames at hm
  rcases List.mem_cons.mp hm with h | h
  · exact h1 h
  rcases List.mem_append.mp h with h | h
  · obtain ⟨x, hx, e⟩ := List.mem_map.mp h
    exact h2 x hx e.symm
  · obtain ⟨p, hp, h⟩ := List.mem_flatMap.mp h
    simp only [List.mem_cons, List.not_mem_nil, or_false] at h
    rcases h with h | h | h
    · exact h3 p hp h
    · exact (h4 _).1 h
    · exact (h4 _).2 h

theorem plain_free {u l : Str} {protos objs : List Proto} (hN : AllNames u l protos objs) {n : Str} (h : okPlain n = true) : newName u l n ∉ symbolNames u l protos objs := by
  unfold okPlain at h
  simp only [Bool.or_eq_true, beq_iff_eq] at h
  have fixed : ∀ y ∈ [str% "_T", str% "_countof"], newName u l y = y ∧ '_' ∉ y.tail := by
    intro y hy
    refine ⟨newName_fixed ?_, ?_⟩ <;> revert y <;> decide
  have done : ∀ y ∈ [str% "_T", str% "_countof"], newName u l y ∉ symbolNames u l protos objs := by
    intro y hy
    obtain ⟨e1, e3⟩ := fixed y hy
    rw [e1]
    refine not_symbolName (fun e => hN.under (e ▸ hy)) (fun x _ e => e3 (line_in e hN.prefixes.upper_ne)) (fun p hp e => ?_)
      fun s => ⟨fun e => e3 (line_in e hN.prefixes.upper_ne), fun e => e3 (line_in e hN.prefixes.upper_ne)⟩
    have := hN.free p hp
    rw [← e] at this
    refine this ?_
    simp only [List.mem_cons, List.not_mem_nil, or_false] at hy ⊢
    rcases hy with rfl | rfl <;> simp
  rcases h with ((h | rfl) | rfl) | rfl
  · obtain ⟨x, hx, rfl⟩ : ∃ x ∈ [str% "DECL", str% "OBJ_DECL", str% "BUILTIN_VA_ARG_PACK", str% "XHS", str% "LINKAGE", str% "OBJ_LINKAGE", str% "UNUSED_REF", str% "SNPRINTF",
        str% "SET_LAST_ERRNO"], n = str% "GDO_" ++ x := by
      have h' : n ∈ ownNames := by simpa using h
      refine ⟨n.drop 4, ?_, ?_⟩ <;> clear h <;> revert n <;> decide
    rw [newName_upper]
    refine not_symbolName (fun e => hN.space' x e.symm) (fun y hy e => ?_) (fun p hp e => hN.own p hp x e.symm) fun s => ⟨fun e => ?_, fun e => ?_⟩
    · have := prefixed_inj e
      subst this
      revert hy hx
      clear e h hN
      revert x
      decide
    · have := congrArg (List.take 2) (prefixed_inj e)
      revert this
      clear e h
      revert x
      simp
    · have := congrArg (List.take 2) (prefixed_inj e)
      revert this
      clear e h
      revert x
      simp
  · exact done _ (by simp)
  · exact done _ (by simp)
  · have e1 : newName u l (str% "_GDO_WRAP_CHECK_LOADED") = str% "_" ++ (u ++ (str% "_" ++ str% "WRAP_CHECK_LOADED")) := by
      rw [show str% "_GDO_WRAP_CHECK_LOADED" = str% "_GDO_" ++ str% "WRAP_CHECK_LOADED" from rfl, newName_under, List.append_assoc]
    rw [e1]
    have other : ∀ {y : Str}, (y.head? ≠ some '_') → str% "_" ++ (u ++ (str% "_" ++ str% "WRAP_CHECK_LOADED")) ≠ u ++ (str% "_" ++ y) := by
      intro y hy e
      have := under_rotate (u := u) (a := str% "_WRAP_CHECK_LOADED") (b := y) e
      rw [(List.cons.inj this).2.symm] at hy
      exact hy rfl
    refine not_symbolName (fun e => ?_) (fun x hx => other ?_) (fun p hp e => ?_) fun s => ⟨other (by simp), other (by simp)⟩
    · have := congrArg List.length e
      rw [hN.same] at this
      simp at this
      omega
    · revert x
      decide
    · have := hN.free p hp
      rw [← e] at this
      exact this (by simp)

theorem named_free {u l : Str} {protos objs : List Proto} (hN : AllNames u l protos objs) {p : Proto} (hp : p ∈ protos) {n : Str} (h : okNamed n = true) :
    ren u l p.symbol n ∉ symbolNames u l protos objs := by
  unfold okNamed at h
  rw [beq_iff_eq] at h
  subst h
  have e : ren u l p.symbol (str% "GDO_HOOK_" ++ symbolWord) = u ++ (str% "_" ++ (str% "HOOK_" ++ p.symbol)) := by
    rw [ren_word _ (by decide), show str% "GDO_HOOK_" = str% "GDO_" ++ str% "HOOK_" from rfl, newName_upper]
    simp
  rw [e]
  refine not_symbolName (fun e => hN.space' _ e.symm) (fun y hy e => ?_) (fun q hq e => hN.own q hq _ e.symm) fun s => ⟨fun e => ?_, fun e => ?_⟩
  · have this := congrArg (List.take 5) (prefixed_inj e)
    revert this
    clear e
    revert y
    simp
  · have := prefixed_inj e
    simp at this
  · have := prefixed_inj e
    simp at this

/-! ### The text between -/

theorem lead_walk (on : Bool) : walkEntries okPlain okNamed ⟨.code, [], []⟩ (leadEntries on) = some ⟨.code, [], []⟩ := by
  cases on <;> decide +kernel

theorem mid_walk (names : ParamNames) : walkEntries okPlain okNamed ⟨.code, [], []⟩ (midEntries names) = some ⟨.code, [], []⟩ := by
  cases names <;> decide +kernel

theorem common_walk (on : Bool) : walkEntries okPlain okNamed ⟨.code, [], []⟩ (lineEntry on .commonBody ++ texts .commonBody) = some ⟨.code, [], []⟩ := by
  cases on <;> decide +kernel

theorem body_plain : ((texts .cxxBody).take 974).all (fun d => markerLine d == none) = true := by decide +kernel

theorem body_walk1 : walkEntries okPlain okNamed ⟨.code, [], []⟩ ((texts .cxxBody).take 96) = some ⟨.code, [], []⟩ := by decide +kernel

theorem body_walk2 : walkEntries okPlain okNamed ⟨.code, [], []⟩ (((texts .cxxBody).drop 96).take 403) = some ⟨.code, [], []⟩ := by decide +kernel

theorem body_walk3 : walkEntries okPlain okNamed ⟨.code, [], []⟩ (((texts .cxxBody).drop 499).take 236) = some ⟨.code, [], []⟩ := by decide +kernel

theorem body_walk4 : walkEntries okPlain okNamed ⟨.code, [], []⟩ (((texts .cxxBody).drop 735).take 239) = some ⟨.code, [], []⟩ := by decide +kernel

theorem body_walk5 (names : ParamNames) : walkEntries okPlain okNamed ⟨.code, [], []⟩ (shown names none (((texts .cxxBody).drop 974).take 73)) = some ⟨.code, [], []⟩ := by
  cases names <;> decide +kernel

theorem own_walk (on : Bool) (names : ParamNames) :
    walkEntries okPlain okNamed ⟨.code, [], []⟩ (lineEntry on .cxxBody ++ shown names none ((texts .cxxBody).take 1047)) = some ⟨.code, [], []⟩ := by
  refine walkEntries_append (w' := ⟨.code, [], []⟩) (by cases on <;> decide +kernel) ?_
  rw [show 1047 = 974 + 73 from rfl, List.take_add, shown_plain names fun d hd => eq_of_beq (List.all_eq_true.mp body_plain d hd)]
  exact walkEntries_append (walk_take 735 239 (walk_take 499 236 (walk_take 96 403 body_walk1 body_walk2) body_walk3) body_walk4) (body_walk5 names)

theorem body_walk (on : Bool) (names : ParamNames) : walkEntries okPlain okNamed ⟨.code, [], []⟩ (bodyEntries on names) = some ⟨.code, [], []⟩ := by
  unfold bodyEntries
  rw [← List.append_assoc]
  exact walkEntries_append (common_walk on) (own_walk on names)

/-! ### C108 -/

variable {E : Str → Option Macro} {inc : List T → Table} {protos objs : List Proto}

theorem entries_harmless {u l : Str} (hN : AllNames u l protos objs) (hc : ∀ p ∈ protos ++ objs, CalmProto p)
    (hinc : ∀ r, ∀ y ∈ symbolNames u l protos objs, (inc r).lookup y = none) {ds : List Str} (h : walkEntries okPlain okNamed ⟨.code, [], []⟩ ds = some ⟨.code, [], []⟩) :
    Harmless inc (symbolNames u l protos objs) (entriesText u l protos objs ds) :=
  walk_harmless ⟨hN.prefixes, hinc, fun _ => plain_free hN⟩ hc (fun p hp => ⟨hN.functions p hp, hN.plain p hp⟩) (fun _ hp _ => named_free hN hp) h

theorem Stands.front {E E1 E' : Str → Option Macro} {u l : Str} {a b w : Bool} (h : ∀ x ∈ symbolNames u l protos objs, E1 x = E x)
    (hs : Stands E1 E' u l protos objs a b w) : Stands E E' u l protos objs a b w := by
  have sym : ∀ p ∈ protos ++ objs, E1 p.symbol = E p.symbol := fun p hp =>
    h _ (List.mem_cons_of_mem _ (List.mem_append_right _ (List.mem_flatMap.mpr ⟨p, hp, by simp⟩)))
  refine ⟨hs.raw, hs.wrapper, hs.function, hs.renamed, fun ha p hp => ?_, hs.object, fun hb p hp => ?_⟩
  · rw [hs.noFunction ha p hp, sym p (List.mem_append_left _ hp)]
  · rw [hs.noObject hb p hp, sym p (List.mem_append_right _ hp)]

theorem has_front {E E1 : Str → Option Macro} {u l x : Str} (h : ∀ x ∈ symbolNames u l protos objs, E1 x = E x) (hx : x ∈ configNames) : Has E1 u x = Has E u x := by
  unfold Has
  rw [h]
  refine List.mem_cons_of_mem _ (List.mem_append_left _ (List.mem_map.mpr ⟨x, ?_, rfl⟩))
  unfold configNames at hx
  simp only [List.mem_cons, List.not_mem_nil, or_false] at hx ⊢
  rcases hx with h | h | h | h | h | h | h <;> simp [h]

/-- What must be known about the text that the templates are put in: the settings, the
names, plain data, and that neither headers nor the text before define the names used. -/
structure Placed (s : Settings) (inc : List T → Table) (E : Str → Option Macro) (protos objs : List Proto) : Prop where
  names : AllNames (toUpper s.pfx) (toLower s.pfx) protos objs
  calm : ∀ p ∈ protos ++ objs, CalmProto p
  headers : ∀ r, ∀ y ∈ symbolNames (toUpper s.pfx) (toLower s.pfx) protos objs, (inc r).lookup y = none
  space : E (toLower s.pfx) = none
  members : ∀ p ∈ protos ++ objs, E (toUpper s.pfx ++ (str% "_" ++ (str% "PTR_" ++ p.symbol))) = none

theorem Placed.front {s : Settings} {E1 : Str → Option Macro} (h : Placed s inc E protos objs)
    (h1 : ∀ x ∈ symbolNames (toUpper s.pfx) (toLower s.pfx) protos objs, E1 x = E x) : Placed s inc E1 protos objs := by
  refine ⟨h.names, h.calm, h.headers, ?_, fun p hp => ?_⟩
  · rw [h1 _ (List.mem_cons_self ..), h.space]
  · rw [h1 _ (List.mem_cons_of_mem _ (List.mem_append_right _ (List.mem_flatMap.mpr ⟨p, hp, by simp⟩))), h.members p hp]

/-- What the names stand for behind all of `cxx.hpp`, in the header of separate output. -/
theorem C108_header_file (s : Settings) (h : Placed s inc E protos objs) :
    ∃ E', after inc E (templateText s protos objs .cxxHeader) = some E' ∧
      Stands E E' (toUpper s.pfx) (toLower s.pfx) protos objs
        (Has E (toUpper s.pfx) (str% "SEPARATE") && !Has E (toUpper s.pfx) (str% "INCLUDED_IN_BODY") && !Has E (toUpper s.pfx) (str% "DISABLE_ALIASING") &&
          !Has E (toUpper s.pfx) (str% "WRAP_VISIBILITY"))
        (Has E (toUpper s.pfx) (str% "SEPARATE") && !Has E (toUpper s.pfx) (str% "INCLUDED_IN_BODY") && !Has E (toUpper s.pfx) (str% "DISABLE_ALIASING"))
        (Has E (toUpper s.pfx) (str% "WRAP_FUNCTIONS") || Has E (toUpper s.pfx) (str% "ENABLE_AUTOLOAD")) := by
  have hh := fun {ds} => entries_harmless (ds := ds) h.names h.calm h.headers
  obtain ⟨E1, h1, e1⟩ := after_lead (E := E) (b := pointerPart (toUpper s.pfx) (toLower s.pfx) protos objs ++
    (entriesText (toUpper s.pfx) (toLower s.pfx) protos objs (midEntries s.names) ++ headerPart (toUpper s.pfx) (toLower s.pfx) protos objs)) (hh (lead_walk s.lineDirective))
  rw [header_text, e1]
  have h' := h.front h1
  obtain ⟨E', r1, r2⟩ := C108_header h'.names.toNames h'.space h'.members (hh (mid_walk s.names))
  refine ⟨E', r1, ?_⟩
  have r3 := r2.front h1
  simp only [has_front h1 (show str% "SEPARATE" ∈ configNames from by decide), has_front h1 (show str% "INCLUDED_IN_BODY" ∈ configNames from by decide),
    has_front h1 (show str% "DISABLE_ALIASING" ∈ configNames from by decide), has_front h1 (show str% "WRAP_VISIBILITY" ∈ configNames from by decide),
    has_front h1 (show str% "WRAP_FUNCTIONS" ∈ configNames from by decide), has_front h1 (show str% "ENABLE_AUTOLOAD" ∈ configNames from by decide)] at r3
  exact r3

/-- All of `cxx.hpp`, `common.c` and `cxx.cpp`. -/
theorem all_text (s : Settings) (h : Placed s inc E protos objs) :
    ∃ E1 mid mid', (∀ x ∈ symbolNames (toUpper s.pfx) (toLower s.pfx) protos objs, E1 x = E x) ∧ Harmless inc (symbolNames (toUpper s.pfx) (toLower s.pfx) protos objs) mid ∧
      Harmless inc (symbolNames (toUpper s.pfx) (toLower s.pfx) protos objs) mid' ∧
      after inc E (templateText s protos objs .cxxHeader ++ templateText s protos objs .commonBody ++ templateText s protos objs .cxxBody) =
        after inc E1 (pointerPart (toUpper s.pfx) (toLower s.pfx) protos objs ++ (mid ++ (headerPart (toUpper s.pfx) (toLower s.pfx) protos objs ++
          (mid' ++ bodyPart (toUpper s.pfx) (toLower s.pfx) protos objs)))) := by
  have hh := fun {ds} => entries_harmless (ds := ds) h.names h.calm h.headers
  obtain ⟨E1, h1, e1⟩ := after_lead (E := E) (b := pointerPart (toUpper s.pfx) (toLower s.pfx) protos objs ++
    (entriesText (toUpper s.pfx) (toLower s.pfx) protos objs (midEntries s.names) ++ (headerPart (toUpper s.pfx) (toLower s.pfx) protos objs ++
      (entriesText (toUpper s.pfx) (toLower s.pfx) protos objs (bodyEntries s.lineDirective s.names) ++ bodyPart (toUpper s.pfx) (toLower s.pfx) protos objs))))
    (hh (lead_walk s.lineDirective))
  refine ⟨E1, _, _, h1, hh (mid_walk s.names), hh (body_walk s.lineDirective s.names), ?_⟩
  rw [← e1, List.append_assoc, header_text, body_text]
  simp only [List.append_assoc]

/-- What the names stand for in the body of separate output: nothing is renamed in it. -/
theorem C108_body_file (s : Settings) (h : Placed s inc E protos objs) (h3 : Has E (toUpper s.pfx) (str% "SEPARATE") = true)
    (h4 : Has E (toUpper s.pfx) (str% "INCLUDED_IN_BODY") = true) :
    ∃ E', after inc E (templateText s protos objs .cxxHeader ++ templateText s protos objs .commonBody ++ templateText s protos objs .cxxBody) = some E' ∧
      Stands E E' (toUpper s.pfx) (toLower s.pfx) protos objs false false (Has E (toUpper s.pfx) (str% "WRAP_FUNCTIONS") || Has E (toUpper s.pfx) (str% "ENABLE_AUTOLOAD")) := by
  obtain ⟨E1, mid, mid', h1, m1, m2, e⟩ := all_text s h
  have h' := h.front h1
  obtain ⟨E', r1, r2⟩ := C108_body h'.names.toNames h'.space h'.members m1 m2 ((has_front h1 (by decide)).trans h3) ((has_front h1 (by decide)).trans h4)
  refine ⟨E', e.trans r1, ?_⟩
  have r3 := r2.front h1
  simp only [has_front h1 (show str% "WRAP_FUNCTIONS" ∈ configNames from by decide), has_front h1 (show str% "ENABLE_AUTOLOAD" ∈ configNames from by decide)] at r3
  exact r3

/-- What the names stand for behind all the text of a single file, in which `common.c` comes
first. -/
theorem C108_single_file (s : Settings) (h : Placed s inc E protos objs) (h3 : Has E (toUpper s.pfx) (str% "SEPARATE") = false) :
    ∃ E', after inc E (templateText s protos objs .commonBody ++ templateText s protos objs .cxxHeader ++ templateText s protos objs .cxxBody) = some E' ∧
      Stands E E' (toUpper s.pfx) (toLower s.pfx) protos objs (!Has E (toUpper s.pfx) (str% "DISABLE_ALIASING") && !Has E (toUpper s.pfx) (str% "WRAP_VISIBILITY"))
        (!Has E (toUpper s.pfx) (str% "DISABLE_ALIASING")) (Has E (toUpper s.pfx) (str% "WRAP_FUNCTIONS") || Has E (toUpper s.pfx) (str% "ENABLE_AUTOLOAD")) := by
  have hh := fun {ds} => entries_harmless (ds := ds) h.names h.calm h.headers
  obtain ⟨E0, h0, e0⟩ := after_lead (E := E) (b := templateText s protos objs .cxxHeader ++ templateText s protos objs .cxxBody) (hh (common_walk s.lineDirective))
  obtain ⟨E1, h1, e1⟩ := after_lead (E := E0) (b := pointerPart (toUpper s.pfx) (toLower s.pfx) protos objs ++
    (entriesText (toUpper s.pfx) (toLower s.pfx) protos objs (midEntries s.names) ++ (headerPart (toUpper s.pfx) (toLower s.pfx) protos objs ++
      (entriesText (toUpper s.pfx) (toLower s.pfx) protos objs (lineEntry s.lineDirective .cxxBody ++ shown s.names none ((texts .cxxBody).take 1047)) ++
        bodyPart (toUpper s.pfx) (toLower s.pfx) protos objs))))
    (hh (lead_walk s.lineDirective))
  have h1 : ∀ x ∈ symbolNames (toUpper s.pfx) (toLower s.pfx) protos objs, E1 x = E x := fun x hx => (h1 x hx).trans (h0 x hx)
  have h' := h.front h1
  obtain ⟨E', r1, r2⟩ := C108_single h'.names.toNames h'.space h'.members (hh (mid_walk s.names)) (hh (own_walk s.lineDirective s.names)) ((has_front h1 (by decide)).trans h3)
  refine ⟨E', ?_, ?_⟩
  · rw [List.append_assoc, shared_text, e0, header_text, own_text]
    simp only [List.append_assoc]
    exact e1.trans r1
  · have r3 := r2.front h1
    simp only [has_front h1 (show str% "DISABLE_ALIASING" ∈ configNames from by decide), has_front h1 (show str% "WRAP_VISIBILITY" ∈ configNames from by decide),
      has_front h1 (show str% "WRAP_FUNCTIONS" ∈ configNames from by decide), has_front h1 (show str% "ENABLE_AUTOLOAD" ∈ configNames from by decide)] at r3
    exact r3

end Gdo.Cpp.Cxx
