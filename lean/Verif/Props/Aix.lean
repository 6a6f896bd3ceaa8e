import Verif.Model.Aix

/-!
Property C70: the path of the library on AIX.
-/

namespace Gdo.Aix
open Gdo Rt

/-! ### The specification -/

/-- The list of loaded modules in the buffer, from an offset on. -/
inductive Chain (buf : Nat → Option LdInfo) : Nat → List LdInfo → Prop where
  | last {off : Nat} {e : LdInfo} : buf off = some e → e.next = 0 → Chain buf off [e]
  | more {off : Nat} {e : LdInfo} {es : List LdInfo} : buf off = some e → e.next ≠ 0 → Chain buf (off + e.next) es →
      Chain buf off (e :: es)

/-- The address belongs to the code or the data of the module. -/
def LdInfo.Holds (e : LdInfo) (a : Nat) : Prop :=
  (e.textorg ≤ a ∧ a < e.textorg + e.textsize) ∨ (e.dataorg ≤ a ∧ a < e.dataorg + e.datasize)

/-- How a module is named: `path` or `path(member)`. -/
def LdInfo.shown (e : LdInfo) : Str := if e.member = [] then e.path else e.path ++ '(' :: e.member ++ [')']

/-! ### The search -/

theorem covers_iff (e : LdInfo) (a : Nat) : covers e a = true ↔ LdInfo.Holds e a := by
  simp [covers, LdInfo.Holds]

theorem parse_chain {buf : Nat → Option LdInfo} {a : Nat} {off : Nat} {es : List LdInfo} (h : Chain buf off es) (n : Nat)
    (hn : es.length ≤ n) :
    parse buf a n off = some ((es.find? fun e => covers e a).filter fun e => decide (e.path ≠ [])) := by
  induction h generalizing n with
  | last hb h0 =>
    rename_i e
    match n, hn with
    | n + 1, _ =>
      simp only [parse, hb]
      cases hc : covers e a with
      | true => by_cases hp : e.path = [] <;> simp [hc, hp, Option.filter]
      | false => simp [hc, h0]
  | more hb h0 _ ih =>
    rename_i e es _
    match n, hn with
    | n + 1, hn =>
      simp only [parse, hb]
      cases hc : covers e a with
      | true => by_cases hp : e.path = [] <;> simp [hc, hp, Option.filter]
      | false => simp only [Bool.false_eq_true, if_false, h0, ih n (by simpa using hn)]; simp [hc]

theorem fromSymptr_some {buf : Nat → Option LdInfo} {es : List LdInfo} (h : Chain buf 0 es) {n : Nat} (hn : es.length ≤ n)
    (p : Option Ptr) : ∃ r, fromSymptr buf n p = some r ∧
      ∀ t, r = some t → ∃ a e, p = some a ∧ e ∈ es ∧ LdInfo.Holds e a ∧ t = LdInfo.shown e ∧ t ≠ [] ∧ t.length + 1 ≤ bufLen := by
  cases p with
  | none => exact ⟨none, rfl, by simp⟩
  | some a =>
    simp only [fromSymptr, parse_chain h n hn, bind, Option.bind]
    cases hf : (es.find? fun e => covers e a).filter fun e => decide (e.path ≠ []) with
    | none => exact ⟨none, rfl, by simp⟩
    | some e =>
      rw [Option.filter_eq_some_iff] at hf
      have hm := List.mem_of_find?_eq_some hf.1
      have hc : LdInfo.Holds e a := (covers_iff e a).mp (List.find?_some (p := fun e => covers e a) hf.1)
      have hp : e.path ≠ [] := by simpa using hf.2
      by_cases hmem : e.member = []
      · by_cases hl : e.path.length + 1 > bufLen
        · exact ⟨none, by simp [hmem, hl], by simp⟩
        · refine ⟨some e.path, by simp [hmem, hl], ?_⟩
          rintro t ⟨⟩
          exact ⟨a, e, rfl, hm, hc, by simp [LdInfo.shown, hmem], hp, by omega⟩
      · by_cases hl : e.path.length + e.member.length + 3 > bufLen
        · exact ⟨none, by simp [hmem, hl], by simp⟩
        · refine ⟨some (e.path ++ str% "(" ++ e.member ++ str% ")"), by simp [hmem, hl], ?_⟩
          rintro t ⟨⟩
          exact ⟨a, e, rfl, hm, hc, by simp [LdInfo.shown, hmem], by simp, by simp; omega⟩

theorem firstPath_some {buf : Nat → Option LdInfo} {es : List LdInfo} (h : Chain buf 0 es) {n : Nat} (hn : es.length ≤ n)
    (ps : List (Option Ptr)) : ∃ r, firstPath buf n ps = some r ∧
      ∀ t, r = some t → ∃ a e, some a ∈ ps ∧ e ∈ es ∧ LdInfo.Holds e a ∧ t = LdInfo.shown e ∧ t ≠ [] ∧ t.length + 1 ≤ bufLen := by
  induction ps with
  | nil => exact ⟨none, rfl, by simp⟩
  | cons p ps ih =>
    obtain ⟨r, hr, hs⟩ := fromSymptr_some h hn p
    simp only [firstPath, hr, bind, Option.bind]
    cases r with
    | some t =>
      refine ⟨some t, rfl, ?_⟩
      rintro _ ⟨⟩
      obtain ⟨a, e, h1, h2⟩ := hs t rfl
      exact ⟨a, e, by simp [h1], h2⟩
    | none =>
      obtain ⟨r, hr, hs⟩ := ih
      refine ⟨r, hr, fun t ht => ?_⟩
      obtain ⟨a, e, h1, h2⟩ := hs t ht
      exact ⟨a, e, by simp [h1], h2⟩

/-- A path that fits exists for some symbol: it is found. -/
theorem firstPath_found {buf : Nat → Option LdInfo} {es : List LdInfo} (h : Chain buf 0 es) {n : Nat} (hn : es.length ≤ n)
    {ps : List (Option Ptr)} {a : Ptr} (ha : some a ∈ ps) {e : LdInfo} (he : e ∈ es) (hc : LdInfo.Holds e a)
    (hu : ∀ k ∈ es, LdInfo.Holds k a → k = e) (hp : e.path ≠ []) (hl : (LdInfo.shown e).length + 1 ≤ bufLen) :
    ∃ t, firstPath buf n ps = some (some t) := by
  induction ps with
  | nil => simp at ha
  | cons p ps ih =>
    obtain ⟨r, hr, -⟩ := fromSymptr_some h hn p
    simp only [firstPath, hr, bind, Option.bind]
    cases r with
    | some t => exact ⟨t, rfl⟩
    | none =>
      rcases List.mem_cons.mp ha with h1 | h1
      · exfalso
        subst h1
        have hf : (es.find? fun e => covers e a) = some e := by
          cases hx : es.find? fun e => covers e a with
          | none =>
            have := List.find?_eq_none.mp hx e he
            exact absurd ((covers_iff e a).mpr hc) this
          | some k => rw [hu k (List.mem_of_find?_eq_some hx) ((covers_iff k a).mp (List.find?_some (p := fun e => covers e a) hx))]
        simp only [fromSymptr, parse_chain h n hn, bind, Option.bind, hf, Option.filter, decide_eq_true_eq, hp, ne_eq,
          not_false_eq_true, if_true] at hr
        by_cases hmem : e.member = []
        · simp only [LdInfo.shown, hmem, if_true] at hl
          simp [hmem, show ¬ bufLen < e.path.length + 1 by omega] at hr
        · simp only [LdInfo.shown, hmem, if_false, List.length_append, List.length_cons, List.length_nil] at hl
          simp [hmem, show ¬ bufLen < e.path.length + e.member.length + 3 by omega] at hr
      · exact ih h1

/-! ### The property -/

/-- The call never reads outside of the list of modules, and a path that was not there
    before is that of a module around a loaded symbol; it fits into the buffer. -/
theorem C70_path {C : Cfg} {buf : Nat → Option LdInfo} {es : List LdInfo} (h : Chain buf 0 es) {n : Nat} (hn : es.length ≤ n)
    (s : St) (hs : s.libpath = []) : ∃ r, libraryPath C (some buf) n s = some r ∧
      ∀ t, r.1 = some t → s.handle.isSome = true ∧ r.2.libpath = t ∧
        ∃ i a e, i < C.syms.length ∧ s.ptr i = some a ∧ e ∈ es ∧ LdInfo.Holds e a ∧ t = LdInfo.shown e ∧ t.length + 1 ≤ bufLen := by
  unfold libraryPath
  have hc : (clearError s).libpath = [] := hs
  cases hl : libIsLoaded (clearError s) with
  | false => exact ⟨(none, noLibrary (clearError s)), by simp [hl], by simp⟩
  | true =>
    have hh : s.handle.isSome = true := hl
    obtain ⟨r, hr, hp⟩ := firstPath_some h hn ((List.range C.syms.length).map (clearError s).ptr)
    simp only [hl, if_true, hc, ne_eq, not_true_eq_false, if_false, queryPath, hr, bind, Option.bind]
    cases hno : noneLoaded C (clearError s) with
    | true => exact ⟨_, by simp; rfl, by simp⟩
    | false =>
      cases r with
      | none => exact ⟨_, by simp; rfl, by simp⟩
      | some t =>
        refine ⟨_, by simp; rfl, ?_⟩
        simp only [Option.some.injEq]
        rintro _ rfl
        obtain ⟨a, e, h1, h2, h3, h4, -, h6⟩ := hp t rfl
        simp only [List.mem_map, List.mem_range] at h1
        obtain ⟨i, hi, hpi⟩ := h1
        exact ⟨hh, rfl, i, a, e, hi, hpi, h2, h3, h4, h6⟩

/-- The path is found if any loaded symbol lies in exactly one module, and this module has
    a name that fits into the buffer. -/
theorem C70_found {C : Cfg} {buf : Nat → Option LdInfo} {es : List LdInfo} (h : Chain buf 0 es) {n : Nat} (hn : es.length ≤ n)
    (s : St) (hh : s.handle.isSome = true) {i : Nat} (hi : i < C.syms.length) {a : Ptr} (ha : s.ptr i = some a) {e : LdInfo}
    (he : e ∈ es) (hc : LdInfo.Holds e a) (hu : ∀ k ∈ es, LdInfo.Holds k a → k = e) (hp : e.path ≠ [])
    (hl : (LdInfo.shown e).length + 1 ≤ bufLen) : ∃ t u, libraryPath C (some buf) n s = some (some t, u) := by
  unfold libraryPath
  have hl' : libIsLoaded (clearError s) = true := hh
  by_cases hs : (clearError s).libpath = []
  · obtain ⟨t, ht⟩ := firstPath_found h hn (ps := (List.range C.syms.length).map (clearError s).ptr) (a := a)
      (by simp only [List.mem_map, List.mem_range]; exact ⟨i, hi, ha⟩) he hc hu hp hl
    have hno : noneLoaded C (clearError s) = false := by
      simp only [noneLoaded, List.all_eq_false, List.mem_range]
      exact ⟨i, hi, by simp [clearError, ha]⟩
    refine ⟨t, { clearError s with libpath := t }, ?_⟩
    simp [hl', hs, queryPath, hno, ht]
  · exact ⟨(clearError s).libpath, clearError s, by simp [hl', hs]⟩

/-- A call that finds no path leaves a message. -/
theorem C70_reported {C : Cfg} {query : Option (Nat → Option LdInfo)} {n : Nat} {s u : St}
    (h : libraryPath C query n s = some (none, u)) : u.errbuf ≠ [] ∧ u.libpath = s.libpath := by
  unfold libraryPath at h
  cases hl : libIsLoaded (clearError s) with
  | false =>
    simp only [hl, Bool.false_eq_true, if_false, Option.some.injEq, Prod.mk.injEq, true_and] at h
    subst h
    exact ⟨by simp [noLibrary, saveToErrbuf, fit, bufLen], rfl⟩
  | true =>
    by_cases hs : (clearError s).libpath = []
    · simp only [hl, if_true, hs, ne_eq, not_true_eq_false, if_false, queryPath, bind, Option.bind] at h
      have hs' : s.libpath = [] := hs
      cases hno : noneLoaded C (clearError s) with
      | true =>
        simp only [hno, if_true] at h
        simp only [pure, Bool.false_eq_true, if_false, Option.some.injEq, Prod.mk.injEq, true_and] at h
        subst h
        exact ⟨by simp [saveToErrbuf, fit, bufLen], by simp [hs']⟩
      | false =>
        cases query with
        | none =>
          simp only [hno, pure, Bool.false_eq_true, if_false, Option.some.injEq, Prod.mk.injEq, true_and] at h
          subst h
          exact ⟨by simp [saveToErrbuf, fit, bufLen], by simp [hs']⟩
        | some buf =>
          simp only [hno, Bool.false_eq_true, if_false] at h
          cases hf : firstPath buf n ((List.range C.syms.length).map (clearError s).ptr) with
          | none => simp [hf] at h
          | some r =>
            cases r with
            | some t => simp [hf, pure] at h
            | none =>
              simp only [hf, pure, Bool.false_eq_true, if_false, Option.some.injEq, Prod.mk.injEq, true_and] at h
              subst h
              exact ⟨by simp [saveToErrbuf, fit, bufLen], by simp [hs']⟩
    · simp [hl, hs] at h

/-! ### Examples -/

def exBuf : Nat → Option LdInfo := fun off =>
  if off = 0 then some ⟨40, 100, 50, 200, 10, str% "/usr/bin/prog", []⟩
  else if off = 40 then some ⟨0, 1000, 50, 2000, 10, str% "/usr/lib/libc.a", str% "shr.o"⟩
  else none

def exList : List LdInfo := [⟨40, 100, 50, 200, 10, str% "/usr/bin/prog", []⟩,
  ⟨0, 1000, 50, 2000, 10, str% "/usr/lib/libc.a", str% "shr.o"⟩]

theorem ex_chain : Chain exBuf 0 exList := .more rfl (by decide) (.last rfl rfl)

def exCfg : Cfg := ⟨[str% "f", str% "g"], [], str% "libc.a(shr.o)", 1, .wrap, false, false, false, str% "gdo_force_free_lib"⟩

def exState : St := { handle := some 1, ptr := fun i => if i = 1 then some 2004 else none }

example : ((libraryPath exCfg (some exBuf) 2 exState).map fun r => r.1) = some (some (str% "/usr/lib/libc.a(shr.o)")) := by decide

example : ∃ t u, libraryPath exCfg (some exBuf) 2 exState = some (some t, u) :=
  C70_found ex_chain (by decide) exState rfl (i := 1) (by decide) (a := 2004) rfl
    (e := ⟨0, 1000, 50, 2000, 10, str% "/usr/lib/libc.a", str% "shr.o"⟩) (by decide) (by simp [LdInfo.Holds])
    (by intro k hk; simp [exList] at hk; rcases hk with rfl | rfl <;> simp [LdInfo.Holds]) (by decide) (by decide)

example : (libraryPath exCfg none 2 exState).map (fun r => (r.1, r.2.errbuf)) =
    some (none, str% "loadquery() failed to get the library path") := by rfl

end Gdo.Aix
