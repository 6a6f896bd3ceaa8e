import Verif.Model.Minimal
import Verif.Lemmas.Runtime

/-!
Properties C49 and C50: the minimal templates.
-/

namespace Gdo.Min
open Gdo Rt RtSpec

/-! A loader for the examples: the library `x` is at 100 the first time and at 200 later,
the library `y` is missing; the symbols `f` and `g` are at 7 and 8, others are missing. -/

def demoLoader : Loader where
  dlopen t n _ _ := if n = str% "y" then (none, some (str% "y: not found")) else (some (if t = 0 then 100 else 200), none)
  dlsym _ _ n := if n = str% "f" then (some 7, none) else if n = str% "g" then (some 8, none) else (none, some n)
  dlclose _ _ := (true, none)
  dlinfo _ _ := (none, none)
  dladdr _ _ := none
  procmap _ _ := none
  atexit _ := true

def demoSyms : List Str := [str% "f", str% "g"]

/-! ### What one call does -/

/-- Looking up `names` in the library `h` returned `ps`. -/
def found (h : Ptr) (names : List Str) (ps : List Ptr) : List Ev := List.zipWith (fun n p => .sym h n (some p)) names ps

theorem loadOne_ptr (L : Loader) (h : Ptr) (i : Nat) (n : Str) (s : St) :
    (loadOne L h i n s).ptr i = (L.dlsym s.clock h n).1 := by simp [loadOne]

theorem free_handle (L : Loader) (syms : List Str) (s : St) : (free L syms s).handle = none := rfl

theorem free_ptr (L : Loader) (syms : List Str) (s : St) {i : Nat} (h : i < syms.length) : (free L syms s).ptr i = none := by
  simp [free, h]

theorem close_ptr (L : Loader) (s : St) : (close L s).ptr = s.ptr := by
  unfold close; split <;> rfl

theorem free_ptr_ge (L : Loader) (syms : List Str) (s : St) {i : Nat} (h : syms.length ≤ i) : (free L syms s).ptr i = s.ptr i := by
  simp [free, close_ptr, show ¬ i < syms.length by omega]

theorem free_log (L : Loader) (syms : List Str) (s : St) {h : Ptr} (hh : s.handle = some h) :
    ∃ ok, (free L syms s).log = s.log ++ [.closed h ok true] := by
  refine ⟨(L.dlclose s.clock h).1, ?_⟩
  simp [free, close, hh]

theorem free_log_none (L : Loader) (syms : List Str) (s : St) (hh : s.handle = none) : (free L syms s).log = s.log := by
  simp [free, close, hh]

theorem loadLoop_none (L : Loader) (syms : List Str) (h : Ptr) (l : List Str) : ∀ (i : Nat) (s t : St),
    s.handle = some h → loadLoop L syms h i l s = (none, t) →
    t.handle = some h ∧ ∃ ps : List Ptr, ps.length = l.length ∧ t.log = s.log ++ found h l ps ∧
      (∀ k, k < l.length → t.ptr (i + k) = ps[k]?) ∧ (∀ j, (∀ k, k < l.length → j ≠ i + k) → t.ptr j = s.ptr j) := by
  induction l with
  | nil =>
    intro i s t hs ht
    simp [loadLoop] at ht
    subst ht
    exact ⟨hs, [], rfl, by simp [found], by simp, by simp⟩
  | cons n r ih =>
    intro i s t hs ht
    rw [loadLoop] at ht
    split at ht
    · rename_i hp
      rw [loadOne_ptr] at hp
      obtain ⟨p, hp⟩ := Option.isSome_iff_exists.mp hp
      obtain ⟨h1, ps, h2, h3, h4, h5⟩ := ih (i + 1) _ t (by simpa [loadOne] using hs) ht
      refine ⟨h1, p :: ps, by simp [h2], ?_, ?_, ?_⟩
      · rw [h3]; simp [loadOne, found, hp]
      · intro k hk
        rcases k with _ | k
        · rw [Nat.add_zero, h5 i (by intro k hk; omega), loadOne_ptr, hp]; rfl
        · have := h4 k (by simpa using hk)
          rw [show i + (k + 1) = i + 1 + k by omega, this]
          rfl
      · intro j hj
        rw [h5 j (fun k hk => by have := hj (k + 1) (by simpa using hk); omega)]
        have : j ≠ i := by simpa using hj 0 (by simp)
        simp [loadOne, this]
    · simp at ht

theorem loadLoop_some (L : Loader) (syms : List Str) (h : Ptr) (l : List Str) : ∀ (i : Nat) (s t : St) (e : Err),
    s.handle = some h → loadLoop L syms h i l s = (some e, t) →
    t.handle = none ∧ (∀ j, j < syms.length → t.ptr j = none) ∧
      (i + l.length ≤ syms.length → ∀ j, syms.length ≤ j → t.ptr j = s.ptr j) ∧
      ∃ (a b : List Str) (n : Str) (ps : List Ptr) (ok : Bool), e = .symbol n ∧ l = a ++ n :: b ∧ ps.length = a.length ∧
        t.log = s.log ++ found h a ps ++ [.sym h n none, .closed h ok true] := by
  induction l with
  | nil => intro i s t e hs ht; simp [loadLoop] at ht
  | cons n r ih =>
    intro i s t e hs ht
    rw [loadLoop] at ht
    split at ht
    · rename_i hp
      rw [loadOne_ptr] at hp
      obtain ⟨p, hp⟩ := Option.isSome_iff_exists.mp hp
      obtain ⟨h1, h2, h3, a, b, m, ps, ok, h4, h5, h6, h7⟩ := ih (i + 1) _ t e (by simpa [loadOne] using hs) ht
      refine ⟨h1, h2, ?_, n :: a, b, m, p :: ps, ok, h4, by simp [h5], by simp [h6], ?_⟩
      · intro hl j hj
        simp at hl
        rw [h3 (by omega) j hj]
        simp [loadOne, show j ≠ i by omega]
      · rw [h7]; simp [loadOne, found, hp]
    · rename_i hp
      rw [loadOne_ptr] at hp
      simp only [Prod.mk.injEq, Option.some.injEq] at ht
      obtain ⟨he, ht⟩ := ht
      subst ht
      obtain ⟨ok, hok⟩ := free_log L syms (loadOne L h i n s) (h := h) (by simpa [loadOne] using hs)
      refine ⟨rfl, fun j hj => free_ptr L syms _ hj, ?_, [], r, n, [], ok, he.symm, rfl, rfl, ?_⟩
      · intro hl j hj
        simp at hl
        rw [free_ptr_ge L syms _ hj]
        simp [loadOne, show j ≠ i by omega]
      · rw [hok]
        simp at hp
        simp [loadOne, found, hp]

/-! ### C49 -/

/-- If loading succeeds, in whatever state it was started, then the library was opened,
    every symbol was looked up in it in order, and every symbol pointer is what the loader
    returned for that symbol and not NULL. -/
theorem C49_success (L : Loader) (syms : List Str) (name : Option Str) (s t : St) (h : load L syms name s = (none, t)) :
    ∃ (n : Str) (hd : Ptr) (ps : List Ptr), name = some n ∧ n ≠ [] ∧ (L.dlopen s.clock n rtldLazy false).1 = some hd ∧
      t.handle = some hd ∧ ps.length = syms.length ∧ t.log = s.log ++ .opened hd :: found hd syms ps ∧
      ∀ i, i < syms.length → t.ptr i = ps[i]? ∧ (t.ptr i).isSome := by
  match name with
  | none => simp [load] at h
  | some [] => simp [load] at h
  | some (c :: n) =>
    simp only [load] at h
    cases ho : (L.dlopen s.clock (c :: n) rtldLazy false).1 with
    | none => simp [openLib, ho] at h
    | some hd =>
      have hh : (openLib L (c :: n) s).handle = some hd := by simp [openLib, ho]
      rw [hh] at h
      obtain ⟨h1, ps, h2, h3, h4, _⟩ := loadLoop_none L syms hd syms 0 _ t hh h
      refine ⟨_, hd, ps, rfl, by simp, ho, h1, h2, by rw [h3]; simp [openLib, ho], ?_⟩
      intro i hi
      have := h4 i hi
      rw [Nat.zero_add] at this
      refine ⟨this, ?_⟩
      rw [this]
      simp [h2, hi]

example : ∃ t, load demoLoader demoSyms (some (str% "x")) {} = (none, t) ∧ t.handle = some 100 ∧ t.ptr 0 = some 7 ∧ t.ptr 1 = some 8 :=
  ⟨_, rfl, rfl, rfl, rfl⟩

/-- If loading fails at a symbol, in whatever state it was started: the symbol named is the
    first one that the library does not have, the library just opened was closed, the
    handle and all symbol pointers are NULL. -/
theorem C49_symbol (L : Loader) (syms : List Str) (name : Option Str) (s t : St) (n : Str)
    (h : load L syms name s = (some (.symbol n), t)) :
    t.handle = none ∧ (∀ i, i < syms.length → t.ptr i = none) ∧
      ∃ (hd : Ptr) (a b : List Str) (ps : List Ptr) (ok : Bool), syms = a ++ n :: b ∧ ps.length = a.length ∧
        t.log = s.log ++ .opened hd :: found hd a ps ++ [.sym hd n none, .closed hd ok true] := by
  match name with
  | none => simp [load] at h
  | some [] => simp [load] at h
  | some (c :: m) =>
    simp only [load] at h
    cases ho : (L.dlopen s.clock (c :: m) rtldLazy false).1 with
    | none => simp [openLib, ho] at h
    | some hd =>
      have hh : (openLib L (c :: m) s).handle = some hd := by simp [openLib, ho]
      rw [hh] at h
      obtain ⟨h1, h2, _, a, b, n', ps, ok, h4, h5, h6, h7⟩ := loadLoop_some L syms hd syms 0 _ t _ hh h
      injection h4 with h4
      subst h4
      exact ⟨h1, h2, hd, a, b, ps, ok, h5, h6, by rw [h7]; simp [openLib, ho]⟩

example : ∃ t, load demoLoader [str% "f", str% "h", str% "g"] (some (str% "x")) {} = (some (.symbol (str% "h")), t) ∧
    t.log = [.opened 100, .sym 100 (str% "f") (some 7), .sym 100 (str% "h") none, .closed 100 true true] := ⟨_, rfl, rfl⟩

/-- The error tells what happened: no name, an empty name, the library could not be opened
    or a symbol is missing. -/
theorem C49_reason (L : Loader) (syms : List Str) (name : Option Str) (s t : St) (e : Err) (h : load L syms name s = (some e, t)) :
    (e = .null ∧ name = none ∧ t = s) ∨ (e = .empty ∧ name = some [] ∧ t = s) ∨
      (∃ n, e = .library n ∧ name = some n ∧ n ≠ [] ∧ (L.dlopen s.clock n rtldLazy false).1 = none ∧ t.log = s.log) ∨
      ∃ n, e = .symbol n ∧ n ∈ syms := by
  match name with
  | none => simp [load] at h; exact .inl ⟨h.1.symm, rfl, h.2.symm⟩
  | some [] => simp [load] at h; exact .inr (.inl ⟨h.1.symm, rfl, h.2.symm⟩)
  | some (c :: m) =>
    simp only [load] at h
    cases ho : (L.dlopen s.clock (c :: m) rtldLazy false).1 with
    | none =>
      simp [openLib, ho] at h
      exact .inr (.inr (.inl ⟨_, h.1.symm, rfl, by simp, ho, by rw [← h.2]⟩))
    | some hd =>
      have hh : (openLib L (c :: m) s).handle = some hd := by simp [openLib, ho]
      rw [hh] at h
      obtain ⟨h1, h2, _, a, b, n', ps, ok, h4, h5, h6, h7⟩ := loadLoop_some L syms hd syms 0 _ t _ hh h
      exact .inr (.inr (.inr ⟨n', h4, by rw [h5]; simp⟩))

example : load demoLoader demoSyms none {} = (some .null, {}) ∧ load demoLoader demoSyms (some []) {} = (some .empty, {}) ∧
    (load demoLoader demoSyms (some (str% "y")) {}).1 = some (.library (str% "y")) := ⟨rfl, rfl, rfl⟩

/-- The texts of different errors differ, but the name of the library is not told; the
    text for a symbol ends in its name. -/
theorem C49_text (a b : Err) : (a.text = b.text ↔ a = b ∨ ∃ m n, a = .library m ∧ b = .library n) ∧ a.text ≠ [] ∧
    ∀ n, a = .symbol n → ∃ u, a.text = u ++ n := by
  refine ⟨?_, ?_, ?_⟩
  · cases a <;> cases b <;> simp [Err.text]
  · cases a <;> simp [Err.text]
  · rintro n rfl
    exact ⟨_, rfl⟩

/-- The exceptions name the library or the symbol, and their class tells which it was. -/
theorem C49_exception (e : Err) : (∀ n, e = .library n → e.exn = .libraryError n) ∧
    (∀ n, e.exn = .symbolError n ↔ e = .symbol n) ∧ ∀ n, e.exn = .libraryError n → n ≠ [] ∨ e = .library [] := by
  refine ⟨?_, ?_, ?_⟩
  · rintro n rfl; rfl
  · cases e <;> simp [Err.exn]
  · cases e <;> simp [Err.exn]
    rename_i n
    cases n <;> simp

example : (Err.symbol (str% "f")).text = str% "failed to load symbol: f" ∧ (Err.library (str% "x")).exn = .libraryError (str% "x") :=
  ⟨rfl, rfl⟩

/-- Nothing is loaded and all symbol pointers are NULL. -/
def Clean (s : St) : Prop := s.handle = none ∧ ∀ i, s.ptr i = none

/-- Missing: the function is called with a library loaded.  If nothing was loaded then
    after an error nothing is loaded, and what was opened was closed. -/
theorem C49_partial (L : Loader) (syms : List Str) (name : Option Str) (s t : St) (e : Err) (hs : Clean s)
    (h : load L syms name s = (some e, t)) :
    Clean t ∧ ∀ hd, opens hd t.log + closes hd s.log + givenUp hd s.log = opens hd s.log + closes hd t.log + givenUp hd t.log := by
  match name with
  | none => simp [load] at h; rw [← h.2]; exact ⟨hs, fun _ => by omega⟩
  | some [] => simp [load] at h; rw [← h.2]; exact ⟨hs, fun _ => by omega⟩
  | some (c :: m) =>
    simp only [load] at h
    cases ho : (L.dlopen s.clock (c :: m) rtldLazy false).1 with
    | none =>
      simp [openLib, ho] at h
      rw [← h.2]
      exact ⟨⟨rfl, hs.2⟩, fun _ => by simp only []⟩
    | some hd =>
      have hh : (openLib L (c :: m) s).handle = some hd := by simp [openLib, ho]
      rw [hh] at h
      obtain ⟨h1, h2, h3, a, b, n', ps, ok, h4, h5, h6, h7⟩ := loadLoop_some L syms hd syms 0 _ t _ hh h
      refine ⟨⟨h1, fun i => ?_⟩, fun x => ?_⟩
      · rcases Nat.lt_or_ge i syms.length with hi | hi
        · exact h2 i hi
        · rw [h3 (by simp) i hi]
          simp [openLib, hs.2]
      · have hf : opens x (found hd a ps) = 0 ∧ closes x (found hd a ps) = 0 ∧ givenUp x (found hd a ps) = 0 := by
          simp only [opens, closes, givenUp, List.countP_eq_zero]
          refine ⟨?_, ?_, ?_⟩ <;>
          · intro ev hev
            obtain ⟨k, _, rfl⟩ := List.mem_iff_getElem.mp hev
            simp [found]
        have e1 : t.log = s.log ++ ([.opened hd] ++ (found hd a ps ++ [.sym hd n' none, .closed hd ok true])) := by
          rw [h7]; simp [openLib, ho]
        have app1 (u v : List Ev) : opens x (u ++ v) = opens x u + opens x v := by simp [opens, List.countP_append]
        have app2 (u v : List Ev) : closes x (u ++ v) = closes x u + closes x v := by simp [closes, List.countP_append]
        have app3 (u v : List Ev) : givenUp x (u ++ v) = givenUp x u + givenUp x v := by simp [givenUp, List.countP_append]
        rw [e1]
        simp only [app1, app2, app3, hf.1, hf.2.1, hf.2.2]
        rcases Decidable.em (hd = x) with rfl | hx <;> rcases ok with _ | _ <;>
          simp [opens, closes, givenUp, *] <;> omega

example : Clean ({} : St) ∧ (load demoLoader demoSyms (some (str% "y")) {}).1 = some (.library (str% "y")) :=
  ⟨⟨rfl, fun _ => rfl⟩, rfl⟩

/-- C49 fails: with a library loaded, a call that cannot open the other library returns an
    error and leaves the symbol pointers of the first one while the handle is NULL. -/
theorem C49_violated : ∃ (L : Loader) (syms : List Str) (a b : Option Str) (s t : St) (e : Err),
    load L syms a {} = (none, s) ∧ load L syms b s = (some e, t) ∧ t.handle = none ∧ t.ptr 0 = some 7 ∧
      opens 100 t.log = 1 ∧ closes 100 t.log = 0 :=
  ⟨demoLoader, demoSyms, some (str% "x"), some (str% "y"), _, _, _, rfl, rfl, rfl, rfl, by decide, by decide⟩

/-- And a call with an empty name leaves the library loaded although it returns an error,
    whatever the library. -/
theorem C49_violated_loaded (L : Loader) (syms : List Str) (s : St) (h : Ptr) (hs : s.handle = some h) :
    (load L syms (some []) s).1 = some .empty ∧ (load L syms (some []) s).2.handle = some h ∧
      (load L syms none s).1 = some .null ∧ (load L syms none s).2.handle = some h := ⟨rfl, hs, rfl, hs⟩

example : (load demoLoader demoSyms (some (str% "x")) {}).2.handle = some 100 := rfl

theorem found_quiet (h : Ptr) (l : List Str) (ps : List Ptr) : Quiet (found h l ps) := by
  intro ev hev
  obtain ⟨k, _, rfl⟩ := List.mem_iff_getElem.mp hev
  simp [found]

theorem found_mem {h : Ptr} {l : List Str} {ps : List Ptr} (hl : ps.length = l.length) {i : Nat} {n : Str} {p : Ptr}
    (hn : l[i]? = some n) (hp : ps[i]? = some p) (u : List Ev) : Resolved h n p (u ++ found h l ps) := by
  obtain ⟨hi, hn⟩ := List.getElem?_eq_some_iff.mp hn
  obtain ⟨hi', hp⟩ := List.getElem?_eq_some_iff.mp hp
  refine ⟨u ++ found h (l.take i) (ps.take i), found h (l.drop (i + 1)) (ps.drop (i + 1)), ?_, found_quiet _ _ _⟩
  have e1 : l = l.take i ++ n :: l.drop (i + 1) := by
    rw [← hn, List.getElem_cons_drop, List.take_append_drop]
  have e2 : ps = ps.take i ++ p :: ps.drop (i + 1) := by
    rw [← hp, List.getElem_cons_drop, List.take_append_drop]
  have : found h l ps = found h (l.take i ++ n :: l.drop (i + 1)) (ps.take i ++ p :: ps.drop (i + 1)) := by rw [← e1, ← e2]
  rw [this]
  simp only [found]
  rw [List.zipWith_append (by simp; omega)]
  simp

/-- All symbol pointers were found in the library. -/
def AllFrom (syms : List Str) (h : Ptr) (s : St) : Prop :=
  ∀ i n, syms[i]? = some n → ∃ p, s.ptr i = some p ∧ Resolved h n p s.log

/-- After any sequence of calls: if a library is loaded then all symbol pointers are set,
    and were found in this library since it was loaded. -/
theorem C49_loaded (L : Loader) (syms : List Str) (calls : List Call) (h : Ptr) (hh : (run L syms {} calls).handle = some h) :
    AllFrom syms h (run L syms {} calls) := by
  suffices H : ∀ (calls : List Call) (s : St), (∀ h, s.handle = some h → AllFrom syms h s) →
      ∀ h, (run L syms s calls).handle = some h → AllFrom syms h (run L syms s calls) from
    H calls {} (by intro h hh; cases hh) h hh
  intro calls
  induction calls with
  | nil => intro s hs; exact hs
  | cons c r ih =>
    intro s hs
    refine ih (step L syms s c) ?_
    intro h hh
    match c with
    | .free => cases hh
    | .load nm =>
      simp only [step] at hh ⊢
      rcases hl : load L syms nm s with ⟨_ | e, t⟩
      · rw [hl] at hh
        obtain ⟨n, hd, ps, h1, h2, h3, h4, h5, h6, h7⟩ := C49_success L syms nm s t hl
        simp only [h4, Option.some.injEq] at hh
        subst hh
        intro i n hn
        have hi := (List.getElem?_eq_some_iff.mp hn).1
        have hp := h7 i hi
        obtain ⟨p, hp'⟩ := Option.isSome_iff_exists.mp hp.2
        refine ⟨p, hp', ?_⟩
        show Resolved hd n p t.log
        rw [h6, show s.log ++ .opened hd :: found hd syms ps = (s.log ++ [.opened hd]) ++ found hd syms ps by simp]
        exact found_mem h5 hn (by rw [← hp.1, hp']) _
      · rw [hl] at hh
        rcases C49_reason L syms nm s t e hl with h1 | h1 | ⟨n, h1, h2, h3, h4, h5⟩ | ⟨n, h1, _⟩
        · rw [h1.2.2] at hh ⊢; exact hs h hh
        · rw [h1.2.2] at hh ⊢; exact hs h hh
        · subst h2
          exfalso
          match n, h3 with
          | c :: n, _ =>
            simp [load, openLib, h4] at hl
            rw [← hl.2] at hh
            cases hh
        · subst h1
          rw [show t.handle = none from (C49_symbol L syms nm s t n hl).1] at hh
          cases hh

example : (run demoLoader demoSyms {} [.load (some (str% "x")), .load (some (str% "y")), .load (some (str% "x"))]).handle = some 200 := rfl

/-! ### C50 -/

/-- The handle in use is open and no handle that is not open was passed to the loader. -/
def Sound (s : St) : Prop :=
  OnlyAlive s.log ∧ ∀ h, closes h s.log + givenUp h s.log + (if s.handle = some h then 1 else 0) ≤ opens h s.log

theorem Sound.alive {s : St} (hs : Sound s) {h : Ptr} (hh : s.handle = some h) : Alive h s.log := by
  have := hs.2 h
  rw [if_pos hh] at this
  unfold Alive
  omega

theorem sound_open {s : St} (hs : Sound s) (L : Loader) (n : Str) : Sound (openLib L n s) := by
  cases ho : (L.dlopen s.clock n rtldLazy false).1 with
  | none =>
    refine ⟨by simpa [openLib, ho] using hs.1, fun h => ?_⟩
    have := hs.2 h
    simp [openLib, ho]
    omega
  | some hd =>
    refine ⟨?_, fun h => ?_⟩
    · simp only [openLib, ho]
      exact onlyAlive_snoc hs.1 fun x hx => hx.elim
    · have := hs.2 h
      simp [openLib, ho]
      omega

theorem sound_sym {s : St} (hs : Sound s) (L : Loader) {h : Ptr} (hh : s.handle = some h) (i : Nat) (n : Str) : Sound (loadOne L h i n s) := by
  refine ⟨?_, fun x => ?_⟩
  · refine onlyAlive_snoc hs.1 fun x hx => ?_
    have : h = x := hx
    subst this
    exact hs.alive hh
  · have := hs.2 x
    by_cases hx : s.handle = some x <;> simp [loadOne, hx] at this ⊢ <;> omega

theorem sound_free {s : St} (hs : Sound s) (L : Loader) (syms : List Str) : Sound (free L syms s) := by
  cases hh : s.handle with
  | none =>
    refine ⟨by simpa [free, close, hh] using hs.1, fun x => ?_⟩
    have := hs.2 x
    simp [free, close, hh]
    omega
  | some h =>
    refine ⟨?_, fun x => ?_⟩
    · simp only [free, close, hh]
      refine onlyAlive_snoc hs.1 fun x hx => ?_
      have : h = x := hx
      subst this
      exact hs.alive hh
    · have := hs.2 x
      rw [hh] at this
      simp only [free, close, hh]
      rcases (L.dlclose s.clock h).1 with _ | _ <;> rcases Decidable.em (h = x) with rfl | hx <;> simp_all <;> omega

theorem sound_loop (L : Loader) (syms : List Str) (h : Ptr) (l : List Str) : ∀ (i : Nat) (s : St), Sound s → s.handle = some h →
    Sound (loadLoop L syms h i l s).2 := by
  induction l with
  | nil => intro i s hs _; exact hs
  | cons n r ih =>
    intro i s hs hh
    rw [loadLoop]
    split
    · exact ih _ _ (sound_sym hs L hh i n) (by simpa [loadOne] using hh)
    · exact sound_free (sound_sym hs L hh i n) L syms

theorem sound_step (L : Loader) (syms : List Str) {s : St} (hs : Sound s) (c : Call) : Sound (step L syms s c) := by
  match c with
  | .free => exact sound_free hs L syms
  | .load none => exact hs
  | .load (some []) => exact hs
  | .load (some (c :: n)) =>
    simp only [step, load]
    split
    · exact sound_open hs L _
    · rename_i h hh
      exact sound_loop L syms h syms 0 _ (sound_open hs L _) hh

/-- For any sequence of calls: no handle is used or closed that is not open at that time,
    and none is closed more often than it was opened. -/
theorem C50_use (L : Loader) (syms : List Str) (calls : List Call) :
    OnlyAlive (run L syms {} calls).log ∧
      ∀ h, closes h (run L syms {} calls).log + givenUp h (run L syms {} calls).log ≤ opens h (run L syms {} calls).log := by
  suffices H : ∀ (calls : List Call) (s : St), Sound s → Sound (run L syms s calls) by
    have := H calls {} ⟨by intro a e b h hl; simp at hl, fun h => by simp [opens, closes, givenUp]⟩
    exact ⟨this.1, fun h => by have := this.2 h; omega⟩
  intro calls
  induction calls with
  | nil => intro s hs; exact hs
  | cons c r ih => intro s hs; exact ih _ (sound_step L syms hs c)

example : (run demoLoader demoSyms {} [.load (some (str% "x")), .load (some (str% "x")), .free]).log =
    [.opened 100, .sym 100 (str% "f") (some 7), .sym 100 (str% "g") (some 8), .opened 200, .sym 200 (str% "f") (some 7),
      .sym 200 (str% "g") (some 8), .closed 200 true true] := rfl

/-- C50 fails: loading a second time loses the first handle, it is never closed. -/
theorem C50_violated : ∃ (L : Loader) (syms : List Str) (calls : List Call),
    (run L syms {} calls).handle = none ∧ opens 100 (run L syms {} calls).log = 1 ∧ closes 100 (run L syms {} calls).log = 0 ∧
      givenUp 100 (run L syms {} calls).log = 0 :=
  ⟨demoLoader, demoSyms, [.load (some (str% "x")), .load (some (str% "x")), .free], rfl, by decide, by decide, by decide⟩

/-- No call loads a library while one is loaded. -/
def OneAtATime (L : Loader) (syms : List Str) (calls : List Call) : Prop :=
  ∀ a n b, calls = a ++ .load n :: b → (run L syms {} a).handle = none

/-- What was opened was closed, closing it failed, or it is in use. -/
def Exact (s : St) : Prop := ∀ h, opens h s.log = closes h s.log + givenUp h s.log + if s.handle = some h then 1 else 0

theorem exact_sym {s : St} (hs : Exact s) (L : Loader) (h : Ptr) (i : Nat) (n : Str) : Exact (loadOne L h i n s) := by
  intro x
  have := hs x
  by_cases hx : s.handle = some x <;> simp [loadOne, hx] at this ⊢ <;> omega

theorem exact_free {s : St} (hs : Exact s) (L : Loader) (syms : List Str) : Exact (free L syms s) := by
  intro x
  have := hs x
  cases hh : s.handle with
  | none => simp [free, close, hh] at this ⊢; omega
  | some h =>
    rw [hh] at this
    simp only [free, close, hh]
    rcases (L.dlclose s.clock h).1 with _ | _ <;> rcases Decidable.em (h = x) with rfl | hx <;> simp_all <;> omega

theorem exact_loop (L : Loader) (syms : List Str) (h : Ptr) (l : List Str) : ∀ (i : Nat) (s : St), Exact s →
    Exact (loadLoop L syms h i l s).2 := by
  induction l with
  | nil => intro i s hs; exact hs
  | cons n r ih =>
    intro i s hs
    rw [loadLoop]
    split
    · exact ih _ _ (exact_sym hs L h i n)
    · exact exact_free (exact_sym hs L h i n) L syms

theorem exact_load (L : Loader) (syms : List Str) {s : St} (hs : Exact s) (hn : s.handle = none) (nm : Option Str) :
    Exact (load L syms nm s).2 := by
  match nm with
  | none => exact hs
  | some [] => exact hs
  | some (c :: n) =>
    have ho : Exact (openLib L (c :: n) s) := by
      intro x
      have := hs x
      rw [hn] at this
      cases ho : (L.dlopen s.clock (c :: n) rtldLazy false).1 with
      | none => simp [openLib, ho] at this ⊢; omega
      | some hd => simp [openLib, ho] at this ⊢; omega
    simp only [load]
    split
    · exact ho
    · exact exact_loop L syms _ syms 0 _ ho

/-- Missing: loading while a library is loaded.  Without that every handle opened was
    closed, was given up because closing it failed, or is the current one. -/
theorem C50_partial (L : Loader) (syms : List Str) (calls : List Call) (h1 : OneAtATime L syms calls) (h : Ptr) :
    opens h (run L syms {} calls).log = closes h (run L syms {} calls).log + givenUp h (run L syms {} calls).log +
      if (run L syms {} calls).handle = some h then 1 else 0 := by
  suffices H : ∀ (b a : List Call), calls = a ++ b → Exact (run L syms {} a) → Exact (run L syms {} calls) from
    H calls [] rfl (fun h => by simp [run, opens, closes, givenUp]) h
  intro b
  induction b with
  | nil => intro a ha hs; rw [ha, List.append_nil]; exact hs
  | cons c r ih =>
    intro a ha hs
    refine ih (a ++ [c]) (by rw [ha]; simp) ?_
    have : run L syms {} (a ++ [c]) = step L syms (run L syms {} a) c := by simp [run]
    rw [this]
    match c with
    | .free => exact exact_free hs L syms
    | .load nm => exact exact_load L syms hs (h1 a nm r ha) nm

example : OneAtATime demoLoader demoSyms [.load (some (str% "x")), .free, .load (some (str% "x"))] := by
  intro a n b h
  match a, h with
  | [], _ => rfl
  | [_], h => simp at h
  | [_, _], h =>
    simp at h
    rw [← h.1, ← h.2.1]
    rfl
  | _ :: _ :: _ :: _, h => simp at h

end Gdo.Min
