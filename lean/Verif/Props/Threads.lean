import Verif.Lemmas.Threads
import Verif.Props.RuntimeError

/-!
Property C53: concurrent first calls of wrapped functions with automatic loading.
-/

namespace Gdo.Thr
open Gdo Rt

/-- Every call of the loader so far gave something. -/
def NoNull (log : List Ev) : Prop :=
  ∀ e ∈ log, e ≠ .opened none ∧ ∀ h n, e ≠ .sym h n none

/-- How often the loader was told to open the library. -/
def opens (log : List Ev) : Nat := log.countP fun | .opened _ => true | _ => false

/-- At most one thread is inside of a wrapper function, as if there were a lock. -/
def AtMostOne (y : Sys) : Prop := ∀ t u, (y.thr t).pc ≠ .check → (y.thr u).pc ≠ .check → t = u

/-- The address was found for the symbol in a library that was opened. -/
def Found (C : Cfg) (log : List Ev) (k : Nat) (p : Ptr) : Prop :=
  ∃ h name, C.syms[k]? = some name ∧ .opened (some h) ∈ log ∧ .sym (some h) name (some p) ∈ log

section
variable {L : Loader} {C : Cfg}

theorem run_append (a b : List Nat) (y : Sys) : run L C (a ++ b) y = run L C b (run L C a y) := by
  induction a generalizing y with
  | nil => rfl
  | cons t r ih => exact ih _

theorem sysStep_cases (t : Nat) (y : Sys) :
    y.step L C t = y ∨
    (y.sh.ended = false ∧ ∃ i r, (y.thr t).todo = i :: r ∧
      (((y.thr t).pc = .call ∧ y.step L C t =
          { sh := { y.sh with calls := y.sh.calls ++ [⟨t, i, y.sh.ptr i⟩] }, thr := fun u => if u = t then { todo := r } else y.thr u }) ∨
       ((y.thr t).pc ≠ .call ∧ y.step L C t =
          { sh := (step L C i y.sh (y.thr t).pc).1,
            thr := fun u => if u = t then { todo := i :: r, pc := (step L C i y.sh (y.thr t).pc).2 } else y.thr u }))) := by
  unfold Sys.step
  split
  · exact .inl rfl
  · rename_i he
    split
    · exact .inl rfl
    · rename_i i r ht
      refine .inr ⟨by simpa using he, i, r, ht, ?_⟩
      by_cases hc : (y.thr t).pc = .call
      · left
        rw [if_pos hc]
        exact ⟨hc, rfl⟩
      · right
        rw [if_neg hc]
        exact ⟨hc, rfl⟩

/-- What one step leaves: the history grows. -/
theorem step_log (i : Nat) (s : Sh) (pc : PC) : ∃ l, (step L C i s pc).1.log = s.log ++ l := by
  cases pc <;> simp only [step] <;> (try split) <;> first | exact ⟨[], (List.append_nil _).symm⟩ | exact ⟨_, rfl⟩

theorem sysStep_log (t : Nat) (y : Sys) : ∃ l, (y.step L C t).sh.log = y.sh.log ++ l := by
  rcases sysStep_cases (L := L) (C := C) t y with h | ⟨_, i, r, _, ⟨_, h⟩ | ⟨_, h⟩⟩
  · exact ⟨[], by rw [h]; simp⟩
  · exact ⟨[], by rw [h]; simp⟩
  · rw [h]
    exact step_log i y.sh _

theorem run_log (sched : List Nat) : ∀ y : Sys, ∃ l, (run L C sched y).sh.log = y.sh.log ++ l := by
  induction sched with
  | nil => intro y; exact ⟨[], by simp [run]⟩
  | cons t r ih =>
    intro y
    obtain ⟨a, ha⟩ := sysStep_log (L := L) (C := C) t y
    obtain ⟨b, hb⟩ := ih (y.step L C t)
    exact ⟨a ++ b, by rw [run, hb, ha, List.append_assoc]⟩

theorem NoNull.of_append {a b : List Ev} (h : NoNull (a ++ b)) : NoNull a := fun e he => h e (by simp [he])

/-! ### Loaders that do not fail -/

/-- What is known of a thread at its place if no call of the loader has failed. -/
def Place (C : Cfg) (i : Nat) (s : Sh) : PC → Prop
  | .check | .reg | .atexit | .regSet | .isLoaded | .isLoadedArgs | .dlopen => True
  | .setHandle r => ∃ h, r = some h ∧ .opened (some h) ∈ s.log
  | .all k => s.handle ≠ none ∧ ∀ j, j < k → s.ptr j ≠ none
  | .isLoadedSym => s.handle ≠ none
  | .lazyRead => s.handle ≠ none ∧ C.mode = .lazy
  | .dlsym k => s.handle ≠ none ∧ (C.mode = .lazy → k = i) ∧ (C.mode ≠ .lazy → ∀ j, j < k → s.ptr j ≠ none)
  | .setPtr k r => (∃ p, r = some p ∧ Found C s.log k p) ∧ s.handle ≠ none ∧ (C.mode = .lazy → k = i) ∧
      (C.mode ≠ .lazy → ∀ j, j < k → s.ptr j ≠ none)
  | .lazyCheck | .call => s.ptr i ≠ none
  | .close | .nullHandle | .nullPtr _ | .die => False

/-- Nothing is taken back. -/
def Grows (s t : Sh) : Prop :=
  (s.handle ≠ none → t.handle ≠ none) ∧ (∀ k, s.ptr k ≠ none → t.ptr k ≠ none) ∧ ∃ l, t.log = s.log ++ l

theorem Found.mono {a b : List Ev} {k : Nat} {p : Ptr} (h : Found C a k p) : Found C (a ++ b) k p := by
  obtain ⟨x, name, h1, h2, h3⟩ := h
  exact ⟨x, name, h1, by simp [h2], by simp [h3]⟩

theorem Place.mono {i : Nat} {s t : Sh} {pc : PC} (h : Place C i s pc) (g : Grows s t) : Place C i t pc := by
  obtain ⟨g1, g2, l, g3⟩ := g
  cases pc <;> simp only [Place] at h ⊢
  case setHandle r =>
    obtain ⟨x, h1, h2⟩ := h
    exact ⟨x, h1, by rw [g3]; simp [h2]⟩
  case all k => exact ⟨g1 h.1, fun j hj => g2 j (h.2 j hj)⟩
  case isLoadedSym => exact g1 h
  case lazyRead => exact ⟨g1 h.1, h.2⟩
  case dlsym k => exact ⟨g1 h.1, h.2.1, fun hm j hj => g2 j (h.2.2 hm j hj)⟩
  case setPtr k r =>
    obtain ⟨⟨p, h1, h2⟩, h3, h4, h5⟩ := h
    exact ⟨⟨p, h1, by rw [g3]; exact h2.mono⟩, g1 h3, h4, fun hm j hj => g2 j (h5 hm j hj)⟩
  case lazyCheck => exact g2 i h
  case call => exact g2 i h

/-- What is known of the shared data. -/
structure Good (C : Cfg) (s : Sh) : Prop where
  handle : ∀ h, s.handle = some h → .opened (some h) ∈ s.log
  ptr : ∀ k p, s.ptr k = some p → Found C s.log k p
  ended : s.ended = false

theorem step_good (hlib : C.lib ≠ []) (hmode : C.mode ≠ .wrap) {i : Nat} (hi : i < C.syms.length) {s : Sh} {pc : PC} (hg : Good C s)
    (hp : Place C i s pc) (hn : NoNull (step L C i s pc).1.log) :
    Good C (step L C i s pc).1 ∧ Grows s (step L C i s pc).1 ∧ Place C i (step L C i s pc).1 (step L C i s pc).2 := by
  have same : ∀ {t : Sh}, t.handle = s.handle → t.ptr = s.ptr → t.log = s.log → t.ended = s.ended → Good C t ∧ Grows s t := by
    intro t h1 h2 h3 h4
    exact ⟨⟨by rw [h1, h3]; exact hg.handle, by rw [h2, h3]; exact hg.ptr, by rw [h4]; exact hg.ended⟩,
      by rw [h1]; exact id, by rw [h2]; exact fun _ => id, [], by simp [h3]⟩
  have hload : ∀ {t : Sh}, t.handle ≠ none → Place C i t (loadPC C) := by
    intro t ht
    unfold loadPC
    split
    · exact ht
    · exact ⟨ht, fun j hj => absurd hj (by omega)⟩
  cases pc <;> (try simp only [Place] at hp) <;> simp only [step] at hn ⊢
  case check =>
    refine ⟨hg, (same rfl rfl rfl rfl).2, ?_⟩
    split
    · rename_i h
      exact Option.isSome_iff_ne_none.mp h
    · trivial
  case reg =>
    refine ⟨hg, (same rfl rfl rfl rfl).2, ?_⟩
    split <;> trivial
  case atexit =>
    split
    · exact and_assoc.mp ⟨same rfl rfl rfl rfl, trivial⟩
    · exact and_assoc.mp ⟨same rfl rfl rfl rfl, trivial⟩
  case regSet => exact and_assoc.mp ⟨same rfl rfl rfl rfl, trivial⟩
  case isLoaded =>
    refine ⟨hg, (same rfl rfl rfl rfl).2, ?_⟩
    split
    · rename_i h
      exact hload (Option.isSome_iff_ne_none.mp h)
    · trivial
  case isLoadedArgs =>
    refine ⟨hg, (same rfl rfl rfl rfl).2, ?_⟩
    split
    · rename_i h
      rcases h with h | h
      · exact hload (Option.isSome_iff_ne_none.mp h)
      · exact absurd h hlib
    · trivial
  case dlopen =>
    have h0 : (L.dlopen s.clock C.lib C.flags false).1 ≠ none := by
      intro h
      have := (hn (.opened (L.dlopen s.clock C.lib C.flags false).1) (by simp)).1
      rw [h] at this
      exact this rfl
    refine ⟨⟨fun h hh => ?_, fun k p hk => (hg.ptr k p hk).mono, hg.ended⟩, ⟨id, fun _ => id, _, rfl⟩, ?_⟩
    · have := hg.handle h hh
      simp [this]
    · obtain ⟨h, hh⟩ := Option.ne_none_iff_exists'.mp h0
      exact ⟨h, hh, by simp [hh]⟩
  case setHandle r =>
    obtain ⟨h, rfl, h2⟩ := hp
    refine ⟨⟨fun x hx => ?_, hg.ptr, hg.ended⟩, ⟨fun _ => by simp, fun _ => id, [], by simp⟩, hload (by simp)⟩
    cases hx
    exact h2
  case all k =>
    refine ⟨hg, (same rfl rfl rfl rfl).2, ?_⟩
    split
    · split
      · rename_i h
        refine ⟨hp.1, fun j hj => ?_⟩
        by_cases hjk : j = k
        · rw [hjk]
          exact Option.isSome_iff_ne_none.mp h
        · exact hp.2 j (by omega)
      · exact hp.1
    · rename_i hk
      exact hp.2 i (by omega)
  case isLoadedSym =>
    refine ⟨hg, (same rfl rfl rfl rfl).2, ?_⟩
    rw [if_pos (Option.isSome_iff_ne_none.mpr hp)]
    split
    · rename_i hm
      exact ⟨hp, hm⟩
    · rename_i hm
      exact ⟨hp, fun h => absurd h hm, fun _ j hj => absurd hj (by omega)⟩
  case lazyRead =>
    refine ⟨hg, (same rfl rfl rfl rfl).2, ?_⟩
    split
    · rename_i h
      exact Option.isSome_iff_ne_none.mp h
    · exact ⟨hp.1, fun _ => rfl, fun h => absurd hp.2 h⟩
  case dlsym k =>
    cases hk : C.syms[k]? with
    | none =>
      dsimp only
      refine ⟨hg, (same rfl rfl rfl rfl).2, ?_⟩
      have hk' : C.syms.length ≤ k := List.getElem?_eq_none_iff.mp hk
      by_cases hm : C.mode = .lazy
      · have := hp.2.1 hm
        omega
      · exact hp.2.2 hm i (by omega)
    | some name =>
      rw [hk] at hn
      dsimp only at hn ⊢
      have h0 : L.sym s.clock s.handle name ≠ none := by
        intro h
        have := (hn (.sym s.handle name (L.sym s.clock s.handle name)) (by simp)).2 s.handle name
        rw [h] at this
        exact this rfl
      obtain ⟨p, hpp⟩ := Option.ne_none_iff_exists'.mp h0
      obtain ⟨h, hh⟩ := Option.ne_none_iff_exists'.mp hp.1
      refine ⟨⟨fun x hx => ?_, fun k p hk => (hg.ptr k p hk).mono, hg.ended⟩, ⟨id, fun _ => id, _, rfl⟩, ⟨p, hpp, h, name, hk, ?_, ?_⟩, hp⟩
      · have := hg.handle x hx
        simp [this]
      · simp [hg.handle h hh]
      · simp [← hh, hpp]
  case setPtr k r =>
    obtain ⟨⟨p, rfl, hf⟩, h2, h3, h4⟩ := hp
    refine ⟨⟨hg.handle, fun j q hq => ?_, hg.ended⟩, ⟨id, fun j hj => ?_, [], by simp⟩, ?_⟩
    · dsimp only at hq
      split at hq
      · rename_i hj
        cases hq
        rw [hj]
        exact hf
      · exact hg.ptr j q hq
    · dsimp only
      split
      · simp
      · exact hj
    · split
      · rename_i hm
        simp [Place, h3 hm]
      · rename_i hm
        refine ⟨h2, fun h => absurd h hm, fun _ j hj => ?_⟩
        dsimp only
        split
        · simp
        · exact h4 hm j (by omega)
  case lazyCheck =>
    refine ⟨hg, (same rfl rfl rfl rfl).2, ?_⟩
    rw [if_pos (Option.isSome_iff_ne_none.mpr hp)]
    exact hp
  case call => exact ⟨hg, (same rfl rfl rfl rfl).2, hp⟩

/-- What is known of the process. -/
structure Inv (C : Cfg) (y : Sys) : Prop where
  good : Good C y.sh
  todo : ∀ t, ∀ i ∈ (y.thr t).todo, i < C.syms.length
  place : ∀ t i r, (y.thr t).todo = i :: r → Place C i y.sh (y.thr t).pc
  calls : ∀ c ∈ y.sh.calls, ∃ p, c.addr = some p ∧ Found C y.sh.log c.sym p

theorem step_calls (i : Nat) (s : Sh) (pc : PC) : (step L C i s pc).1.calls = s.calls := by
  cases pc <;> simp only [step] <;> (try split) <;> rfl

theorem sysStep_inv (hlib : C.lib ≠ []) (hmode : C.mode ≠ .wrap) {t : Nat} {y : Sys} (h : Inv C y) (hn : NoNull (y.step L C t).sh.log) :
    Inv C (y.step L C t) := by
  rcases sysStep_cases (L := L) (C := C) t y with he | ⟨_, i, r, ht, ⟨hc, he⟩ | ⟨hc, he⟩⟩
  · rw [he]
    exact h
  · rw [he]
    have hp := h.place t i r ht
    rw [hc] at hp
    refine ⟨⟨h.good.handle, h.good.ptr, h.good.ended⟩, fun u j hj => ?_, fun u j q hu => ?_, fun c hcm => ?_⟩
    · dsimp only at hj
      split at hj
      · exact h.todo t j (by rw [ht]; simp [hj])
      · exact h.todo u j hj
    · dsimp only at hu ⊢
      split
      · trivial
      · rename_i hne
        rw [if_neg hne] at hu
        have := h.place u j q hu
        exact this.mono ⟨id, fun _ => id, [], by simp⟩
    · simp only [List.mem_append, List.mem_singleton] at hcm
      rcases hcm with hcm | rfl
      · exact h.calls c hcm
      · obtain ⟨p, hpp⟩ := Option.ne_none_iff_exists'.mp (show y.sh.ptr i ≠ none from hp)
        exact ⟨p, hpp, h.good.ptr i p hpp⟩
  · rw [he] at hn ⊢
    have hi : i < C.syms.length := h.todo t i (by rw [ht]; simp)
    obtain ⟨h1, h2, h3⟩ := step_good hlib hmode hi h.good (h.place t i r ht) hn
    refine ⟨h1, fun u j hj => ?_, fun u j q hu => ?_, fun c hcm => ?_⟩
    · dsimp only at hj
      split at hj
      · exact h.todo t j (by rw [ht]; exact hj)
      · exact h.todo u j hj
    · dsimp only at hu ⊢
      split
      · rename_i hut
        rw [if_pos hut] at hu
        cases hu
        exact h3
      · rename_i hne
        rw [if_neg hne] at hu
        exact (h.place u j q hu).mono h2
    · dsimp only at hcm ⊢
      rw [step_calls] at hcm
      obtain ⟨p, h4, h5⟩ := h.calls c hcm
      obtain ⟨_, _, l, hl⟩ := h2
      exact ⟨p, h4, by rw [hl]; exact h5.mono⟩

theorem run_inv (hlib : C.lib ≠ []) (hmode : C.mode ≠ .wrap) (sched : List Nat) : ∀ y : Sys, Inv C y → NoNull (run L C sched y).sh.log →
    Inv C (run L C sched y) := by
  induction sched with
  | nil => intro y h _; exact h
  | cons t r ih =>
    intro y h hn
    have hn' : NoNull (y.step L C t).sh.log := by
      obtain ⟨l, hl⟩ := run_log (L := L) (C := C) r (y.step L C t)
      rw [run, hl] at hn
      exact hn.of_append
    exact ih _ (sysStep_inv hlib hmode h hn') hn

theorem start_inv (todo : Nat → List Nat) (ht : ∀ t, ∀ i ∈ todo t, i < C.syms.length) : Inv C (start todo) :=
  ⟨⟨fun h hh => (by cases hh), fun k p hp => (by cases hp), rfl⟩, ht, fun _ _ _ _ => trivial, fun c hc => (by cases hc)⟩

end

/-- As long as no call of the loader fails: whatever the schedule and the number of threads,
    the process goes on, and every call of a wrapped function goes through an address that
    the loader found for this symbol in the library. -/
theorem C53_partial (L : Loader) (C : Cfg) (hlib : C.lib ≠ []) (hmode : C.mode ≠ .wrap) (todo : Nat → List Nat)
    (ht : ∀ t, ∀ i ∈ todo t, i < C.syms.length) (sched : List Nat) (hn : NoNull (run L C sched (start todo)).sh.log) :
    (run L C sched (start todo)).sh.ended = false ∧
    ∀ c ∈ (run L C sched (start todo)).sh.calls, ∃ p, c.addr = some p ∧ Found C (run L C sched (start todo)).sh.log c.sym p :=
  have h := run_inv hlib hmode sched _ (start_inv todo ht) hn
  ⟨h.good.ended, h.calls⟩

/-- A loader with the symbols `f` and `g`. -/
def demoLoader : Loader where
  dlopen t _ _ _ := (some (100 + t), none)
  dlsym _ _ n := if n = str% "f" then (some 7, none) else if n = str% "g" then (some 8, none) else (none, none)
  dlclose _ _ := (true, none)
  dlinfo _ _ := (none, none)
  dladdr _ _ := none
  procmap _ _ := none
  atexit _ := true
  dlsymNull _ _ := none

/-- Symbols `f`, `g` and `x`, loaded one by one. -/
def demoCfg : Cfg where
  syms := [str% "f", str% "g", str% "x"]
  pfx := []
  lib := str% "lib.so"
  flags := 1
  mode := .lazy
  haveDlinfo := false
  haveDladdr := false
  linux := true

/-- Two threads: `f`, then `g`; and `g`. -/
def demoTodo : Nat → List Nat
  | 0 => [0, 1]
  | 1 => [1]
  | _ => []

/-- The two threads in turn. -/
def inTurn : List Nat := (List.replicate 14 [0, 1]).flatten ++ [0, 0]

instance : DecidablePred fun log => NoNull log := fun log =>
  decidable_of_iff (log.all fun e => match e with | .opened none => false | .sym _ _ none => false | _ => true) (by
    unfold NoNull
    rw [List.all_eq_true]
    refine forall_congr' fun e => forall_congr' fun _ => ?_
    match e with
    | .opened none => simp
    | .opened (some _) => simp
    | .sym _ _ none => simp
    | .sym _ _ (some _) => simp
    | .closed _ => simp)

example : NoNull (run demoLoader demoCfg inTurn (start demoTodo)).sh.log ∧
    (run demoLoader demoCfg inTurn (start demoTodo)).sh.calls = [⟨0, 0, some 7⟩, ⟨1, 1, some 8⟩, ⟨0, 1, some 8⟩] := by decide

/-- C53 fails: two threads that call wrapped functions for the first time both open the
    library; the first handle is lost and cannot be closed any more. -/
theorem C53_violated : ∃ (L : Loader) (C : Cfg) (todo : Nat → List Nat) (sched : List Nat) (h h' : Ptr),
    h ≠ h' ∧ (∀ t, (todo t).length ≤ 1) ∧ (∀ t, ∀ i ∈ todo t, i < C.syms.length) ∧
    .opened (some h) ∈ (run L C sched (start todo)).sh.log ∧ .opened (some h') ∈ (run L C sched (start todo)).sh.log ∧
    (run L C sched (start todo)).sh.handle = some h' ∧ ∀ t, ((run L C sched (start todo)).thr t).todo = [] := by
  refine ⟨demoLoader, demoCfg, fun t => if t < 2 then [t] else [], (List.replicate 14 [0, 1]).flatten, 102, 103, by decide, ?_, ?_,
    by decide, by decide, by decide, ?_⟩
  · intro t
    dsimp only
    split <;> simp
  · intro t i hi
    dsimp only at hi
    split at hi
    · simp only [List.mem_singleton] at hi
      show i < 3
      omega
    · cases hi
  · intro t
    match t with
    | 0 => rfl
    | 1 => rfl
    | t + 2 => rfl

/-- And a call goes through NULL: thread 0 has called its function before and finds it
    loaded, then thread 1, whose symbol is missing, sets all pointers to NULL before it ends
    the process. -/
theorem C53_violated_null : ∃ (L : Loader) (C : Cfg) (todo : Nat → List Nat) (sched : List Nat) (p : Ptr),
    (∀ t, ∀ i ∈ todo t, i < C.syms.length) ∧ (run L C sched (start todo)).sh.ended = false ∧
    (run L C sched (start todo)).sh.calls = [⟨0, 0, some p⟩, ⟨0, 0, none⟩] := by
  refine ⟨demoLoader, demoCfg, fun t => if t = 0 then [0, 0] else if t = 1 then [2] else [],
    List.replicate 15 0 ++ List.replicate 11 1 ++ [0], 7, ?_, by decide, by decide⟩
  intro t i hi
  dsimp only at hi
  show i < 3
  split at hi
  · simp at hi
    omega
  · split at hi
    · simp at hi
      omega
    · cases hi

/-- And a handle that was opened once is closed twice: the second call passes the loader a
    handle that is not open. -/
theorem C53_violated_close : ∃ (L : Loader) (C : Cfg) (todo : Nat → List Nat) (sched : List Nat) (h : Ptr),
    (∀ t, ∀ i ∈ todo t, i < C.syms.length) ∧
    opens (run L C sched (start todo)).sh.log = 1 ∧ (run L C sched (start todo)).sh.log.count (.closed h) = 2 := by
  refine ⟨demoLoader, demoCfg, fun t => if t < 2 then [2] else [],
    List.replicate 13 0 ++ List.replicate 8 1 ++ [0, 1], 101, ?_, by decide, by decide⟩
  intro t i hi
  dsimp only at hi
  show i < 3
  split at hi
  · simp at hi
    omega
  · cases hi

/-! ### One thread at a time -/

section
variable {L : Loader} {C : Cfg}

/-- The library was not opened, or it is loaded. -/
def Rest (s : Sh) : Prop := opens s.log ≤ 1 ∧ (s.handle = none → opens s.log = 0) ∧ ∀ k, s.ptr k ≠ none → s.handle ≠ none

/-- What is known of the one thread that is inside of a wrapper function. -/
def Inside (C : Cfg) (i : Nat) (s : Sh) : PC → Prop
  | .check | .reg | .atexit | .regSet | .isLoaded | .isLoadedArgs => Rest s
  | .dlopen => Rest s ∧ s.handle = none
  | .setHandle _ => opens s.log ≤ 1 ∧ 1 ≤ opens s.log ∧ ∀ k, s.ptr k = none
  | .all k => opens s.log ≤ 1 ∧ (∀ j, j < k → s.ptr j ≠ none) ∧ (∀ k, s.ptr k ≠ none → s.handle ≠ none) ∧ (s.handle ≠ none → Rest s)
  | .isLoadedSym => opens s.log ≤ 1 ∧ (s.handle ≠ none → Rest s)
  | .lazyRead => s.handle ≠ none ∧ Rest s ∧ C.mode = .lazy
  | .dlsym k => s.handle ≠ none ∧ Rest s ∧ (C.mode = .lazy → k = i) ∧ (C.mode ≠ .lazy → ∀ j, j < k → s.ptr j ≠ none)
  | .setPtr k _ => s.handle ≠ none ∧ Rest s ∧ (C.mode = .lazy → k = i) ∧ (C.mode ≠ .lazy → ∀ j, j < k → s.ptr j ≠ none)
  | .lazyCheck => Rest s
  | .call => Rest s ∧ s.ptr i ≠ none
  | .close | .nullHandle | .nullPtr _ | .die => opens s.log ≤ 1

theorem opens_append (a b : List Ev) : opens (a ++ b) = opens a + opens b := List.countP_append

theorem step_inside {i : Nat} (hi : i < C.syms.length) {s : Sh} {pc : PC} (h : Inside C i s pc) :
    Inside C i (step L C i s pc).1 (step L C i s pc).2 := by
  have hload : ∀ {t : Sh}, opens t.log ≤ 1 → (∀ k, t.ptr k ≠ none → t.handle ≠ none) → (t.handle ≠ none → Rest t) → Inside C i t (loadPC C) := by
    intro t h1 h2 h3
    unfold loadPC
    split
    · exact ⟨h1, h3⟩
    · exact ⟨h1, fun j hj => absurd hj (by omega), h2, h3⟩
  cases pc <;> (try simp only [Inside] at h) <;> simp only [step]
  case check =>
    split
    · rename_i hs
      exact ⟨h, Option.isSome_iff_ne_none.mp hs⟩
    · split
      · exact h.1
      · exact h
  case reg => split <;> exact h
  case atexit => split <;> exact h
  case regSet => exact h
  case isLoaded =>
    split
    · exact hload h.1 h.2.2 fun _ => h
    · exact h
  case isLoadedArgs =>
    split
    · exact hload h.1 h.2.2 fun _ => h
    · rename_i hs
      refine ⟨h, ?_⟩
      simp only [not_or] at hs
      simpa using hs.1
  case dlopen =>
    obtain ⟨h, hh⟩ := h
    have : opens (s.log ++ [.opened (L.dlopen s.clock C.lib C.flags false).1]) = 1 := by
      rw [opens_append, h.2.1 hh]
      rfl
    refine ⟨?_, ?_, fun k => ?_⟩
    · rw [this]
      omega
    · rw [this]
      omega
    · have := h.2.2 k
      rw [hh] at this
      simpa using this
  case setHandle r =>
    obtain ⟨h1, h2, h3⟩ := h
    refine hload h1 (fun k hk => absurd (h3 k) hk) fun hr => ⟨h1, fun hn => absurd hn hr, fun k hk => absurd (h3 k) hk⟩
  case all k =>
    obtain ⟨h1, h2, h3, h4⟩ := h
    split
    · split
      · rename_i hs
        refine ⟨h1, fun j hj => ?_, h3, h4⟩
        by_cases hjk : j = k
        · rw [hjk]
          exact Option.isSome_iff_ne_none.mp hs
        · exact h2 j (by omega)
      · exact ⟨h1, h4⟩
    · have := h2 i (by omega)
      exact ⟨h4 (h3 i this), this⟩
  case isLoadedSym =>
    split
    · rename_i hs
      have hs := Option.isSome_iff_ne_none.mp hs
      split
      · rename_i hm
        exact ⟨hs, h.2 hs, hm⟩
      · rename_i hm
        exact ⟨hs, h.2 hs, fun h => absurd h hm, fun _ j hj => absurd hj (by omega)⟩
    · exact h.1
  case lazyRead =>
    split
    · exact h.2.1
    · exact ⟨h.1, h.2.1, fun _ => rfl, fun hm => absurd h.2.2 hm⟩
  case dlsym k =>
    obtain ⟨h1, h2, h3, h4⟩ := h
    cases hk : C.syms[k]? with
    | none =>
      dsimp only
      have hk' : C.syms.length ≤ k := List.getElem?_eq_none_iff.mp hk
      refine ⟨h2, ?_⟩
      by_cases hm : C.mode = .lazy
      · have := h3 hm
        omega
      · exact h4 hm i (by omega)
    | some name =>
      dsimp only
      have : opens (s.log ++ [.sym s.handle name (L.sym s.clock s.handle name)]) = opens s.log := by
        rw [opens_append]
        rfl
      exact ⟨h1, ⟨by rw [this]; exact h2.1, by rw [this]; exact h2.2.1, h2.2.2⟩, h3, h4⟩
  case setPtr k r =>
    obtain ⟨h1, h2, h3, h4⟩ := h
    split
    · exact ⟨h2.1, h2.2.1, fun _ _ => h1⟩
    · rename_i hm
      split
      · rename_i hr
        refine ⟨h1, ⟨h2.1, h2.2.1, fun _ _ => h1⟩, fun h => absurd h hm, fun _ j hj => ?_⟩
        dsimp only
        split
        · exact Option.isSome_iff_ne_none.mp hr
        · exact h4 hm j (by omega)
      · exact h2.1
  case lazyCheck =>
    split
    · rename_i hs
      exact ⟨h, Option.isSome_iff_ne_none.mp hs⟩
    · exact h.1
  case close =>
    split
    · rename_i x hx
      show opens (s.log ++ [.closed x]) ≤ 1
      rw [opens_append]
      exact h
    · exact h
  case nullHandle => exact h
  case nullPtr k => split <;> exact h
  case die => exact h
  case call => exact h

/-- What is known of the process if there is at most one thread inside. -/
structure Locked (C : Cfg) (y : Sys) : Prop where
  todo : ∀ t, ∀ i ∈ (y.thr t).todo, i < C.syms.length
  idle : ∀ t, (y.thr t).todo = [] → (y.thr t).pc = .check
  inside : ∀ t i r, (y.thr t).todo = i :: r → (y.thr t).pc ≠ .check → Inside C i y.sh (y.thr t).pc
  rest : (∀ t, (y.thr t).pc = .check) → Rest y.sh
  calls : ∀ c ∈ y.sh.calls, c.addr ≠ none

theorem sysStep_locked {t : Nat} {y : Sys} (h : Locked C y) (h1 : AtMostOne y) (h2 : AtMostOne (y.step L C t)) : Locked C (y.step L C t) := by
  rcases sysStep_cases (L := L) (C := C) t y with he | ⟨_, i, r, ht, ⟨hc, he⟩ | ⟨hc, he⟩⟩
  · rw [he]
    exact h
  · have hin := h.inside t i r ht (by rw [hc]; simp)
    rw [hc] at hin
    rw [he]
    refine ⟨fun u j hj => ?_, fun u hu => ?_, fun u j q hu hp => ?_, fun _ => hin.1, fun c hcm => ?_⟩
    · dsimp only at hj
      split at hj
      · exact h.todo t j (by rw [ht]; simp [hj])
      · exact h.todo u j hj
    · dsimp only at hu ⊢
      split
      · rfl
      · rename_i hne
        rw [if_neg hne] at hu
        exact h.idle u hu
    · dsimp only at hp hu
      by_cases hut : u = t
      · rw [if_pos hut] at hp
        exact absurd rfl hp
      · rw [if_neg hut] at hp
        exact absurd (h1 u t hp (by rw [hc]; simp)) hut
    · simp only [List.mem_append, List.mem_singleton] at hcm
      rcases hcm with hcm | rfl
      · exact h.calls c hcm
      · exact hin.2
  · have hi : i < C.syms.length := h.todo t i (by rw [ht]; simp)
    rw [he] at h2 ⊢
    -- no other thread is inside
    have hother : (step L C i y.sh (y.thr t).pc).2 ≠ .check → ∀ u, u ≠ t → (y.thr u).pc = .check := by
      intro hp u hu
      apply Classical.byContradiction
      intro hcon
      exact hu (h2 u t (by dsimp only; rw [if_neg hu]; exact hcon) (by dsimp only; rw [if_pos rfl]; exact hp))
    have hne : (step L C i y.sh (y.thr t).pc).2 ≠ .check := by
      have hl : loadPC C ≠ .check := by unfold loadPC; split <;> simp
      cases (y.thr t).pc <;> simp only [step] <;> (repeat' split) <;> first | exact hl | (intro h; cases h)
    have hoth := hother hne
    have hin : Inside C i y.sh (y.thr t).pc := by
      by_cases hp : (y.thr t).pc = .check
      · rw [hp]
        refine h.rest fun u => ?_
        by_cases hu : u = t
        · rw [hu, hp]
        · exact hoth u hu
      · exact h.inside t i r ht hp
    have hst := step_inside (L := L) hi hin
    refine ⟨fun u j hj => ?_, fun u hu => ?_, fun u j q hu hp => ?_, fun hall => ?_, fun c hcm => ?_⟩
    · dsimp only at hj
      split at hj
      · exact h.todo t j (by rw [ht]; exact hj)
      · exact h.todo u j hj
    · dsimp only at hu ⊢
      split
      · rename_i hut
        rw [if_pos hut] at hu
        cases hu
      · rename_i hut
        rw [if_neg hut] at hu
        exact h.idle u hu
    · dsimp only at hp hu ⊢
      by_cases hut : u = t
      · rw [if_pos hut] at hu ⊢
        cases hu
        exact hst
      · rw [if_neg hut] at hp
        exact absurd (hoth u hut) hp
    · have := hall t
      dsimp only at this
      rw [if_pos rfl] at this
      exact absurd this hne
    · dsimp only at hcm
      rw [step_calls] at hcm
      exact h.calls c hcm

theorem run_locked (sched : List Nat) : ∀ y : Sys, Locked C y → (∀ p, p <+: sched → AtMostOne (run L C p y)) → Locked C (run L C sched y) := by
  induction sched with
  | nil => intro y h _; exact h
  | cons t r ih =>
    intro y h hx
    have h1 := hx [] (by simp)
    have h2 := hx [t] ⟨r, rfl⟩
    refine ih _ (sysStep_locked h h1 h2) fun p hp => ?_
    obtain ⟨q, hq⟩ := hp
    exact hx (t :: p) ⟨q, by rw [List.cons_append, hq]⟩

theorem locked_opens {y : Sys} (h : Locked C y) : opens y.sh.log ≤ 1 := by
  by_cases hall : ∀ t, (y.thr t).pc = .check
  · exact (h.rest hall).1
  · obtain ⟨t, ht⟩ : ∃ t, (y.thr t).pc ≠ .check := by
      apply Classical.byContradiction
      intro hcon
      exact hall fun t => Classical.byContradiction fun hc => hcon ⟨t, hc⟩
    cases htodo : (y.thr t).todo with
    | nil => exact absurd (h.idle t htodo) ht
    | cons i r =>
      have := h.inside t i r htodo ht
      cases hpc : (y.thr t).pc <;> rw [hpc] at this <;> simp only [Inside] at this
      case check => exact this.1
      case reg => exact this.1
      case atexit => exact this.1
      case regSet => exact this.1
      case isLoaded => exact this.1
      case isLoadedArgs => exact this.1
      case dlopen => exact this.1.1
      case setHandle => exact this.1
      case all => exact this.1
      case isLoadedSym => exact this.1
      case lazyRead => exact this.2.1.1
      case dlsym => exact this.2.1.1
      case setPtr => exact this.2.1.1
      case lazyCheck => exact this.1
      case close => exact this
      case nullHandle => exact this
      case nullPtr => exact this
      case die => exact this
      case call => exact this.1.1

end

/-- If at most one thread is inside of a wrapper function at any time, then for every
    loader, also one that fails: the library is opened at most once, and every call goes
    through a pointer that is not NULL. -/
theorem C53_partial_locked (L : Loader) (C : Cfg) (todo : Nat → List Nat) (ht : ∀ t, ∀ i ∈ todo t, i < C.syms.length) (sched : List Nat)
    (hx : ∀ p, p <+: sched → AtMostOne (run L C p (start todo))) :
    opens (run L C sched (start todo)).sh.log ≤ 1 ∧ ∀ c ∈ (run L C sched (start todo)).sh.calls, c.addr ≠ none := by
  have h0 : Locked C (start todo) :=
    ⟨ht, fun _ _ => rfl, fun _ _ _ _ h => absurd rfl h, fun _ => ⟨Nat.zero_le _, fun _ => rfl, fun k hk => absurd rfl hk⟩, fun c hc => (by cases hc)⟩
  have h := run_locked sched _ h0 hx
  exact ⟨locked_opens h, h.calls⟩

theorem run_other {L : Loader} {C : Cfg} {u : Nat} : ∀ (sched : List Nat) (y : Sys), u ∉ sched → (run L C sched y).thr u = y.thr u := by
  intro sched
  induction sched with
  | nil => intro y _; rfl
  | cons t r ih =>
    intro y hu
    rw [run, ih _ (fun h => hu (by simp [h]))]
    have : u ≠ t := fun h => hu (by simp [h])
    rcases sysStep_cases (L := L) (C := C) t y with he | ⟨_, i, q, _, ⟨_, he⟩ | ⟨_, he⟩⟩ <;> rw [he]
    · simp [this]
    · simp [this]

/-- Two threads, one after the other; the second finds the library loaded. -/
example : ∀ p, p <+: List.replicate 14 0 ++ List.replicate 14 1 → AtMostOne (run demoLoader demoCfg p (start demoTodo)) := by
  intro p hp t u ht hu
  have hout : ∀ t, 2 ≤ t → ((run demoLoader demoCfg p (start demoTodo)).thr t).pc = .check := by
    intro t h2
    rw [run_other]
    · rfl
    · intro hm
      have := hp.subset hm
      simp at this
      omega
  have h2 : ∀ t, ((run demoLoader demoCfg p (start demoTodo)).thr t).pc ≠ .check → t < 2 := by
    intro t h
    apply Classical.byContradiction
    intro hc
    exact h (hout t (by omega))
  have key : ∀ n, n ≤ 28 → let y := run demoLoader demoCfg ((List.replicate 14 0 ++ List.replicate 14 1).take n) (start demoTodo)
      (y.thr 0).pc = .check ∨ (y.thr 1).pc = .check := by decide
  have hk := key p.length (by have := hp.length_le; simpa using this)
  rw [← List.prefix_iff_eq_take.mp hp] at hk
  have ht2 := h2 t ht
  have hu2 := h2 u hu
  match t, u with
  | 0, 0 => rfl
  | 1, 1 => rfl
  | 0, 1 => exact hk.elim (fun h => absurd h ht) (fun h => absurd h hu)
  | 1, 0 => exact hk.elim (fun h => absurd h hu) (fun h => absurd h ht)
  | t + 2, _ => omega
  | _, u + 2 => omega

example : (run demoLoader demoCfg (List.replicate 14 0 ++ List.replicate 14 1) (start demoTodo)).sh.calls = [⟨0, 0, some 7⟩, ⟨1, 1, some 8⟩] ∧
    opens (run demoLoader demoCfg (List.replicate 14 0 ++ List.replicate 14 1) (start demoTodo)).sh.log = 1 := by decide

/-- A thread that is not interrupted does what the sequential model of the wrapper function
    says: it calls the same address and leaves the same data, or the process ends. -/
theorem C53_alone (L : Loader) (C : Cfg) (t i : Nat) (name : Str) (hi : C.syms[i]? = some name) (r : List Nat) (y : Sys) (s : St)
    (hs : Same s y.sh y.sh.calls) (ht : y.thr t = { todo := i :: r }) :
    match Rt.wrapper L.toLoader C i s with
    | .ret p u => ∃ n, (run L C (List.replicate n t) y).thr t = { todo := r } ∧
        Same u (run L C (List.replicate n t) y).sh (y.sh.calls ++ [⟨t, i, some p⟩])
    | _ => ∃ n, (run L C (List.replicate n t) y).sh.ended = true ∧ (run L C (List.replicate n t) y).sh.calls = y.sh.calls := by
  have h := steps_wrap (L := L) (C := C) hs hi
  have hlt : i < C.syms.length := (List.getElem?_eq_some_iff.mp hi).1
  have hend : (∃ x', Steps L C i y.sh .check x' .die ∧ x'.calls = y.sh.calls ∧ x'.ended = true) →
      ∃ n, (run L C (List.replicate n t) y).sh.ended = true ∧ (run L C (List.replicate n t) y).sh.calls = y.sh.calls := by
    rintro ⟨x, h1, h2, h3⟩
    obtain ⟨n, h4, _⟩ := run_steps h1 t r y rfl ht
    exact ⟨n, by rw [h4]; exact h3, by rw [h4]; exact h2⟩
  unfold Rt.wrapper
  cases hw : wrapCheckLoaded L.toLoader C i s with
  | ret a u =>
    rw [hw] at h
    dsimp only at h ⊢
    obtain ⟨x, h1, h2⟩ := h
    obtain ⟨p, hp⟩ := Option.isSome_iff_exists.mp (C47_nonnull L.toLoader C i hlt s u hw)
    rw [hp]
    dsimp only
    obtain ⟨n, h4, h5, _⟩ := run_steps h1 t r y rfl ht
    have hr : run L C (List.replicate (n + 1) t) y = (run L C (List.replicate n t) y).step L C t := by
      rw [List.replicate_succ', run_append]
      rfl
    have hst : (run L C (List.replicate n t) y).step L C t =
        { sh := { x with calls := x.calls ++ [⟨t, i, x.ptr i⟩] }
          thr := fun v => if v = t then { todo := r } else (run L C (List.replicate n t) y).thr v } := by
      unfold Sys.step
      rw [if_neg (by rw [h4, h2.ended]; simp), h5, h4]
      rfl
    refine ⟨n + 1, ?_, ?_⟩
    · rw [hr, hst]
      simp
    · rw [hr, hst]
      refine ⟨h2.handle, h2.ptr, h2.reg, h2.clock, h2.handlers, ?_, h2.ended⟩
      show x.calls ++ [⟨t, i, x.ptr i⟩] = _
      rw [h2.calls, h2.ptr, hp]
  | exit c u => rw [hw] at h; exact hend h
  | abort u => rw [hw] at h; exact hend h
  | ub => rw [hw] at h; exact hend h

example : Same {} (start demoTodo).sh [] ∧ (start demoTodo).thr 0 = { todo := [0, 1] } ∧
    ∃ u, Rt.wrapper demoLoader.toLoader demoCfg 0 {} = .ret 7 u := ⟨⟨rfl, rfl, rfl, rfl, rfl, rfl, rfl⟩, rfl, _, rfl⟩

/-- What an event tells is an answer of the loader. -/
def Answer (L : Loader) (C : Cfg) : Ev → Prop
  | .opened r => ∃ t, r = (L.dlopen t C.lib C.flags false).1
  | .sym (some h) name r => ∃ t, r = (L.dlsym t h name).1
  | .sym none name r => ∃ t, r = L.dlsymNull t name
  | .closed _ => True

theorem step_answers {L : Loader} {C : Cfg} (i : Nat) (s : Sh) (pc : PC) (h : ∀ e ∈ s.log, Answer L C e) : ∀ e ∈ (step L C i s pc).1.log, Answer L C e := by
  have one : ∀ {e : Ev}, Answer L C e → ∀ x ∈ s.log ++ [e], Answer L C x := fun he x hx => by
    rcases List.mem_append.mp hx with hx | hx
    · exact h x hx
    · rw [List.mem_singleton.mp hx]; exact he
  cases pc with
  | dlopen => exact one ⟨_, rfl⟩
  | dlsym k =>
    simp only [step]
    split
    · refine one ?_
      cases s.handle <;> exact ⟨_, rfl⟩
    · exact h
  | close =>
    simp only [step]
    split
    · exact one trivial
    · exact h
  | _ =>
    simp only [step]
    try split
    all_goals exact h

/-- Whatever the schedule: all that is opened and looked up is what the loader answered, for a
handle that was closed meanwhile as well. -/
theorem C53_answers (L : Loader) (C : Cfg) (todo : Nat → List Nat) (sched : List Nat) : ∀ e ∈ (run L C sched (start todo)).sh.log, Answer L C e := by
  suffices H : ∀ y : Sys, (∀ e ∈ y.sh.log, Answer L C e) → ∀ e ∈ (run L C sched y).sh.log, Answer L C e from H _ (by simp [start])
  induction sched with
  | nil => exact fun y h => h
  | cons t r ih =>
    intro y h
    refine ih _ ?_
    unfold Sys.step
    split
    · exact h
    · split
      · exact h
      · split
        · exact h
        · exact step_answers _ _ _ h

example : (run demoLoader demoCfg inTurn (start demoTodo)).sh.log.any (fun | .opened (some _) => true | _ => false) = true := by decide +kernel

end Gdo.Thr
