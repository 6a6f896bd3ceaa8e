import Verif.Model.Threads

/-!
A thread that runs alone does what the sequential model of the wrapper function does.
-/

namespace Gdo.Thr
open Gdo Rt

section
variable {L : Loader} {C : Cfg}

/-- Some steps of a thread inside of the wrapper function of symbol `i`. -/
inductive Steps (L : Loader) (C : Cfg) (i : Nat) : Sh → PC → Sh → PC → Prop
  | nil (s : Sh) (pc : PC) : Steps L C i s pc s pc
  | cons {s : Sh} {pc : PC} {s' : Sh} {pc' : PC} : s.ended = false → pc ≠ .call →
      Steps L C i (step L C i s pc).1 (step L C i s pc).2 s' pc' → Steps L C i s pc s' pc'

theorem Steps.trans {i : Nat} {a b c : Sh} {p q r : PC} (h : Steps L C i a p b q) (g : Steps L C i b q c r) : Steps L C i a p c r := by
  induction h with
  | nil => exact g
  | cons h1 h2 _ ih => exact .cons h1 h2 (ih g)

theorem Steps.one {i : Nat} {s : Sh} {pc : PC} (h1 : s.ended = false) (h2 : pc ≠ .call) :
    Steps L C i s pc (step L C i s pc).1 (step L C i s pc).2 := .cons h1 h2 (.nil _ _)

theorem Steps.to {i : Nat} {s s' : Sh} {pc pc' : PC} (h1 : s.ended = false) (h2 : pc ≠ .call) (h3 : step L C i s pc = (s', pc')) :
    Steps L C i s pc s' pc' := by
  have := Steps.one (L := L) (C := C) (i := i) h1 h2
  rw [h3] at this
  exact this

theorem run_steps {i : Nat} {s s' : Sh} {pc pc' : PC} (h : Steps L C i s pc s' pc') : ∀ (t : Nat) (r : List Nat) (y : Sys), y.sh = s →
    y.thr t = { todo := i :: r, pc := pc } →
    ∃ n, (run L C (List.replicate n t) y).sh = s' ∧
      (run L C (List.replicate n t) y).thr t = { todo := i :: r, pc := pc' } ∧ ∀ u, u ≠ t → (run L C (List.replicate n t) y).thr u = y.thr u := by
  induction h with
  | nil s pc => intro t r y h1 h2; exact ⟨0, h1, h2, fun _ _ => rfl⟩
  | @cons s pc s' pc' he hc _ ih =>
    intro t r y h1 h2
    have hy : y.step L C t = { sh := (step L C i s pc).1, thr := fun u => if u = t then { todo := i :: r, pc := (step L C i s pc).2 } else y.thr u } := by
      unfold Sys.step
      rw [h1, he, h2]
      simp only [Bool.false_eq_true, if_false]
      rw [if_neg hc]
    obtain ⟨n, hn1, hn2, hn3⟩ := ih t r (y.step L C t) (by rw [hy]) (by rw [hy]; simp)
    refine ⟨n + 1, ?_, ?_, fun u hu => ?_⟩
    · rw [List.replicate_succ, run]; exact hn1
    · rw [List.replicate_succ, run]; exact hn2
    · rw [List.replicate_succ, run, hn3 u hu, hy]
      simp [hu]

/-- The shared data are those of the sequential model. -/
structure Same (s : St) (x : Sh) (calls : List Called) : Prop where
  handle : x.handle = s.handle
  ptr : x.ptr = s.ptr
  reg : x.freeLibReg = s.freeLibReg
  clock : x.clock = s.clock
  handlers : x.handlers = s.handlers
  calls : x.calls = calls
  ended : x.ended = false

variable {cs : List Called}

theorem same_reg {s : St} {x : Sh} (h : Same s x cs) (i : Nat) :
    ∃ x', Steps L C i x .reg x' .isLoaded ∧ Same (enableAutorelease L.toLoader C s).2 x' cs := by
  unfold enableAutorelease
  dsimp only
  by_cases hr : s.freeLibReg = true
  · rw [if_pos (by exact hr)]
    refine ⟨x, .to h.ended (by simp) (by simp only [step]; rw [h.reg, if_pos hr]), ?_⟩
    exact ⟨h.handle, h.ptr, h.reg, h.clock, h.handlers, h.calls, h.ended⟩
  · rw [if_neg (by exact hr)]
    have h1 : Steps L C i x .reg x .atexit := .to h.ended (by simp) (by simp only [step]; rw [h.reg, if_neg hr])
    by_cases ha : L.atexit s.clock = true
    · rw [if_pos (by exact ha)]
      refine ⟨{ x with clock := x.clock + 1, handlers := x.handlers + 1, freeLibReg := true },
        h1.trans (.cons h.ended (by simp) ?_), ?_⟩
      · simp only [step]
        rw [h.clock, if_pos ha]
        exact .to h.ended (by simp) rfl
      · exact ⟨h.handle, h.ptr, rfl, by simp [h.clock, Rt.clearError], by simp [h.handlers, Rt.clearError], h.calls, h.ended⟩
    · rw [if_neg (by exact ha)]
      refine ⟨{ x with clock := x.clock + 1 }, h1.trans (.to h.ended (by simp) ?_), ?_⟩
      · simp only [step]
        rw [h.clock, if_neg ha]
      · exact ⟨h.handle, h.ptr, h.reg, by simp [h.clock, Rt.clearError, Rt.saveToErrbuf], h.handlers, h.calls, h.ended⟩

theorem same_lib {s : St} {x : Sh} (h : Same s x cs) (i : Nat) :
    ∃ x', Steps L C i x .isLoaded x' (loadPC C) ∧ Same (if libIsLoaded s then s else (Rt.loadLib L.toLoader C s).2) x' cs := by
  by_cases hl : libIsLoaded s = true
  · rw [if_pos hl]
    refine ⟨x, .to h.ended (by simp) ?_, h⟩
    simp only [step]
    rw [h.handle, if_pos (by exact hl)]
  · rw [if_neg hl]
    have h1 : Steps L C i x .isLoaded x .isLoadedArgs := .to h.ended (by simp) (by simp only [step]; rw [h.handle, if_neg (by exact hl)])
    have hn : s.handle = none := by simpa [libIsLoaded] using hl
    unfold Rt.loadLib loadLibName loadLibArgs
    dsimp only
    rw [if_neg (by simp [libIsLoaded, Rt.clearError, hn])]
    by_cases hlib : C.lib = []
    · rw [if_pos (by simpa using hlib)]
      refine ⟨x, h1.trans (.to h.ended (by simp) ?_), ?_⟩
      · simp only [step]
        rw [if_pos (.inr hlib)]
      · exact ⟨h.handle, h.ptr, h.reg, h.clock, h.handlers, h.calls, h.ended⟩
    · rw [if_neg (by simpa using hlib)]
      have h2 : Steps L C i x .isLoadedArgs x .dlopen := .to h.ended (by simp) (by simp only [step]; rw [if_neg (by simp [h.handle, hn, hlib])])
      refine ⟨{ x with clock := x.clock + 1, log := x.log ++ [.opened (L.dlopen x.clock C.lib C.flags false).1],
                       handle := (L.dlopen x.clock C.lib C.flags false).1 },
        h1.trans (h2.trans (.cons h.ended (by simp) (.to h.ended (by simp [step]) rfl))), ?_⟩
      split
      · exact ⟨by simp [loadLibrary, Rt.clearError, h.clock], h.ptr, h.reg, by simp [loadLibrary, Rt.clearError, h.clock], h.handlers, h.calls, h.ended⟩
      · refine ⟨?_, ?_, ?_, ?_, ?_, h.calls, h.ended⟩
        · simp [saveError, saveToErrbuf]
          split <;> simp [loadLibrary, Rt.clearError, h.clock]
        · simp [saveError, saveToErrbuf]
          split <;> simp [loadLibrary, Rt.clearError, h.ptr]
        · simp [saveError, saveToErrbuf]
          split <;> simp [loadLibrary, Rt.clearError, h.reg]
        · simp [saveError, saveToErrbuf]
          split <;> simp [loadLibrary, Rt.clearError, h.clock]
        · simp [saveError, saveToErrbuf]
          split <;> simp [loadLibrary, Rt.clearError, h.handlers]

/-- Where a thread is after loading symbols. -/
def donePC (b : Bool) : PC := if b then .call else .close

/-- After `dlsym` and the assignment of its result. -/
def symDone (L : Loader) (name : Str) (k : Nat) (x : Sh) : Sh :=
  { x with
    clock := x.clock + 1
    log := x.log ++ [.sym x.handle name (L.sym x.clock x.handle name)]
    ptr := fun j => if j = k then L.sym x.clock x.handle name else x.ptr j }

theorem gdoSym_same {s : St} {x : Sh} (h : Same s x cs) {a : Ptr} (ha : s.handle = some a) (name : Str) (k : Nat) :
    (gdoSym L.toLoader a name s).1 = L.sym x.clock x.handle name ∧
    Same (Rt.setPtr k (gdoSym L.toLoader a name s).1 (gdoSym L.toLoader a name s).2)
      (symDone L name k x) cs := by
  have h1 : (gdoSym L.toLoader a name s).1 = L.sym x.clock x.handle name := by
    unfold gdoSym
    dsimp only
    rw [h.handle, ha, h.clock]
    split <;> rfl
  refine ⟨h1, ?_⟩
  rw [h1]
  refine ⟨?_, ?_, ?_, ?_, ?_, h.calls, h.ended⟩
  · show x.handle = (gdoSym L.toLoader a name s).2.handle
    unfold gdoSym
    dsimp only
    split
    · exact h.handle
    · simp [saveError, saveToErrbuf]
      split <;> simp [h.handle]
  · show (fun j => if j = k then _ else x.ptr j) = fun j => if j = k then _ else (gdoSym L.toLoader a name s).2.ptr j
    have : (gdoSym L.toLoader a name s).2.ptr = s.ptr := by
      unfold gdoSym
      dsimp only
      split
      · rfl
      · simp [saveError, saveToErrbuf]
        split <;> rfl
    rw [this, h.ptr]
  · show x.freeLibReg = (gdoSym L.toLoader a name s).2.freeLibReg
    unfold gdoSym
    dsimp only
    split
    · exact h.reg
    · simp [saveError, saveToErrbuf]
      split <;> simp [h.reg]
  · show x.clock + 1 = (gdoSym L.toLoader a name s).2.clock
    unfold gdoSym
    dsimp only
    split
    · simp [h.clock]
    · simp [saveError, saveToErrbuf]
      split <;> simp [h.clock]
  · show x.handlers = (gdoSym L.toLoader a name s).2.handlers
    unfold gdoSym
    dsimp only
    split
    · exact h.handlers
    · simp [saveError, saveToErrbuf]
      split <;> simp [h.handlers]

theorem same_clear {s : St} {x : Sh} (h : Same s x cs) : Same (Rt.clearError s) x cs :=
  ⟨h.handle, h.ptr, h.reg, h.clock, h.handlers, h.calls, h.ended⟩

theorem same_noLibrary {s : St} {x : Sh} (h : Same s x cs) : Same (noLibrary s) x cs :=
  ⟨h.handle, h.ptr, h.reg, h.clock, h.handlers, h.calls, h.ended⟩

theorem same_lazy (hm : C.mode = .lazy) {s : St} {x : Sh} (h : Same s x cs) {i : Nat} {name : Str} (hi : C.syms[i]? = some name) :
    ∃ x', Steps L C i x (loadPC C) x' (donePC (Rt.loadSymbol L.toLoader C i s).1) ∧ Same (Rt.loadSymbol L.toLoader C i s).2 x' cs := by
  have hc : caseOf C (i : Int) = some (i, name) := by
    show (C.syms[i]?).map _ = _
    rw [hi]
    rfl
  have hpc : loadPC C = .isLoadedSym := by unfold loadPC; rw [if_pos hm]
  rw [hpc]
  unfold Rt.loadSymbol
  dsimp only
  cases hh : s.handle with
  | none =>
    have : (Rt.clearError s).handle = none := hh
    simp only [this]
    refine ⟨x, .to h.ended (by simp) ?_, same_noLibrary (same_clear h)⟩
    simp only [step]
    rw [h.handle, hh]
    rfl
  | some a =>
    have : (Rt.clearError s).handle = some a := hh
    simp only [this, hc]
    have h1 : Steps L C i x .isLoadedSym x .lazyRead := .to h.ended (by simp) (by simp only [step]; rw [h.handle, hh, hm]; rfl)
    unfold Rt.loadOne
    cases hp : s.ptr i with
    | some p =>
      have : (Rt.clearError s).ptr i = some p := hp
      simp only [this]
      refine ⟨x, h1.trans (.cons h.ended (by simp) ?_), same_clear h⟩
      simp only [step]
      rw [h.ptr, hp]
      refine .to h.ended (by simp) ?_
      simp only [step]
      rw [h.ptr, hp]
      rfl
    | none =>
      have : (Rt.clearError s).ptr i = none := hp
      simp only [this]
      have hg := gdoSym_same (L := L) (same_clear h) (show (Rt.clearError s).handle = some a from hh) name i
      have h2 : Steps L C i x .lazyRead x (.dlsym i) := .to h.ended (by simp) (by simp only [step]; rw [h.ptr, hp]; rfl)
      have h3 : Steps L C i x (.dlsym i) (symDone L name i x) .lazyCheck := by
        refine .cons h.ended (by simp) ?_
        simp only [step, hi]
        refine .to h.ended (by simp) ?_
        simp only [step]
        rw [if_pos hm]
        rfl
      have h4 : Steps L C i (symDone L name i x) .lazyCheck (symDone L name i x) (donePC (L.sym x.clock x.handle name).isSome) := by
        refine .to h.ended (by simp) ?_
        simp only [step, symDone, if_true]
        rfl
      refine ⟨_, h1.trans (h2.trans (h3.trans ?_)), hg.2⟩
      rw [hg.1]
      exact h4

theorem same_loop (hm : C.mode ≠ .lazy) (i : Nat) {a : Ptr} : ∀ (l : List Str) (k : Nat) (s : St) (x : Sh), C.syms.drop k = l →
    s.handle = some a → Same s x cs →
    ∃ x', Steps L C i x (.dlsym k) x' (donePC (Rt.loadLoop L.toLoader a k l s).1) ∧ Same (Rt.loadLoop L.toLoader a k l s).2 x' cs := by
  intro l
  induction l with
  | nil =>
    intro k s x hl hh h
    have hk : C.syms[k]? = none := by
      rw [List.getElem?_eq_none_iff]
      exact List.drop_eq_nil_iff.mp hl
    refine ⟨x, .to h.ended (by simp) ?_, h⟩
    simp only [step, hk]
    rfl
  | cons name r ih =>
    intro k s x hl hh h
    have hk : C.syms[k]? = some name := by
      have := congrArg (·[0]?) hl
      simpa [List.getElem?_drop] using this
    have hr : C.syms.drop (k + 1) = r := by
      rw [← List.drop_drop, hl]
      rfl
    have hg := gdoSym_same (L := L) h hh name k
    have h1 : ∃ pc, Steps L C i x (.dlsym k) (symDone L name k x) pc ∧
        pc = if (L.sym x.clock x.handle name).isSome then .dlsym (k + 1) else .close := by
      refine ⟨_, .cons h.ended (by simp) ?_, rfl⟩
      simp only [step, hk]
      refine .to h.ended (by simp) ?_
      simp only [step]
      rw [if_neg hm]
      rfl
    obtain ⟨pc, h1, hpc⟩ := h1
    rw [Rt.loadLoop]
    by_cases hs : (gdoSym L.toLoader a name s).1.isSome = true
    · rw [if_pos hs]
      rw [← hg.1, if_pos hs] at hpc
      subst hpc
      have hh' : (Rt.setPtr k (gdoSym L.toLoader a name s).1 (gdoSym L.toLoader a name s).2).handle = some a := by
        rw [← hg.2.handle]
        exact h.handle.trans hh
      obtain ⟨x', h2, h3⟩ := ih (k + 1) _ _ hr hh' hg.2
      exact ⟨x', h1.trans h2, h3⟩
    · rw [if_neg hs]
      rw [← hg.1, if_neg hs] at hpc
      subst hpc
      exact ⟨_, h1, hg.2⟩

theorem steps_all (i : Nat) {x : Sh} (he : x.ended = false) : ∀ n k, k + n = C.syms.length →
    ((∀ j, k ≤ j → j < C.syms.length → (x.ptr j).isSome = true) → Steps L C i x (.all k) x .call) ∧
    ((∃ j, k ≤ j ∧ j < C.syms.length ∧ (x.ptr j).isSome = false) → Steps L C i x (.all k) x .isLoadedSym) := by
  intro n
  induction n with
  | zero =>
    intro k hk
    refine ⟨fun _ => .to he (by simp) ?_, fun ⟨j, h1, h2, _⟩ => by omega⟩
    simp only [step]
    rw [if_neg (by omega)]
  | succ n ih =>
    intro k hk
    obtain ⟨ih1, ih2⟩ := ih (k + 1) (by omega)
    by_cases hp : (x.ptr k).isSome = true
    · have h1 : Steps L C i x (.all k) x (.all (k + 1)) := .to he (by simp) (by simp only [step]; rw [if_pos (by omega), if_pos hp])
      refine ⟨fun h => h1.trans (ih1 fun j hj => h j (by omega)), fun ⟨j, hj, hj2, hj3⟩ => h1.trans (ih2 ⟨j, ?_, hj2, hj3⟩)⟩
      by_cases hjk : j = k
      · rw [hjk, hp] at hj3
        cases hj3
      · omega
    · refine ⟨fun h => absurd (h k (Nat.le_refl _) (by omega)) hp, fun _ => .to he (by simp) ?_⟩
      simp only [step]
      rw [if_pos (by omega), if_neg hp]

theorem same_all (hm : C.mode ≠ .lazy) {s : St} {x : Sh} (h : Same s x cs) (i : Nat) :
    ∃ x', Steps L C i x (loadPC C) x' (donePC (Rt.loadAllSymbols L.toLoader C s).1) ∧ Same (Rt.loadAllSymbols L.toLoader C s).2 x' cs := by
  have hpc : loadPC C = .all 0 := by unfold loadPC; rw [if_neg hm]
  rw [hpc]
  unfold Rt.loadAllSymbols
  dsimp only
  obtain ⟨ha1, ha2⟩ := steps_all (L := L) (C := C) i h.ended C.syms.length 0 (by omega)
  by_cases ha : Rt.allLoaded C (Rt.clearError s) = true
  · rw [if_pos ha]
    refine ⟨x, ha1 ?_, same_clear h⟩
    intro j _ hj
    rw [h.ptr]
    simp only [Rt.allLoaded, List.all_eq_true, List.mem_range] at ha
    exact ha j hj
  · rw [if_neg ha]
    have h1 : Steps L C i x (.all 0) x .isLoadedSym := by
      refine ha2 ?_
      apply Classical.byContradiction
      intro hcon
      refine ha ?_
      simp only [Rt.allLoaded, List.all_eq_true, List.mem_range]
      intro j hj
      apply Classical.byContradiction
      intro hc
      refine hcon ⟨j, Nat.zero_le _, hj, ?_⟩
      rw [h.ptr]
      exact Bool.eq_false_iff.mpr hc
    cases hh : s.handle with
    | none =>
      have : (Rt.clearError s).handle = none := hh
      simp only [this]
      refine ⟨x, h1.trans (.to h.ended (by simp) ?_), same_noLibrary (same_clear h)⟩
      simp only [step]
      rw [h.handle, hh]
      rfl
    | some a =>
      have hh' : (Rt.clearError s).handle = some a := hh
      simp only [hh']
      have h2 : Steps L C i x .isLoadedSym x (.dlsym 0) := .to h.ended (by simp) (by
        simp only [step]
        rw [h.handle, hh, if_neg hm]
        rfl)
      obtain ⟨x', h3, h4⟩ := same_loop (L := L) hm i C.syms 0 (Rt.clearError s) x rfl hh' (same_clear h)
      exact ⟨x', h1.trans (h2.trans h3), h4⟩

theorem steps_nullPtr (i : Nat) : ∀ n k (x : Sh), k + n = C.syms.length → x.ended = false →
    ∃ x', Steps L C i x (.nullPtr k) x' .die ∧ x'.calls = x.calls ∧ x'.ended = false := by
  intro n
  induction n with
  | zero =>
    intro k x hk he
    refine ⟨x, .to he (by simp) ?_, rfl, he⟩
    simp only [step]
    rw [if_neg (by omega)]
  | succ n ih =>
    intro k x hk he
    obtain ⟨x', h1, h2, h3⟩ := ih (k + 1) { x with ptr := fun j => if j = k then none else x.ptr j } (by omega) he
    refine ⟨x', .cons he (by simp) ?_, h2, h3⟩
    simp only [step]
    rw [if_pos (by omega)]
    exact h1

theorem steps_die (i : Nat) {x : Sh} (he : x.ended = false) : Steps L C i x .die { x with ended := true } .die := .to he (by simp) rfl

theorem steps_close (i : Nat) {x : Sh} (he : x.ended = false) : ∃ x', Steps L C i x .close x' .die ∧ x'.calls = x.calls ∧ x'.ended = true := by
  have h1 : ∃ y, Steps L C i x .close y .nullHandle ∧ y.calls = x.calls ∧ y.ended = false := by
    cases hh : x.handle with
    | none => exact ⟨x, .to he (by simp) (by simp only [step, hh]), rfl, he⟩
    | some a => exact ⟨{ x with clock := x.clock + 1, log := x.log ++ [.closed a] }, .to he (by simp) (by simp only [step, hh]), rfl, he⟩
  obtain ⟨y, h1, h2, h3⟩ := h1
  have h4 : Steps L C i y .nullHandle { y with handle := none } (.nullPtr 0) := .to h3 (by simp) rfl
  obtain ⟨z, h5, h6, h7⟩ := steps_nullPtr (L := L) (C := C) i C.syms.length 0 { y with handle := none } (by omega) h3
  exact ⟨_, h1.trans (h4.trans (h5.trans (steps_die i h7))), h6.trans h2, rfl⟩

/-- A thread that runs alone through the wrapper function. -/
theorem steps_wrap {s : St} {x : Sh} (h : Same s x cs) {i : Nat} {name : Str} (hi : C.syms[i]? = some name) :
    match wrapCheckLoaded L.toLoader C i s with
    | .ret _ u => ∃ x', Steps L C i x .check x' .call ∧ Same u x' cs
    | _ => ∃ x', Steps L C i x .check x' .die ∧ x'.calls = cs ∧ x'.ended = true := by
  unfold wrapCheckLoaded
  dsimp only
  cases hp : s.ptr i with
  | some p =>
    dsimp only
    refine ⟨x, .to h.ended (by simp) ?_, h⟩
    simp only [step]
    rw [h.ptr, hp]
    rfl
  | none =>
    dsimp only
    have hfail : ∀ {b : Bool} {y : Sh} {u : St}, b = false → Steps L C i x .check y (donePC b) → Same u y cs →
        ∃ x', Steps L C i x .check x' .die ∧ x'.calls = cs ∧ x'.ended = true := by
      intro b y u hb h1 h2
      subst hb
      obtain ⟨z, h3, h4, h5⟩ := steps_close (L := L) (C := C) i h2.ended
      exact ⟨z, h1.trans h3, h4.trans h2.calls, h5⟩
    have hload : C.mode ≠ .wrap → ∃ y, Steps L C i x .check y (loadPC C) ∧ Same (autoloadLib L.toLoader C s) y cs := by
      intro hm
      obtain ⟨y, h1, h2⟩ := same_reg (L := L) (C := C) h i
      obtain ⟨z, h3, h4⟩ := same_lib (L := L) (C := C) h2 i
      refine ⟨z, .trans (.to h.ended (by simp) ?_) (h1.trans h3), h4⟩
      simp only [step]
      rw [h.ptr, hp, if_neg hm]
      rfl
    cases hm : C.mode with
    | wrap =>
      have hdie : ∃ x', Steps L C i x .check x' .die ∧ x'.calls = cs ∧ x'.ended = true := by
        refine ⟨_, .trans (.to h.ended (by simp) ?_) (steps_die i h.ended), h.calls, rfl⟩
        simp only [step]
        rw [h.ptr, hp, hm]
        rfl
      dsimp only
      split
      · rename_i heq
        split at heq <;> cases heq
      · exact hdie
    | autoload =>
      obtain ⟨y, h1, h2⟩ := hload (by rw [hm]; simp)
      obtain ⟨z, h3, h4⟩ := same_all (L := L) (C := C) (by rw [hm]; simp) h2 i
      dsimp only
      by_cases hr : (Rt.loadAllSymbols L.toLoader C (autoloadLib L.toLoader C s)).1 = true
      · rw [if_pos hr]
        dsimp only
        rw [hr] at h3
        exact ⟨z, h1.trans h3, h4⟩
      · rw [if_neg hr]
        have := hfail (by simpa using hr) (h1.trans h3) h4
        split
        · rename_i heq
          unfold autoloadFailed at heq
          dsimp only at heq
          split at heq <;> cases heq
        · exact this
    | lazy =>
      obtain ⟨y, h1, h2⟩ := hload (by rw [hm]; simp)
      obtain ⟨z, h3, h4⟩ := same_lazy (L := L) (C := C) hm h2 hi
      dsimp only
      by_cases hr : (Rt.loadSymbol L.toLoader C i (autoloadLib L.toLoader C s)).1 = true
      · rw [if_pos hr]
        dsimp only
        rw [hr] at h3
        exact ⟨z, h1.trans h3, h4⟩
      · rw [if_neg hr]
        have := hfail (by simpa using hr) (h1.trans h3) h4
        split
        · rename_i heq
          unfold autoloadFailed at heq
          dsimp only at heq
          split at heq <;> cases heq
        · exact this

end

end Gdo.Thr
