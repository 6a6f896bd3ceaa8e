import Verif.Spec.Runtime

/-!
The invariant of the generated C code.
-/

namespace Gdo.Rt
open Gdo RtSpec

/-! ### Counting -/

@[simp] theorem opens_snoc (h : Ptr) (log : List Ev) (e : Ev) : opens h (log ++ [e]) = opens h log + if e = .opened h then 1 else 0 := by
  simp [opens, List.countP_append, List.countP_cons]

@[simp] theorem closes_snoc (h : Ptr) (log : List Ev) (e : Ev) :
    closes h (log ++ [e]) = closes h log + if e = .closed h true true ∨ e = .closed h true false then 1 else 0 := by
  simp [closes, List.countP_append, List.countP_cons]

@[simp] theorem givenUp_snoc (h : Ptr) (log : List Ev) (e : Ev) :
    givenUp h (log ++ [e]) = givenUp h log + if e = .closed h false true then 1 else 0 := by
  simp [givenUp, List.countP_append, List.countP_cons]

theorem onlyAlive_snoc {log : List Ev} {e : Ev} (ho : OnlyAlive log) (he : ∀ h, Uses h e → Alive h log) : OnlyAlive (log ++ [e]) := by
  intro a e' b h hl hu
  rcases List.eq_nil_or_concat b with rfl | ⟨b', x, rfl⟩
  · have : log ++ [e] = a ++ [e'] := hl
    obtain ⟨h1, h2⟩ := List.append_inj' this rfl
    subst h1
    simp at h2
    subst h2
    exact he h hu
  · have : log ++ [e] = (a ++ e' :: b') ++ [x] := by rw [hl]; simp [List.concat_eq_append]
    obtain ⟨h1, _⟩ := List.append_inj' this rfl
    exact ho a e' b' h h1 hu

theorem resolved_snoc {h : Ptr} {name : Str} {p : Ptr} {log : List Ev} {e : Ev} (hr : Resolved h name p log)
    (he : (∀ h, e ≠ .opened h) ∧ ∀ h f, e ≠ .closed h true f) : Resolved h name p (log ++ [e]) := by
  obtain ⟨a, b, h1, h2⟩ := hr
  refine ⟨a, b ++ [e], by rw [h1]; simp, ?_⟩
  intro x hx
  rcases List.mem_append.mp hx with h | h
  · exact h2 x h
  · simp at h
    subst h
    exact he

/-! ### The invariant -/

/-- The invariant of handle, symbol pointers and history. -/
structure Inv (C : Cfg) (hd : Option Ptr) (pt : Nat → Option Ptr) (lg : List Ev) : Prop where
  /-- every handle that is open and not given up is the current one -/
  count : ∀ h, opens h lg = closes h lg + givenUp h lg + if hd = some h then 1 else 0
  only : OnlyAlive lg
  /-- every pointer was resolved for its symbol in the current library -/
  origin : ∀ i p, pt i = some p → ∃ h name, hd = some h ∧ C.syms[i]? = some name ∧ Resolved h name p lg

/-- The invariant of a state. -/
abbrev SInv (C : Cfg) (s : St) : Prop := Inv C s.handle s.ptr s.log

theorem inv_init (C : Cfg) : SInv C {} where
  count h := by simp [opens, closes, givenUp]
  only a e b h hl := by simp at hl
  origin i p hp := by simp at hp

theorem Inv.null {C : Cfg} {pt : Nat → Option Ptr} {lg : List Ev} (h : Inv C none pt lg) (i : Nat) : pt i = none := by
  cases hp : pt i with
  | none => rfl
  | some p =>
    obtain ⟨_, _, h1, _⟩ := h.origin i p hp
    cases h1

theorem Inv.bound {C : Cfg} {hd : Option Ptr} {pt : Nat → Option Ptr} {lg : List Ev} (h : Inv C hd pt lg) {i : Nat}
    (hi : C.syms.length ≤ i) : pt i = none := by
  cases hp : pt i with
  | none => rfl
  | some p =>
    obtain ⟨_, _, _, h1, _⟩ := h.origin i p hp
    rw [List.getElem?_eq_none hi] at h1
    cases h1

theorem Inv.alive {C : Cfg} {h : Ptr} {pt : Nat → Option Ptr} {lg : List Ev} (hi : Inv C (some h) pt lg) : Alive h lg := by
  have := hi.count h
  unfold Alive
  simp at this
  omega

theorem inv_open {C : Cfg} {pt : Nat → Option Ptr} {lg : List Ev} (h : Ptr) (hi : Inv C none pt lg) :
    Inv C (some h) pt (lg ++ [.opened h]) where
  count x := by
    have := hi.count x
    simp at this
    simp [this]
  only := onlyAlive_snoc hi.only fun x hx => hx.elim
  origin i p hp := by rw [hi.null] at hp; cases hp

theorem inv_sym {C : Cfg} {h : Ptr} {pt : Nat → Option Ptr} {lg : List Ev} {i : Nat} {name : Str} (r : Option Ptr)
    (hi : Inv C (some h) pt lg) (hn : C.syms[i]? = some name) :
    Inv C (some h) (fun j => if j = i then r else pt j) (lg ++ [.sym h name r]) where
  count x := by
    have := hi.count x
    simp at this
    simp [this]
  only := onlyAlive_snoc hi.only fun x hx => by
    have : h = x := hx
    subst this
    exact hi.alive
  origin j p hp := by
    split at hp
    · rename_i hji
      subst hji
      subst hp
      exact ⟨h, name, rfl, hn, lg, [], rfl, by intro e he; cases he⟩
    · obtain ⟨h', n', h1, h2, h3⟩ := hi.origin j p hp
      exact ⟨h', n', h1, h2, resolved_snoc h3 (by simp)⟩

theorem inv_info {C : Cfg} {h : Ptr} {pt : Nat → Option Ptr} {lg : List Ev} (hi : Inv C (some h) pt lg) :
    Inv C (some h) pt (lg ++ [.info h]) where
  count x := by
    have := hi.count x
    simp at this
    simp [this]
  only := onlyAlive_snoc hi.only fun x hx => by
    have : h = x := hx
    subst this
    exact hi.alive
  origin j p hp := by
    obtain ⟨h', n', h1, h2, h3⟩ := hi.origin j p hp
    exact ⟨h', n', h1, h2, resolved_snoc h3 (by simp)⟩

theorem inv_path {C : Cfg} {hd : Option Ptr} {pt : Nat → Option Ptr} {lg : List Ev} (p : Str) (hi : Inv C hd pt lg) :
    Inv C hd pt (lg ++ [.path p]) where
  count x := by
    have := hi.count x
    simp [this]
  only := onlyAlive_snoc hi.only fun x hx => hx.elim
  origin j p hp := by
    obtain ⟨h', n', h1, h2, h3⟩ := hi.origin j p hp
    exact ⟨h', n', h1, h2, resolved_snoc h3 (by simp)⟩

theorem inv_closeFailed {C : Cfg} {h : Ptr} {pt : Nat → Option Ptr} {lg : List Ev} (hi : Inv C (some h) pt lg) :
    Inv C (some h) pt (lg ++ [.closed h false false]) where
  count x := by
    have := hi.count x
    simp at this
    simp [this]
  only := onlyAlive_snoc hi.only fun x hx => by
    have : h = x := hx
    subst this
    exact hi.alive
  origin j p hp := by
    obtain ⟨h', n', h1, h2, h3⟩ := hi.origin j p hp
    exact ⟨h', n', h1, h2, resolved_snoc h3 (by simp)⟩

theorem inv_closed {C : Cfg} {h : Ptr} {pt pt' : Nat → Option Ptr} {lg : List Ev} {ok forced : Bool} (hi : Inv C (some h) pt lg)
    (hf : ok = true ∨ forced = true) (hp' : ∀ i, pt' i = none) : Inv C none pt' (lg ++ [.closed h ok forced]) where
  count x := by
    have := hi.count x
    simp at this
    rcases Decidable.em (h = x) with rfl | hx
    · rcases ok with _ | _ <;> rcases forced with _ | _ <;> simp at hf <;> simp [this] <;> omega
    · simp [this, hx]
  only := onlyAlive_snoc hi.only fun x hx => by
    have : h = x := hx
    subst this
    exact hi.alive
  origin j p hp := by rw [hp'] at hp; cases hp

/-! ### The functions -/

section
variable {L : Loader} {C : Cfg}

@[simp] theorem saveToErrbuf_handle (m : Option Str) (s : St) : (saveToErrbuf m s).handle = s.handle := by cases m <;> rfl
@[simp] theorem saveToErrbuf_ptr (m : Option Str) (s : St) : (saveToErrbuf m s).ptr = s.ptr := by cases m <;> rfl
@[simp] theorem saveToErrbuf_log (m : Option Str) (s : St) : (saveToErrbuf m s).log = s.log := by cases m <;> rfl
@[simp] theorem saveToErrbuf_libpath (m : Option Str) (s : St) : (saveToErrbuf m s).libpath = s.libpath := by cases m <;> rfl
@[simp] theorem saveToErrbuf_reg (m : Option Str) (s : St) : (saveToErrbuf m s).freeLibReg = s.freeLibReg := by cases m <;> rfl
@[simp] theorem saveToErrbuf_handlers (m : Option Str) (s : St) : (saveToErrbuf m s).handlers = s.handlers := by cases m <;> rfl
@[simp] theorem saveToErrbuf_stderr (m : Option Str) (s : St) : (saveToErrbuf m s).stderr = s.stderr := by cases m <;> rfl
@[simp] theorem saveToErrbuf_clock (m : Option Str) (s : St) : (saveToErrbuf m s).clock = s.clock := by cases m <;> rfl

@[simp] theorem saveError_handle (s : St) : (saveError s).handle = s.handle := by simp [saveError]
@[simp] theorem saveError_ptr (s : St) : (saveError s).ptr = s.ptr := by simp [saveError]
@[simp] theorem saveError_log (s : St) : (saveError s).log = s.log := by simp [saveError]
@[simp] theorem saveError_libpath (s : St) : (saveError s).libpath = s.libpath := by simp [saveError]
@[simp] theorem saveError_reg (s : St) : (saveError s).freeLibReg = s.freeLibReg := by simp [saveError]
@[simp] theorem saveError_handlers (s : St) : (saveError s).handlers = s.handlers := by simp [saveError]
@[simp] theorem saveError_stderr (s : St) : (saveError s).stderr = s.stderr := by simp [saveError]
@[simp] theorem saveError_clock (s : St) : (saveError s).clock = s.clock := by simp [saveError]

@[simp] theorem noLibrary_handle (s : St) : (noLibrary s).handle = s.handle := by simp [noLibrary]
@[simp] theorem noLibrary_ptr (s : St) : (noLibrary s).ptr = s.ptr := by simp [noLibrary]
@[simp] theorem noLibrary_log (s : St) : (noLibrary s).log = s.log := by simp [noLibrary]
@[simp] theorem noLibrary_handlers (s : St) : (noLibrary s).handlers = s.handlers := by simp [noLibrary]
@[simp] theorem noLibrary_reg (s : St) : (noLibrary s).freeLibReg = s.freeLibReg := by simp [noLibrary]

@[simp] theorem clearError_handle (s : St) : (clearError s).handle = s.handle := rfl
@[simp] theorem clearError_ptr (s : St) : (clearError s).ptr = s.ptr := rfl
@[simp] theorem clearError_log (s : St) : (clearError s).log = s.log := rfl
@[simp] theorem clearError_libpath (s : St) : (clearError s).libpath = s.libpath := rfl
@[simp] theorem clearError_reg (s : St) : (clearError s).freeLibReg = s.freeLibReg := rfl
@[simp] theorem clearError_handlers (s : St) : (clearError s).handlers = s.handlers := rfl
@[simp] theorem clearError_clock (s : St) : (clearError s).clock = s.clock := rfl
@[simp] theorem clearError_errbuf (s : St) : (clearError s).errbuf = [] := rfl
@[simp] theorem clearError_dlerr (s : St) : (clearError s).dlerr = none := rfl

theorem inv_loadLibArgs {s : St} (h : SInv C s) (name : Option Str) (flags : Int) (ns : Bool) : SInv C (loadLibArgs L name flags ns s).2 := by
  unfold loadLibArgs
  dsimp only
  split
  · simpa [SInv] using h
  · rename_i hh
    split
    · simpa [SInv] using h
    · have hh' : s.handle = none := by simpa [libIsLoaded] using hh
      have h0 : Inv C none s.ptr s.log := by rw [← hh']; exact h
      have key : SInv C (loadLibrary L (name.getD []) flags ns (clearError s)) := by
        unfold loadLibrary SInv
        dsimp only
        generalize (L.dlopen _ _ _ _).1 = a
        cases a with
        | none => exact h0
        | some x => exact inv_open x h0
      split
      · exact key
      · simpa [SInv] using key

theorem inv_setNull {s : St} (h : SInv C s) (hn : s.handle = none) : SInv C (setNull C s) := by
  have h0 : Inv C none s.ptr s.log := by rw [← hn]; exact h
  refine ⟨?_, h.only, ?_⟩
  · intro x; exact h0.count x
  · intro i p hp
    simp only [setNull] at hp
    rw [h0.null] at hp
    simp at hp

theorem setNull_ptr {s : St} (h : SInv C s) (i : Nat) : (setNull C s).ptr i = none := by
  show (if i < C.syms.length then none else s.ptr i) = none
  split
  · rfl
  · exact h.bound (by omega)

theorem inv_freeLib {s : St} (h : SInv C s) : SInv C (freeLib L C s).2 := by
  unfold freeLib
  dsimp only
  simp only [clearError_handle]
  split
  · rename_i x hx
    have h0 : Inv C (some x) s.ptr s.log := by rw [← hx]; exact h
    split
    · rename_i hr
      have : SInv C (setNull C (callDlclose L x false (clearError s)).2) :=
        inv_closed (ok := (callDlclose L x false (clearError s)).1) h0 (Or.inl hr) (fun i => by
          show (if i < C.syms.length then none else s.ptr i) = none
          split
          · rfl
          · exact h.bound (by omega))
      exact this
    · rename_i hr
      have hr' : (L.dlclose s.clock x).1 = false := by simpa [callDlclose] using hr
      have := inv_closeFailed h0
      simp only [SInv, saveError_handle, saveError_ptr, saveError_log]
      simp [callDlclose, hx, hr']
      exact this
  · rename_i hx
    exact inv_setNull (s := clearError s) h hx

theorem inv_forceFreeLib {s : St} (h : SInv C s) : SInv C (forceFreeLib L C s) := by
  unfold forceFreeLib
  dsimp only
  simp only [clearError_handle]
  split
  · rename_i x hx
    have h0 : Inv C (some x) s.ptr s.log := by rw [← hx]; exact h
    exact inv_closed h0 (Or.inr rfl) (fun i => by
      show (if i < C.syms.length then none else s.ptr i) = none
      split
      · rfl
      · exact h.bound (by omega))
  · rename_i hx
    exact inv_setNull (s := clearError s) h hx

theorem forceFreeLib_handle (s : St) : (forceFreeLib L C s).handle = none := by
  unfold forceFreeLib
  dsimp only
  split <;> rfl

theorem inv_enableAutorelease {s : St} (h : SInv C s) : SInv C (enableAutorelease L C s).2 := by
  unfold enableAutorelease
  dsimp only
  split
  · exact h
  · split
    · exact h
    · simpa [SInv] using h

theorem gdoSym_fields (x : Ptr) (name : Str) (s : St) :
    (gdoSym L x name s).1 = (L.dlsym s.clock x name).1 ∧ (gdoSym L x name s).2.handle = s.handle ∧
    (gdoSym L x name s).2.ptr = s.ptr ∧ (gdoSym L x name s).2.log = s.log ++ [.sym x name (L.dlsym s.clock x name).1] ∧
    (gdoSym L x name s).2.clock = s.clock + 1 := by
  unfold gdoSym
  dsimp only
  split <;> simp

theorem inv_gdoSym {s : St} (h : SInv C s) {x : Ptr} (hx : s.handle = some x) {i : Nat} {name : Str} (hn : C.syms[i]? = some name) :
    SInv C (setPtr i (gdoSym L x name s).1 (gdoSym L x name s).2) ∧
    (setPtr i (gdoSym L x name s).1 (gdoSym L x name s).2).handle = some x := by
  obtain ⟨h1, h2, h3, h4, _⟩ := gdoSym_fields (L := L) x name s
  have h0 : Inv C (some x) s.ptr s.log := by rw [← hx]; exact h
  refine ⟨?_, by simp only [setPtr]; rw [h2, hx]⟩
  simp only [SInv, setPtr]
  rw [h1, h2, h3, h4, hx]
  exact inv_sym _ h0 hn

theorem inv_loadLoop {x : Ptr} (l : List Str) : ∀ (i : Nat) (s : St), SInv C s → s.handle = some x → (∀ k name, l[k]? = some name → C.syms[i + k]? = some name) →
    SInv C (loadLoop L x i l s).2 ∧ (loadLoop L x i l s).2.handle = some x := by
  induction l with
  | nil => intro i s h hx _; exact ⟨h, hx⟩
  | cons name r ih =>
    intro i s h hx hl
    unfold loadLoop
    dsimp only
    have hn := hl 0 name rfl
    have := inv_gdoSym (L := L) h hx hn
    split
    · refine ih (i + 1) _ this.1 this.2 ?_
      intro k n hk
      have := hl (k + 1) n (by simpa using hk)
      rw [show i + 1 + k = i + (k + 1) by omega]
      exact this
    · exact this

theorem inv_loadAllSymbols {s : St} (h : SInv C s) : SInv C (loadAllSymbols L C s).2 := by
  unfold loadAllSymbols
  dsimp only
  split
  · exact h
  · simp only [clearError_handle]
    split
    · simpa [SInv] using h
    · rename_i x hx
      exact (inv_loadLoop (L := L) (C := C) C.syms 0 (clearError s) h hx (by simp)).1

theorem inv_loadOne {s : St} (h : SInv C s) {x : Ptr} (hx : s.handle = some x) {i : Nat} {name : Str} (hn : C.syms[i]? = some name) :
    SInv C (loadOne L x i name s).2 := by
  unfold loadOne
  split
  · exact h
  · exact (inv_gdoSym h hx hn).1

theorem caseOf_some {num : Int} {i : Nat} {name : Str} (h : caseOf C num = some (i, name)) : num = i ∧ C.syms[i]? = some name := by
  unfold caseOf at h
  split at h
  · rename_i n
    cases hn : C.syms[n]? with
    | none => rw [hn] at h; cases h
    | some m =>
      rw [hn] at h
      simp at h
      obtain ⟨rfl, rfl⟩ := h
      exact ⟨rfl, hn⟩
  · cases h

theorem inv_loadSymbol {s : St} (h : SInv C s) (num : Int) : SInv C (loadSymbol L C num s).2 := by
  unfold loadSymbol
  dsimp only
  simp only [clearError_handle]
  split
  · simpa [SInv] using h
  · rename_i x hx
    split
    · rename_i i name hc
      exact inv_loadOne (s := clearError s) h hx (caseOf_some hc).2
    · exact h

theorem findName_some {sym : Str} {n : Nat} : ∀ {l : List Str} {k i : Nat} {name : Str}, findName sym n k l = some (some (i, name)) →
    k ≤ i ∧ l[i - k]? = some name
  | [], k, i, name, h => by simp [findName] at h
  | cur :: r, k, i, name, h => by
    rw [findName] at h
    cases hm : nameMatches sym cur n with
    | none => rw [hm] at h; simp at h
    | some b =>
      rw [hm] at h
      simp only [Option.bind_eq_bind, Option.bind_some] at h
      cases b with
      | true =>
        simp at h
        obtain ⟨rfl, rfl⟩ := h
        simp
      | false =>
        simp at h
        obtain ⟨h1, h2⟩ := findName_some h
        refine ⟨by omega, ?_⟩
        rw [show i - k = (i - (k + 1)) + 1 by omega]
        simpa using h2

theorem inv_loadSymbolName {s : St} (h : SInv C s) {name : Option Str} {r : Bool × St} (hr : loadSymbolName L C name s = some r) :
    SInv C r.2 := by
  unfold loadSymbolName at hr
  dsimp only at hr
  simp only [clearError_handle] at hr
  split at hr
  · cases hr; simpa [SInv] using h
  · rename_i x hx
    split at hr
    · cases hr; simpa [SInv] using h
    · simp only [Option.map_eq_some_iff] at hr
      obtain ⟨f, hf, rfl⟩ := hr
      cases f with
      | none => exact h
      | some q =>
        obtain ⟨i, cur⟩ := q
        unfold foundName at hf
        split at hf
        · have := findName_some hf
          exact inv_loadOne (s := clearError s) h hx (by simpa using this.2)
        · cases hf

theorem inv_lastError {s : St} (h : SInv C s) : SInv C (lastError s).2 := by
  unfold lastError
  dsimp only
  split
  · simpa [SInv] using h
  · exact h

theorem inv_libpathDlinfo {s : St} (h : SInv C s) {x : Ptr} (hx : s.handle = some x) : SInv C (libpathDlinfo L C x s).2 := by
  have h0 : Inv C s.handle s.ptr (s.log ++ [.info x]) := by rw [hx]; exact inv_info (by rw [← hx]; exact h)
  unfold libpathDlinfo
  dsimp only
  split
  · simpa [SInv] using h0
  · split
    · simpa [SInv] using h0
    · split
      · exact inv_path _ h0
      · split
        · exact h0
        · exact inv_path _ h0

theorem inv_libpathDladdr {s : St} (h : SInv C s) : SInv C (libpathDladdr L C s).2 := by
  unfold libpathDladdr
  dsimp only
  split
  · simpa [SInv] using h
  · split
    · simpa [SInv] using h
    · split
      · exact h
      · exact inv_path _ h

theorem inv_libraryPathDladdr {s : St} (h : SInv C s) : SInv C (libraryPathDladdr L C s).2 := by
  unfold libraryPathDladdr
  dsimp only
  split
  · split
    · exact inv_libpathDladdr h
    · exact inv_libpathDladdr h
  · exact h

theorem inv_libraryPath {s : St} (h : SInv C s) : SInv C (libraryPath L C s).2 := by
  unfold libraryPath
  dsimp only
  split
  · simpa [SInv] using h
  · simp only [clearError_handle]
    split
    · simpa [SInv] using h
    · rename_i x hx
      split
      · exact h
      · split
        · split
          · exact inv_libpathDlinfo (s := clearError s) h hx
          · exact inv_libraryPathDladdr (inv_libpathDlinfo (s := clearError s) h hx)
        · exact inv_libraryPathDladdr (s := clearError s) h

theorem inv_runHandlers : ∀ (n : Nat) {s : St}, SInv C s → SInv C (runHandlers L C n s)
  | 0, _, h => h
  | n + 1, _, h => inv_runHandlers n (inv_forceFreeLib h)

theorem inv_loadLibName {s : St} (h : SInv C s) (n : Option Str) : SInv C (loadLibName L C n s).2 := inv_loadLibArgs h ..

theorem inv_loadLib {s : St} (h : SInv C s) : SInv C (loadLib L C s).2 := inv_loadLibArgs h ..

theorem inv_andSymbols {r : Bool × St} (h : SInv C r.2) : SInv C (andSymbols L C r).2 := by
  unfold andSymbols
  split
  · exact inv_loadAllSymbols h
  · exact h

theorem inv_autoloadLib {s : St} (h : SInv C s) : SInv C (autoloadLib L C s) := by
  unfold autoloadLib
  dsimp only
  split
  · exact inv_enableAutorelease h
  · exact inv_loadLib (inv_enableAutorelease h)

/-- The invariant holds in the final state, if there is one. -/
def OutInv (C : Cfg) {α : Type} (o : Out α) : Prop := ∀ s, outState o = some s → SInv C s

theorem inv_autoloadFailed {s : St} (h : SInv C s) (sym : Str) : OutInv C (autoloadFailed L C sym s) := by
  unfold autoloadFailed
  dsimp only
  intro t ht
  split at ht
  · cases ht
  · rename_i s' hs'
    simp only [outState, Option.some.injEq] at ht
    subst ht
    refine inv_runHandlers _ (inv_forceFreeLib ?_)
    unfold printError at hs'
    simp only [Option.map_eq_some_iff] at hs'
    obtain ⟨_, _, rfl⟩ := hs'
    exact inv_lastError h

theorem inv_wrapCheckLoaded {s : St} (h : SInv C s) (i : Nat) : OutInv C (wrapCheckLoaded L C i s) := by
  unfold wrapCheckLoaded
  dsimp only
  split
  · intro t ht; cases ht; exact h
  · split
    · intro t ht
      split at ht
      · cases ht
      · rename_i s' hs'
        cases ht
        unfold printError at hs'
        simp only [Option.map_eq_some_iff] at hs'
        obtain ⟨_, _, rfl⟩ := hs'
        exact h
    · split
      · intro t ht; cases ht; exact inv_loadAllSymbols (inv_autoloadLib h)
      · exact inv_autoloadFailed (inv_loadAllSymbols (inv_autoloadLib h)) _
    · split
      · intro t ht; cases ht; exact inv_loadSymbol (inv_autoloadLib h) _
      · exact inv_autoloadFailed (inv_loadSymbol (inv_autoloadLib h) _) _

theorem inv_wrapper {s : St} (h : SInv C s) (i : Nat) : OutInv C (wrapper L C i s) := by
  have hw := inv_wrapCheckLoaded (L := L) h i
  unfold wrapper
  intro t ht
  split at ht
  · rename_i s' he
    rw [he] at hw
    split at ht
    · cases ht; exact hw _ rfl
    · cases ht
  · rename_i he; rw [he] at hw; cases ht; exact hw _ rfl
  · rename_i he; rw [he] at hw; cases ht; exact hw _ rfl
  · cases ht

theorem inv_ofBool {r : Bool × St} (h : SInv C r.2) : OutInv C (ofBool r) := by
  intro t ht; cases ht; exact h

theorem inv_step {s : St} (h : SInv C s) (c : Call) : OutInv C (step L C s c) := by
  cases c with
  | loadLib => exact inv_ofBool (inv_loadLib h)
  | loadLibAndSymbols => exact inv_ofBool (inv_andSymbols (inv_loadLib h))
  | loadLibName n => exact inv_ofBool (inv_loadLibName h n)
  | loadLibNameAndSymbols n => exact inv_ofBool (inv_andSymbols (inv_loadLibName h n))
  | loadLibArgs n f ns => exact inv_ofBool (inv_loadLibArgs h n f ns)
  | libIsLoaded => exact inv_ofBool h
  | freeLib => exact inv_ofBool (inv_freeLib h)
  | forceFreeLib => intro t ht; cases ht; exact inv_forceFreeLib h
  | enableAutorelease => exact inv_ofBool (inv_enableAutorelease h)
  | allSymbolsLoaded => exact inv_ofBool h
  | noSymbolsLoaded => exact inv_ofBool h
  | anySymbolLoaded => exact inv_ofBool h
  | loadAllSymbols => exact inv_ofBool (inv_loadAllSymbols h)
  | loadSymbol n => exact inv_ofBool (inv_loadSymbol h n)
  | loadSymbolName n =>
    simp only [step]
    split
    · rename_i r hr
      exact inv_ofBool (inv_loadSymbolName h hr)
    · intro t ht; cases ht
  | lastError => intro t ht; cases ht; exact inv_lastError h
  | libraryPath => intro t ht; cases ht; exact inv_libraryPath h
  | wrapped i =>
    simp only [step]
    split
    · have hw := inv_wrapper (L := L) h i
      intro t ht
      split at ht
      · rename_i he; rw [he] at hw; cases ht; exact hw _ rfl
      · rename_i he; rw [he] at hw; cases ht; exact hw _ rfl
      · rename_i he; rw [he] at hw; cases ht; exact hw _ rfl
      · cases ht
    · intro t ht; cases ht; exact h

theorem inv_run : ∀ (cs : List Call) {s : St}, SInv C s → OutInv C (run L C s cs)
  | [], _, h => by intro t ht; cases ht; exact h
  | c :: r, s, h => by
    have hs := inv_step (L := L) h c
    unfold run
    split
    · rename_i he; rw [he] at hs; exact inv_run r (hs _ rfl)
    · rename_i he; rw [he] at hs; intro t ht; cases ht; exact hs _ rfl
    · rename_i he; rw [he] at hs; intro t ht; cases ht; exact hs _ rfl
    · intro t ht; cases ht

theorem inv_finish (cs : List Call) : OutInv C (finish L C cs) := by
  have hr := inv_run (L := L) cs (inv_init C)
  unfold finish
  intro t ht
  split at ht
  · rename_i he; rw [he] at hr; cases ht; exact inv_runHandlers _ (hr _ rfl)
  · exact hr t ht

end

end Gdo.Rt
