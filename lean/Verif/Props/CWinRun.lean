import Verif.Lemmas.CWinLink
import Verif.Props.CRun
import Verif.Props.Win

/-!
Property C101: what the generated C code does when it is compiled for Windows.  As in C97,
the code of the generated text is executed step by step; the results are those of
`Verif/Model/Win.lean`, and all memory that was requested has been given back.
-/

set_option maxRecDepth 10000

namespace Gdo.Cc.W
open Gdo Tmpl Win Rename Gen Opt
open Gdo.Rt (Ev Call Val)

/-! ### What a program sees that calls the functions -/

/-- A returned value: a truth value, nothing, or the string a pointer points to. -/
def seen (v : V) (g : World) : Option Val :=
  match v with
  | .int 0 => some (.bool false)
  | .int 1 => some (.bool true)
  | .void => some .none
  | .null => some (.text none)
  | v => (text g v).map fun t => .text (some t)

/-- The end of the program: the function that was registered is called as often as it was
    registered. -/
def atExit (call : Str → List V → M World → R World V) : Nat → World → Option World
  | 0, g => some g
  | n + 1, g =>
    match call (str% "gdo_force_free_lib") [] ⟨g, []⟩ with
    | .ok _ m => atExit call n m.g
    | _ => none

/-- What becomes of a call, and the memory that is in use afterwards; `none` if it was not
    followed to its end.  Nothing is said about the memory (`hp` is returned) if the
    behaviour is undefined. -/
def outcome (call : Str → List V → M World → R World V) (hp : List Block) : R World V → Option (Out Val × List Block)
  | .ok v m => (seen v m.g).map fun x => (.ret x m.g.s, m.g.heap)
  | .exit n m => (atExit call m.g.s.handlers m.g).map fun g => (.exit n.toNat g.s, g.heap)
  | .abort m => some (.abort m.g.s, m.g.heap)
  | .ub => some (.ub, hp)
  | .thrown _ _ _ => none
  | .fuel => none

/-- A call of a function of the code.  A wrapper function is that of c.h 231-269 with the
    default hook: `_gdo_wrap_check_loaded(GDO_RAWPTR_sym, GDO_LOAD_sym, "sym")` is called,
    then the function of the library through the pointer, which must not be null. -/
def codeStep (c : Cfg) (call : Str → List V → M World → R World V) (g : World) : Call → Option (Out Val × List Block)
  | .wrapped i =>
    match c.syms[i]? with
    | none => some (.ret .none g.s, g.heap)
    | some sym =>
      (outcome call g.heap (call (str% "_gdo_wrap_check_loaded") [.ofPtr (g.s.ptr i), .int i, .str sym] ⟨g, []⟩)).map fun o =>
        match o with
        | (.ret x s, hp) => (if s.ptr i = none then .ub else .ret x s, hp)
        | o => o
  | k => outcome call g.heap (call (callOf k).1 (callOf k).2 ⟨g, []⟩)

/-- A sequence of calls. -/
def codeRun (c : Cfg) (call : Str → List V → M World → R World V) (g : World) : List Call → Option (Out Unit × List Block)
  | [] => some (.ret () g.s, g.heap)
  | k :: r =>
    match codeStep c call g k with
    | none => none
    | some (.ret _ s, hp) => codeRun c call ⟨s, hp⟩ r
    | some (.exit n s, hp) => some (.exit n s, hp)
    | some (.abort s, hp) => some (.abort s, hp)
    | some (.ub, hp) => some (.ub, hp)

/-- A program that makes the calls and returns from `main`. -/
def codeFinish (c : Cfg) (call : Str → List V → M World → R World V) (calls : List Call) : Option (Out Unit × List Block) :=
  match codeRun c call ⟨{}, []⟩ calls with
  | some (.ret _ s, hp) => (atExit call s.handlers ⟨s, hp⟩).map fun g => (.exit 0 g.s, g.heap)
  | o => o

/-- The name of the library that is passed to a function is shorter than `B`. -/
def Short (B : Nat) : Call → Prop
  | .loadLibName (some n) | .loadLibNameAndSymbols (some n) | .loadLibArgs (some n) _ _ => n.length < B
  | _ => True

/-! ### Lemmas -/

section
variable {u l : Str} {names : ParamNames} {D : Str → Bool} {L : Loader} {c : Cfg} {I : Insts} {rows : List (Str × Str)} {n B : Nat}

theorem outcome_okB (call : Str → List V → M World → R World V) (r : Bool × St) (hp : List Block) (fr : List Frame) :
    outcome call hp (okB r hp fr) = some (ofBool r, hp) := by
  obtain ⟨b, s⟩ := r
  cases b <;> rfl

theorem libraryPath_text (s : St) : (libraryPath L c s).1 = none ∨ (libraryPath L c s).1 = some (libraryPath L c s).2.libpath := by
  unfold libraryPath
  dsimp only
  split
  · exact .inl rfl
  · split
    · exact .inr rfl
    · split
      · exact .inr rfl
      · exact .inl rfl

theorem outcome_path (call : Str → List V → M World → R World V) (s : St) (hp : List Block) (fr : List Frame) :
    outcome call hp (.ok (match (libraryPath L c s).1 with
      | some _ => .buf (str% "libpath")
      | none => .null) ⟨⟨(libraryPath L c s).2, hp⟩, fr⟩) = some (.ret (.text (libraryPath L c s).1) (libraryPath L c s).2, hp) := by
  rcases libraryPath_text (L := L) (c := c) s with e | e
  · rw [e]
    rfl
  · rw [e]
    rfl

/-- A function of the table. -/
theorem linked_at (h : Config u l D L c) (hr : Rows I c.toCfg rows) (hB : c.lib.length < B) (h8 : B + 8 ≤ n) (i : Nat) (k : Entry) (hi : (known L c B)[i]? = some k)
    (hn : k.name ≠ str% "_gdo_print_error") (h6 : k.rank ≤ 6) (hs : (sysTable L c).lookup k.name = none) {as : List V} {m : M World} {R : R World V}
    (e : k.run as m = some R) : linked u l names D L c I n k.name as m = R :=
  linked_known h hr hB k (List.mem_of_getElem? hi) hn h6 hs h8 as m R e

theorem linked_force_free (h : Config u l D L c) (hr : Rows I c.toCfg rows) (hB : c.lib.length < B) (h8 : B + 8 ≤ n) (m : M World) :
    linked u l names D L c I n (str% "gdo_force_free_lib") [] m = ok0 (forceFreeLib L c m.g.s) m.g.heap m.frames :=
  linked_at h hr hB h8 19 _ rfl (by dsimp only; decide) (by dsimp only; decide) rfl rfl

theorem atExit_runs (h : Config u l D L c) (hr : Rows I c.toCfg rows) (hB : c.lib.length < B) (h8 : B + 8 ≤ n) :
    ∀ k s hp, atExit (linked u l names D L c I n) k ⟨s, hp⟩ = some ⟨runHandlers L c k s, hp⟩
  | 0, _, _ => rfl
  | k + 1, s, hp => by
    unfold atExit
    rw [linked_force_free h hr hB h8]
    exact atExit_runs h hr hB h8 k _ _

/-- What a function that returns nothing returns. -/
def voidOut : Out Unit → Out Val
  | .ret _ s => .ret .none s
  | .exit n s => .exit n s
  | .abort s => .abort s
  | .ub => .ub

theorem outcome_done (h : Config u l D L c) (hr : Rows I c.toCfg rows) (hB : c.lib.length < B) (h8 : B + 8 ≤ n) (hp : List Block) (r : R World V)
    (o : Out Unit × List Block) (e : done L c hp r = some o) : outcome (linked u l names D L c I n) hp r = some (voidOut o.1, o.2) := by
  cases r with
  | ok v m =>
    cases v <;> cases e
    rfl
  | exit k m =>
    cases e
    obtain ⟨⟨s, hp'⟩, fr⟩ := m
    show (atExit (linked u l names D L c I n) s.handlers ⟨s, hp'⟩).map _ = _
    rw [atExit_runs h hr hB h8]
    rfl
  | abort m => cases e; rfl
  | ub => cases e; rfl
  | thrown => cases e
  | fuel => cases e

end

/-! ### Theorems -/

section
variable (u l : Str) (names : ParamNames) (D : Str → Bool) (L : Loader) (c : Cfg) (protos objs : List Proto)

/-- The generated code with which the library is used: what a call of a function does when
    at most `n` calls are made inside of each other and a loop is repeated at most `n`
    times. -/
abbrev generated (n : Nat) : Str → List V → M World → R World V :=
  link (sem u l L c) ((program names D).map (Top.inst (insts protos objs))) n

/-- Each function of the interface does what the model says, in every state, and the memory
    in use is the same as before. -/
theorem C101_step (h : Config u l D L c) (hs : c.syms = (protos ++ objs).map (·.symbol)) (hn : c.syms.Nodup) (B : Nat) (hB : c.lib.length < B) (n : Nat) (h8 : B + 8 ≤ n)
    (s : St) (hp : List Block) (k : Call) (hk : ∀ i, k ≠ .wrapped i) (hk' : Short B k) :
    outcome (generated u l names D L c protos objs n) hp (generated u l names D L c protos objs n (callOf k).1 (callOf k).2 ⟨⟨s, hp⟩, []⟩) =
      some (Win.step L c s k, hp) := by
  have hr : Rows (insts protos objs) c.toCfg _ := rows_insts hs hn
  have key : ∀ {f as} (r : Bool × St), generated u l names D L c protos objs n f as ⟨⟨s, hp⟩, []⟩ = okB r hp [] →
      outcome (generated u l names D L c protos objs n) hp (generated u l names D L c protos objs n f as ⟨⟨s, hp⟩, []⟩) = some (ofBool r, hp) := by
    intro f as r e
    rw [e]
    exact outcome_okB _ r hp []
  cases k with
  | loadLib => exact key _ (linked_at h hr hB h8 15 _ rfl (by dsimp only; decide) (by dsimp only; decide) rfl rfl)
  | loadLibAndSymbols => exact key _ (linked_at h hr hB h8 17 _ rfl (by dsimp only; decide) (by dsimp only; decide) rfl rfl)
  | libIsLoaded => exact key _ (linked_at h hr hB h8 9 _ rfl (by dsimp only; decide) (by dsimp only; decide) rfl rfl)
  | freeLib => exact key _ (linked_at h hr hB h8 18 _ rfl (by dsimp only; decide) (by dsimp only; decide) rfl rfl)
  | enableAutorelease => exact key _ (linked_at h hr hB h8 20 _ rfl (by dsimp only; decide) (by dsimp only; decide) rfl rfl)
  | allSymbolsLoaded => exact key _ (linked_at h hr hB h8 21 _ rfl (by dsimp only; decide) (by dsimp only; decide) rfl rfl)
  | noSymbolsLoaded => exact key _ (linked_at h hr hB h8 22 _ rfl (by dsimp only; decide) (by dsimp only; decide) rfl rfl)
  | anySymbolLoaded => exact key _ (linked_at h hr hB h8 23 _ rfl (by dsimp only; decide) (by dsimp only; decide) rfl rfl)
  | loadAllSymbols => exact key _ (linked_at h hr hB h8 25 _ rfl (by dsimp only; decide) (by dsimp only; decide) rfl rfl)
  | loadSymbol x => exact key _ (linked_at h hr hB h8 26 _ rfl (by dsimp only; decide) (by dsimp only; decide) rfl rfl)
  | loadLibName x =>
    cases x with
    | none => exact key _ (linked_at h hr hB h8 14 _ rfl (by dsimp only; decide) (by dsimp only; decide) rfl rfl)
    | some x => exact key _ (linked_at h hr hB h8 14 _ rfl (by dsimp only; decide) (by dsimp only; decide) rfl (if_pos hk'))
  | loadLibNameAndSymbols x =>
    cases x with
    | none => exact key _ (linked_at h hr hB h8 16 _ rfl (by dsimp only; decide) (by dsimp only; decide) rfl rfl)
    | some x => exact key _ (linked_at h hr hB h8 16 _ rfl (by dsimp only; decide) (by dsimp only; decide) rfl (if_pos hk'))
  | loadLibArgs x f ns =>
    cases x with
    | none => cases ns <;> exact key _ (linked_at h hr hB h8 13 _ rfl (by dsimp only; decide) (by dsimp only; decide) rfl rfl)
    | some x => cases ns <;> exact key _ (linked_at h hr hB h8 13 _ rfl (by dsimp only; decide) (by dsimp only; decide) rfl (if_pos hk'))
  | forceFreeLib =>
    have e : generated u l names D L c protos objs n (str% "gdo_force_free_lib") [] ⟨⟨s, hp⟩, []⟩ = ok0 (forceFreeLib L c s) hp [] := linked_force_free h hr hB h8 _
    unfold callOf
    rw [e]
    rfl
  | loadSymbolName x =>
    have e : generated u l names D L c protos objs n (str% "gdo_load_symbol_name") [.ofStr x] ⟨⟨s, hp⟩, []⟩ =
        match loadSymbolName L c x s with
        | some r => okB r hp []
        | none => .ub := by
      cases x <;> exact linked_at h hr hB h8 27 _ rfl (by dsimp only; decide) (by dsimp only; decide) rfl rfl
    have em : Win.step L c s (.loadSymbolName x) = match loadSymbolName L c x s with
      | some r => ofBool r
      | none => .ub := rfl
    unfold callOf
    rw [e, em]
    cases loadSymbolName L c x s with
    | none => rfl
    | some r => exact outcome_okB _ r hp []
  | lastError =>
    have e : generated u l names D L c protos objs n (str% "gdo_last_error") [] ⟨⟨s, hp⟩, []⟩ = .ok (.buf (str% "formatted")) ⟨⟨(lastError L c s).2, hp⟩, []⟩ := linked_at h hr hB h8 7 _ rfl (by dsimp only; decide) (by dsimp only; decide) rfl rfl
    unfold callOf Win.step
    rw [e, lastError_formatted]
    rfl
  | libraryPath =>
    have e : generated u l names D L c protos objs n (str% "gdo_library_path") [] ⟨⟨s, hp⟩, []⟩ = .ok (match (libraryPath L c s).1 with
      | some _ => .buf (str% "libpath")
      | none => .null) ⟨⟨(libraryPath L c s).2, hp⟩, []⟩ := linked_at h hr hB h8 29 _ rfl (by dsimp only; decide) (by dsimp only; decide) rfl rfl
    unfold callOf Win.step
    rw [e]
    exact outcome_path _ s hp []
  | wrapped i => exact absurd rfl (hk i)

/-- The function that is called by each wrapper function: with automatic loading of
    everything or of one symbol, and without. -/
theorem C101_wrap (h : Config u l D L c) (hw : Wraps names D) (hs : c.syms = (protos ++ objs).map (·.symbol)) (hn : c.syms.Nodup) (B : Nat) (hB : c.lib.length < B) (n : Nat)
    (h9 : B + 9 ≤ n) (s : St) (hp : List Block) (i : Nat) (hi : i < c.syms.length) :
    outcome (generated u l names D L c protos objs n) hp
      (generated u l names D L c protos objs n (str% "_gdo_wrap_check_loaded") [.ofPtr (s.ptr i), .int i, .str c.syms[i]] ⟨⟨s, hp⟩, []⟩) =
      some (match wrapCheckLoaded L c i s with
        | .ret _ s => .ret .none s
        | .exit n s => .exit n s
        | .abort s => .abort s
        | .ub => .ub, hp) := by
  have hr : Rows (insts protos objs) c.toCfg _ := rows_insts hs hn
  exact outcome_done h hr hB (by omega) hp _ _ (linked_wrap h hr hB hw h9 i hi s hp [])

/-- A sequence of calls does what the model says; all memory that was requested is given
    back. -/
theorem C101_run (h : Config u l D L c) (hw : Wraps names D) (hs : c.syms = (protos ++ objs).map (·.symbol)) (hn : c.syms.Nodup) (B : Nat) (hB : c.lib.length < B) (n : Nat)
    (h9 : B + 9 ≤ n) (calls : List Call) (hc : ∀ k ∈ calls, Short B k) (s : St) (hp : List Block) :
    codeRun c (generated u l names D L c protos objs n) ⟨s, hp⟩ calls = some (Win.run L c s calls, hp) := by
  have one : ∀ s k, Short B k → codeStep c (generated u l names D L c protos objs n) ⟨s, hp⟩ k = some (Win.step L c s k, hp) := by
    intro s k hB'
    by_cases hk : ∃ i, k = .wrapped i
    · obtain ⟨i, rfl⟩ := hk
      unfold codeStep Win.step
      dsimp only
      by_cases hi : i < c.syms.length
      · rw [if_pos hi, List.getElem?_eq_getElem hi]
        dsimp only
        rw [C101_wrap u l names D L c protos objs h hw hs hn B hB n h9 s hp i hi]
        unfold wrapper
        cases wrapCheckLoaded L c i s with
        | ret _ s' => cases hp : s'.ptr i <;> simp [hp]
        | exit | abort | ub => rfl
      · rw [if_neg hi, List.getElem?_eq_none (by omega)]
    · have hk' : ∀ i, k ≠ .wrapped i := fun i e => hk ⟨i, e⟩
      have e := C101_step u l names D L c protos objs h hs hn B hB n (by omega) s hp k hk' hB'
      cases k with
      | wrapped i => exact absurd rfl (hk' i)
      | _ => exact e
  induction calls generalizing s with
  | nil => rfl
  | cons k r ih =>
    unfold codeRun Win.run
    rw [one s k (hc k List.mem_cons_self)]
    cases Win.step L c s k with
    | ret _ s' => exact ih (fun k hk => hc k (List.mem_cons_of_mem _ hk)) s'
    | exit | abort | ub => rfl

/-- A whole program: it ends as the model says, without memory that is still in use. -/
theorem C101_finish (h : Config u l D L c) (hw : Wraps names D) (hs : c.syms = (protos ++ objs).map (·.symbol)) (hn : c.syms.Nodup) (B : Nat) (hB : c.lib.length < B) (n : Nat)
    (h9 : B + 9 ≤ n) (calls : List Call) (hc : ∀ k ∈ calls, Short B k) :
    codeFinish c (generated u l names D L c protos objs n) calls = some (Win.finish L c calls, []) := by
  unfold codeFinish Win.finish
  rw [C101_run u l names D L c protos objs h hw hs hn B hB n h9 calls hc]
  cases Win.run L c {} calls with
  | ret _ s =>
    dsimp only
    rw [atExit_runs h (rows_insts hs hn) hB (by omega)]
    rfl
  | exit | abort | ub => rfl

/-- Nothing depends on `n`: there is a number of nested calls and repetitions that is enough
    for all programs that pass names of a limited length. -/
theorem C101_enough (h : Config u l D L c) (hw : Wraps names D) (hs : c.syms = (protos ++ objs).map (·.symbol)) (hn : c.syms.Nodup) (calls : List Call) :
    ∃ N, ∀ n, N ≤ n → codeFinish c (generated u l names D L c protos objs n) calls = some (Win.finish L c calls, []) := by
  obtain ⟨B, hB, hc⟩ : ∃ B, c.lib.length < B ∧ ∀ k ∈ calls, Short B k := by
    have grow : ∀ k b b', b ≤ b' → Short b k → Short b' k := by
      intro k b b' hb hk
      unfold Short at hk ⊢
      split <;> first | trivial | (dsimp only at hk; omega)
    have one : ∀ k, ∃ b, Short b k := by
      intro k
      cases k with
      | loadLibName x =>
        cases x with
        | none => exact ⟨0, trivial⟩
        | some x => exact ⟨_, Nat.lt_succ_self x.length⟩
      | loadLibNameAndSymbols x =>
        cases x with
        | none => exact ⟨0, trivial⟩
        | some x => exact ⟨_, Nat.lt_succ_self x.length⟩
      | loadLibArgs x f ns =>
        cases x with
        | none => exact ⟨0, trivial⟩
        | some x => exact ⟨_, Nat.lt_succ_self x.length⟩
      | _ => exact ⟨0, trivial⟩
    induction calls with
    | nil => exact ⟨c.lib.length + 1, by omega, by intro k hk; cases hk⟩
    | cons k r ih =>
      obtain ⟨b, hb⟩ := one k
      obtain ⟨B, hB, hr⟩ := ih
      refine ⟨max b B, by omega, ?_⟩
      intro x hx
      rcases List.mem_cons.mp hx with rfl | hx
      · exact grow _ b _ (by omega) hb
      · exact grow _ B _ (by omega) (hr x hx)
  exact ⟨B + 9, fun n hn' => C101_finish u l names D L c protos objs h hw hs hn B hB n hn' calls hc⟩

end

/-! ### Giving memory back -/

theorem release_some {p : Nat} {sys : Bool} {hp hp' : List Block} (h : release p sys hp = some hp') :
    (∃ b ∈ hp, b.addr = p ∧ b.sys = sys) ∧ hp' = hp.filter fun b => b.addr ≠ p := by
  unfold release block at h
  cases hb : hp.find? fun b => b.addr = p with
  | none => rw [hb] at h; cases h
  | some b =>
    rw [hb] at h
    dsimp only at h
    split at h
    next e =>
      have ha := List.find?_some hb
      exact ⟨⟨b, List.mem_of_find?_eq_some hb, by simpa using ha, e⟩, (Option.some.inj h).symm⟩
    next => cases h

/-- `free` is defined only for a block in use that `malloc` (or `strdup`) gave, and for the
null pointer; afterwards the block is not in use. -/
theorem C101_free {a v : V} {m m' : M World} (h : sysFree [a] m = .ok v m') :
    a = .null ∧ m' = m ∨ ∃ p, (a = .ptr p ∨ ∃ k, a = .mem p 0 k) ∧ (∃ b ∈ m.g.heap, b.addr = p ∧ b.sys = false) ∧
      (∀ b ∈ m'.g.heap, b.addr ≠ p ∧ b ∈ m.g.heap) ∧ m'.g.s = m.g.s := by
  have key : ∀ p, (match release p false m.g.heap with
      | some hp => R.ok V.void { m with g := { m.g with heap := hp } }
      | none => .ub) = .ok v m' → (∃ b ∈ m.g.heap, b.addr = p ∧ b.sys = false) ∧ (∀ b ∈ m'.g.heap, b.addr ≠ p ∧ b ∈ m.g.heap) ∧ m'.g.s = m.g.s := by
    intro p h
    cases hr : release p false m.g.heap with
    | none => rw [hr] at h; cases h
    | some hp =>
      rw [hr] at h
      cases h
      obtain ⟨h1, rfl⟩ := release_some hr
      exact ⟨h1, fun b hb => ⟨by simpa using (List.mem_filter.mp hb).2, (List.mem_filter.mp hb).1⟩, rfl⟩
  cases a with
  | ptr p => exact .inr ⟨p, .inl rfl, key p h⟩
  | null => cases h; exact .inl ⟨rfl, rfl⟩
  | mem p n k =>
    cases n with
    | zero => exact .inr ⟨p, .inr ⟨k, rfl⟩, key p h⟩
    | succ => cases h
  | _ => cases h

/-- `LocalFree` is defined only for a block in use that `FormatMessage` gave. -/
theorem C101_localFree {a v : V} {m m' : M World} (h : sysLocalFree [a] m = .ok v m') :
    ∃ p, a = .ptr p ∧ (∃ b ∈ m.g.heap, b.addr = p ∧ b.sys = true) ∧ (∀ b ∈ m'.g.heap, b.addr ≠ p ∧ b ∈ m.g.heap) ∧ m'.g.s = m.g.s := by
  cases a with
  | ptr p =>
    have h : (match release p true m.g.heap with
      | some hp => R.ok V.null { m with g := { m.g with heap := hp } }
      | none => .ub) = .ok v m' := h
    cases hr : release p true m.g.heap with
    | none => rw [hr] at h; cases h
    | some hp =>
      rw [hr] at h
      cases h
      obtain ⟨h1, rfl⟩ := release_some hr
      exact ⟨p, rfl, h1, fun b hb => ⟨by simpa using (List.mem_filter.mp hb).2, (List.mem_filter.mp hb).1⟩, rfl⟩
  | _ => cases h

/-! ### Examples -/

example : sysFree [.ptr 1] (⟨⟨{}, [⟨1, none, 4, false⟩]⟩, []⟩ : M World) = .ok .void ⟨⟨{}, []⟩, []⟩ := rfl

example : sysLocalFree [.ptr 1] (⟨⟨{}, [⟨1, none, 4, true⟩]⟩, []⟩ : M World) = .ok .null ⟨⟨{}, []⟩, []⟩ := rfl

/-- The macros of a program for Windows that loads symbols when they are used. -/
def demoMacros (w : Str) : Bool :=
  w ∈ [str% "GDO_DEFAULT_LIB", str% "GDO_WINAPI", str% "_WIN32", str% "GDO_CONVERT_FILENAME", str% "GDO_ENABLE_AUTOLOAD", str% "GDO_ENABLE_AUTOLOAD_LAZY", str% "_MSC_VER"]

def demoCode : Cfg := { demoCfg with freeName := str% "my_force_free_lib", mode := .lazy, convert := true }

theorem demoConfig : Config (str% "MY") (str% "my") demoMacros demoLoader demoCode where
  winapi := by decide
  win32 := by decide
  aix := by decide
  lib := by decide
  dlinfo := by decide
  dladdr := by decide
  wide := by decide
  convert := by decide
  box := by decide
  auto := by decide
  lazy := by decide
  free := by decide
  lower := by decide
  widen := by
    intro t x hx e
    cases e
    exact hx rfl

theorem demoWraps : Wraps .read demoMacros := ⟨by decide, .inr (by decide)⟩

theorem demoSyms : demoCode.syms = (demoProtos ++ []).map Proto.symbol ∧ demoCode.syms.Nodup := by decide

/-- The generated code for these symbols. -/
def demoRun (n : Nat) : Str → List V → M World → R World V :=
  generated (str% "MY") (str% "my") .read demoMacros demoLoader demoCode demoProtos [] n

/-- The execution of the code: `f` is called through its wrapper function and found. -/
example : (match codeStep demoCode (demoRun 40) ⟨{}, []⟩ (.wrapped 0) with
    | some (.ret _ s, hp) => some (s.handle, s.ptr 0, s.ptr 1, hp.length)
    | _ => none) = some (some 100, some 7, none, 0) := by decide +kernel

/-- The call of `g`, which is not in the library, ends the program. -/
example : (match codeFinish demoCode (demoRun 40) [.enableAutorelease, .wrapped 1] with
    | some (.exit n s, hp) => some (n, s.handle, s.handlers, hp.length)
    | _ => none) = some (1, none, 1, 0) := by decide +kernel

example : (match codeStep demoCode (demoRun 40) ⟨{ handle := some 100 }, []⟩ .libraryPath with
    | some (.ret x _, hp) => some (x, hp.length)
    | _ => none) = some (.text (some (str% "C:\\x.dll")), 0) := by decide +kernel

example (calls : List Call) : ∃ N, ∀ n, N ≤ n → codeFinish demoCode (demoRun n) calls = some (Win.finish demoLoader demoCode calls, []) :=
  C101_enough _ _ _ _ _ _ _ _ demoConfig demoWraps demoSyms.1 demoSyms.2 calls

end Gdo.Cc.W
