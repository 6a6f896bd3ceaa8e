import Verif.Model.Plugin
import Verif.Lemmas.Runtime

/-!
Property C52: the plug-in loader.
-/

namespace Gdo.Plug
open Gdo Rt RtSpec

/-! ### The specification -/

/-- How often the block `a` was returned by the allocator. -/
def gots (a : Ptr) (m : List Mem) : Nat := m.countP fun e => e = .got a

/-- How often the block `a` was released. -/
def rels (a : Ptr) (m : List Mem) : Nat := m.countP fun e => e = .released a

/-- Only blocks are released that are allocated at that time. -/
def OnlyOwned (m : List Mem) : Prop := ∀ u a v, m = u ++ .released a :: v → rels a u < gots a u

/-- What the entry of a file must be. -/
structure EntryOk (L : Loader) (C : Cfg) (f : Option Str) (e : Entry) : Prop where
  /-- without a name everything is NULL -/
  noName : f = none ∨ f = some [] → e.filename = none ∧ e.handle = none ∧ ∀ j, e.ptr j = none
  /-- the file name is a copy -/
  name : ∀ a n, e.filename = some (a, n) → f = some n
  /-- the handle is what the loader returned for this file -/
  handle : ∀ n, f = some n → n ≠ [] → ∃ t, e.handle = (L.dlopen t n C.flags false).1
  /-- a file that could not be loaded has no symbols -/
  failed : e.handle = none → ∀ j, e.ptr j = none
  /-- the symbols are what the loader returned for this handle -/
  syms : ∀ h, e.handle = some h → ∀ j n, C.syms[j]? = some n → ∃ t, e.ptr j = (L.dlsym t h n).1

/-! A loader and settings for the examples: `y` is missing, `x` is at 100, `z` at 200. -/

def demoLoader : Loader where
  dlopen _ n _ _ := if n = str% "y" then (none, none) else (some (if n = str% "x" then 100 else 200), none)
  dlsym _ _ n := if n = str% "f" then (some 7, none) else (none, none)
  dlclose _ _ := (true, none)
  dlinfo _ _ := (none, none)
  dladdr _ _ := none
  procmap _ _ := none
  atexit _ := true

def demoCfg : Cfg where
  syms := [str% "f", str% "g"]
  flags := 1
  alloc t := some (1000 + t)

/-! ### Counting -/

@[simp] theorem gots_snoc (a : Ptr) (m : List Mem) (e : Mem) : gots a (m ++ [e]) = gots a m + if e = .got a then 1 else 0 := by
  simp [gots, List.countP_append, List.countP_cons]

@[simp] theorem rels_snoc (a : Ptr) (m : List Mem) (e : Mem) : rels a (m ++ [e]) = rels a m + if e = .released a then 1 else 0 := by
  simp [rels, List.countP_append, List.countP_cons]

theorem onlyOwned_got {m : List Mem} (h : OnlyOwned m) (x : Ptr) : OnlyOwned (m ++ [.got x]) := by
  intro u a v hl
  rcases List.eq_nil_or_concat v with rfl | ⟨v', y, rfl⟩
  · obtain ⟨_, h2⟩ := List.append_inj' hl rfl
    simp at h2
  · have : m ++ [.got x] = (u ++ .released a :: v') ++ [y] := by rw [hl]; simp [List.concat_eq_append]
    obtain ⟨h1, _⟩ := List.append_inj' this rfl
    exact h u a v' h1

theorem onlyOwned_released {m : List Mem} (h : OnlyOwned m) {x : Ptr} (hx : rels x m < gots x m) : OnlyOwned (m ++ [.released x]) := by
  intro u a v hl
  rcases List.eq_nil_or_concat v with rfl | ⟨v', y, rfl⟩
  · obtain ⟨h1, h2⟩ := List.append_inj' hl rfl
    simp at h2
    subst h2 h1
    exact hx
  · have : m ++ [.released x] = (u ++ .released a :: v') ++ [y] := by rw [hl]; simp [List.concat_eq_append]
    obtain ⟨h1, _⟩ := List.append_inj' this rfl
    exact h u a v' h1

/-- The handles of the entries. -/
def heldBy (es : List Entry) (h : Ptr) : Nat := es.countP fun e => e.handle = some h

/-- The names of the entries at `a`. -/
def ownedBy (es : List Entry) (a : Ptr) : Nat := es.countP fun e => e.filename.map Prod.fst = some a

/-- What is open and not closed is held by `H`, what is allocated and not released is owned
    by `M`. -/
structure Bal (H M : Ptr → Nat) (s : St) : Prop where
  only : OnlyAlive s.log
  count : ∀ h, opens h s.log = closes h s.log + givenUp h s.log + H h
  onlyM : OnlyOwned s.mem
  countM : ∀ a, gots a s.mem = rels a s.mem + M a

section
variable {L : Loader} {C : Cfg} {H M : Ptr → Nat}

theorem Bal.congr {H' M' : Ptr → Nat} {s : St} (h : Bal H M s) (h1 : ∀ x, H x = H' x) (h2 : ∀ x, M x = M' x) : Bal H' M' s := by
  rw [← funext h1, ← funext h2]; exact h

/-- One more for `x`. -/
def plus (o : Option Ptr) (H : Ptr → Nat) (x : Ptr) : Nat := H x + if o = some x then 1 else 0

theorem bal_alloc {s : St} (h : Bal H M s) : Bal H (plus (alloc C s).1 M) (alloc C s).2 := by
  unfold alloc
  split
  · refine ⟨h.only, h.count, onlyOwned_got h.onlyM _, fun x => ?_⟩
    have := h.countM x
    simp [plus, this, Nat.add_assoc]
  · exact ⟨h.only, h.count, h.onlyM, fun x => by simpa [plus] using h.countM x⟩

theorem bal_free {s : St} (a : Option Ptr) (h : Bal H (plus a M) s) : Bal H M (free a s) := by
  unfold free
  split
  · rename_i b
    refine ⟨h.only, h.count, onlyOwned_released h.onlyM ?_, fun x => ?_⟩
    · have := h.countM b
      simp [plus] at this
      omega
    · have := h.countM x
      simp [plus] at this ⊢
      omega
  · exact h.congr (fun _ => rfl) (fun x => by simp [plus])

theorem bal_dup {s : St} (n : Str) (h : Bal H M s) : Bal H (plus ((dup C n s).1.map Prod.fst) M) (dup C n s).2 := by
  have := bal_alloc (C := C) h
  refine this.congr (fun _ => rfl) fun x => ?_
  simp only [dup, Option.map_map]
  cases (alloc C s).1 <;> rfl

theorem bal_open {s : St} (n : Str) (h : Bal H M s) : Bal (plus (openLib L C n s).1 H) M (openLib L C n s).2 := by
  cases ho : (L.dlopen s.clock n C.flags false).1 with
  | none =>
    refine ⟨by simpa [openLib, ho] using h.only, fun x => ?_, h.onlyM, h.countM⟩
    simpa [openLib, ho, plus] using h.count x
  | some hd =>
    refine ⟨?_, fun x => ?_, h.onlyM, h.countM⟩
    · simp only [openLib, ho]
      exact onlyAlive_snoc h.only fun x hx => hx.elim
    · have := h.count x
      simp [openLib, ho, plus]
      omega

theorem bal_syms (hd : Ptr) (hH : 0 < H hd) (l : List Str) : ∀ (i : Nat) (p : Nat → Option Ptr) {s : St}, Bal H M s →
    Bal H M (loadSyms L hd i l p s).2 := by
  induction l with
  | nil => intro i p s h; exact h
  | cons n r ih =>
    intro i p s h
    rw [loadSyms]
    refine ih _ _ ⟨?_, fun x => ?_, h.onlyM, h.countM⟩
    · refine onlyAlive_snoc h.only fun x hx => ?_
      have : hd = x := hx
      subst this
      have := h.count hd
      unfold Alive
      omega
    · have := h.count x
      simp
      omega

theorem bal_close {s : St} (o : Option Ptr) (h : Bal (plus o H) M s) : Bal H M (close L o s) := by
  unfold close
  split
  · rename_i hd
    refine ⟨?_, fun x => ?_, h.onlyM, h.countM⟩
    · refine onlyAlive_snoc h.only fun x hx => ?_
      have : hd = x := hx
      subst this
      have := h.count hd
      simp [plus] at this
      unfold Alive
      omega
    · have := h.count x
      rcases (L.dlclose s.clock hd).1 with _ | _ <;> rcases Decidable.em (hd = x) with rfl | hx <;> simp_all [plus] <;> omega
  · exact h.congr (fun x => by simp [plus]) (fun _ => rfl)

theorem bal_entry {s : St} (n : Str) (h : Bal H M s) :
    Bal (plus (loadEntry L C n s).1.handle H) (plus ((loadEntry L C n s).1.filename.map Prod.fst) M) (loadEntry L C n s).2 := by
  have h1 := bal_open (L := L) (C := C) n (bal_dup (C := C) n h)
  unfold loadEntry
  dsimp only
  split
  · rename_i hn
    rw [hn] at h1
    exact h1
  · rename_i hd hn
    rw [hn] at h1
    exact bal_syms hd (by simp [plus]) _ _ _ h1

/-- What the entries hold in addition. -/
def addAll (k : Ptr → Nat) (H : Ptr → Nat) (x : Ptr) : Nat := H x + k x

theorem bal_loop (list : Option Ptr) (fs : List (Option Str)) : ∀ {H M : Ptr → Nat} {s : St} (es : List Entry) (t : St), Bal H M s →
    loadLoop L C list fs s = some (es, t) → Bal (addAll (heldBy es) H) (addAll (ownedBy es) M) t := by
  induction fs with
  | nil =>
    intro H M s es t h hl
    simp [loadLoop] at hl
    obtain ⟨rfl, rfl⟩ := hl
    exact h.congr (fun x => by simp [addAll, heldBy]) (fun x => by simp [addAll, ownedBy])
  | cons f r ih =>
    intro H M s es t h hl
    have key : ∀ (x : List Entry × St), loadLoop L C list r s = some x → ({} :: x.1, x.2) = (es, t) →
        Bal (addAll (heldBy es) H) (addAll (ownedBy es) M) t := by
      rintro ⟨es', t'⟩ h1 h2
      simp at h2
      obtain ⟨rfl, rfl⟩ := h2
      exact (ih es' t' h h1).congr (fun x => by simp [addAll, heldBy]) (fun x => by simp [addAll, ownedBy])
    match f, list with
    | none, _ =>
      rw [loadLoop] at hl
      obtain ⟨x, h1, h2⟩ := Option.map_eq_some_iff.mp hl
      exact key x h1 h2
    | some [], _ =>
      rw [loadLoop] at hl
      obtain ⟨x, h1, h2⟩ := Option.map_eq_some_iff.mp hl
      exact key x h1 h2
    | some (c :: n), none => simp [loadLoop] at hl
    | some (c :: n), some a =>
      rw [loadLoop] at hl
      obtain ⟨⟨es', t'⟩, h1, h2⟩ := Option.map_eq_some_iff.mp hl
      simp at h2
      obtain ⟨rfl, rfl⟩ := h2
      refine (ih es' t' (bal_entry (c :: n) h) h1).congr (fun x => ?_) (fun x => ?_)
      · simp [addAll, heldBy, plus, List.countP_cons]; omega
      · simp only [addAll, ownedBy, plus, List.countP_cons, decide_eq_true_eq]; omega

theorem bal_release (es : List Entry) : ∀ {H M : Ptr → Nat} {s : St}, Bal (addAll (heldBy es) H) (addAll (ownedBy es) M) s →
    Bal H M (releaseLoop L es s) := by
  induction es with
  | nil => intro H M s h; exact h.congr (fun x => by simp [addAll, heldBy]) (fun x => by simp [addAll, ownedBy])
  | cons e r ih =>
    intro H M s h
    rw [releaseLoop]
    refine ih (bal_close e.handle (bal_free _ (h.congr (fun x => ?_) (fun x => ?_))))
    · simp [addAll, heldBy, plus, List.countP_cons]; omega
    · simp only [addAll, ownedBy, plus, List.countP_cons, decide_eq_true_eq]; omega

/-! ### The entries -/

theorem loadSyms_ptr (hd : Ptr) (l : List Str) : ∀ (i : Nat) (p : Nat → Option Ptr) (s : St),
    (∀ k n, l[k]? = some n → ∃ t, (loadSyms L hd i l p s).1 (i + k) = (L.dlsym t hd n).1) ∧
      ∀ j, j < i → (loadSyms L hd i l p s).1 j = p j := by
  induction l with
  | nil => intro i p s; exact ⟨by simp, fun _ _ => rfl⟩
  | cons n r ih =>
    intro i p s
    obtain ⟨h1, h2⟩ := ih (i + 1) (fun j => if j = i then (L.dlsym s.clock hd n).1 else p j)
      { s with clock := s.clock + 1, log := s.log ++ [.sym hd n (L.dlsym s.clock hd n).1] }
    refine ⟨?_, ?_⟩
    · intro k m hk
      rcases k with _ | k
      · simp at hk
        subst hk
        refine ⟨s.clock, ?_⟩
        rw [loadSyms, Nat.add_zero]
        refine (h2 i (by omega)).trans ?_
        simp
      · obtain ⟨t, ht⟩ := h1 k m (by simpa using hk)
        refine ⟨t, ?_⟩
        rw [loadSyms, show i + (k + 1) = i + 1 + k by omega]
        exact ht
    · intro j hj
      rw [loadSyms]
      refine (h2 j (by omega)).trans ?_
      simp [show j ≠ i by omega]

theorem entry_ok (n : Str) (hn : n ≠ []) (s : St) : EntryOk L C (some n) (loadEntry L C n s).1 := by
  have hname : ∀ a m, (loadEntry L C n s).1.filename = some (a, m) → some n = some m := by
    intro a m h
    have : (dup C n s).1 = some (a, m) := by
      unfold loadEntry at h
      dsimp only at h
      split at h <;> exact h
    unfold dup at this
    obtain ⟨_, _, h2⟩ := Option.map_eq_some_iff.mp this
    simp at h2
    rw [h2.2]
  refine ⟨by rintro (h | h) <;> simp at h; exact absurd h hn, hname, ?_, ?_, ?_⟩
  · intro m hm _
    injection hm with hm
    subst hm
    refine ⟨(dup C n s).2.clock, ?_⟩
    unfold loadEntry
    dsimp only
    split
    · rename_i h; exact h.symm
    · rename_i h; exact h.symm
  · unfold loadEntry
    dsimp only
    split
    · exact fun _ _ => rfl
    · intro h; cases h
  · intro h
    unfold loadEntry
    dsimp only
    split
    · intro h; cases h
    · rename_i hd _
      intro hh j m hj
      simp at hh
      subst hh
      have := (loadSyms_ptr (L := L) hd C.syms 0 (fun _ => none) (openLib L C n (dup C n s).2).2).1 j m hj
      simpa using this

theorem empty_ok (f : Option Str) (hf : f = none ∨ f = some []) : EntryOk L C f {} where
  noName _ := ⟨rfl, rfl, fun _ => rfl⟩
  name a n h := by cases h
  handle n h hn := by rcases hf with rfl | rfl <;> simp at h; exact absurd h.symm (by simpa using hn)
  failed _ _ := rfl
  syms h hh := by cases hh

theorem loadLoop_ok (list : Option Ptr) (fs : List (Option Str)) : ∀ (s : St) (es : List Entry) (t : St),
    loadLoop L C list fs s = some (es, t) → es.length = fs.length ∧ ∀ (i : Nat) f e, fs[i]? = some f → es[i]? = some e → EntryOk L C f e := by
  induction fs with
  | nil =>
    intro s es t hl
    simp [loadLoop] at hl
    rw [hl.1]
    simp
  | cons f r ih =>
    intro s es t hl
    have key : ∀ (e : Entry) (s' : St) (x : List Entry × St), EntryOk L C f e → loadLoop L C list r s' = some x → (e :: x.1, x.2) = (es, t) →
        es.length = (f :: r).length ∧ ∀ (i : Nat) g e, (f :: r)[i]? = some g → es[i]? = some e → EntryOk L C g e := by
      rintro e s' ⟨es', t'⟩ he h1 h2
      simp at h2
      obtain ⟨h3, h4⟩ := ih s' es' t' h1
      rw [← h2.1]
      refine ⟨by simp [h3], ?_⟩
      rintro (_ | i) g e' hg he'
      · simp at hg he'
        rw [← hg, ← he']
        exact he
      · exact h4 i g e' (by simpa using hg) (by simpa using he')
    match f, list with
    | none, _ =>
      rw [loadLoop] at hl
      obtain ⟨x, h1, h2⟩ := Option.map_eq_some_iff.mp hl
      exact key _ _ x (empty_ok _ (.inl rfl)) h1 h2
    | some [], _ =>
      rw [loadLoop] at hl
      obtain ⟨x, h1, h2⟩ := Option.map_eq_some_iff.mp hl
      exact key _ _ x (empty_ok _ (.inr rfl)) h1 h2
    | some (c :: n), none => simp [loadLoop] at hl
    | some (c :: n), some a =>
      rw [loadLoop] at hl
      obtain ⟨x, h1, h2⟩ := Option.map_eq_some_iff.mp hl
      exact key _ _ x (entry_ok _ (by simp) _) h1 h2

theorem loadLoop_some (a : Ptr) (fs : List (Option Str)) : ∀ (s : St), ∃ x, loadLoop L C (some a) fs s = some x := by
  induction fs with
  | nil => intro s; exact ⟨_, rfl⟩
  | cons f r ih =>
    intro s
    match f with
    | none => obtain ⟨x, hx⟩ := ih s; exact ⟨_, by rw [loadLoop, hx]; rfl⟩
    | some [] => obtain ⟨x, hx⟩ := ih s; exact ⟨_, by rw [loadLoop, hx]; rfl⟩
    | some (c :: n) => obtain ⟨x, hx⟩ := ih (loadEntry L C (c :: n) s).2; exact ⟨_, by rw [loadLoop, hx]; rfl⟩

end

/-! ### C52 -/

/-- No list or an empty list: nothing happens, and the NULL returned can be released. -/
theorem C52_nothing (L : Loader) (C : Cfg) (s : St) :
    load L C none s = some (none, s) ∧ load L C (some []) s = some (none, s) ∧ release L none s = some s := ⟨rfl, rfl, rfl⟩

/-- Whenever the function returns: one entry per file, in order, each as specified. -/
theorem C52_entries (L : Loader) (C : Cfg) (fs : List (Option Str)) (hfs : fs ≠ []) (s t : St) (r : Option Plugin)
    (h : load L C (some fs) s = some (r, t)) :
    ∃ p, r = some p ∧ p.entries.length = fs.length ∧ ∀ (i : Nat) f e, fs[i]? = some f → p.entries[i]? = some e → EntryOk L C f e := by
  match fs, hfs with
  | f :: fs, _ =>
    simp only [load] at h
    split at h
    · cases h
    · obtain ⟨⟨es, t'⟩, h1, h2⟩ := Option.map_eq_some_iff.mp h
      simp at h2
      exact ⟨_, h2.1.symm, loadLoop_ok _ _ _ _ _ h1⟩

example : ∃ p t, load demoLoader demoCfg (some [some (str% "x"), none, some (str% "y"), some (str% "z")]) {} = some (some p, t) ∧
    p.entries.map (fun e => (e.filename, e.handle, e.ptr 0, e.ptr 1)) =
      [(some (1002, str% "x"), some 100, some 7, none), (none, none, none, none), (some (1006, str% "y"), none, none, none),
        (some (1008, str% "z"), some 200, some 7, none)] := ⟨_, _, rfl, rfl⟩

/-- Whenever both functions return: every handle opened was closed or closing it failed,
    none was used or closed when not open; every block allocated was released once and
    none was released that was not allocated. -/
theorem C52_release (L : Loader) (C : Cfg) (files : Option (List (Option Str))) (r : Option Plugin) (t u : St)
    (h : load L C files {} = some (r, t)) (hu : release L r t = some u) :
    OnlyAlive u.log ∧ (∀ x, opens x u.log = closes x u.log + givenUp x u.log) ∧ OnlyOwned u.mem ∧ ∀ a, gots a u.mem = rels a u.mem := by
  have h0 : Bal (fun _ => 0) (fun _ => 0) ({} : St) :=
    ⟨by intro a e b h hl; simp at hl, by simp [opens, closes, givenUp], by intro u a v hl; simp at hl, by simp [gots, rels]⟩
  suffices H : Bal (fun _ => 0) (fun _ => 0) u from ⟨H.only, H.count, H.onlyM, H.countM⟩
  match files with
  | none =>
    simp [load] at h
    obtain ⟨rfl, rfl⟩ := h
    simp [release] at hu
    subst hu
    exact h0
  | some [] =>
    simp [load] at h
    obtain ⟨rfl, rfl⟩ := h
    simp [release] at hu
    subst hu
    exact h0
  | some (f :: fs) =>
    simp only [load] at h
    split at h
    · cases h
    · rename_i a ha
      obtain ⟨⟨es, t'⟩, h1, h2⟩ := Option.map_eq_some_iff.mp h
      simp at h2
      obtain ⟨rfl, rfl⟩ := h2
      have b1 := bal_alloc (C := C) h0
      rw [ha] at b1
      have b2 := bal_alloc (C := C) b1
      have b3 := bal_release (L := L) es (bal_loop _ _ es t' b2 h1)
      have b4 := bal_free (M := fun _ => 0) (some a) (bal_free _ b3)
      simp only [release] at hu
      split at hu
      · cases hu
      · simp at hu
        rw [← hu]
        exact b4

example : ∃ p t u, load demoLoader demoCfg (some [some (str% "x"), some (str% "y"), some (str% "x")]) {} = some (some p, t) ∧
    release demoLoader (some p) t = some u ∧
    u.log = [.opened 100, .sym 100 (str% "f") (some 7), .sym 100 (str% "g") none, .opened 100, .sym 100 (str% "f") (some 7),
      .sym 100 (str% "g") none, .closed 100 true true, .closed 100 true true] ∧ u.mem.length = 10 := ⟨_, _, _, rfl, rfl, rfl, rfl⟩

theorem releaseLoop_answers (L : Loader) : ∀ (es : List Entry) (s : St),
    ∃ l, (releaseLoop L es s).log = s.log ++ l ∧ l.length = (es.filter fun e => e.handle.isSome).length ∧ ∀ e ∈ l, ∃ h k, e = .closed h (L.dlclose k h).1 true := by
  intro es
  induction es with
  | nil => intro s; exact ⟨[], by simp [releaseLoop], rfl, fun _ h => nomatch h⟩
  | cons e r ih =>
    intro s
    have hf : ∀ a, (free a s).log = s.log := by intro a; cases a <;> rfl
    obtain ⟨l, h1, h2, h3⟩ := ih (close L e.handle (free (e.filename.map Prod.fst) s))
    cases hh : e.handle with
    | none =>
      rw [hh] at h1
      refine ⟨l, ?_, by simp [hh, h2], h3⟩
      simp only [releaseLoop]
      rw [hh, h1]
      simp [close, hf]
    | some h =>
      rw [hh] at h1
      refine ⟨.closed h (L.dlclose (free (e.filename.map Prod.fst) s).clock h).1 true :: l, ?_, by simp [hh, h2], fun x hx => ?_⟩
      · simp only [releaseLoop]
        rw [hh, h1]
        simp [close, hf]
      · rcases List.mem_cons.mp hx with rfl | hx
        · exact ⟨h, _, rfl⟩
        · exact h3 x hx

/-- Releasing makes one call of `dlclose` for each library that is open, and what becomes of the
library is what the loader answers to it. -/
theorem C52_answers (L : Loader) (p : Plugin) (t u : St) (hu : release L (some p) t = some u) :
    ∃ l, u.log = t.log ++ l ∧ l.length = (p.entries.filter fun e => e.handle.isSome).length ∧ ∀ e ∈ l, ∃ h k, e = .closed h (L.dlclose k h).1 true := by
  obtain ⟨l, h1, h2⟩ := releaseLoop_answers L p.entries t
  simp only [release] at hu
  split at hu
  · cases hu
  · simp at hu
    subst hu
    have hf : ∀ a s, (free a s).log = s.log := by intro a s; cases a <;> rfl
    exact ⟨l, by rw [hf, hf, h1], h2⟩

/-- Missing: the structure or the list cannot be allocated.  If they can be, both
    functions return. -/
theorem C52_partial (L : Loader) (C : Cfg) (fs : List (Option Str)) (s : St) (h1 : (C.alloc s.clock).isSome)
    (h2 : (C.alloc (s.clock + 1)).isSome) : ∃ r t u, load L C (some fs) s = some (r, t) ∧ release L r t = some u := by
  match fs with
  | [] => exact ⟨none, s, s, rfl, rfl⟩
  | f :: fs =>
    obtain ⟨a, ha⟩ := Option.isSome_iff_exists.mp h1
    obtain ⟨b, hb⟩ := Option.isSome_iff_exists.mp h2
    obtain ⟨x, hx⟩ := loadLoop_some (L := L) (C := C) b (f :: fs)
      { s with clock := s.clock + 1 + 1, mem := s.mem ++ [.got a] ++ [.got b] }
    refine ⟨some { addr := a, list := some b, entries := x.1 }, x.2,
      free (some a) (free (some b) (releaseLoop L x.1 x.2)), ?_, ?_⟩
    · simp only [load, alloc, ha, hb, hx, Option.map]
    · simp only [release]
      cases x.1 <;> rfl

example : (demoCfg.alloc 0).isSome ∧ (demoCfg.alloc 1).isSome := ⟨rfl, rfl⟩

/-- C52 fails: when the structure cannot be allocated, loading has no defined behaviour,
    whatever the files. -/
theorem C52_violated (L : Loader) (C : Cfg) (fs : List (Option Str)) (hfs : fs ≠ []) (s : St) (h : C.alloc s.clock = none) :
    load L C (some fs) s = none := by
  match fs, hfs with
  | f :: fs, _ => simp [load, alloc, h]

/-- The same for the list, if there is a file name; and if there is none, then releasing
    has no defined behaviour. -/
theorem C52_violated_list (L : Loader) (C : Cfg) (fs : List (Option Str)) (hfs : fs ≠ []) (s : St) (h : C.alloc (s.clock + 1) = none) :
    load L C (some fs) s = none ∨ ∃ r t, load L C (some fs) s = some (r, t) ∧ release L r t = none := by
  cases hl : load L C (some fs) s with
  | none => exact .inl rfl
  | some x =>
    obtain ⟨r, t⟩ := x
    refine .inr ⟨r, t, rfl, ?_⟩
    obtain ⟨p, rfl, hp, _⟩ := C52_entries L C fs hfs s t r hl
    match fs, hfs with
    | f :: fs, _ =>
      simp only [load] at hl
      split at hl
      · cases hl
      · rename_i a ha
        obtain ⟨⟨es, t'⟩, _, h2⟩ := Option.map_eq_some_iff.mp hl
        simp at h2
        have hc : (alloc C s).2.clock = s.clock + 1 := by unfold alloc; split <;> rfl
        have hn : (alloc C (alloc C s).2).1 = none := by
          rw [alloc, hc, h]
        rw [← h2.1] at hp ⊢
        rw [hn]
        match es, hp with
        | e :: es, _ => rfl

example : load demoLoader { demoCfg with alloc := fun _ => none } (some [some (str% "x")]) {} = none := rfl
example : ∃ t, load demoLoader { demoCfg with alloc := fun t => if t = 0 then some 1 else none } (some [none]) {} =
    some (some { addr := 1, list := none, entries := [{}] }, t) := ⟨_, rfl⟩

end Gdo.Plug
