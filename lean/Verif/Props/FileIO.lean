import Verif.Model.FileIO

/-! C93: files that are read and written through `open_file` and `cio::ofstream`. -/

namespace Gdo.IO
open Gdo

/-! ### `open_file` -/

/-- Calls on objects that exist, and constructors of objects that do not: the rules of C++.
    `alive` tells which objects exist. -/
def Proper : (Nat → Bool) → List FOp → Prop
  | _, [] => True
  | a, .create i :: r => a i = false ∧ Proper (fun k => if k = i then true else a k) r
  | a, .createPath i _ _ :: r => a i = false ∧ Proper (fun k => if k = i then true else a k) r
  | a, .open i _ _ :: r => a i = true ∧ Proper a r
  | a, .close i :: r => a i = true ∧ Proper a r
  | a, .destroy i :: r => a i = true ∧ Proper (fun k => if k = i then false else a k) r
  | a, .copy i j :: r => a i = true ∧ a j = false ∧ Proper (fun k => if k = j then true else a k) r

/-- No object is copied. -/
def NoCopy (ops : List FOp) : Prop := ∀ op ∈ ops, ∀ i j, op ≠ .copy i j

/-- The files that are open are those of the objects, and no two objects share one. -/
structure FInv (s : FState) : Prop where
  owned : ∀ n, n ∈ s.lib.live ↔ ∃ i, s.obj i = some (.file n)
  nodup : s.lib.live.Nodup
  single : ∀ i j n, s.obj i = some (.file n) → s.obj j = some (.file n) → i = j
  bound : ∀ n ∈ s.lib.live, n < s.lib.paths.length
  stdin : s.lib.stdinOpen = true

theorem finv_init : FInv {} :=
  ⟨fun n => ⟨fun h => absurd h (by simp), fun ⟨i, h⟩ => absurd h (by simp)⟩, by simp, fun i j n h => absurd h (by simp),
    fun n h => absurd h (by simp), rfl⟩

/-- The state after the file of object `i` is closed, and the object has the value `o`. -/
theorem finv_close {s : FState} (h : FInv s) {i : Nat} {fp : Fp} (hi : s.obj i = some fp) (o : Option Fp) (ho : ∀ n, o ≠ some (.file n)) :
    ∃ l, closeFile fp s.lib = some (.stdin, l) ∧ FInv (s.set i o l) ∧ l.paths = s.lib.paths := by
  cases fp with
  | null =>
    refine ⟨s.lib, by simp [closeFile], ⟨?_, h.nodup, ?_, h.bound, h.stdin⟩, rfl⟩
    · intro n
      refine (h.owned n).trans ⟨?_, ?_⟩
      · rintro ⟨k, hk⟩
        refine ⟨k, ?_⟩
        have : k ≠ i := by rintro rfl; rw [hi] at hk; cases hk
        simp [FState.set, this, hk]
      · rintro ⟨k, hk⟩
        simp only [FState.set] at hk
        split at hk
        · exact absurd hk (ho n)
        · exact ⟨k, hk⟩
    · intro a b n ha hb
      simp only [FState.set] at ha hb
      split at ha
      · exact absurd ha (ho n)
      · split at hb
        · exact absurd hb (ho n)
        · exact h.single a b n ha hb
  | stdin =>
    refine ⟨s.lib, by simp [closeFile], ⟨?_, h.nodup, ?_, h.bound, h.stdin⟩, rfl⟩
    · intro n
      refine (h.owned n).trans ⟨?_, ?_⟩
      · rintro ⟨k, hk⟩
        refine ⟨k, ?_⟩
        have : k ≠ i := by rintro rfl; rw [hi] at hk; cases hk
        simp [FState.set, this, hk]
      · rintro ⟨k, hk⟩
        simp only [FState.set] at hk
        split at hk
        · exact absurd hk (ho n)
        · exact ⟨k, hk⟩
    · intro a b n ha hb
      simp only [FState.set] at ha hb
      split at ha
      · exact absurd ha (ho n)
      · split at hb
        · exact absurd hb (ho n)
        · exact h.single a b n ha hb
  | file m =>
    have hm : m ∈ s.lib.live := (h.owned m).mpr ⟨i, hi⟩
    refine ⟨{ s.lib with live := s.lib.live.erase m }, by simp [closeFile, fclose, hm], ⟨?_, h.nodup.erase m, ?_, ?_, h.stdin⟩, rfl⟩
    · intro n
      show n ∈ s.lib.live.erase m ↔ _
      rw [h.nodup.mem_erase_iff, h.owned n]
      constructor
      · rintro ⟨hne, k, hk⟩
        refine ⟨k, ?_⟩
        have : k ≠ i := by rintro rfl; rw [hi] at hk; cases hk; exact hne rfl
        simp [FState.set, this, hk]
      · rintro ⟨k, hk⟩
        simp only [FState.set] at hk
        split at hk
        · exact absurd hk (ho n)
        · rename_i hki
          refine ⟨?_, k, hk⟩
          rintro rfl
          exact hki (h.single k i _ hk hi)
    · intro a b n ha hb
      simp only [FState.set] at ha hb
      split at ha
      · exact absurd ha (ho n)
      · split at hb
        · exact absurd hb (ho n)
        · exact h.single a b n ha hb
    · intro n hn
      exact h.bound n (List.mem_of_mem_erase hn)

/-- Storing a new file in object `i`, which has none. -/
theorem finv_fopen {s : FState} (h : FInv s) (i : Nat) (hi : ∀ n, s.obj i ≠ some (.file n)) (ok : Str → Bool) (path : Str) :
    FInv (s.set i (some (fopen ok path s.lib).1) (fopen ok path s.lib).2) := by
  unfold fopen
  by_cases hok : ok path = true
  · rw [if_pos hok]
    have hnew : ∀ k, s.obj k ≠ some (.file s.lib.paths.length) := by
      intro k hk
      have := h.bound _ ((h.owned _).mpr ⟨k, hk⟩)
      omega
    refine ⟨?_, ?_, ?_, ?_, h.stdin⟩
    · intro n
      show n ∈ s.lib.paths.length :: s.lib.live ↔ _
      rw [List.mem_cons, h.owned n]
      constructor
      · rintro (rfl | ⟨k, hk⟩)
        · exact ⟨i, by simp [FState.set]⟩
        · refine ⟨k, ?_⟩
          have : k ≠ i := by rintro rfl; exact hi _ hk
          simp [FState.set, this, hk]
      · rintro ⟨k, hk⟩
        simp only [FState.set] at hk
        split at hk
        · cases hk
          exact .inl rfl
        · exact .inr ⟨k, hk⟩
    · show (s.lib.paths.length :: s.lib.live).Nodup
      rw [List.nodup_cons]
      exact ⟨fun hm => by have := h.bound _ hm; omega, h.nodup⟩
    · intro a b n ha hb
      simp only [FState.set] at ha hb
      split at ha
      · split at hb
        · omega
        · cases ha
          exact absurd hb (hnew _)
      · split at hb
        · cases hb
          exact absurd ha (hnew _)
        · exact h.single a b n ha hb
    · intro n hn
      show n < (s.lib.paths ++ [path]).length
      have hn : n ∈ s.lib.paths.length :: s.lib.live := hn
      rw [List.length_append, List.length_singleton]
      rcases List.mem_cons.mp hn with rfl | hn
      · omega
      · have := h.bound n hn; omega
  · rw [if_neg hok]
    refine ⟨?_, h.nodup, ?_, h.bound, h.stdin⟩
    · intro n
      refine (h.owned n).trans ⟨?_, ?_⟩
      · rintro ⟨k, hk⟩
        refine ⟨k, ?_⟩
        have : k ≠ i := by rintro rfl; exact hi _ hk
        simp [FState.set, this, hk]
      · rintro ⟨k, hk⟩
        simp only [FState.set] at hk
        split at hk
        · cases hk
        · exact ⟨k, hk⟩
    · intro a b n ha hb
      simp only [FState.set] at ha hb
      split at ha
      · cases ha
      · split at hb
        · cases hb
        · exact h.single a b n ha hb

theorem set_set (s : FState) (i : Nat) (o o' : Option Fp) (l l' : Lib) : (s.set i o l).set i o' l' = s.set i o' l' := by
  simp only [FState.set, FState.mk.injEq, and_true]
  funext k
  split <;> rfl

theorem finv_open {s : FState} (h : FInv s) {i : Nat} {fp : Fp} (hi : s.obj i = some fp) (ok : Str → Bool) (path : Str) :
    ∃ fp' l, openFile ok path fp s.lib = some (fp', l) ∧ FInv (s.set i (some fp') l) := by
  obtain ⟨l, hc, hinv, hp⟩ := finv_close h hi (some .stdin) (by simp)
  by_cases hs : path.isEmpty ∨ path = str% "-"
  · refine ⟨.stdin, l, ?_, hinv⟩
    unfold openFile
    rw [hc]
    simp only [Option.bind_eq_bind, Option.bind_some, if_pos hs]
    rfl
  · have := finv_fopen hinv i (by intro n; simp [FState.set]) ok path
    rw [set_set] at this
    refine ⟨_, _, ?_, this⟩
    unfold openFile
    rw [hc]
    simp only [Option.bind_eq_bind, Option.bind_some, if_neg hs]
    rfl

/-- An object that does not exist counts as one with a NULL pointer. -/
theorem finv_null {s : FState} (h : FInv s) {i : Nat} (hi : s.obj i = none) : FInv (s.set i (some .null) s.lib) := by
  refine ⟨?_, h.nodup, ?_, h.bound, h.stdin⟩
  · intro n
    refine (h.owned n).trans ⟨?_, ?_⟩
    · rintro ⟨k, hk⟩
      refine ⟨k, ?_⟩
      have : k ≠ i := by rintro rfl; rw [hi] at hk; cases hk
      simp [FState.set, this, hk]
    · rintro ⟨k, hk⟩
      simp only [FState.set] at hk
      split at hk
      · cases hk
      · exact ⟨k, hk⟩
  · intro a b n ha hb
    simp only [FState.set] at ha hb
    split at ha
    · cases ha
    · split at hb
      · cases hb
      · exact h.single a b n ha hb

theorem frun_ok (ops : List FOp) : ∀ (s : FState) (a : Nat → Bool), FInv s → (∀ i, a i = (s.obj i).isSome) → Proper a ops → NoCopy ops →
    ∃ s', ops.foldlM fstep s = some s' ∧ FInv s' := by
  induction ops with
  | nil => intro s a h _ _ _; exact ⟨s, rfl, h⟩
  | cons op r ih =>
    intro s a h ha hp hn
    have hn' : NoCopy r := fun x hx => hn x (List.mem_cons_of_mem _ hx)
    have step : ∀ s' a', fstep s op = some s' → FInv s' → (∀ i, a' i = (s'.obj i).isSome) → Proper a' r →
        ∃ s', (op :: r).foldlM fstep s = some s' ∧ FInv s' := by
      intro s' a' h1 h2 h3 h4
      obtain ⟨s'', h5, h6⟩ := ih s' a' h2 h3 h4 hn'
      refine ⟨s'', ?_, h6⟩
      rw [List.foldlM_cons, h1]
      exact h5
    have hset : ∀ (i : Nat) (o : Option Fp) (l : Lib), ∀ k, (if k = i then o.isSome else a k) = ((s.set i o l).obj k).isSome := by
      intro i o l k
      simp only [FState.set]
      split
      · rfl
      · exact ha k
    have hsame : ∀ (i : Nat) (fp : Fp) (l : Lib), a i = true → ∀ k, a k = ((s.set i (some fp) l).obj k).isSome := by
      intro i fp l hi k
      rw [← hset i (some fp) l k]
      split
      · rename_i e; rw [e, hi]; rfl
      · rfl
    have hsome : ∀ i, a i = true → ∃ fp, s.obj i = some fp := by
      intro i hi
      rw [ha i] at hi
      exact Option.isSome_iff_exists.mp hi
    have hnone : ∀ i, a i = false → s.obj i = none := by
      intro i hi
      rw [ha i] at hi
      simpa using hi
    cases op with
    | create i =>
      obtain ⟨h1, h2⟩ := hp
      have h0 := hnone i h1
      exact step (s.set i (some .null) s.lib) _ (by simp [fstep, h0]) (finv_null h h0) (hset i (some .null) s.lib) h2
    | createPath i ok path =>
      obtain ⟨h1, h2⟩ := hp
      have h0 := hnone i h1
      obtain ⟨fp, l, h3, h4⟩ := finv_open (finv_null h h0) (i := i) (fp := .null) (by simp [FState.set]) ok path
      rw [set_set] at h4
      have h3 : openFile ok path .null s.lib = some (fp, l) := h3
      exact step (s.set i (some fp) l) _ (by simp [fstep, h0, h3]) h4 (hset i (some fp) l) h2
    | «open» i ok path =>
      obtain ⟨h1, h2⟩ := hp
      obtain ⟨fp0, h0⟩ := hsome i h1
      obtain ⟨fp, l, h3, h4⟩ := finv_open h h0 ok path
      exact step (s.set i (some fp) l) a (by simp [fstep, h0, h3]) h4 (hsame i fp l h1) h2
    | close i =>
      obtain ⟨h1, h2⟩ := hp
      obtain ⟨fp0, h0⟩ := hsome i h1
      obtain ⟨l, h3, h4, -⟩ := finv_close h h0 (some .stdin) (by simp)
      exact step (s.set i (some .stdin) l) a (by simp [fstep, h0, h3]) h4 (hsame i .stdin l h1) h2
    | destroy i =>
      obtain ⟨h1, h2⟩ := hp
      obtain ⟨fp0, h0⟩ := hsome i h1
      obtain ⟨l, h3, h4, -⟩ := finv_close h h0 none (by simp)
      exact step (s.set i none l) _ (by simp [fstep, h0, h3]) h4 (hset i none l) h2
    | copy i j => exact absurd rfl (hn _ List.mem_cons_self i j)

/-- Whatever is done with objects of the class, as long as none is copied: a file is closed only
    while it is open, standard input is never closed, the files that are open are those of the
    objects, each of one object, and without objects no file is open. -/
theorem C93_files_partial (ops : List FOp) (hp : Proper (fun _ => false) ops) (hn : NoCopy ops) :
    ∃ s, frun ops = some s ∧ s.lib.stdinOpen = true ∧ s.lib.live.Nodup ∧
      (∀ n, n ∈ s.lib.live ↔ ∃ i, s.obj i = some (.file n)) ∧
      (∀ i j n, s.obj i = some (.file n) → s.obj j = some (.file n) → i = j) ∧
      ((∀ i, s.obj i = none) → s.lib.live = []) := by
  obtain ⟨s, h1, h2⟩ := frun_ok ops {} _ finv_init (fun _ => rfl) hp hn
  refine ⟨s, h1, h2.stdin, h2.nodup, h2.owned, h2.single, fun h => ?_⟩
  refine List.eq_nil_iff_forall_not_mem.mpr fun n hn => ?_
  obtain ⟨i, hi⟩ := (h2.owned n).mp hn
  rw [h i] at hi
  cases hi

/-- The implicit copy constructor: both objects close the file. -/
theorem C93_violated_copy (path : Str) (h1 : path ≠ []) (h2 : path ≠ str% "-") (ok : Str → Bool) (hok : ok path = true) :
    Proper (fun _ => false) [.createPath 0 ok path, .copy 0 1, .destroy 0, .destroy 1] ∧
    frun [.createPath 0 ok path, .copy 0 1, .destroy 0, .destroy 1] = none := by
  refine ⟨by simp [Proper], ?_⟩
  simp [frun, List.foldlM, fstep, openFile, closeFile, fopen, fclose, FState.set, h1, h2, hok]

theorem closeFile_some {fp fp' : Fp} {l l' : Lib} (h : closeFile fp l = some (fp', l')) : fp' = .stdin ∧ l'.paths = l.paths := by
  cases fp with
  | null => simp [closeFile] at h; obtain ⟨rfl, rfl⟩ := h; exact ⟨rfl, rfl⟩
  | stdin => simp [closeFile] at h; obtain ⟨rfl, rfl⟩ := h; exact ⟨rfl, rfl⟩
  | file n =>
    simp only [closeFile, fclose] at h
    by_cases hn : n ∈ l.live
    · simp [hn] at h; obtain ⟨rfl, rfl⟩ := h; exact ⟨rfl, rfl⟩
    · simp [hn] at h

/-- After `open` the pointer is `stdin` for an empty path and for `-`, the file of this path if it
    can be opened, and NULL otherwise; `is_open` tells whether it is not NULL. -/
theorem C93_open (s s' : FState) (i : Nat) (ok : Str → Bool) (path : Str) (h : fstep s (.open i ok path) = some s') :
    ∃ fp, s'.obj i = some fp ∧
      (path = [] ∨ path = str% "-" → fp = .stdin ∧ isOpen fp = true) ∧
      (path ≠ [] → path ≠ str% "-" → ok path = true → ∃ n, fp = .file n ∧ s'.lib.paths[n]? = some path ∧ n ∈ s'.lib.live ∧ isOpen fp = true) ∧
      (path ≠ [] → path ≠ str% "-" → ok path = false → fp = .null ∧ isOpen fp = false ∧ s'.lib.paths = s.lib.paths) := by
  simp only [fstep, Option.bind_eq_bind, Option.bind_eq_some_iff] at h
  obtain ⟨fp0, h0, ⟨fp, l⟩, h1, h2⟩ := h
  cases h2
  refine ⟨fp, by simp [FState.set], ?_⟩
  unfold openFile at h1
  simp only [Option.bind_eq_bind, Option.bind_eq_some_iff] at h1
  obtain ⟨⟨fp1, l1⟩, h3, h4⟩ := h1
  have hpaths : l1.paths = s.lib.paths := (closeFile_some h3).2
  refine ⟨?_, ?_, ?_⟩
  · intro hp
    have : path.isEmpty = true ∨ path = str% "-" := by rcases hp with rfl | rfl <;> simp
    rw [if_pos this] at h4
    cases h4
    exact ⟨rfl, rfl⟩
  · intro hp1 hp2 hok
    have : ¬ (path.isEmpty = true ∨ path = str% "-") := by simp [hp1, hp2]
    rw [if_neg this] at h4
    simp only [fopen, hok, if_true] at h4
    cases h4
    exact ⟨_, rfl, by simp [FState.set], by simp [FState.set], rfl⟩
  · intro hp1 hp2 hok
    have : ¬ (path.isEmpty = true ∨ path = str% "-") := by simp [hp1, hp2]
    rw [if_neg this] at h4
    simp only [fopen, hok, Bool.false_eq_true, if_false] at h4
    cases h4
    exact ⟨rfl, rfl, hpaths⟩

/-- After `close` an object counts as open, and its pointer is standard input. -/
theorem C93_violated_closed (s s' : FState) (i : Nat) (h : fstep s (.close i) = some s') :
    s'.obj i = some .stdin ∧ isOpen .stdin = true := by
  simp only [fstep, Option.bind_eq_bind, Option.bind_eq_some_iff] at h
  obtain ⟨fp0, h0, ⟨fp, l⟩, h1, h2⟩ := h
  cases h2
  rw [(closeFile_some h1).1]
  exact ⟨by simp [FState.set], rfl⟩

/-! ### `cio::ofstream` -/

/-- What happened, the latest event first. -/
inductive Ev
  | opened (path : Str)
  /-- opening failed, standard output was selected or the stream was closed -/
  | reset
  | wrote (text : Str)

/-- The file that texts go to; `none` is standard output. -/
def target : List Ev → Option Str
  | [] => none
  | .opened p :: _ => some p
  | .reset :: _ => none
  | .wrote _ :: h => target h

/-- All texts written while there was no file. -/
def coutText : List Ev → Str
  | [] => []
  | .wrote t :: h => if target h = none then coutText h ++ t else coutText h
  | _ :: h => coutText h

/-- The texts written into a file since it was opened last. -/
def fileText (before : Str → Option Str) (p : Str) : List Ev → Option Str
  | [] => before p
  | .wrote t :: h => if target h = some p then (fileText before p h).map (· ++ t) else fileText before p h
  | .opened q :: h => if q = p then some [] else fileText before p h
  | .reset :: h => fileText before p h

/-- The event of a call. -/
def event : OOp → Ev
  | .openPath p true => .opened p
  | .openPath _ false => .reset
  | .open f ok => if f = str% "-" then .reset else if ok then .opened f else .reset
  | .close => .reset
  | .write t _ => .wrote t

/-- The texts go where they should: to the file opened last, or to standard output if none was
    opened since the last `close`, the last `open("-")` or the last failure. -/
def OInv (before : Str → Option Str) (h : List Ev) (s : OState) : Prop :=
  s.ofs = target h ∧ s.toFile = (target h).isSome ∧ (s.toFile = true → s.good = true) ∧ s.cout = coutText h ∧
    ∀ p, s.files p = fileText before p h

theorem ostep_inv {before : Str → Option Str} {h : List Ev} {s : OState} (hi : OInv before h s) (op : OOp)
    (hw : ∀ t, op ≠ .write t false) : OInv before (event op :: h) (ostep s op).2 := by
  obtain ⟨h1, h2, h3, h4, h5⟩ := hi
  have hclose : OInv before (.reset :: h) (oclose s) := ⟨rfl, rfl, fun h => absurd h (by simp [oclose]), h4, h5⟩
  have hpath : ∀ p ok, OInv before ((if ok then Ev.opened p else .reset) :: h) (openPath p ok s).2 := by
    intro p ok
    cases ok with
    | true =>
      refine ⟨rfl, rfl, fun _ => rfl, h4, ?_⟩
      intro q
      simp only [openPath, if_true, fileText, oclose]
      by_cases hq : q = p
      · rw [if_pos hq, if_pos hq.symm]
      · rw [if_neg hq, if_neg (fun e => hq e.symm)]
        exact h5 q
    | false => exact ⟨rfl, rfl, fun h => absurd h (by simp [openPath, oclose]), h4, h5⟩
  cases op with
  | openPath p ok =>
    have := hpath p ok
    cases ok <;> exact this
  | «open» f ok =>
    simp only [ostep, oopen, event]
    split
    · exact hclose
    · have := hpath f ok
      cases ok <;> exact this
  | close => exact hclose
  | write t ok =>
    cases ok with
    | false => exact absurd rfl (hw t)
    | true =>
      simp only [ostep, owrite, event]
      cases ht : target h with
      | none =>
        rw [ht] at h1 h2
        rw [h2]
        refine ⟨?_, ?_, fun h => ?_, ?_, ?_⟩
        · simp [h1, target, ht]
        · simp [h2, target, ht]
        · simp [h2] at h
        · simp [h4, coutText, ht]
        · intro p
          simp [fileText, ht, h5]
      | some q =>
        rw [ht] at h1 h2
        have hg : s.good = true := h3 (by rw [h2]; rfl)
        rw [h2, h1]
        simp only [Option.isSome_some, if_true, hg, Bool.and_self]
        refine ⟨?_, ?_, fun _ => rfl, ?_, ?_⟩
        · simp [target, ht]
        · simp [target, ht]
        · simp [coutText, ht, h4]
        · intro p
          simp only [fileText, ht]
          by_cases hp : p = q
          · rw [if_pos hp, if_pos (by rw [hp]), h5 p]
          · rw [if_neg hp, if_neg (by rintro ⟨⟩; exact hp rfl)]
            exact h5 p

theorem orun_inv {before : Str → Option Str} (ops : List OOp) : ∀ {h : List Ev} {s : OState}, OInv before h s →
    (∀ op ∈ ops, ∀ t, op ≠ .write t false) → OInv before (ops.reverse.map event ++ h) (orun s ops) := by
  induction ops with
  | nil => intro h s hi _; exact hi
  | cons op r ih =>
    intro h s hi hw
    have := ih (ostep_inv hi op (hw op List.mem_cons_self)) fun x hx => hw x (List.mem_cons_of_mem _ hx)
    simp only [List.reverse_cons, List.map_append, List.map_cons, List.map_nil, List.append_assoc, List.cons_append, List.nil_append]
    exact this

/-- If no write fails then every text is written to the file that was opened last, or to standard
    output if there is none; a file that was opened has exactly the texts written since then, and
    all others are unchanged. -/
theorem C93_output_partial (before : Str → Option Str) (ops : List OOp) (hw : ∀ op ∈ ops, ∀ t, op ≠ .write t false) :
    let s := orun { files := before } ops
    let h := ops.reverse.map event
    s.cout = coutText h ∧ (∀ p, s.files p = fileText before p h) ∧ (s.toFile = true ↔ s.ofs ≠ none) ∧ s.ofs = target h := by
  intro s h
  have hi : OInv before [] { files := before } := ⟨rfl, rfl, fun h => absurd h (by simp), rfl, fun _ => rfl⟩
  have := orun_inv ops hi hw
  rw [List.append_nil] at this
  obtain ⟨h1, h2, h3, h4, h5⟩ := this
  refine ⟨h4, h5, ?_, h1⟩
  show (orun { files := before } ops).toFile = true ↔ _
  rw [h2, h1]
  cases target (ops.reverse.map event) <;> simp

/-- `open` tells whether the texts that follow go where they should. -/
theorem C93_opened (s : OState) (file : Str) (ok : Bool) :
    (ostep s (.open file ok)).1 = (ok || file = str% "-") ∧
    (file ≠ str% "-" → ok = true → (ostep s (.open file ok)).2.ofs = some file ∧ (ostep s (.open file ok)).2.toFile = true ∧
      (ostep s (.open file ok)).2.files file = some []) ∧
    (ok = false ∨ file = str% "-" → (ostep s (.open file ok)).2.toFile = false ∧ (ostep s (.open file ok)).2.files = s.files) := by
  simp only [ostep, oopen]
  by_cases hf : file = str% "-"
  · simp [hf, oclose]
  · cases ok <;> simp [hf, openPath, oclose]

/-- A write that fails is not reported by any call, and all later texts for this file are lost as
    well. -/
theorem C93_violated_lost (before : Str → Option Str) (path : Str) (hp : path ≠ str% "-") (t u : Str) :
    let s := orun { files := before } [.open path true, .write t false, .write u true, .close]
    s.files path = some [] ∧ s.cout = [] ∧
    (∀ s op, (∃ t ok, op = .write t ok) ∨ op = .close → (ostep s op).1 = true) := by
  refine ⟨?_, ?_, ?_⟩
  · simp [orun, ostep, oopen, hp, openPath, oclose, owrite]
  · simp [orun, ostep, oopen, hp, openPath, oclose, owrite]
  · rintro s op (⟨t, ok, rfl⟩ | rfl) <;> rfl

/-! ### Examples -/

/-- Files that can be opened. -/
def exOk (p : Str) : Bool := p == str% "a.txt" || p == str% "b.txt"

def exOps : List FOp :=
  [.createPath 0 exOk (str% "a.txt"), .create 1, .open 1 exOk (str% "gone"), .open 0 exOk (str% "b.txt"), .open 1 exOk (str% "-"),
   .destroy 1, .close 0, .open 0 exOk (str% "a.txt")]

example : Proper (fun _ => false) exOps ∧ NoCopy exOps := by
  refine ⟨by simp [Proper, exOps], ?_⟩
  intro op hop i j
  simp only [exOps, List.mem_cons, List.not_mem_nil, or_false] at hop
  rcases hop with rfl|rfl|rfl|rfl|rfl|rfl|rfl|rfl <;> simp

example : (frun exOps).map (fun s => (s.obj 0, s.obj 1, s.lib)) =
    some (some (.file 2), none, { paths := [str% "a.txt", str% "b.txt", str% "a.txt"], live := [2] }) := by decide

example : (frun (exOps ++ [.destroy 0])).map (fun s => s.lib.live) = some [] := by decide

def exWrites : List OOp :=
  [.write (str% "1") true, .open (str% "x") true, .write (str% "2") true, .write (str% "3") true, .open (str% "y") false, .write (str% "4") true,
   .openPath (str% "-") true, .write (str% "5") true, .open (str% "-") true, .write (str% "6") true]

example : (∀ op ∈ exWrites, ∀ t, op ≠ .write t false) ∧ coutText (exWrites.reverse.map event) = str% "146" ∧
    fileText (fun _ => none) (str% "x") (exWrites.reverse.map event) = some (str% "23") ∧
    fileText (fun _ => none) (str% "-") (exWrites.reverse.map event) = some (str% "5") ∧
    fileText (fun _ => none) (str% "y") (exWrites.reverse.map event) = none := by
  refine ⟨?_, by decide, by decide, by decide, by decide⟩
  intro op hop t
  simp only [exWrites, List.mem_cons, List.not_mem_nil, or_false] at hop
  rcases hop with rfl|rfl|rfl|rfl|rfl|rfl|rfl|rfl|rfl|rfl <;> simp

end Gdo.IO
