import Verif.Lemmas.GenerateRun

/-! Whole runs of `generate`. -/

namespace Gdo.Gen
open Gdo Tpl Opt

/-- A directory entry can be replaced by a new file. -/
def replaceable (env : Env) (force : Bool) (l : Nat) : Option Node → Bool
  | none => true
  | some (.dir false) => false
  | some _ => force && env.canRemove l

/-- What opening a path for writing gives if it succeeds: the file (`none`: standard
    output) and the directory entries. -/
def opened (env : Env) (path : Str) (force : Bool) (node : Nat → Option Node) : Option (Option Nat × (Nat → Option Node)) :=
  if path = [] ∨ path = str% "-" then some (none, node)
  else
    match env.res path with
    | .at l =>
      if replaceable env force l (node l) && env.canCreate l then some (some l, fun k => if k = l then some (.file []) else node k)
      else none
    | _ => none

theorem createOut_run {env : Env} {path : Str} {l : Nat} {st : State} (hc : env.canCreate l = true) :
    createOut env path l st = .ok () { st with node := fun k => if k = l then some (.file []) else st.node k, out := some l } := by
  unfold createOut
  rw [bind_ok (show closeOut st = .ok () { st with out := none } from rfl), if_pos hc]
  rfl

theorem openNew_run {env : Env} {path : Str} {l : Nat} {st : State} (hr : env.res path = .at l) (hn : st.node l = none)
    (hc : env.canCreate l = true) :
    openNew env path st = .ok () { st with node := fun k => if k = l then some (.file []) else st.node k, out := some l } := by
  unfold openNew
  simp only [hr]
  rw [bind_ok (show (get : M State) st = .ok st st from rfl), hn]
  exact createOut_run hc

theorem remove_run {env : Env} {path : Str} {l : Nat} {st : State} (hr : env.res path = .at l)
    (h : replaceable env true l (st.node l) = true) :
    ∃ nd, remove env path st = .ok () { st with node := nd } ∧ nd l = none ∧ ∀ k, k ≠ l → nd k = st.node k := by
  unfold remove
  simp only [hr]
  cases hn : st.node l with
  | none =>
    refine ⟨st.node, ?_, hn, fun _ _ => rfl⟩
    rw [bind_ok (show (get : M State) st = .ok st st from rfl), hn]
    rfl
  | some x =>
    rw [hn] at h
    have hx : x ≠ .dir false := by rintro rfl; simp [replaceable] at h
    have hcr : env.canRemove l = true := by
      cases x with
      | file d => simpa [replaceable] using h
      | link => simpa [replaceable] using h
      | dir e => cases e <;> simp [replaceable] at h ⊢ <;> exact h
    refine ⟨fun k => if k = l then none else st.node k, ?_, by simp, fun k hk => by simp [hk]⟩
    rw [bind_ok (show (get : M State) st = .ok st st from rfl), hn]
    cases x with
    | file d => simp only [hcr, if_true]; rfl
    | link => simp only [hcr, if_true]; rfl
    | dir e =>
      cases e with
      | true => simp only [hcr, if_true]; rfl
      | false => exact absurd rfl hx

theorem open_run {env : Env} {path : Str} {force : Bool} {st : State} {o : Option Nat} {nd : Nat → Option Node}
    (h : opened env path force st.node = some (o, nd)) : openOut env path force st = .ok () { st with node := nd, out := o } := by
  unfold opened at h
  unfold openOut
  by_cases hp : path = [] ∨ path = str% "-"
  · rw [if_pos hp] at h
    simp only [Option.some.injEq, Prod.mk.injEq] at h
    obtain ⟨rfl, rfl⟩ := h
    rw [if_pos (by rcases hp with h | h <;> simp [h])]
    rfl
  · rw [if_neg hp] at h
    have hp' : ¬ (path.isEmpty = true ∨ path = str% "-") := by
      simpa [List.isEmpty_iff] using hp
    rw [if_neg hp']
    split at h
    · rename_i l hr
      split at h
      · rename_i hc
        simp only [Bool.and_eq_true] at hc
        simp only [Option.some.injEq, Prod.mk.injEq] at h
        obtain ⟨rfl, rfl⟩ := h
        cases force with
        | false =>
          have hn : st.node l = none := by
            cases hn : st.node l with
            | none => rfl
            | some x =>
              rw [hn] at hc
              cases x with
              | file d => simp [replaceable] at hc
              | link => simp [replaceable] at hc
              | dir e => cases e <;> simp [replaceable] at hc
          simp only [Bool.false_eq_true, if_false]
          exact openNew_run hr hn hc.2
        | true =>
          obtain ⟨nd, h1, h2, h3⟩ := remove_run hr hc.1
          simp only [if_true]
          rw [bind_ok h1, openNew_run (st := { st with node := nd }) hr h2 hc.2]
          have : (fun k => if k = l then some (Node.file []) else nd k) = fun k => if k = l then some (Node.file []) else st.node k := by
            funext k
            by_cases hk : k = l
            · simp [hk]
            · simp [hk, h3 k hk]
          rw [this]
      · cases h
    · cases h

theorem open_good {env : Env} {path : Str} {force : Bool} {st : State} {o : Option Nat} {nd : Nat → Option Node}
    (h : opened env path force st.node = some (o, nd)) (m : Mem) (so : Str) : Good { node := nd, stdout := so, out := o, mem := m } := by
  unfold opened at h
  split at h
  · simp only [Option.some.injEq, Prod.mk.injEq] at h
    exact .inl h.1.symm
  · split at h
    · split at h
      · simp only [Option.some.injEq, Prod.mk.injEq] at h
        obtain ⟨rfl, rfl⟩ := h
        exact .inr ⟨_, [], rfl, by simp⟩
      · cases h
    · cases h

theorem commonPrefix_run (env : Env) (st : State) : ∃ c,
    Common.getCommonPrefix (env.symbols.protos.map (·.symbol)) (env.symbols.objs.map (·.symbol)) = some c ∧
    commonPrefix env st = .ok c st := by
  have h := Common.C31_safe (env.symbols.protos.map (·.symbol)) (env.symbols.objs.map (·.symbol))
  unfold commonPrefix
  cases hc : Common.getCommonPrefix (env.symbols.protos.map (·.symbol)) (env.symbols.objs.map (·.symbol)) with
  | none => exact absurd hc h
  | some c => exact ⟨c, rfl, rfl⟩

/-- The `#define` lines of the header. -/
def allDefines (env : Env) (s : Settings) : Str :=
  s.defines ++ addedDefines s (isSeparate s)
    ((Common.getCommonPrefix (env.symbols.protos.map (·.symbol)) (env.symbols.objs.map (·.symbol))).getD []) env.symbols.protos

/-- The templates of the header, processed. -/
def headerSubst (env : Env) (s : Settings) : Except Sub.SubErr (List (List (List Sub.Chunk)) × Nat) :=
  Sub.substitute env.n (subConfig env s) ((listNames s).1.map (srcList env s))

def bodySubst (env : Env) (s : Settings) : Except Sub.SubErr (List (List (List Sub.Chunk)) × Nat) :=
  Sub.substitute env.n (subConfig env s) ((listNames s).2.map (srcList env s))

theorem ptrOK_congr {env : Env} {s : Settings} {a b : Mem} {p : TName × Ptr} (h : b.vec p.1 = a.vec p.1) (hp : PtrOK env s a p) :
    PtrOK env s b p := by
  unfold PtrOK
  rw [h]
  exact hp

/-! ### Vectors that grow -/

/-- The capacities of the known implementations of `std::vector`. -/
def Growth (grow : Nat → Nat) : Prop := ∀ c, c < grow c ∧ grow c ≤ max 1 (2 * c)

/-- The capacity is at most that after adding the elements one by one. -/
def Tight (v : Vec) : Prop := v.data.length ≤ v.cap ∧ v.cap ≤ max 1 (2 * (v.data.length - 1)) ∧ (v.data = [] → v.cap = 0)

theorem tight_push {grow : Nat → Nat} (hg : Growth grow) {v : Vec} (h : Tight v) (e : Entry) : Tight (v.push grow e) := by
  obtain ⟨h1, h2, h3⟩ := h
  unfold Vec.push
  split
  · refine ⟨by simp; omega, by simp; omega, by simp⟩
  · have := hg v.cap
    refine ⟨by simp; omega, ?_, by simp⟩
    simp only [List.length_append, List.length_cons, List.length_nil]
    have : v.cap = v.data.length := by omega
    have := (hg v.cap).2
    rw [show v.data.length + (0 + 1) - 1 = v.data.length by omega, ← ‹v.cap = v.data.length›]
    exact this

theorem tight_foldl {grow : Nat → Nat} (hg : Growth grow) (es : List Entry) {v : Vec} (h : Tight v) :
    Tight (es.foldl (Vec.push grow) v) := by
  induction es generalizing v with
  | nil => exact h
  | cons e es ih => exact ih (tight_push hg h e)

theorem gen_foldl (grow : Nat → Nat) (es : List Entry) (v : Vec) :
    v.gen ≤ (es.foldl (Vec.push grow) v).gen ∧
    ((es.foldl (Vec.push grow) v).gen = v.gen → (es.foldl (Vec.push grow) v).cap = v.cap) := by
  induction es generalizing v with
  | nil => exact ⟨Nat.le_refl _, fun _ => rfl⟩
  | cons e es ih =>
    obtain ⟨h1, h2⟩ := ih (v.push grow e)
    simp only [List.foldl_cons]
    unfold Vec.push at h1 h2 ⊢
    split at h1
    · rename_i h
      rw [if_pos h] at h2 ⊢
      exact ⟨h1, h2⟩
    · rename_i h
      rw [if_neg h] at h2 ⊢
      dsimp only at h1 h2
      exact ⟨by omega, fun h3 => by omega⟩

/-- Adding the elements of a non-empty vector again replaces the storage. -/
theorem reload_moves {grow : Nat → Nat} (hg : Growth grow) {v : Vec} (t1 : Tight v) (hne : v.data ≠ []) :
    (v.data.foldl (Vec.push grow) v).gen ≠ v.gen := by
  intro h
  have hc := (gen_foldl grow v.data v).2 h
  have t2 := tight_foldl hg v.data t1
  have l2 : (v.data.foldl (Vec.push grow) v).data.length = v.data.length + v.data.length := by
    rw [foldl_push_data, List.length_append]
  have hp := List.length_pos_iff.mpr hne
  obtain ⟨_, b1, _⟩ := t1
  obtain ⟨b2, _, _⟩ := t2
  rw [l2, hc] at b2
  omega

/-- All vectors of the template store. -/
def AllTight (st : State) : Prop := ∀ t, Tight (st.mem.vec t)

theorem tight_write (s : Str) : Keeps AllTight (write s) := by
  apply keeps_modify
  intro st h
  split
  · exact h
  · split
    · exact h
    · exact h

theorem tight_close : Keeps AllTight closeOut := keeps_modify fun _ h => h

theorem tight_load {env : Env} (hg : Growth env.grow) (s : Settings) (t : TName) : Keeps AllTight (loadTemplate env s t) := by
  unfold loadTemplate
  split
  · exact keeps_pure _
  · split
    · exact keeps_throw _
    · apply keeps_modify
      intro st h k
      dsimp only
      split
      · exact tight_foldl hg _ (h t)
      · exact h k

theorem tight_open (env : Env) (path : Str) (force : Bool) : Keeps AllTight (openOut env path force) := by
  have hcreate : ∀ l, Keeps AllTight (createOut env path l) := by
    intro l
    refine keeps_bind tight_close fun _ => ?_
    split
    · exact keeps_modify fun _ h => h
    · exact keeps_throw _
  have hnew : Keeps AllTight (openNew env path) := by
    unfold openNew
    split
    · exact keeps_throw _
    · exact keeps_bind tight_close fun _ => keeps_throw _
    · refine keeps_bind keeps_get fun st => ?_
      split
      · exact keeps_throw _
      · exact hcreate _
  have hrem : Keeps AllTight (remove env path) := by
    unfold remove
    split
    · exact keeps_throw _
    · exact keeps_pure _
    · refine keeps_bind keeps_get fun st => ?_
      split
      · exact keeps_pure _
      · exact keeps_throw _
      · split
        · exact keeps_modify fun _ h => h
        · exact keeps_throw _
  unfold openOut
  split
  · exact tight_close
  · split
    · exact keeps_bind hrem fun _ => hnew
    · exact hnew

/-- A run up to the end of the header. -/
theorem generate_split {env : Env} {s : Settings} {st : State} {o : Option Nat} {nd : Nat → Option Node}
    {css : List (List (List Sub.Chunk))} {k : Nat} (hr : Readable env s) (hf : ∀ t, Fresh st.mem t)
    (hopen : opened env (outputPaths s).1 s.force st.node = some (o, nd)) (hs : headerSubst env s = .ok (css, k)) :
    ∃ bs st2, generate env s st = (if bs.isEmpty then pure () else writeBody env s bs : M Unit) { st2 with out := none } ∧
      (∃ m, Step { st with node := nd, out := o, mem := m } (headerText env s (allDefines env s) (Sub.bytes css.flatten.flatten) k) st2) ∧
      bs.map (·.1) = (listNames s).2 ∧ PtrOK env s st2.mem (.license, st2.mem.ptr .license) ∧
      (∀ p ∈ bs, PtrOK env s st2.mem p ∧ p.1 ≠ .license) ∧ (Growth env.grow → AllTight st2) := by
  obtain ⟨c, hc, ec⟩ := commonPrefix_run env st
  obtain ⟨hs', bs, st1, e1, io, n1, n2, hp, f1, f2⟩ := createLists_run hr hf
  have hopen' : opened env (outputPaths s).1 s.force st1.node = some (o, nd) := by rw [io.node]; exact hopen
  have hsub : Sub.substitute env.n (subConfig env s) (hs'.map fun p => srcList env s p.1) = .ok (css, k) := by
    rw [← hs, headerSubst, ← n1, List.map_map]
    rfl
  obtain ⟨st2, e2, s2, p2, m2⟩ := writeHeader_run (defines := allDefines env s) (ps := hs') hr (open_run hopen')
    (open_good hopen' _ _) f1 f2 (fun p h => hp p (List.mem_append_left _ h)) hsub
  refine ⟨bs, st2, ?_, ⟨st1.mem, ?_⟩, n2, p2, ?_, ?_⟩
  · unfold generate
    rw [bind_ok ec, bind_ok e1]
    dsimp only
    rw [show s.defines ++ addedDefines s (isSeparate s) c env.symbols.protos = allDefines env s by simp [allDefines, hc], bind_ok e2]
  · rw [show ({ st with node := nd, out := o, mem := st1.mem } : State) = { st1 with node := nd, out := o } by
      rw [State.mk.injEq]; exact ⟨rfl, io.stdout.symm, rfl, rfl⟩]
    exact s2
  · intro p h
    obtain ⟨h1, h2, h3⟩ := hp p (List.mem_append_right _ h)
    exact ⟨ptrOK_congr (m2 p.1 h2 h3).1 h1, h2⟩
  · intro hg
    have t0 : AllTight st := fun t => by rw [(hf t).1]; exact ⟨by simp, by simp, fun _ => rfl⟩
    have t1 := keeps_createLists (I := AllTight) (tight_load hg s) (isSeparate s) st t0
    rw [e1] at t1
    have t2 := keeps_writeHeader (I := AllTight) tight_write (tight_load hg s) (fun p => tight_open env p s.force) tight_close
      (allDefines env s) hs' st1 t1
    rw [e2] at t2
    exact t2

/-- A run that writes a single file. -/
theorem generate_single {env : Env} {s : Settings} {st : State} {o : Option Nat} {nd : Nat → Option Node}
    {css : List (List (List Sub.Chunk))} {k : Nat} (hr : Readable env s) (hf : ∀ t, Fresh st.mem t) (h1 : isSeparate s = false)
    (hopen : opened env (outputPaths s).1 s.force st.node = some (o, nd)) (hs : headerSubst env s = .ok (css, k)) :
    ∃ st2, generate env s st = .ok () { st2 with out := none } ∧
      ∃ m, Step { st with node := nd, out := o, mem := m } (headerText env s (allDefines env s) (Sub.bytes css.flatten.flatten) k) st2 := by
  obtain ⟨bs, st2, e, w, n, _, _, _⟩ := generate_split hr hf hopen hs
  refine ⟨st2, ?_, w⟩
  have hb : bs = [] := by
    have : (listNames s).2 = [] := by
      unfold listNames
      dsimp only
      split
      · rfl
      · simp [h1]
    rw [this] at n
    simpa using n
  rw [e, hb]
  rfl

theorem separate_body {s : Settings} (h : isSeparate s = true) : (listNames s).2 = [.commonBody, (pairOf s.format).2] := by
  unfold listNames
  have : Format.isMinimal s.format = false := by
    unfold isSeparate at h
    simp only [Bool.and_eq_true, Bool.not_eq_true'] at h
    exact h.2
  simp [this, h]

/-- The text of the body file. -/
def bodyText (env : Env) (s : Settings) (body : Str) : Str :=
  noteText s.printDate env.date ++ savedText s (env.builtin .license) ++ includeHeader (headerName s) (toUpper s.pfx) ++ body

/-- The body, with the built-in templates. -/
theorem writeBody_run {env : Env} {s : Settings} {bs : List (TName × Ptr)} {st : State} {o : Option Nat} {nd : Nat → Option Node}
    {css : List (List (List Sub.Chunk))} {k : Nat} (he : s.templatesPath.isEmpty = true)
    (hopen : opened env (outputPaths s).2 s.force st.node = some (o, nd))
    (hl : PtrOK env s st.mem (.license, st.mem.ptr .license)) (hp : ∀ p ∈ bs, PtrOK env s st.mem p)
    (hs : Sub.substitute env.n (subConfig env s) (bs.map fun p => srcList env s p.1) = .ok (css, k)) :
    ∃ st2, writeBody env s bs st = .ok () st2 ∧
      Step { st with node := nd, out := o } (bodyText env s (Sub.bytes css.flatten.flatten)) st2 := by
  obtain ⟨a1, e1, s1, m1⟩ := write_run (noteText s.printDate env.date) (open_good hopen st.mem st.stdout)
  have hb : st.mem.ptr .license = .builtin := by
    rcases hl with ⟨_, h⟩ | ⟨h, _⟩
    · exact h
    · rw [he] at h; cases h
  have hload : loadTemplate env s .license a1 = .ok () a1 := by
    unfold loadTemplate
    rw [if_pos he]
    rfl
  obtain ⟨a2, e2, s2, m2⟩ := write_run (savedText s (env.builtin .license)) s1.good
  obtain ⟨a3, e3, s3, m3⟩ := write_run (includeHeader (headerName s) (toUpper s.pfx)) s2.good
  obtain ⟨a4, e4, s4, m4⟩ := runSubstitute_run (ps := bs) s3.good (by rw [m3, m2, m1]; exact hp) hs
  refine ⟨a4, ?_, ?_⟩
  · unfold writeBody
    rw [bind_ok (open_run hopen), bind_ok e1, bind_ok (getPtr_run _ _)]
    have e5 : saveData env s (.license, .builtin) a1 = .ok (savedLines s (env.builtin .license)) a2 := by
      unfold saveData
      rw [bind_ok hload, bind_ok (deref_builtin env _ _)]
      show (write (savedText s (env.builtin .license)) >>= fun _ => pure (savedLines s (env.builtin .license))) a1 = _
      rw [bind_ok e2]
      rfl
    rw [show a1.mem.ptr .license = .builtin by rw [m1]; exact hb, bind_ok e5, bind_ok e3, bind_ok e4]
    rfl
  · have := s1.trans (s2.trans (s3.trans s4))
    unfold bodyText
    simpa only [List.append_assoc] using this

end Gdo.Gen
