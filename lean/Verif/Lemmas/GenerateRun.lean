import Verif.Lemmas.Generate

/-! Runs of `generate` that succeed, and what they write. -/

namespace Gdo.Gen
open Gdo Tpl Opt

/-- The entries of a template: built in, or from the directory. -/
def srcList (env : Env) (s : Settings) (t : TName) : List Entry :=
  if s.templatesPath.isEmpty then env.builtin t
  else loadFromFile t.file false s.lineDirective ((env.read (s.templatesPath ++ t.file)).getD [])

/-- All templates can be read. -/
def Readable (env : Env) (s : Settings) : Prop :=
  s.templatesPath.isEmpty = false → ∀ t : TName, (env.read (s.templatesPath ++ t.file)).isSome

/-- Nothing has been loaded for a template. -/
def Fresh (m : Mem) (t : TName) : Prop := m.vec t = {} ∧ m.ptr t = .builtin

/-- A pointer to a template that is in use. -/
def PtrOK (env : Env) (s : Settings) (m : Mem) (p : TName × Ptr) : Prop :=
  (s.templatesPath.isEmpty = true ∧ p.2 = .builtin) ∨
  (s.templatesPath.isEmpty = false ∧ p.2 = .heap (m.vec p.1).gen ∧ (m.vec p.1).data = srcList env s p.1)

/-- The states differ in the template store only. -/
structure SameIO (a b : State) : Prop where
  node : b.node = a.node
  stdout : b.stdout = a.stdout
  out : b.out = a.out

theorem SameIO.refl (a : State) : SameIO a a := ⟨rfl, rfl, rfl⟩

theorem SameIO.trans {a b c : State} (h1 : SameIO a b) (h2 : SameIO b c) : SameIO a c :=
  ⟨h2.node.trans h1.node, h2.stdout.trans h1.stdout, h2.out.trans h1.out⟩

theorem SameIO.step {a b : State} (h : SameIO a b) (hg : Good a) : Step a [] b where
  out := h.out
  good := by
    rcases hg with hg | ⟨l, d, h1, h2⟩
    · exact .inl (h.out.trans hg)
    · exact .inr ⟨l, d, h.out.trans h1, by rw [h.node]; exact h2⟩
  text := by simp [cur, h.node, h.stdout, h.out]
  frame l _ := by rw [h.node]
  std l _ := h.stdout

/-- The template store is the same but for one template. -/
def Only (t : TName) (a b : Mem) : Prop := ∀ k, k ≠ t → b.vec k = a.vec k ∧ b.ptr k = a.ptr k

theorem Only.refl (t : TName) (a : Mem) : Only t a a := fun _ _ => ⟨rfl, rfl⟩

theorem Only.fresh {t k : TName} {a b : Mem} (h : Only t a b) (hk : k ≠ t) (hf : Fresh a k) : Fresh b k :=
  ⟨(h k hk).1.trans hf.1, (h k hk).2.trans hf.2⟩

theorem Only.ptrOK {env : Env} {s : Settings} {t : TName} {a b : Mem} {p : TName × Ptr} (h : Only t a b) (hk : p.1 ≠ t)
    (hp : PtrOK env s a p) : PtrOK env s b p := by
  unfold PtrOK
  rw [(h p.1 hk).1]
  exact hp

theorem foldl_push_data (grow : Nat → Nat) (es : List Entry) (v : Vec) : (es.foldl (Vec.push grow) v).data = v.data ++ es := by
  induction es generalizing v with
  | nil => simp
  | cons e es ih =>
    rw [List.foldl_cons, ih]
    unfold Vec.push
    split <;> simp

theorem load_run {env : Env} {s : Settings} {t : TName} {st : State} (hr : Readable env s) (hf : Fresh st.mem t) :
    ∃ st', loadTemplate env s t st = .ok () st' ∧ SameIO st st' ∧ Only t st.mem st'.mem ∧
      PtrOK env s st'.mem (t, st'.mem.ptr t) := by
  cases he : s.templatesPath.isEmpty with
  | true =>
    refine ⟨st, ?_, SameIO.refl _, Only.refl _ _, .inl ⟨he, hf.2⟩⟩
    unfold loadTemplate
    rw [if_pos he]
    rfl
  | false =>
    obtain ⟨text, ht⟩ := Option.isSome_iff_exists.mp (hr he t)
    refine ⟨{ st with mem :=
        { vec := fun k => if k = t then (loadFromFile t.file false s.lineDirective text).foldl (Vec.push env.grow) (st.mem.vec t) else st.mem.vec k,
          ptr := fun k => if k = t then .heap ((loadFromFile t.file false s.lineDirective text).foldl (Vec.push env.grow) (st.mem.vec t)).gen else st.mem.ptr k } }, ?_, ?_, ?_, ?_⟩
    · unfold loadTemplate
      rw [if_neg (by simp [he]), ht]
      rfl
    · exact ⟨rfl, rfl, rfl⟩
    · intro k hk
      simp [hk]
    · refine .inr ⟨he, by simp, ?_⟩
      simp only [if_true]
      rw [foldl_push_data, hf.1]
      simp [srcList, he, ht]

theorem getPtr_run (t : TName) (st : State) : getPtr t st = .ok (t, st.mem.ptr t) st := rfl

theorem deref_builtin (env : Env) (t : TName) (st : State) : deref env (t, .builtin) st = .ok (env.builtin t) st := rfl

theorem deref_run {env : Env} {s : Settings} {p : TName × Ptr} {st : State} (h : PtrOK env s st.mem p) :
    deref env p st = .ok (srcList env s p.1) st := by
  unfold deref
  rw [bind_ok (show (get : M State) st = .ok st st from rfl)]
  rcases h with ⟨h1, h2⟩ | ⟨h1, h2, h3⟩
  · rw [h2]
    simp only [srcList, h1, if_true]
    rfl
  · rw [h2]
    simp only [if_true, h3]
    rfl

theorem derefAll_run {env : Env} {s : Settings} {ps : List (TName × Ptr)} {st : State} (h : ∀ p ∈ ps, PtrOK env s st.mem p) :
    derefAll env ps st = .ok (ps.map fun p => srcList env s p.1) st := by
  induction ps with
  | nil => rfl
  | cons p ps ih =>
    unfold derefAll
    rw [bind_ok (deref_run (h p List.mem_cons_self)), bind_ok (ih fun q hq => h q (List.mem_cons_of_mem _ hq))]
    rfl

/-- The texts of a list as `save_data` writes them. -/
def savedBufs (s : Settings) (list : List Entry) : List Str :=
  (Sub.processed { lineDirective := s.lineDirective } list).map fun e => Pfx.applyPrefix s.pfx e.data

def savedText (s : Settings) (list : List Entry) : Str := (savedBufs s list).flatMap fun b => b ++ str% "\n"

def savedLines (s : Settings) (list : List Entry) : Nat := ((savedBufs s list).map fun b => countLinefeed b + 1).sum

theorem saveData_builtin {env : Env} {s : Settings} {t : TName} {st : State} (hr : Readable env s) (hf : Fresh st.mem t)
    (hg : Good st) :
    ∃ st', saveData env s (t, .builtin) st = .ok (savedLines s (env.builtin t)) st' ∧
      Step st (savedText s (env.builtin t)) st' ∧ Only t st.mem st'.mem ∧ PtrOK env s st'.mem (t, st'.mem.ptr t) := by
  obtain ⟨st1, h1, h2, h3, h4⟩ := load_run hr hf
  have hs := h2.step hg
  obtain ⟨st2, w1, w2, w3⟩ := write_run (savedText s (env.builtin t)) hs.good
  refine ⟨st2, ?_, ?_, ?_, ?_⟩
  · unfold saveData
    rw [bind_ok h1, bind_ok (deref_builtin env t st1)]
    show (write (savedText s (env.builtin t)) >>= fun _ => pure (savedLines s (env.builtin t))) st1 = _
    rw [bind_ok w1]
    rfl
  · simpa using hs.trans w2
  · rw [w3]; exact h3
  · rw [w3]; exact h4

theorem writeCounted_run (t : Str) {st : State} (h : Good st) :
    ∃ st', writeCounted t st = .ok (countLinefeed t) st' ∧ Step st t st' ∧ st'.mem = st.mem := by
  obtain ⟨st', w1, w2, w3⟩ := write_run t h
  refine ⟨st', ?_, w2, w3⟩
  unfold writeCounted
  rw [bind_ok w1]
  rfl

theorem runSubstitute_run {env : Env} {s : Settings} {ps : List (TName × Ptr)} {st : State} {css : List (List (List Sub.Chunk))} {k : Nat}
    (hg : Good st) (h : ∀ p ∈ ps, PtrOK env s st.mem p)
    (hs : Sub.substitute env.n (subConfig env s) (ps.map fun p => srcList env s p.1) = .ok (css, k)) :
    ∃ st', runSubstitute env s ps st = .ok k st' ∧ Step st (Sub.bytes css.flatten.flatten) st' ∧ st'.mem = st.mem := by
  obtain ⟨st', w1, w2, w3⟩ := write_run (Sub.bytes css.flatten.flatten) hg
  refine ⟨st', ?_, w2, w3⟩
  unfold runSubstitute
  rw [bind_ok (derefAll_run h), hs]
  show (write (Sub.bytes css.flatten.flatten) >>= fun _ => pure k) st = _
  rw [bind_ok w1]
  rfl

/-! ### The header -/

/-- The lines in front of the first `#line` directive. -/
def headLines (env : Env) (s : Settings) : Nat :=
  countLinefeed (noteText s.printDate env.date) + savedLines s (env.builtin .license)

/-- The text up to the first `#line` directive. -/
def headText (env : Env) (s : Settings) : Str :=
  noteText s.printDate env.date ++ savedText s (env.builtin .license)

/-- The text between the first `#line` directive and the processed templates. -/
def midText (env : Env) (s : Settings) (defines : Str) : Str :=
  guardBegin (headerName s) (toUpper s.pfx) s.pragmaOnce (Format.isCxx s.format) ++
  savedText s (env.builtin .filenameMacros) ++ extraDefines defines ++ includesText s.includes (Format.isCxx s.format) ++
  typedefsText env.symbols.typedefs

def midLines (env : Env) (s : Settings) (defines : Str) : Nat :=
  countLinefeed (guardBegin (headerName s) (toUpper s.pfx) s.pragmaOnce (Format.isCxx s.format)) +
  savedLines s (env.builtin .filenameMacros) + countLinefeed (extraDefines defines) +
  countLinefeed (includesText s.includes (Format.isCxx s.format)) + countLinefeed (typedefsText env.symbols.typedefs)

/-- The header, from the processed templates `body` and their number of lines. -/
def headerText (env : Env) (s : Settings) (defines body : Str) (k : Nat) : Str :=
  let d := lineDirectiveText (headLines env s) s.lineDirective (headerName s)
  headText env s ++ d.1 ++ midText env s defines ++ body ++
  (lineDirectiveText (headLines env s + d.2 + midLines env s defines + k) s.lineDirective (headerName s)).1 ++
  guardEnd (headerName s) (toUpper s.pfx) s.pragmaOnce (Format.isCxx s.format)

theorem writeHeader_run {env : Env} {s : Settings} {defines : Str} {ps : List (TName × Ptr)} {st st1 : State}
    {css : List (List (List Sub.Chunk))} {k : Nat} (hr : Readable env s)
    (hopen : openOut env (outputPaths s).1 s.force st = .ok () st1) (hg : Good st1)
    (hf1 : Fresh st1.mem .license) (hf2 : Fresh st1.mem .filenameMacros)
    (hp : ∀ p ∈ ps, PtrOK env s st1.mem p ∧ p.1 ≠ .license ∧ p.1 ≠ .filenameMacros)
    (hs : Sub.substitute env.n (subConfig env s) (ps.map fun p => srcList env s p.1) = .ok (css, k)) :
    ∃ st2, writeHeader env s defines ps st = .ok () { st2 with out := none } ∧
      Step st1 (headerText env s defines (Sub.bytes css.flatten.flatten) k) st2 ∧
      PtrOK env s st2.mem (.license, st2.mem.ptr .license) ∧
      ∀ t, t ≠ .license → t ≠ .filenameMacros → st2.mem.vec t = st1.mem.vec t ∧ st2.mem.ptr t = st1.mem.ptr t := by
  obtain ⟨a1, e1, s1, m1⟩ := writeCounted_run (noteText s.printDate env.date) hg
  obtain ⟨a2, e2, s2, o2, p2⟩ := saveData_builtin (env := env) (s := s) (t := .license) hr (by rw [m1]; exact hf1) s1.good
  obtain ⟨a3, e3, s3, m3⟩ := write_run (lineDirectiveText (headLines env s) s.lineDirective (headerName s)).1 s2.good
  obtain ⟨a4, e4, s4, m4⟩ :=
    writeCounted_run (guardBegin (headerName s) (toUpper s.pfx) s.pragmaOnce (Format.isCxx s.format)) s3.good
  have hf2' : Fresh a4.mem .filenameMacros := by
    rw [m4, m3]
    exact o2.fresh (by decide) (by rw [m1]; exact hf2)
  obtain ⟨a5, e5, s5, o5, p5⟩ := saveData_builtin (env := env) (s := s) (t := .filenameMacros) hr hf2' s4.good
  obtain ⟨a6, e6, s6, m6⟩ := writeCounted_run (extraDefines defines) s5.good
  obtain ⟨a7, e7, s7, m7⟩ := writeCounted_run (includesText s.includes (Format.isCxx s.format)) s6.good
  obtain ⟨a8, e8, s8, m8⟩ := writeCounted_run (typedefsText env.symbols.typedefs) s7.good
  have m8' : a8.mem = a5.mem := m8.trans (m7.trans m6)
  have m4' : a4.mem = a2.mem := m4.trans m3
  have hps : ∀ p ∈ ps, PtrOK env s a8.mem p := by
    intro p hp'
    obtain ⟨h1, h2, h3⟩ := hp p hp'
    rw [m8']
    refine o5.ptrOK h3 ?_
    rw [m4']
    exact o2.ptrOK h2 (by rw [m1]; exact h1)
  obtain ⟨a9, e9, s9, m9⟩ := runSubstitute_run s8.good hps hs
  obtain ⟨b1, f1, t1, n1⟩ := write_run
    (lineDirectiveText (headLines env s + (lineDirectiveText (headLines env s) s.lineDirective (headerName s)).2 +
      midLines env s defines + k) s.lineDirective (headerName s)).1 s9.good
  obtain ⟨b2, f2, t2, n2⟩ := write_run (guardEnd (headerName s) (toUpper s.pfx) s.pragmaOnce (Format.isCxx s.format)) t1.good
  have hmem : b2.mem = a5.mem := n2.trans (n1.trans (m9.trans m8'))
  refine ⟨b2, ?_, ?_, ?_, ?_⟩
  · unfold writeHeader
    dsimp only
    rw [bind_ok hopen, bind_ok e1, bind_ok (getPtr_run _ _)]
    rw [show a1.mem.ptr .license = .builtin by rw [m1]; exact hf1.2, bind_ok e2]
    rw [show countLinefeed (noteText s.printDate env.date) + savedLines s (env.builtin TName.license) = headLines env s from rfl,
      bind_ok e3, bind_ok e4, bind_ok (getPtr_run _ _)]
    rw [show a4.mem.ptr .filenameMacros = .builtin from hf2'.2, bind_ok e5, bind_ok e6, bind_ok e7, bind_ok e8, bind_ok e9]
    have hn : headLines env s + (lineDirectiveText (headLines env s) s.lineDirective (headerName s)).snd +
        countLinefeed (guardBegin (headerName s) (toUpper s.pfx) s.pragmaOnce (Format.isCxx s.format)) +
        savedLines s (env.builtin TName.filenameMacros) + countLinefeed (extraDefines defines) +
        countLinefeed (includesText s.includes (Format.isCxx s.format)) + countLinefeed (typedefsText env.symbols.typedefs) + k =
        headLines env s + (lineDirectiveText (headLines env s) s.lineDirective (headerName s)).2 +
          midLines env s defines + k := by
      unfold midLines
      omega
    rw [hn, bind_ok f1, bind_ok f2]
    rfl
  · have := s1.trans (s2.trans (s3.trans (s4.trans (s5.trans (s6.trans (s7.trans (s8.trans (s9.trans (t1.trans t2)))))))))
    unfold headerText headText midText
    simpa only [List.append_assoc] using this
  · rw [hmem]
    refine o5.ptrOK (p := (.license, a5.mem.ptr .license)) (by simp) ?_
    rw [m4', (o5 .license (by decide)).2, m4']
    exact p2
  · intro t h1 h2
    rw [hmem, (o5 t h2).1, (o5 t h2).2, m4', (o2 t h1).1, (o2 t h1).2, m1]
    exact ⟨rfl, rfl⟩

/-! ### The lists -/

/-- The templates of the header and of the body. -/
def listNames (s : Settings) : List TName × List TName :=
  let p := pairOf s.format
  if Format.isMinimal s.format then ([p.1], [])
  else if isSeparate s then ([.commonHeader, p.1], [.commonBody, p.2])
  else ([.commonHeader, .commonBody, p.1, p.2], [])

theorem pairOf_ne (f : Format) :
    (pairOf f).1 ≠ .license ∧ (pairOf f).1 ≠ .filenameMacros ∧ (pairOf f).1 ≠ .commonHeader ∧ (pairOf f).1 ≠ .commonBody ∧
    (pairOf f).2 ≠ .license ∧ (pairOf f).2 ≠ .filenameMacros ∧ (pairOf f).2 ≠ .commonHeader ∧ (pairOf f).2 ≠ .commonBody ∧
    (Format.isMinimal f = false → (pairOf f).1 ≠ (pairOf f).2) := by
  cases f <;> decide

theorem createLists_run {env : Env} {s : Settings} {st : State} (hr : Readable env s) (hf : ∀ t, Fresh st.mem t) :
    ∃ hs bs st', createLists env s (isSeparate s) st = .ok (hs, bs) st' ∧ SameIO st st' ∧
      hs.map (·.1) = (listNames s).1 ∧ bs.map (·.1) = (listNames s).2 ∧
      (∀ p ∈ hs ++ bs, PtrOK env s st'.mem p ∧ p.1 ≠ .license ∧ p.1 ≠ .filenameMacros) ∧
      Fresh st'.mem .license ∧ Fresh st'.mem .filenameMacros := by
  obtain ⟨n1, n2, n3, n4, n5, n6, n7, n8, n9⟩ := pairOf_ne s.format
  obtain ⟨a1, e1, i1, o1, p1⟩ := load_run hr (hf (pairOf s.format).1)
  unfold createLists listNames
  dsimp only
  cases hm : Format.isMinimal s.format with
  | true =>
    refine ⟨[((pairOf s.format).1, a1.mem.ptr (pairOf s.format).1)], [], a1, ?_, i1, rfl, rfl, ?_, ?_, ?_⟩
    · rw [bind_ok e1, if_pos rfl, bind_ok (getPtr_run _ _)]
      rfl
    · intro p hp
      simp only [List.append_nil, List.mem_singleton] at hp
      subst hp
      exact ⟨p1, n1, n2⟩
    · exact o1.fresh n1.symm (hf _)
    · exact o1.fresh n2.symm (hf _)
  | false =>
    have n9 := n9 hm
    obtain ⟨a2, e2, i2, o2, p2⟩ := load_run hr (o1.fresh n9.symm (hf (pairOf s.format).2))
    obtain ⟨a3, e3, i3, o3, p3⟩ := load_run hr (o2.fresh n7.symm (o1.fresh n3.symm (hf .commonHeader)))
    obtain ⟨a4, e4, i4, o4, p4⟩ := load_run hr (o3.fresh (by decide) (o2.fresh n8.symm (o1.fresh n4.symm (hf .commonBody))))
    have q1 : PtrOK env s a4.mem ((pairOf s.format).1, a2.mem.ptr (pairOf s.format).1) := by
      refine o4.ptrOK n4 (o3.ptrOK n3 (o2.ptrOK n9 ?_))
      rw [(o2 _ n9).2]; exact p1
    have q2 : PtrOK env s a4.mem ((pairOf s.format).2, a2.mem.ptr (pairOf s.format).2) :=
      o4.ptrOK n8 (o3.ptrOK n7 p2)
    have q3 : PtrOK env s a4.mem (.commonHeader, a4.mem.ptr .commonHeader) := by
      refine o4.ptrOK (p := (.commonHeader, a4.mem.ptr .commonHeader)) (by simp) ?_
      rw [(o4 .commonHeader (by decide)).2]; exact p3
    have f1 : Fresh a4.mem .license :=
      o4.fresh (by decide) (o3.fresh (by decide) (o2.fresh n5.symm (o1.fresh n1.symm (hf _))))
    have f2 : Fresh a4.mem .filenameMacros :=
      o4.fresh (by decide) (o3.fresh (by decide) (o2.fresh n6.symm (o1.fresh n2.symm (hf _))))
    have io := i1.trans (i2.trans (i3.trans i4))
    cases hsep : isSeparate s with
    | true =>
      refine ⟨[(.commonHeader, a4.mem.ptr .commonHeader), ((pairOf s.format).1, a2.mem.ptr (pairOf s.format).1)],
        [(.commonBody, a4.mem.ptr .commonBody), ((pairOf s.format).2, a2.mem.ptr (pairOf s.format).2)], a4, ?_, io, rfl, rfl, ?_, f1, f2⟩
      · rw [bind_ok e1, if_neg (by decide), bind_ok e2, bind_ok (getPtr_run _ _), bind_ok (getPtr_run _ _), bind_ok e3, bind_ok e4,
          bind_ok (getPtr_run _ _), bind_ok (getPtr_run _ _)]
        rfl
      · intro p hp
        simp only [List.cons_append, List.nil_append, List.mem_cons, List.not_mem_nil, or_false] at hp
        rcases hp with rfl|rfl|rfl|rfl
        · exact ⟨q3, by simp, by simp⟩
        · exact ⟨q1, n1, n2⟩
        · exact ⟨p4, by simp, by simp⟩
        · exact ⟨q2, n5, n6⟩
    | false =>
      refine ⟨[(.commonHeader, a4.mem.ptr .commonHeader), (.commonBody, a4.mem.ptr .commonBody),
        ((pairOf s.format).1, a2.mem.ptr (pairOf s.format).1), ((pairOf s.format).2, a2.mem.ptr (pairOf s.format).2)],
        [], a4, ?_, io, rfl, rfl, ?_, f1, f2⟩
      · rw [bind_ok e1, if_neg (by simp), bind_ok e2, bind_ok (getPtr_run _ _), bind_ok (getPtr_run _ _), bind_ok e3, bind_ok e4,
          bind_ok (getPtr_run _ _), bind_ok (getPtr_run _ _)]
        rfl
      · intro p hp
        simp only [List.append_nil, List.mem_cons, List.not_mem_nil, or_false] at hp
        rcases hp with rfl|rfl|rfl|rfl
        · exact ⟨q3, by simp, by simp⟩
        · exact ⟨p4, by simp, by simp⟩
        · exact ⟨q1, n1, n2⟩
        · exact ⟨q2, n5, n6⟩

end Gdo.Gen
