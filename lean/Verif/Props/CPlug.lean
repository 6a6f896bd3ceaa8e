import Verif.Lemmas.CPlug
import Verif.Lemmas.CProgOtherText
import Verif.Props.Plugin
import Verif.Props.CRun

/-!
Property C99: what the generated C code of the plug-in loader means and does.  The text is
the code of `Verif/Model/CProg.lean` and `Verif/Model/CProgOther.lean`; executing it step
by step as described in `Verif/Spec/CSem.lean` gives the results of the model of the
functions (`Verif/Model/Plugin.lean`).
-/

set_option maxRecDepth 10000

namespace Gdo.Cc
open Gdo Tpl Opt Gen Tmpl Sub Rename Builtin CForm Rt

/-! ### The text -/

/-- The code of the two templates for the implementation. -/
def plugins (D : Str → Bool) : List Top := commonProg D ++ pluginProg D

/-- The tokens that the compiler gets of the text are those of the code, with the names
    of the functions and objects filled in and with the prefix that was asked for. -/
theorem C99_text (u l : Str) (names : ParamNames) (protos objs : List Proto) (D : Str → Bool) (hu : ∀ c ∈ u, isWord c = true)
    (hl : ∀ c ∈ l, isWord c = true) (hln : l ≠ []) (hd : ∀ p ∈ protos ++ objs, Named p) :
    ∃ ts out, progToks ((plugins fun w => D (newName u l w)).map (Top.inst (insts protos objs))) = some (ts.map .tok) ∧
      preprocess D (unlines ([TName.commonBody, TName.pluginBody].flatMap fun t => instantiate u l names protos objs (lines t))) = some out ∧
      closeAll u l ts = some out := by
  have := ((commonProg_seg names).append (pluginProg_seg names)).sound hu hl hln (instsOk hd) D
  rw [List.flatMap_append] at this
  simpa [plugins, instantiate, Builtin.texts] using this

/-- The file with the implementation that is written with `-separate` is this code. -/
theorem C99_written (env : Env) (s : Settings) (hb : ∀ t, compiledList t = some (env.builtin t)) (hp : PrefixOk s.pfx)
    (ht : s.templatesPath = []) (hline : s.lineDirective = false) (hf : s.format = .plugin) (hsep : isSeparate s = true)
    (hd : ∀ p ∈ env.symbols.protos ++ env.symbols.objs, PlainData p ∧ Named p)
    (hne : env.symbols.protos ++ env.symbols.objs ≠ []) (D : Str → Bool) :
    ∃ N, ∀ n, N ≤ n → ∃ bss j ts out, bodySubst { env with n } s = .ok (bss, j) ∧
      progToks ((plugins fun w => D (newName (toUpper s.pfx) (toLower s.pfx) w)).map
        (Top.inst (insts env.symbols.protos env.symbols.objs))) = some (ts.map .tok) ∧
      preprocess D (bytes bss.flatten.flatten) = some out ∧ closeAll (toUpper s.pfx) (toLower s.pfx) ts = some out := by
  obtain ⟨N, h⟩ := C94_processed env s hb hp ht (fun p hp => (hd p hp).1) hne
  refine ⟨N, fun n hn => ?_⟩
  obtain ⟨css, k, bss, j, _, e2, _, _, e3⟩ := h n hn
  obtain ⟨ts, out, a1, a2, a3⟩ := C99_text (toUpper s.pfx) (toLower s.pfx) s.names env.symbols.protos env.symbols.objs D
    (Pfx.C30_upper _) (Pfx.C30_lower _) (prefix_ne hp) (fun p hp => (hd p hp).2)
  refine ⟨bss, j, ts, out, e2, a1, ?_, a3⟩
  rw [(e3 hline).2]
  have : (listNames s).2 = [.commonBody, .pluginBody] := by
    unfold listNames
    rw [hf, hsep]
    rfl
  rw [this]
  exact a2

/-! ### The execution -/

/-- The generated code: what a call of a function does when at most `n` calls are made
    inside of each other. -/
abbrev plugin (u l : Str) (D : Str → Bool) (os : Plug.Os) (c : Plug.Cfg) (sizePlugin sizeHandle : Nat) (protos objs : List Proto) (n : Nat) :
    Str → List V → M PSt → R PSt V :=
  link (plugSem u l os c sizePlugin sizeHandle) ((plugins D).map (Top.inst (insts protos objs))) n

/-- The arguments: an array of file names and their number. -/
def filesArgs : Option (List (Option Str)) → List V
  | none => [.null, .int 0]
  | some fs => [.strs fs, .int fs.length]

section
variable (u l : Str) (D : Str → Bool) (os : Plug.Os) (c : Plug.Cfg) (z1 z2 : Nat) (protos objs : List Proto)

theorem plugSyms_insts {syms : List Str} {protos objs : List Proto} (h : syms = (protos ++ objs).map (·.symbol)) (hn : syms.Nodup) :
    PlugSyms (insts protos objs) syms (rowsOf protos objs) := by
  refine ⟨?_, ?_, hn⟩
  · simp [insts, rowsOf, Function.comp_def]
  · rw [h]
    simp [rowsOf, Function.comp_def]

theorem lookup_common {D : Str → Bool} (f : Str) (hf : f ∉ [str% "_gdo_call_dlsym", str% "_gdo_call_dlclose", str% "_gdo_call_dlopen", str% "_gdo_call_dladdr",
    str% "_gdo_aix_parse_ldinfo", str% "_gdo_fullpath_procmap"]) : lookup f (commonProg D) = none := by
  unfold commonProg
  simp only [lookup_append]
  rw [lookup_part (ns := _) (a := commonPart1 _) ?_ f hf, lookup_part (a := commonPart2 _ _ _) ?_ f hf, lookup_part (a := commonPart3 _) ?_ f hf,
    lookup_part (a := commonPart4 _ _ _) ?_ f hf]
  · rfl
  · cases D (str% "GDO_HAVE_DLINFO") <;> cases D (str% "PROCMAP_QUERY") <;> cases D (str% "__linux__") <;> decide
  · cases D (str% "_AIX") <;> decide
  · cases D (str% "GDO_HAVE_DLADDR") <;> cases D (str% "GDO_HAVE_DLMOPEN") <;> cases D (str% "GDO_WINAPI") <;> decide
  · cases D (str% "GDO_WINAPI") <;> decide

theorem lookup_plugins {D : Str → Bool} {os : Plug.Os} (hw : D (str% "GDO_WINAPI") = os.isWin) :
    lookup (str% "_gdo_call_dlsym") (plugins D) = some (fnOf (C.fn_gdo_call_dlsym os.isWin)) ∧
    lookup (str% "_gdo_call_dlclose") (plugins D) = some (fnOf (C.fn_gdo_call_dlclose os.isWin)) ∧
    lookup (str% "gdo_load_plugins") (plugins D) = some (fnOf C.gdo_load_plugins) ∧
    lookup (str% "gdo_release_plugins") (plugins D) = some (fnOf C.gdo_release_plugins) := by
  unfold plugins
  simp only [lookup_append]
  rw [lookup_common (str% "gdo_load_plugins") (by decide), lookup_common (str% "gdo_release_plugins") (by decide)]
  unfold commonProg pluginProg
  simp only [lookup_append]
  rw [hw]
  refine ⟨rfl, rfl, ?_, ?_⟩
  · cases D (str% "GDO_STATIC") <;> cases os <;> rfl
  · cases D (str% "GDO_STATIC") <;> cases os <;> rfl

/-- These are functions of the code, not of the system. -/
theorem plug_code (f : Str) (h : f ∈ [str% "_gdo_call_dlsym", str% "_gdo_call_dlclose", str% "gdo_load_plugins", str% "gdo_release_plugins"]) :
    (plugSem u l os c z1 z2).system f = none := by
  simp only [List.mem_cons, List.not_mem_nil, or_false] at h
  rcases h with rfl | rfl | rfl | rfl <;> cases os <;> rfl

theorem plugin_dlsym (hw : D (str% "GDO_WINAPI") = os.isWin) (n : Nat) (h2 : 2 ≤ n) (h : Rt.Ptr) (name : Str) (m : M PSt) :
    plugin u l D os c z1 z2 protos objs n (str% "_gdo_call_dlsym") [.ptr h, .str name] m = plugDlsym os.loader [.ptr h, .str name] m := by
  obtain ⟨k, rfl⟩ : ∃ k, n = k + 2 := ⟨n - 2, by omega⟩
  show link _ _ (k + 1 + 1) _ _ _ = _
  unfold link
  rw [lookup_inst, (lookup_plugins hw).1, plug_code u l os c z1 z2 _ (by decide)]
  cases os <;> rfl

theorem plugin_dlclose (hw : D (str% "GDO_WINAPI") = os.isWin) (n : Nat) (h2 : 2 ≤ n) (h : Rt.Ptr) (m : M PSt) :
    ∃ v, plugin u l D os c z1 z2 protos objs n (str% "_gdo_call_dlclose") [.ptr h] m = .ok v ⟨⟨Plug.close os.loader (some h) m.g.st, m.g.heap⟩, m.frames⟩ := by
  obtain ⟨k, rfl⟩ : ∃ k, n = k + 2 := ⟨n - 2, by omega⟩
  show ∃ v, link _ _ (k + 1 + 1) _ _ _ = _
  unfold link
  rw [lookup_inst, (lookup_plugins hw).2.1, plug_code u l os c z1 z2 _ (by decide)]
  exact ⟨_, plug_dlclose u l os c z1 z2 _ k (k + 1) (insts protos objs) _ h m⟩

/-- `gdo_load_plugins` does what the model says, in every state of the program and of its
    memory.  The list is not at the address of the structure; both are in memory then. -/
theorem C99_load (hw : D (str% "GDO_WINAPI") = os.isWin) (hs : c.syms = (protos ++ objs).map (·.symbol)) (hn : c.syms.Nodup)
    (files : Option (List (Option Str))) (n : Nat) (h3 : (files.getD []).length + 3 ≤ n) (s : Plug.St) (heap : Rt.Ptr → Option PObj) (fr : List Frame)
    (hne : ∀ a, c.alloc s.clock = some a → c.alloc (s.clock + 1) ≠ some a) :
    plugin u l D os c z1 z2 protos objs n (str% "gdo_load_plugins") (filesArgs files) ⟨⟨s, heap⟩, fr⟩ =
      match Plug.load os.loader c files s with
      | none => .ub
      | some (none, s') => .ok .null ⟨⟨s', heap⟩, fr⟩
      | some (some p, s') => .ok (.ptr p.addr) ⟨⟨s', loadedHeap heap p⟩, fr⟩ := by
  obtain ⟨k, rfl⟩ : ∃ k, n = k + 3 := ⟨n - 3, by omega⟩
  show link _ _ (k + 1 + 1 + 1) _ _ _ = _
  unfold link
  rw [lookup_inst, (lookup_plugins hw).2.2.1, plug_code u l os c z1 z2 _ (by decide)]
  have hd := plugin_dlsym u l D os c z1 z2 protos objs hw (k + 2) (by omega)
  match files with
  | none => rfl
  | some [] => rfl
  | some (y :: t) =>
    refine (plug_load_some (n := k + 1) (plugSyms_insts hs hn) hd y t s heap hne (by simp at h3; simp; omega)).trans ?_
    cases Plug.load os.loader c (some (y :: t)) s with
    | none => rfl
    | some r => obtain ⟨_ | p, s'⟩ := r <;> rfl

/-- What is in memory after `gdo_load_plugins` is what `gdo_release_plugins` needs. -/
theorem C99_holds (files : Option (List (Option Str))) (s : Plug.St) (heap : Rt.Ptr → Option PObj) (hne : ∀ a, c.alloc s.clock = some a → c.alloc (s.clock + 1) ≠ some a)
    (p : Plug.Plugin) (s' : Plug.St) (h : Plug.load os.loader c files s = some (some p, s')) : Holds (loadedHeap heap p) p := by
  have hp : c.alloc s.clock = some p.addr ∧ c.alloc (s.clock + 1) = p.list := by
    match files, h with
    | some (y :: t), h =>
      have hload : Plug.load os.loader c (some (y :: t)) s = match (Plug.alloc c s).1 with
          | none => none
          | some a => (Plug.loadLoop os.loader c (Plug.alloc c (Plug.alloc c s).2).1 (y :: t) (Plug.alloc c (Plug.alloc c s).2).2).map fun x =>
            (some { addr := a, list := (Plug.alloc c (Plug.alloc c s).2).1, entries := x.1 }, x.2) := rfl
      rw [hload] at h
      have h1 : ∀ s, (Plug.alloc c s).1 = c.alloc s.clock ∧ (Plug.alloc c s).2.clock = s.clock + 1 := by
        intro s
        unfold Plug.alloc
        cases c.alloc s.clock <;> exact ⟨rfl, rfl⟩
      cases ha : (Plug.alloc c s).1 with
      | none => rw [ha] at h; cases h
      | some a =>
        rw [ha] at h
        dsimp only at h
        cases hl : Plug.loadLoop os.loader c (Plug.alloc c (Plug.alloc c s).2).1 (y :: t) (Plug.alloc c (Plug.alloc c s).2).2 with
        | none => rw [hl] at h; cases h
        | some r =>
          rw [hl] at h
          cases h
          refine ⟨(h1 s).1 ▸ ha, ?_⟩
          rw [(h1 (Plug.alloc c s).2).1, (h1 s).2]
  obtain ⟨a, list, es⟩ := p
  have hab : ∀ b, list = some b → a ≠ b := by
    rintro b rfl rfl
    exact hne a hp.1 hp.2
  constructor
  · cases list with
    | none => exact upd_same _ _ _
    | some b => exact (upd_other _ (hab b rfl) _).trans (upd_same _ _ _)
  · rintro b rfl
    exact ⟨upd_same _ _ _, hab b rfl⟩

/-- `gdo_release_plugins` does what the model says; the structure and the list are gone. -/
theorem C99_release (hw : D (str% "GDO_WINAPI") = os.isWin) (p : Plug.Plugin) (n : Nat) (h3 : p.entries.length + 3 ≤ n)
    (s : Plug.St) (heap : Rt.Ptr → Option PObj) (fr : List Frame) (hh : Holds heap p) :
    plugin u l D os c z1 z2 protos objs n (str% "gdo_release_plugins") [.ptr p.addr] ⟨⟨s, heap⟩, fr⟩ =
      match Plug.release os.loader (some p) s with
      | none => .ub
      | some s' => .ok .void ⟨⟨s', freedHeap heap p⟩, fr⟩ := by
  obtain ⟨k, rfl⟩ : ∃ k, n = k + 3 := ⟨n - 3, by omega⟩
  show link _ _ (k + 1 + 1 + 1) _ _ _ = _
  unfold link
  rw [lookup_inst, (lookup_plugins hw).2.2.2, plug_code u l os c z1 z2 _ (by decide)]
  exact plug_release_some (n := k + 1) (plugin_dlclose u l D os c z1 z2 protos objs hw (k + 2) (by omega)) p s heap hh (by omega)

/-- Without plug-ins nothing is done. -/
theorem C99_release_null (hw : D (str% "GDO_WINAPI") = os.isWin) (n : Nat) (h1 : 1 ≤ n) (m : M PSt) :
    plugin u l D os c z1 z2 protos objs n (str% "gdo_release_plugins") [.null] m = .ok .void m := by
  obtain ⟨k, rfl⟩ : ∃ k, n = k + 1 := ⟨n - 1, by omega⟩
  show link _ _ (k + 1) _ _ _ = _
  unfold link
  rw [lookup_inst, (lookup_plugins hw).2.2.2, plug_code u l os c z1 z2 _ (by decide)]
  rfl

/-- Loading and releasing gives the memory back: nothing is left at the two addresses and
    nothing else was changed. -/
theorem C99_memory (heap : Rt.Ptr → Option PObj) (p : Plug.Plugin) (q : Rt.Ptr) :
    freedHeap (loadedHeap heap p) p q = if q = p.addr ∨ some q = p.list then none else heap q := by
  obtain ⟨a, _ | b, es⟩ := p
  · unfold freedHeap loadedHeap upd
    by_cases h : q = a <;> simp [h]
  · unfold freedHeap loadedHeap upd
    by_cases h : q = a
    · simp [h]
    · by_cases h2 : q = b <;> simp [h, h2]

/-- A program that loads plug-ins and releases what it got, started without open libraries.
    When both functions return, every library was closed or closing it failed, every block
    of memory was released once, and the memory is what it was before at all addresses but
    those two that belonged to the structure and the list. -/
theorem C99_run (hw : D (str% "GDO_WINAPI") = os.isWin) (hs : c.syms = (protos ++ objs).map (·.symbol)) (hn : c.syms.Nodup)
    (files : Option (List (Option Str))) (n : Nat) (h3 : (files.getD []).length + 3 ≤ n) (heap : Rt.Ptr → Option PObj)
    (hne : ∀ a, c.alloc 0 = some a → c.alloc 1 ≠ some a) (v w : V) (m m' : M PSt)
    (h1 : plugin u l D os c z1 z2 protos objs n (str% "gdo_load_plugins") (filesArgs files) ⟨⟨{}, heap⟩, []⟩ = .ok v m)
    (h2 : plugin u l D os c z1 z2 protos objs n (str% "gdo_release_plugins") [v] m = .ok w m') :
    RtSpec.OnlyAlive m'.g.st.log ∧ (∀ x, RtSpec.opens x m'.g.st.log = RtSpec.closes x m'.g.st.log + RtSpec.givenUp x m'.g.st.log) ∧
      Plug.OnlyOwned m'.g.st.mem ∧ (∀ a, Plug.gots a m'.g.st.mem = Plug.rels a m'.g.st.mem) ∧
      ∀ q, m'.g.heap q = heap q ∨ m'.g.heap q = none := by
  rw [C99_load u l D os c z1 z2 protos objs hw hs hn files n h3 {} heap [] hne] at h1
  cases hl : Plug.load os.loader c files {} with
  | none => rw [hl] at h1; cases h1
  | some r =>
    rw [hl] at h1
    obtain ⟨_ | p, s⟩ := r
    · cases h1
      rw [C99_release_null u l D os c z1 z2 protos objs hw n (by omega)] at h2
      cases h2
      obtain ⟨a, b, d, e⟩ := Plug.C52_release os.loader c files none s s hl rfl
      exact ⟨a, b, d, e, fun q => .inl rfl⟩
    · cases h1
      have hlen : p.entries.length = (files.getD []).length := by
        match files, hl with
        | some (y :: t), hl =>
          obtain ⟨p', e, h, _⟩ := Plug.C52_entries os.loader c _ (by simp) _ _ _ hl
          cases e
          exact h
      rw [C99_release u l D os c z1 z2 protos objs hw p n (by omega) s _ [] (C99_holds os c files {} heap hne p s hl)] at h2
      cases hr : Plug.release os.loader (some p) s with
      | none => rw [hr] at h2; cases h2
      | some s' =>
        rw [hr] at h2
        cases h2
        obtain ⟨a, b, d, e⟩ := Plug.C52_release os.loader c files (some p) s s' hl hr
        refine ⟨a, b, d, e, fun q => ?_⟩
        show freedHeap (loadedHeap heap p) p q = _ ∨ freedHeap (loadedHeap heap p) p q = _
        rw [C99_memory]
        by_cases h : q = p.addr ∨ some q = p.list
        · exact .inr (if_pos h)
        · exact .inl (if_neg h)

end

/-! ### Examples: the symbols `f` and `g`, the files `x`, no name, `y` and `z`; `y` cannot be loaded. -/

/-- The generated code for these symbols. -/
def demoPlugin (n : Nat) : Str → List V → M PSt → R PSt V :=
  plugin (str% "MY") (str% "my") (fun _ => false) (.dlfcn Plug.demoLoader) Plug.demoCfg 16 32 demoProtos [] n

def demoFiles : Option (List (Option Str)) := some [some (str% "x"), none, some (str% "y"), some (str% "z")]

example : Plug.demoCfg.syms = (demoProtos ++ []).map Proto.symbol ∧ Plug.demoCfg.syms.Nodup ∧
    ∀ a, Plug.demoCfg.alloc 0 = some a → Plug.demoCfg.alloc 1 ≠ some a := by
  refine ⟨by decide, by decide, ?_⟩
  rintro a ⟨⟩
  decide

/-- Executing the code: three names are copied, two libraries are opened and closed. -/
example : (match demoPlugin 7 (str% "gdo_load_plugins") (filesArgs demoFiles) ⟨⟨{}, fun _ => none⟩, []⟩ with
    | .ok v m => some (v, m.g.st.mem, match demoPlugin 7 (str% "gdo_release_plugins") [v] m with
      | .ok _ m' => some (m'.g.st.log.length, (m'.g.heap 1000).isNone, (m.g.heap 1000).isNone)
      | _ => none)
    | _ => none) = some (.ptr 1000, [.got 1000, .got 1001, .got 1002, .got 1006, .got 1008], some (8, true, false)) := by
  decide +kernel

/-- The same on Windows: `y` cannot be loaded. -/
def demoPlugWindows : Win.Loader where
  load _ n k := if n = str% "y" ∨ k ≠ Plug.demoCfg.flags then (none, 126) else (some 100, 0)
  sym _ _ n := if n = str% "f" then (some 7, 0) else (none, 127)
  free _ _ := (true, 0)
  fileName _ _ := (none, 6)
  format _ _ := none
  widen _ s := some s
  atexit _ := true

example : (match plugin (str% "MY") (str% "my") (fun w => w = str% "GDO_WINAPI") (.windows demoPlugWindows) Plug.demoCfg 16 32 demoProtos [] 7
      (str% "gdo_load_plugins") (filesArgs demoFiles) ⟨⟨{}, fun _ => none⟩, []⟩ with
    | .ok v m => some (v, m.g.st.log)
    | _ => none) = some (.ptr 1000, [.opened 100, .sym 100 (str% "f") (some 7), .sym 100 (str% "g") none,
      .opened 100, .sym 100 (str% "f") (some 7), .sym 100 (str% "g") none]) := by
  decide +kernel

/-- Without memory for the structure the behaviour is not defined. -/
example : (match plugin (str% "MY") (str% "my") (fun _ => false) (.dlfcn Plug.demoLoader) { Plug.demoCfg with alloc := fun _ => none } 16 32 demoProtos [] 7
      (str% "gdo_load_plugins") (filesArgs demoFiles) ⟨⟨{}, fun _ => none⟩, []⟩ with
    | .ub => true
    | _ => false) = true := by
  decide +kernel

/-- The code is not empty. -/
example : (progToks (plugins fun _ => false)).map (fun ts => (str% "gdo_load_plugins" ∈ wordsOf ts ∧ str% "calloc" ∈ wordsOf ts : Bool)) = some true := by
  decide +kernel

end Gdo.Cc
