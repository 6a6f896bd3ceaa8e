import Verif.Props.CxxWin
import Verif.Props.RuntimeName

/-!
Properties C88 and C89: the file the generated C++ code opens on Windows, the file name an
object tells, and the loading of symbols.
-/

namespace Gdo.CxxWin
open Gdo RtSpec
open Gdo.Rt (Ptr Ev Mode)
open Gdo.Win (backslashes)

section
variable {L : Loader} {C : Cfg}

theorem backslashes_nul {name : Str} (h : nul ∉ name) : nul ∉ backslashes name := by
  unfold backslashes
  intro hn
  obtain ⟨c, hc, he⟩ := List.mem_map.mp hn
  split at he
  · exact absurd he (by decide)
  · exact h (he ▸ hc)

theorem backslashes_ne {name : Str} (h : name ≠ []) : backslashes name ≠ [] := by
  cases name with
  | nil => exact absurd rfl h
  | cons c r => simp [backslashes]

theorem loadLib_eq (w : Bool) (name : Str) (s : S) :
    loadLib L w name s = if w then loadExW L (backslashes name) (clearError s) else loadExA L (backslashes name) (clearError s) := by
  unfold loadLib
  dsimp only
  rw [Win.backslashes_if]

theorem loadFilename_eq (w : Bool) (name : Str) (hn : name ≠ []) (s : S) (hs : s.w.handle = none) :
    loadFilename L w name s = if libLoaded (loadLib L w name (clearError s)) then (true, loadLib L w name (clearError s))
      else (false, saveErrorMsg w name (loadLib L w name (clearError s))) := by
  unfold loadFilename
  dsimp only
  rw [if_neg (by simp [libLoaded, hs]), if_neg hn]

theorem saveErrorMsg_w (w : Bool) (m : Str) (s : S) : (saveErrorMsg w m s).w = s.w := by
  unfold saveErrorMsg; split <;> rfl

/-- The call that is made, and what it answers. -/
theorem loadFilename_opened (w : Bool) (name : Str) (hn : name ≠ []) (s : S) (hs : s.w.handle = none) (a : Option Ptr × Nat) (k : Nat)
    (ha : (loadLib L w name (clearError s)).w = (opened a ⟨s.o, { s.w with clock := k }⟩).w) :
    (loadFilename L w name s).2.w.handle = a.1 ∧ ((loadFilename L w name s).1 = true ↔ a.1 ≠ none) ∧
      (loadFilename L w name s).2.w.clock = k + 1 := by
  have h1 : (loadLib L w name (clearError s)).w.handle = a.1 := by rw [ha]; rfl
  have h2 : (loadLib L w name (clearError s)).w.clock = k + 1 := by rw [ha]; rfl
  rw [loadFilename_eq w name hn s hs]
  split
  · rename_i hl
    refine ⟨h1, ⟨fun _ => ?_, fun _ => rfl⟩, h2⟩
    rw [libLoaded, h1] at hl
    exact Option.isSome_iff_ne_none.mp hl
  · rename_i hl
    dsimp only
    rw [saveErrorMsg_w]
    refine ⟨h1, ⟨fun h => absurd h (by simp), fun h => absurd ?_ hl⟩, h2⟩
    rw [libLoaded, h1]
    exact Option.isSome_iff_ne_none.mpr h

end

section
variable {L : Loader} {C : Cfg}

theorem narrow_main (name : Str) (hn : name ≠ []) (h0 : nul ∉ name) (t : S) (hts : t.w.handle = none) (hc : t.o.convert = false) :
    (loadFilename L false name t).2.w.handle = (L.loadA t.w.clock (backslashes name) t.o.flags).1 ∧
      ((loadFilename L false name t).1 = true ↔ (L.loadA t.w.clock (backslashes name) t.o.flags).1 ≠ none) ∧
      (loadFilename L false name t).2.w.clock = t.w.clock + 1 := by
  have hc' : (clearError (clearError t)).o.convert = false := hc
  refine loadFilename_opened false name hn t hts (L.loadA t.w.clock (backslashes name) t.o.flags) t.w.clock ?_
  rw [loadLib_eq]
  simp only [Bool.false_eq_true, if_false]
  unfold loadExA
  rw [if_neg (by rw [hc']; simp), cstr_self (backslashes_nul h0)]
  simp only [opened, clearError]

theorem wide_main (name : Str) (hn : name ≠ []) (h0 : nul ∉ name) (t : S) (hts : t.w.handle = none) :
    (loadFilename L true name t).2.w.handle = (L.loadW t.w.clock (backslashes name) t.o.flags).1 ∧
      ((loadFilename L true name t).1 = true ↔ (L.loadW t.w.clock (backslashes name) t.o.flags).1 ≠ none) ∧
      (loadFilename L true name t).2.w.clock = t.w.clock + 1 := by
  refine loadFilename_opened true name hn t hts (L.loadW t.w.clock (backslashes name) t.o.flags) t.w.clock ?_
  rw [loadLib_eq]
  simp only [if_true]
  unfold loadExW
  rw [cstr_self (backslashes_nul h0)]
  simp only [opened, clearError]

theorem conv_main (name : Str) (hn : name ≠ []) (h0 : nul ∉ name) (t : S) (hts : t.w.handle = none) (hc : t.o.convert = true) :
    (∀ w, L.widen t.w.clock (backslashes name) = some w → w ≠ [] → nul ∉ w →
      (loadFilename L false name t).2.w.handle = (L.loadW (t.w.clock + 1) w t.o.flags).1 ∧
      ((loadFilename L false name t).1 = true ↔ (L.loadW (t.w.clock + 1) w t.o.flags).1 ≠ none)) ∧
    (L.widen t.w.clock (backslashes name) = none →
      (loadFilename L false name t).1 = false ∧ (loadFilename L false name t).2.w.handle = none ∧
      (loadFilename L false name t).2.w.log = t.w.log) := by
  have hc' : (clearError (clearError t)).o.convert = true := hc
  refine ⟨fun w hw hne h1 => ?_, fun hw => ?_⟩
  · have := loadFilename_opened (L := L) false name hn t hts (L.loadW (t.w.clock + 1) w t.o.flags) (t.w.clock + 1) (by
        rw [loadLib_eq]
        simp only [Bool.false_eq_true, if_false]
        unfold loadExA
        rw [if_pos hc']
        have : convertString (L.widen t.w.clock) (backslashes name) = some (w ++ [nul]) := by
          unfold convertString
          rw [if_neg (backslashes_ne hn), cstr_self (backslashes_nul h0), hw]
          dsimp only
          rw [if_neg hne]
        simp only [clearError, this]
        unfold loadExW
        rw [cstr_nul h1]
        simp only [opened, tick])
    exact ⟨this.1, this.2.1⟩
  · rw [loadFilename_eq false name hn t hts, loadLib_eq]
    simp only [Bool.false_eq_true, if_false]
    unfold loadExA
    rw [if_pos hc']
    have : convertString (L.widen t.w.clock) (backslashes name) = none := by
      unfold convertString
      rw [if_neg (backslashes_ne hn), cstr_self (backslashes_nul h0), hw]
    simp only [clearError, this]
    rw [if_neg (by simp [libLoaded, setMsg, setErrno, tick, hts])]
    dsimp only
    rw [saveErrorMsg_w]
    exact ⟨rfl, rfl, rfl⟩

end

/-! ### C88 -/

/-- `LoadLibraryExA` is asked once, with the given name, slashes replaced by backslashes,
    and the given flags; the handle is what it answers, and the call succeeds exactly if
    there is one. -/
theorem C88_narrow (L : Loader) (name : Str) (hn : name ≠ []) (h0 : nul ∉ name) (flags : Int) (ns : Bool) (s : S) (hs : s.w.handle = none) :
    (s.o.convert = false →
      (loadArgs L name flags ns s).2.w.handle = (L.loadA s.w.clock (backslashes name) flags).1 ∧
      ((loadArgs L name flags ns s).1 = true ↔ (L.loadA s.w.clock (backslashes name) flags).1 ≠ none) ∧
      (loadArgs L name flags ns s).2.w.clock = s.w.clock + 1) ∧
    (loadConv L false name flags s).2.w.handle = (L.loadA s.w.clock (backslashes name) flags).1 ∧
      ((loadConv L false name flags s).1 = true ↔ (L.loadA s.w.clock (backslashes name) flags).1 ≠ none) ∧
      (loadConv L false name flags s).2.w.clock = s.w.clock + 1 :=
  ⟨fun hc => narrow_main name hn h0 _ hs hc, narrow_main name hn h0 _ hs rfl⟩

example : (loadArgs demoLoader (str% "x") 1 false ⟨{ flags := 0 }, {}⟩).2.w.handle = some 100 := rfl

/-- The same with wide characters and `LoadLibraryExW`. -/
theorem C88_wide (L : Loader) (name : Str) (hn : name ≠ []) (h0 : nul ∉ name) (flags : Int) (s : S) (hs : s.w.handle = none) :
    (loadWide L name flags s).2.w.handle = (L.loadW s.w.clock (backslashes name) flags).1 ∧
      ((loadWide L name flags s).1 = true ↔ (L.loadW s.w.clock (backslashes name) flags).1 ≠ none) ∧
      (loadWide L name flags s).2.w.clock = s.w.clock + 1 :=
  wide_main name hn h0 _ hs

example : (loadWide demoLoader (str% "x") 1 ⟨{ flags := 0 }, {}⟩).1 = true := rfl

/-- With conversion the converted name is handed to `LoadLibraryExW`; without a conversion
    nothing is opened, and the call fails. -/
theorem C88_converted (L : Loader) (name : Str) (hn : name ≠ []) (h0 : nul ∉ name) (flags : Int) (s : S) (hs : s.w.handle = none) :
    (∀ w, L.widen s.w.clock (backslashes name) = some w → w ≠ [] → nul ∉ w →
      (loadConv L true name flags s).2.w.handle = (L.loadW (s.w.clock + 1) w flags).1 ∧
      ((loadConv L true name flags s).1 = true ↔ (L.loadW (s.w.clock + 1) w flags).1 ≠ none)) ∧
    (L.widen s.w.clock (backslashes name) = none →
      (loadConv L true name flags s).1 = false ∧ (loadConv L true name flags s).2.w.handle = none ∧
      (loadConv L true name flags s).2.w.log = s.w.log) :=
  conv_main name hn h0 { s with o := { s.o with convert := true, wfilename := [], filename := name, flags := flags } } hs rfl

example : (loadConv demoLoader true (str% "a/x") 1 ⟨{ flags := 0 }, {}⟩).1 = true ∧
    (loadConv { demoLoader with widen := fun _ _ => none } true (str% "x") 1 ⟨{ flags := 0 }, {}⟩).1 = false := ⟨rfl, rfl⟩

/-- `load()` opens the file whose name is stored: that of wide characters, if there is one. -/
theorem C88_stored (L : Loader) (s : S) (hs : s.w.handle = none) :
    (s.o.wfilename ≠ [] → nul ∉ s.o.wfilename →
      (load L s).2.w.handle = (L.loadW s.w.clock (backslashes s.o.wfilename) s.o.flags).1 ∧
      ((load L s).1 = true ↔ (L.loadW s.w.clock (backslashes s.o.wfilename) s.o.flags).1 ≠ none)) ∧
    (s.o.wfilename = [] → s.o.filename ≠ [] → nul ∉ s.o.filename → s.o.convert = false →
      (load L s).2.w.handle = (L.loadA s.w.clock (backslashes s.o.filename) s.o.flags).1 ∧
      ((load L s).1 = true ↔ (L.loadA s.w.clock (backslashes s.o.filename) s.o.flags).1 ≠ none)) := by
  unfold load
  refine ⟨fun hw h0 => ?_, fun hw hf h0 hc => ?_⟩
  · simp only [hw, ne_eq, not_false_eq_true, if_true]
    have := wide_main (L := L) s.o.wfilename hw h0 s hs
    exact ⟨this.1, this.2.1⟩
  · simp only [hw, ne_eq, not_true_eq_false, if_false]
    have := narrow_main (L := L) s.o.filename hf h0 s hs hc
    exact ⟨this.1, this.2.1⟩

example : (load demoLoader ⟨{ flags := 0, filename := str% "x" }, {}⟩).1 = true := rfl

/-- No member function that loads changes the name it was given, whatever it answers:
    `filename()` and `filename_w()` tell the name, and flags are those given. -/
theorem C88_told (L : Loader) (name : Str) (hn : name ≠ []) (flags : Int) (ns c : Bool) (s : S) :
    (filename L (loadArgs L name flags ns s).2).1 = name ∧ (loadArgs L name flags ns s).2.o.flags = flags ∧
    (filename L (loadConv L c name flags s).2).1 = name ∧ (loadConv L c name flags s).2.o.flags = flags ∧
    (filenameW L (loadWide L name flags s).2).1 = name ∧ (loadWide L name flags s).2.o.flags = flags := by
  have key : ∀ (w : Bool) (n : Str) (t : S), (loadFilename L w n t).2.o.filename = t.o.filename ∧
      (loadFilename L w n t).2.o.wfilename = t.o.wfilename ∧ (loadFilename L w n t).2.o.flags = t.o.flags := by
    intro w n t
    unfold loadFilename
    dsimp only
    split
    · exact ⟨rfl, rfl, rfl⟩
    · split
      · exact ⟨rfl, rfl, rfl⟩
      · have hl : ∀ t : S, (loadLib L w n t).o.filename = t.o.filename ∧ (loadLib L w n t).o.wfilename = t.o.wfilename ∧
            (loadLib L w n t).o.flags = t.o.flags := by
          intro t
          rw [loadLib_eq]
          split
          · exact ⟨rfl, rfl, rfl⟩
          · unfold loadExA
            split
            · split <;> exact ⟨rfl, rfl, rfl⟩
            · exact ⟨rfl, rfl, rfl⟩
        split
        · exact hl _
        · unfold saveErrorMsg
          split <;> exact hl _
  unfold loadArgs loadConv loadWide filename filenameW
  simp only [(key _ _ _).1, (key _ _ _).2.1, (key _ _ _).2.2, hn]
  simp

example : (filename demoLoader (loadArgs demoLoader (str% "x") 1 false ⟨{ flags := 0 }, {}⟩).2).1 = str% "x" := rfl

/-- Asking for the file name changes neither the library nor the symbols nor the error, and
    asked again without a failing conversion it is the same. -/
theorem C88_again (L : Loader) (s : S) :
    ((filename L s).2.w.handle = s.w.handle ∧ (filename L s).2.w.ptr = s.w.ptr ∧ (filename L s).2.w.log = s.w.log ∧
      (filename L s).2.o.errno = s.o.errno ∧ (filename L s).2.o.errmsg = s.o.errmsg) ∧
    ((filenameW L s).2.w.handle = s.w.handle ∧ (filenameW L s).2.w.ptr = s.w.ptr ∧ (filenameW L s).2.w.log = s.w.log ∧
      (filenameW L s).2.o.errno = s.o.errno ∧ (filenameW L s).2.o.errmsg = s.o.errmsg) ∧
    ((filename L s).1 ≠ [] → filename L (filename L s).2 = ((filename L s).1, (filename L s).2)) ∧
    ((filenameW L s).1 ≠ [] → filenameW L (filenameW L s).2 = ((filenameW L s).1, (filenameW L s).2)) := by
  refine ⟨?_, ?_, ?_, ?_⟩
  · unfold filename; split <;> exact ⟨rfl, rfl, rfl, rfl, rfl⟩
  · unfold filenameW; split <;> exact ⟨rfl, rfl, rfl, rfl, rfl⟩
  · intro h
    have hf : (filename L s).2.o.filename = (filename L s).1 := by unfold filename; split <;> rfl
    rw [filename, if_neg (by rw [hf]; exact fun x => h x.1), hf]
  · intro h
    have hf : (filenameW L s).2.o.wfilename = (filenameW L s).1 := by unfold filenameW; split <;> rfl
    rw [filenameW, if_neg (by rw [hf]; exact fun x => h x.1), hf]

/-- Not so: the name in the other type of characters is one character too long, the last
    one being the NUL, for every name that can be converted. -/
theorem C88_violated (L : Loader) (name : Str) (hn : name ≠ []) (h0 : nul ∉ name) (s : S) :
    (∀ t, t ≠ [] → L.narrow s.w.clock name = some t → s.o.filename = [] → s.o.wfilename = name → (filename L s).1 = t ++ [nul]) ∧
    (∀ t, t ≠ [] → L.widen s.w.clock name = some t → s.o.wfilename = [] → s.o.filename = name → (filenameW L s).1 = t ++ [nul]) := by
  refine ⟨fun t ht hc h1 h2 => ?_, fun t ht hc h1 h2 => ?_⟩
  · rw [filename, if_pos ⟨h1, by rw [h2]; exact hn⟩, h2, convertString, if_neg hn, cstr_self h0, hc]
    simp [ht]
  · rw [filenameW, if_pos ⟨h1, by rw [h2]; exact hn⟩, h2, convertString, if_neg hn, cstr_self h0, hc]
    simp [ht]

example : (filename demoLoader (loadWide demoLoader (str% "x") 1 ⟨{ flags := 0 }, {}⟩).2).1 = str% "x" ++ [nul] := rfl

/-- Not so: after `filename_w()` a name of `char` is loaded by `LoadLibraryExW`, although
    no conversion was asked for. -/
theorem C88_violated_query : ∃ (L : Loader) (s : S), s.w.handle = none ∧ s.o.convert = false ∧
    (load L s).1 = true ∧ (load L (filenameW L s).2).1 = false :=
  ⟨{ demoLoader with loadW := fun _ _ _ => (none, 2) }, ⟨{ flags := 0, filename := str% "x" }, {}⟩, rfl, rfl, rfl, rfl⟩

/-- Read as C strings, both names are the converted ones, and what `load()` opens after
    `filename_w()` is the converted name. -/
theorem C88_partial (L : Loader) (name : Str) (hn : name ≠ []) (h0 : nul ∉ name) (s : S) :
    (∀ t, t ≠ [] → nul ∉ t → L.narrow s.w.clock name = some t → s.o.filename = [] → s.o.wfilename = name →
      cstr (filename L s).1 = t) ∧
    (∀ t, t ≠ [] → nul ∉ t → L.widen s.w.clock name = some t → s.o.wfilename = [] → s.o.filename = name →
      cstr (filenameW L s).1 = t ∧ (s.w.handle = none →
        (load L (filenameW L s).2).2.w.handle = (L.loadW (s.w.clock + 1) (backslashes t) s.o.flags).1)) := by
  have hv := C88_violated L name hn h0 s
  refine ⟨fun t ht h1 hc hf hw => ?_, fun t ht h1 hc hw hf => ⟨?_, fun hs => ?_⟩⟩
  · rw [hv.1 t ht hc hf hw, cstr_nul h1]
  · rw [hv.2 t ht hc hw hf, cstr_nul h1]
  · have he : filenameW L s = (t ++ [nul], tick { s with o := { s.o with wfilename := t ++ [nul] } }) := by
      rw [filenameW, if_pos ⟨hw, by rw [hf]; exact hn⟩, hf, convertString, if_neg hn, cstr_self h0, hc]
      simp [ht]
    rw [he]
    have hb : backslashes (t ++ [nul]) = backslashes t ++ [nul] := by
      unfold backslashes
      rw [List.map_append]
      rfl
    unfold load
    rw [if_pos (by simp [tick])]
    refine (loadFilename_opened true _ (by simp [tick]) (tick { s with o := { s.o with wfilename := t ++ [nul] } }) hs
      (L.loadW (s.w.clock + 1) (backslashes t) s.o.flags) (s.w.clock + 1) ?_).1
    rw [loadLib_eq]
    simp only [if_true]
    unfold loadExW
    simp only [tick, clearError, hb, cstr_nul (backslashes_nul h1), opened]

example : cstr (filename demoLoader ⟨{ flags := 0, wfilename := str% "x" }, {}⟩).1 = str% "x" :=
  (C88_partial demoLoader (str% "x") (by decide) (by decide) _).1 _ (by decide) (by decide) rfl rfl rfl

/-! ### C89 -/

section
variable {L : Loader} {C : Cfg}

theorem loadLoop_ptr {h : Ptr} (l : List Str) : ∀ (i : Nat) (s : S), (∀ j, j < i → (loadLoop L h i l s).2.w.ptr j = s.w.ptr j) ∧
    (((loadLoop L h i l s).1 = true ∧ ∀ k, k < l.length → (loadLoop L h i l s).2.w.ptr (i + k) ≠ none) ∨
      ((loadLoop L h i l s).1 = false ∧ ∃ k, k < l.length ∧ (loadLoop L h i l s).2.w.ptr (i + k) = none)) := by
  induction l with
  | nil => intro i s; exact ⟨fun _ _ => rfl, .inl ⟨rfl, by simp⟩⟩
  | cons name r ih =>
    intro i s
    rw [loadLoop]
    have hp := symLoad_ptr (L := L) h i name s
    have hf := symLoad_fst (L := L) h i name s
    by_cases ha : (symLoad L h i name s).1 = true
    · rw [if_pos ha]
      obtain ⟨h1, h2⟩ := ih (i + 1) (symLoad L h i name s).2
      refine ⟨fun j hj => ?_, ?_⟩
      · rw [h1 j (by omega), hp]
        simp [show j ≠ i by omega]
      · rcases h2 with ⟨h2, h3⟩ | ⟨h2, k, hk, h3⟩
        · refine .inl ⟨h2, fun k hk => ?_⟩
          rcases k with _ | k
          · show (loadLoop L h (i + 1) r (symLoad L h i name s).2).2.w.ptr i ≠ none
            rw [h1 i (by omega), hp]
            simp only [if_true]
            rw [ha] at hf
            exact Option.isSome_iff_ne_none.mp hf.symm
          · have := h3 k (by simpa using hk)
            rw [show i + (k + 1) = i + 1 + k by omega]
            exact this
        · refine .inr ⟨h2, k + 1, by simpa using hk, ?_⟩
          rw [show i + (k + 1) = i + 1 + k by omega]
          exact h3
    · rw [if_neg ha]
      refine ⟨fun j hj => ?_, .inr ⟨rfl, 0, by simp, ?_⟩⟩
      · rw [hp]
        simp [show j ≠ i by omega]
      · rw [hp]
        simp only [Nat.add_zero, if_true]
        rw [hf] at ha
        simpa using ha

end

/-- Loading all symbols succeeds if and only if all symbol pointers are set afterwards. -/
theorem C89_all (L : Loader) (C : Cfg) (s : S) :
    (loadAllSymbols L C s).1 = true ↔ ∀ i, i < C.syms.length → (loadAllSymbols L C s).2.w.ptr i ≠ none := by
  have hall : ∀ s, allLoaded C s = true ↔ ∀ i, i < C.syms.length → s.w.ptr i ≠ none := by
    intro s
    simp [allLoaded, Option.isSome_iff_ne_none]
  unfold loadAllSymbols
  dsimp only
  by_cases ha : allLoaded C (clearError s) = true
  · rw [if_pos ha]
    exact ⟨fun _ => (hall _).mp ha, fun _ => rfl⟩
  · rw [if_neg ha]
    cases hh : (clearError s).w.handle with
    | none =>
      dsimp only
      exact ⟨fun h => (by cases h), fun h => absurd ((hall _).mpr h) ha⟩
    | some h =>
      dsimp only
      obtain ⟨_, h2⟩ := loadLoop_ptr (L := L) (h := h) C.syms 0 (clearError s)
      simp only [Nat.zero_add] at h2
      rcases h2 with ⟨h2, h3⟩ | ⟨h2, k, hk, h3⟩
      · exact ⟨fun _ => h3, fun _ => h2⟩
      · refine ⟨fun h => (by rw [h2] at h; cases h), fun h => absurd h3 (h k hk)⟩

example : (loadAllSymbols demoLoader { demoCfg with syms := [str% "f"] } ⟨{ flags := 1 }, { handle := some 100 }⟩).1 = true ∧
    (loadAllSymbols demoLoader demoCfg ⟨{ flags := 1 }, { handle := some 100 }⟩).1 = false := ⟨rfl, rfl⟩

/-- The symbol to be loaded has a pointer afterwards, if loading it succeeds. -/
theorem C89_symbol (L : Loader) (C : Cfg) (s : S) (num : Int) (h : (loadSymbol L C num s).1 = true) :
    ∃ i name, num = Int.ofNat i ∧ C.syms[i]? = some name ∧ (loadSymbol L C num s).2.w.ptr i ≠ none := by
  unfold loadSymbol at h ⊢
  dsimp only at h ⊢
  split at h
  · cases h
  · rename_i x hx
    split at h
    · rename_i i name hc
      obtain ⟨h1, h2⟩ := Rt.caseOf_some hc
      refine ⟨i, name, h1, h2, ?_⟩
      unfold loadOne at h ⊢
      split
      · rename_i p hp
        rw [hp]
        simp
      · rename_i hp
        rw [hp] at h
        dsimp only at h
        rw [symLoad_ptr]
        simp only [if_true]
        rw [symLoad_fst] at h
        exact Option.isSome_iff_ne_none.mp h
    · cases h

example : (loadSymbol demoLoader demoCfg 0 ⟨{ flags := 1 }, { handle := some 100 }⟩).1 = true := rfl

/-- Exactly: a symbol that is known and not yet set is asked for once, by its name, in the
    library that is loaded; the call succeeds exactly if the system finds it, and no other
    pointer changes. -/
theorem C89_asked (L : Loader) (C : Cfg) (i : Nat) (name : Str) (hi : C.syms[i]? = some name) (s : S) (h : Ptr) (hh : s.w.handle = some h) (hp : s.w.ptr i = none) :
    ((loadSymbol L C i s).1 = true ↔ (L.sym s.w.clock h name).1 ≠ none) ∧
    (loadSymbol L C i s).2.w.ptr = (fun j => if j = i then (L.sym s.w.clock h name).1 else s.w.ptr j) ∧
    (loadSymbol L C i s).2.w.handle = some h ∧ (loadSymbol L C i s).2.w.log = s.w.log ++ [.sym h name (L.sym s.w.clock h name).1] := by
  have hc : Rt.caseOf C.toCfg (i : Int) = some (i, name) := by
    show Rt.caseOf C.toCfg (Int.ofNat i) = _
    simp [Rt.caseOf, hi]
  have e : loadSymbol L C i s = symLoad L h i name (clearError s) := by
    unfold loadSymbol
    have h1 : (clearError s).w.handle = some h := hh
    simp only [h1, hc]
    unfold loadOne
    have h2 : (clearError s).w.ptr i = none := hp
    rw [h2]
  rw [e, symLoad_fst, symLoad_ptr, symLoad_handle]
  refine ⟨Option.isSome_iff_ne_none, rfl, hh, ?_⟩
  unfold symLoad
  dsimp only
  split <;> rfl

example : (loadSymbol demoLoader demoCfg 0 ⟨{ flags := 1 }, { handle := some 100 }⟩).1 = true ∧
    (loadSymbol demoLoader demoCfg 1 ⟨{ flags := 1 }, { handle := some 100 }⟩).1 = false := ⟨rfl, rfl⟩

/-- A symbol that is already set is not asked for again. -/
theorem C89_kept (L : Loader) (C : Cfg) (i : Nat) (name : Str) (hi : C.syms[i]? = some name) (s : S) (h : Ptr) (hh : s.w.handle = some h) (hp : s.w.ptr i ≠ none) :
    (loadSymbol L C i s).1 = true ∧ (loadSymbol L C i s).2.w = s.w := by
  have hc : Rt.caseOf C.toCfg (i : Int) = some (i, name) := by
    show Rt.caseOf C.toCfg (Int.ofNat i) = _
    simp [Rt.caseOf, hi]
  obtain ⟨x, hx⟩ := Option.ne_none_iff_exists'.mp hp
  unfold loadSymbol
  have h1 : (clearError s).w.handle = some h := hh
  simp only [h1, hc]
  unfold loadOne
  have h2 : (clearError s).w.ptr i = some x := hx
  rw [h2]
  exact ⟨rfl, rfl⟩

/-- A constructor stores its arguments, the object has no message and no path, and nothing
    else happens; the default constructor takes the default flags and no name. -/
theorem C89_constructed (L : Loader) (C : Cfg) (p : Prog) (i : Nat) (hi : p.obj i = none) :
    (∀ n f ns, step L C p (.newArgs i n f ns) = .go (p.set i (some ⟨false, n, [], [], [], f, ns, true, 0, [], [], [], []⟩))) ∧
    (∀ c n f, step L C p (.newConv i c n f) = .go (p.set i (some ⟨c, n, [], [], [], f, false, true, 0, [], [], [], []⟩))) ∧
    (∀ n f, step L C p (.newWide i n f) = .go (p.set i (some ⟨false, [], n, [], [], f, false, true, 0, [], [], [], []⟩))) ∧
    step L C p (.new i) = .go (p.set i (some ⟨false, [], [], [], [], C.flags, false, true, 0, [], [], [], []⟩)) ∧
    (∀ j o, p.obj j = some o → step L C p (.copy j i) = .go (p.set i (some o))) ∧
    (∀ o, (p.set i o).w = p.w ∧ (p.set i o).loader = p.loader ∧ (p.set i o).obj i = o ∧ ∀ j, j ≠ i → (p.set i o).obj j = p.obj j) := by
  refine ⟨fun n f ns => ?_, fun c n f => ?_, fun n f => ?_, ?_, fun j o hj => ?_, fun o => ⟨rfl, rfl, by simp [Prog.set], fun j hj => by simp [Prog.set, hj]⟩⟩
    <;> simp [step, Prog.make, hi]
  simp [hj]

example : (start demoCfg).obj 1 = none := rfl

/-- Calls that are refused return false and change neither the library, nor the symbol
    pointers, nor the history, nor the stored paths. -/
theorem C89_refused (L : Loader) (C : Cfg) (b : Bool) (s : S) :
    (∀ h, s.w.handle = some h → ∀ n f ns, (loadArgs L n f ns s).1 = false ∧ core b (loadArgs L n f ns s).2 = core b s) ∧
    (∀ h, s.w.handle = some h → ∀ c n f, (loadConv L c n f s).1 = false ∧ core b (loadConv L c n f s).2 = core b s) ∧
    (∀ h, s.w.handle = some h → ∀ n f, (loadWide L n f s).1 = false ∧ core b (loadWide L n f s).2 = core b s) ∧
    (∀ h, s.w.handle = some h → (load L s).1 = false ∧ core b (load L s).2 = core b s) ∧
    (∀ f ns, (loadArgs L [] f ns s).1 = false ∧ core b (loadArgs L [] f ns s).2 = core b s) ∧
    (∀ c f, (loadConv L c [] f s).1 = false ∧ core b (loadConv L c [] f s).2 = core b s) ∧
    (∀ f, (loadWide L [] f s).1 = false ∧ core b (loadWide L [] f s).2 = core b s) ∧
    (s.w.handle = none → ∀ n, (loadSymbol L C n s).1 = false ∧ core b (loadSymbol L C n s).2 = core b s) ∧
    (s.w.handle = none → ∀ n, ∃ t, loadSymbolName L C n s = some (false, t) ∧ core b t = core b s) ∧
    (∀ n : Int, (n < 0 ∨ Int.ofNat C.syms.length ≤ n) → (loadSymbol L C n s).1 = false ∧ core b (loadSymbol L C n s).2 = core b s) := by
  have key : ∀ (w : Bool) (n : Str) (t : S), t.w = s.w → pathOf b t.o = pathOf b s.o → (t.w.handle ≠ none ∨ n = []) →
      (loadFilename L w n t).1 = false ∧ core b (loadFilename L w n t).2 = core b s := by
    intro w n t ht hp hd
    have hc : core b t = core b s := core_mk (by rw [ht]) (by rw [ht]) (by rw [ht]) hp
    unfold loadFilename
    dsimp only
    by_cases hl : t.w.handle = none
    · have hn : n = [] := hd.resolve_left (fun h => h hl)
      rw [if_neg (by simp [libLoaded, hl]), if_pos hn]
      exact ⟨rfl, by simp [hc]⟩
    · rw [if_pos (by
        obtain ⟨x, hx⟩ := Option.ne_none_iff_exists'.mp hl
        simp [libLoaded, clearError, hx])]
      exact ⟨rfl, by simp [hc]⟩
  have hne : ∀ {h}, s.w.handle = some h → s.w.handle ≠ none := fun h => by rw [h]; simp
  refine ⟨?_, ?_, ?_, ?_, ?_, ?_, ?_, ?_, ?_, ?_⟩
  · intro h hh n f ns
    exact key false n _ rfl (by cases b <;> rfl) (.inl (hne hh))
  · intro h hh c n f
    exact key false n _ rfl (by cases b <;> rfl) (.inl (hne hh))
  · intro h hh n f
    exact key true n _ rfl (by cases b <;> rfl) (.inl (hne hh))
  · intro h hh
    unfold load
    split
    · exact key true _ s rfl rfl (.inl (hne hh))
    · exact key false _ s rfl rfl (.inl (hne hh))
  · intro f ns
    exact key false [] _ rfl (by cases b <;> rfl) (.inr rfl)
  · intro c f
    exact key false [] _ rfl (by cases b <;> rfl) (.inr rfl)
  · intro f
    exact key true [] _ rfl (by cases b <;> rfl) (.inr rfl)
  · intro hh n
    unfold loadSymbol
    have : (clearError s).w.handle = none := hh
    simp only [this]
    exact ⟨trivial, by simp⟩
  · intro hh n
    unfold loadSymbolName
    have : (clearError s).w.handle = none := hh
    simp only [this]
    exact ⟨_, rfl, by simp⟩
  · intro n hn
    have hc : Rt.caseOf C.toCfg n = none := by
      match n with
      | .ofNat k =>
        have : C.syms.length ≤ k := by
          rcases hn with hn | hn
          · exact absurd hn (by simp)
          · exact Int.ofNat_le.mp hn
        simp [Rt.caseOf, List.getElem?_eq_none this]
      | .negSucc _ => rfl
    unfold loadSymbol
    dsimp only
    split
    · exact ⟨rfl, by simp⟩
    · simp only [hc]
      exact ⟨trivial, by simp⟩

example : (load demoLoader ⟨{ filename := str% "x", flags := 1 }, { handle := some 100 }⟩).1 = false := rfl

/-- Loading a symbol by its name does the same as loading it by its number. -/
theorem C89_name (L : Loader) (C : Cfg) (hp : Rt.PfxOk C.toCfg) (hd : C.syms.Nodup) (i : Nat) (name : Str) (hi : C.syms[i]? = some name)
    (hn : name ≠ []) (h0 : nul ∉ name) (s : S) : loadSymbolName L C (some name) s = some (loadSymbol L C i s) := by
  unfold loadSymbolName loadSymbol
  cases hx : (clearError s).w.handle with
  | none => simp only [hx]
  | some x =>
    simp only [hx, Option.getD_some]
    rw [cstr_self h0, if_neg hn, Rt.foundName_known hp.prefix hi (fun j hj hje => by
      obtain ⟨hj1, hj2⟩ := List.getElem?_eq_some_iff.mp hje
      obtain ⟨hi1, hi2⟩ := List.getElem?_eq_some_iff.mp hi
      exact List.pairwise_iff_getElem.mp hd j i hj1 hi1 hj (by rw [hj2, hi2]))]
    have hc : Rt.caseOf C.toCfg (i : Int) = some (i, name) := by
      show (C.syms[i]?).map _ = _
      rw [hi]
      rfl
    simp only [hc, Option.map_some, loadFound]

example : loadSymbolName demoLoader demoCfg (some (str% "g")) ⟨{ flags := 1 }, {}⟩ = some (loadSymbol demoLoader demoCfg 1 ⟨{ flags := 1 }, {}⟩) :=
  C89_name _ _ (.inl rfl) (by decide) 1 _ rfl (by decide) (by decide) _

/-- An unknown name, an empty one and a null pointer are refused, nothing is asked of the
    system, and the code is that for what was wrong. -/
theorem C89_unknown (L : Loader) (C : Cfg) (hp : Rt.PfxOk C.toCfg) (b : Bool) (s : S) (hx : s.w.handle ≠ none) :
    (∀ name, cstr name ∉ C.syms → cstr name ≠ [] → ∃ t, loadSymbolName L C (some name) s = some (false, t) ∧ core b t = core b s ∧
      t.o.errno = 1168 ∧ t.o.errmsg = str% "unknown symbol: " ++ cstr name) ∧
    (∀ name, name = none ∨ name = some [] → ∃ t, loadSymbolName L C name s = some (false, t) ∧ core b t = core b s ∧
      t.o.errno = 87 ∧ t.o.errmsg = str% "empty symbol name") := by
  obtain ⟨x, hx⟩ := Option.ne_none_iff_exists'.mp hx
  have hx' : (clearError s).w.handle = some x := hx
  refine ⟨fun name hm hn => ?_, fun name h => ?_⟩
  · unfold loadSymbolName
    simp only [hx', Option.getD_some]
    rw [if_neg hn, Rt.foundName_unknown hp.prefix hm]
    exact ⟨_, rfl, by simp, rfl, rfl⟩
  · have hn : cstr (name.getD []) = [] := by rcases h with rfl | rfl <;> rfl
    unfold loadSymbolName
    simp only [hx', hn]
    exact ⟨_, rfl, by simp, rfl, rfl⟩

example : ∃ t, loadSymbolName demoLoader demoCfg (some (str% "h")) ⟨{ flags := 1 }, { handle := some 100 }⟩ = some (false, t) ∧
    t.o.errmsg = str% "unknown symbol: h" := ⟨_, rfl, rfl⟩

/-- No name makes the function read behind the end of a string. -/
theorem C89_safe (L : Loader) (C : Cfg) (hp : Rt.PfxOk C.toCfg) (name : Option Str) (s : S) : loadSymbolName L C name s ≠ none := by
  unfold loadSymbolName
  cases hh : (clearError s).w.handle with
  | none => simp only [hh]; simp
  | some x =>
    simp only [hh]
    split
    · simp
    · rw [ne_eq, Option.map_eq_none_iff]
      exact Rt.foundName_safe hp.prefix _

end Gdo.CxxWin
