import Verif.Lemmas.SubstituteLine

/-!
Lemmas about the sequence of replacements made for a symbol.
-/

namespace Gdo.Sub
open Gdo Tpl Tmpl

/-- The replacements of one keyword with value `v`; `e`: a blank behind it is left
    out. -/
def keyPasses (k v : Str) (e : Bool) : List (Str × Str) :=
  (if e then [(str% "%%" ++ k ++ str% "%% ", v)] else []) ++ [(str% "%%" ++ k ++ str% "%%", v)]

/-- A keyword with its value. -/
structure Key where
  name : Str
  value : Str
  eat : Bool

/-- The key is a proper keyword with a value without percent signs. -/
structure Key.Ok (val : Values) (k : Key) : Prop where
  ne : k.name ≠ []
  chars : ∀ c ∈ k.name, isNameChar c = true
  value : '%' ∉ k.value
  val : val k.name = some (k.value, k.eat)

theorem replaceSeq_append (n : Nat) (a b : List (Str × Str)) (s : Str) :
    replaceSeq n (a ++ b) s = (replaceSeq n a s).bind (replaceSeq n b) := by
  induction a generalizing s with
  | nil => rfl
  | cons q a ih =>
    obtain ⟨src, dst⟩ := q
    rw [List.cons_append, replaceSeq, replaceSeq]
    cases replaceN n src dst s with
    | error x => rfl
    | ok t => exact ih t

/-- The replacements of one keyword. -/
theorem key_spec (val : Values) (key : Key) (hk : key.Ok val) (ps : List Item) (hw : WellFormed ps) (n : Nat)
    (hn : ∀ k, countKw k ps < n) :
    ∃ ps', replaceSeq n (keyPasses key.name key.value key.eat) (source ps) = .ok (source ps') ∧ WellFormed ps' ∧
      replaceAll val false ps' = replaceAll val false ps ∧ .kw key.name ∉ ps' ∧ (∀ k', countKw k' ps' ≤ countKw k' ps) := by
  obtain ⟨k, v, e⟩ := key
  have hval : val k = some (v, e) := hk.val
  cases e with
  | false =>
    obtain ⟨ps', h1, h2, h3, h4, h5⟩ := pass_plain val k v false hk.ne hk.chars hk.value hval ps hw (by simp) n (hn k)
    refine ⟨ps', ?_, h2, h3, h4, h5⟩
    simp only [keyPasses, Bool.false_eq_true, if_false, List.nil_append, replaceSeq, replaceN]
    rw [h1]
    rfl
  | true =>
    obtain ⟨ps1, h1, h2, h3, h4, h5⟩ := pass_blank val k v hk.ne hk.chars hk.value hval ps hw n (hn k)
    obtain ⟨ps', g1, g2, g3, g4, g5⟩ := pass_plain val k v true hk.ne hk.chars hk.value hval ps1 h2 (fun _ => h4) n
      (Nat.lt_of_le_of_lt (h5 k) (hn k))
    refine ⟨ps', ?_, g2, g3.trans h3, g4, fun k' => Nat.le_trans (g5 k') (h5 k')⟩
    simp only [keyPasses, if_true, List.cons_append, List.nil_append, replaceSeq, replaceN]
    simp only [List.cons_append, List.nil_append] at h1 g1
    rw [h1]
    simp only [bind, Except.bind]
    rw [g1]

/-- The replacements of several keywords. -/
theorem keys_spec (val : Values) (keys : List Key) (hk : ∀ k ∈ keys, k.Ok val) (ps : List Item) (hw : WellFormed ps) (n : Nat)
    (hn : ∀ k, countKw k ps < n) :
    ∃ ps', replaceSeq n (keys.flatMap fun k => keyPasses k.name k.value k.eat) (source ps) = .ok (source ps') ∧
      replaceAll val false ps' = replaceAll val false ps ∧ (∀ k ∈ keys, .kw k.name ∉ ps') ∧
      (∀ k', countKw k' ps' ≤ countKw k' ps) := by
  induction keys generalizing ps with
  | nil => exact ⟨ps, rfl, rfl, by simp, fun _ => Nat.le_refl _⟩
  | cons key keys ih =>
    obtain ⟨ps1, h1, h2, h3, h4, h5⟩ := key_spec val key (hk key (by simp)) ps hw n hn
    obtain ⟨ps', g1, g2, g3, g4⟩ := ih (fun k hk' => hk k (by simp [hk'])) ps1 h2 (fun k => Nat.lt_of_le_of_lt (h5 k) (hn k))
    refine ⟨ps', ?_, g2.trans h3, ?_, fun k' => Nat.le_trans (g4 k') (h5 k')⟩
    · rw [List.flatMap_cons, replaceSeq_append, h1]
      exact g1
    · intro k hk'
      rw [List.mem_cons] at hk'
      rcases hk' with rfl | hk'
      · intro hm
        have := g4 k.name
        have h0 : countKw k.name ps1 = 0 := List.count_eq_zero.mpr h4
        have h1 : 0 < countKw k.name ps' := List.count_pos_iff.mpr hm
        omega
      · exact g3 k hk'

/-- All keywords replaced after each other is the same as all at once. -/
theorem keys_all (val : Values) (keys : List Key) (hk : ∀ k ∈ keys, k.Ok val) (ps : List Item) (hw : WellFormed ps)
    (hall : ∀ k, .kw k ∈ ps → val k ≠ none → ∃ key ∈ keys, key.name = k) (n : Nat) (hn : ps.length < n) :
    replaceSeq n (keys.flatMap fun k => keyPasses k.name k.value k.eat) (source ps) = .ok (replaceAll val false ps) := by
  obtain ⟨ps', h1, h2, h3, h4⟩ := keys_spec val keys hk ps hw n (fun k => Nat.lt_of_le_of_lt (List.count_le_length) hn)
  rw [h1, ← h2, replaceAll_none]
  intro k hk'
  cases hv : val k with
  | none => rfl
  | some x =>
    have hin : .kw k ∈ ps := by
      have h5 : 0 < countKw k ps' := List.count_pos_iff.mpr hk'
      have := h4 k
      exact List.count_pos_iff.mp (by unfold countKw at this h5; omega)
    obtain ⟨key, hkey, rfl⟩ := hall k hin (by simp [hv])
    exact absurd hk' (h3 key hkey)

/-! ### The data of symbols -/

/-- The data of a symbol are plain text: no percent signs and NUL bytes. -/
structure PlainData (p : Proto) : Prop where
  type : '%' ∉ p.type ∧ '\x00' ∉ p.type
  symbol : '%' ∉ p.symbol ∧ p.symbol ≠ []
  args : '%' ∉ p.args
  names : '%' ∉ p.paramNames

theorem endsStar_eq (s : Str) : endsStar s = isPointer s := by
  unfold endsStar isPointer
  rw [Bool.eq_iff_iff, List.isSuffixOf_iff_suffix, beq_iff_eq]
  constructor
  · rintro ⟨t, rfl⟩; simp
  · intro h
    rw [List.getLast?_eq_some_iff] at h
    obtain ⟨t, rfl⟩ := h
    exact ⟨t, rfl⟩

theorem cstr_eq {s : Str} (h : '\x00' ∉ s) : cstr s = s := by
  unfold cstr
  induction s with
  | nil => rfl
  | cons c s ih =>
    have hc : c ≠ '\x00' := by rintro rfl; simp at h
    rw [List.takeWhile_cons, if_pos (by simpa using hc), ih (fun hm => h (by simp [hm]))]

theorem void_eq {t : Str} (h : '\x00' ∉ t) : eqCase (cstr t) (str% "void") = isVoid t := by
  rw [cstr_eq h]
  unfold eqCase isVoid
  have : (str% "void").map toLowerC = str% "void" := by decide
  rw [this]

theorem longestSymbol_eq (v : List Proto) : longestSymbol v = width v := by
  have : ∀ (v : List Proto) (m : Nat), v.foldl (fun m p => max m p.symbol.length) m = max m (width v) := by
    intro v
    induction v with
    | nil => intro m; simp [width]
    | cons p v ih => intro m; rw [List.foldl_cons, ih, width]; omega
  unfold longestSymbol
  rw [this]
  omega

theorem width_pos {v : List Proto} {p : Proto} (hp : p ∈ v) (h : p.symbol ≠ []) : 0 < width v := by
  induction v with
  | nil => simp at hp
  | cons q v ih =>
    rw [width]
    rw [List.mem_cons] at hp
    rcases hp with rfl | hp
    · have := List.length_pos_iff.mpr h; omega
    · have := ih hp; omega

theorem fill_percent {s : Str} (h : '%' ∉ s) (w : Nat) : '%' ∉ fill w s := by
  unfold fill
  simp only [List.mem_append, List.mem_replicate, not_or]
  exact ⟨h, by simp⟩

/-- The keys of a function. -/
def functionKeys (w : Nat) (pad : Bool) (p : Proto) : List Key :=
  [if isVoid p.type then ⟨str% "return", [], true⟩ else ⟨str% "return", str% "return", false⟩,
   ⟨str% "type", p.type, isPointer p.type⟩, ⟨str% "func_symbol", p.symbol, false⟩, ⟨str% "args", p.args, false⟩,
   ⟨str% "param_names", p.paramNames, false⟩] ++
  (if pad then [⟨str% "func_symbol_pad", fill w p.symbol, false⟩] else [])

theorem functionPasses_eq (w : Nat) (p : Proto) (hp : PlainData p) :
    functionPasses w p = (functionKeys w (0 < w) p).flatMap fun k => keyPasses k.name k.value k.eat := by
  unfold functionPasses functionKeys
  rw [void_eq hp.type.2, endsStar_eq]
  cases isVoid p.type <;> cases isPointer p.type <;> by_cases hw : 0 < w <;>
    simp [hw, keyPasses, padded, fill]

theorem functionKeys_ok (w : Nat) (pad : Bool) (p : Proto) (hp : PlainData p) :
    ∀ k ∈ functionKeys w pad p, k.Ok (functionValues w p) := by
  intro k hk
  unfold functionKeys at hk
  simp only [List.cons_append, List.nil_append, List.mem_cons] at hk
  rcases hk with rfl | rfl | rfl | rfl | rfl | hk
  · split
    · rename_i h
      exact ⟨by simp, by decide, by simp, by simp [functionValues, h]⟩
    · rename_i h
      exact ⟨by simp, by decide, by simp, by simp [functionValues, h]⟩
  · exact ⟨by simp, by dsimp only; decide, hp.type.1, by simp [functionValues]⟩
  · exact ⟨by simp, by dsimp only; decide, hp.symbol.1, by simp [functionValues]⟩
  · exact ⟨by simp, by dsimp only; decide, hp.args, by simp [functionValues]⟩
  · exact ⟨by simp, by dsimp only; decide, hp.names, by simp [functionValues]⟩
  · cases pad with
    | false => simp at hk
    | true =>
      simp at hk
      subst hk
      exact ⟨by simp, by dsimp only; decide, fill_percent hp.symbol.1 w, by simp [functionValues]⟩

theorem function_seq (w : Nat) (p : Proto) (hp : PlainData p) (ps : List Item) (hw : WellFormed ps) (w' : Nat)
    (hw' : .kw (str% "func_symbol_pad") ∈ ps → w' = w ∧ 0 < w) (n : Nat) (hn : ps.length < n) :
    replaceSeq n (functionPasses w' p) (source ps) = .ok (replaceAll (functionValues w p) false ps) := by
  by_cases hpad : .kw (str% "func_symbol_pad") ∈ ps
  · obtain ⟨rfl, hpos⟩ := hw' hpad
    rw [functionPasses_eq w' p hp]
    apply keys_all _ _ (functionKeys_ok w' _ p hp) ps hw _ n hn
    intro k _ hv
    unfold functionValues at hv
    simp only [hpos, functionKeys, decide_true, if_true]
    split at hv
    · rename_i h; exact ⟨_, List.mem_append_left _ List.mem_cons_self, by rw [h]; split <;> rfl⟩
    · split at hv
      · rename_i h; exact ⟨⟨str% "type", p.type, isPointer p.type⟩, by simp, h.symm⟩
      · split at hv
        · rename_i h; exact ⟨⟨str% "func_symbol", p.symbol, false⟩, by simp, h.symm⟩
        · split at hv
          · rename_i h; exact ⟨⟨str% "func_symbol_pad", fill w' p.symbol, false⟩, by simp, h.symm⟩
          · split at hv
            · rename_i h; exact ⟨⟨str% "args", p.args, false⟩, by simp, h.symm⟩
            · split at hv
              · rename_i h; exact ⟨⟨str% "param_names", p.paramNames, false⟩, by simp, h.symm⟩
              · simp at hv
  · -- the padded symbol does not occur: its replacement does nothing
    have hval : ∀ k, .kw k ∈ ps → functionValues w p k = functionValues w' p k := by
      intro k hk
      unfold functionValues
      have : k ≠ str% "func_symbol_pad" := by rintro rfl; exact hpad hk
      rw [if_neg this, if_neg this]
    have heq : ∀ (e : Bool) (qs : List Item), (∀ k, .kw k ∈ qs → functionValues w p k = functionValues w' p k) →
        replaceAll (functionValues w p) e qs = replaceAll (functionValues w' p) e qs := by
      intro e qs
      induction qs generalizing e with
      | nil => intro _; rfl
      | cons q qs ih =>
        intro h
        have ih := fun e => ih e (fun k hk => h k (by simp [hk]))
        cases q with
        | ch c => rw [replaceAll, replaceAll, ih]
        | kw k =>
          rw [replaceAll, replaceAll, h k (by simp)]
          cases functionValues w' p k with
          | none => simp only; rw [ih]
          | some x => obtain ⟨v, e'⟩ := x; simp only; rw [ih]
    rw [heq false ps hval, functionPasses_eq w' p hp]
    apply keys_all _ _ (functionKeys_ok w' _ p hp) ps hw _ n hn
    intro k hk hv
    have hne : k ≠ str% "func_symbol_pad" := by rintro rfl; exact hpad hk
    unfold functionValues at hv
    unfold functionKeys
    split at hv
    · rename_i h; exact ⟨_, List.mem_append_left _ List.mem_cons_self, by rw [h]; split <;> rfl⟩
    · split at hv
      · rename_i h; exact ⟨⟨str% "type", p.type, isPointer p.type⟩, by simp, h.symm⟩
      · split at hv
        · rename_i h; exact ⟨⟨str% "func_symbol", p.symbol, false⟩, by simp, h.symm⟩
        · split at hv
          · rename_i h; exact ⟨⟨str% "args", p.args, false⟩, by simp, h.symm⟩
          · split at hv
            · rename_i h; exact ⟨⟨str% "param_names", p.paramNames, false⟩, by simp, h.symm⟩
            · simp at hv

/-- The keys of an object. -/
def objectKeys (w : Nat) (pad : Bool) (p : Proto) : List Key :=
  [⟨str% "obj_type", p.type, isPointer p.type⟩, ⟨str% "obj_symbol", p.symbol, false⟩] ++
  (if pad then [⟨str% "obj_symbol_pad", fill w p.symbol, false⟩] else [])

theorem objectPasses_eq (w : Nat) (p : Proto) :
    objectPasses w p = (objectKeys w (0 < w) p).flatMap fun k => keyPasses k.name k.value k.eat := by
  unfold objectPasses objectKeys
  rw [endsStar_eq]
  cases isPointer p.type <;> by_cases hw : 0 < w <;> simp [hw, keyPasses, padded, fill]

theorem objectKeys_ok (w : Nat) (pad : Bool) (p : Proto) (hp : PlainData p) :
    ∀ k ∈ objectKeys w pad p, k.Ok (objectValues w p) := by
  intro k hk
  unfold objectKeys at hk
  simp only [List.cons_append, List.nil_append, List.mem_cons] at hk
  rcases hk with rfl | rfl | hk
  · exact ⟨by simp, by dsimp only; decide, hp.type.1, by simp [objectValues]⟩
  · exact ⟨by simp, by dsimp only; decide, hp.symbol.1, by simp [objectValues]⟩
  · cases pad with
    | false => simp at hk
    | true =>
      simp at hk
      subst hk
      exact ⟨by simp, by dsimp only; decide, fill_percent hp.symbol.1 w, by simp [objectValues]⟩

theorem object_seq (w : Nat) (p : Proto) (hp : PlainData p) (ps : List Item) (hw : WellFormed ps) (w' : Nat)
    (hw' : .kw (str% "obj_symbol_pad") ∈ ps → w' = w ∧ 0 < w) (n : Nat) (hn : ps.length < n) :
    replaceSeq n (objectPasses w' p) (source ps) = .ok (replaceAll (objectValues w p) false ps) := by
  by_cases hpad : .kw (str% "obj_symbol_pad") ∈ ps
  · obtain ⟨rfl, hpos⟩ := hw' hpad
    rw [objectPasses_eq w' p]
    apply keys_all _ _ (objectKeys_ok w' _ p hp) ps hw _ n hn
    intro k _ hv
    unfold objectValues at hv
    simp only [hpos, objectKeys, decide_true, if_true]
    split at hv
    · rename_i h; exact ⟨⟨str% "obj_type", p.type, isPointer p.type⟩, by simp, h.symm⟩
    · split at hv
      · rename_i h; exact ⟨⟨str% "obj_symbol", p.symbol, false⟩, by simp, h.symm⟩
      · split at hv
        · rename_i h; exact ⟨⟨str% "obj_symbol_pad", fill w' p.symbol, false⟩, by simp, h.symm⟩
        · simp at hv
  · have hval : ∀ k, .kw k ∈ ps → objectValues w p k = objectValues w' p k := by
      intro k hk
      unfold objectValues
      have : k ≠ str% "obj_symbol_pad" := by rintro rfl; exact hpad hk
      rw [if_neg this, if_neg this]
    have heq : ∀ (e : Bool) (qs : List Item), (∀ k, .kw k ∈ qs → objectValues w p k = objectValues w' p k) →
        replaceAll (objectValues w p) e qs = replaceAll (objectValues w' p) e qs := by
      intro e qs
      induction qs generalizing e with
      | nil => intro _; rfl
      | cons q qs ih =>
        intro h
        have ih := fun e => ih e (fun k hk => h k (by simp [hk]))
        cases q with
        | ch c => rw [replaceAll, replaceAll, ih]
        | kw k =>
          rw [replaceAll, replaceAll, h k (by simp)]
          cases objectValues w' p k with
          | none => simp only; rw [ih]
          | some x => obtain ⟨v, e'⟩ := x; simp only; rw [ih]
    rw [heq false ps hval, objectPasses_eq w' p]
    apply keys_all _ _ (objectKeys_ok w' _ p hp) ps hw _ n hn
    intro k hk hv
    have hne : k ≠ str% "obj_symbol_pad" := by rintro rfl; exact hpad hk
    unfold objectValues at hv
    unfold objectKeys
    split at hv
    · rename_i h; exact ⟨⟨str% "obj_type", p.type, isPointer p.type⟩, by simp, h.symm⟩
    · split at hv
      · rename_i h; exact ⟨⟨str% "obj_symbol", p.symbol, false⟩, by simp, h.symm⟩
      · simp at hv

theorem symbol_seq (type symbol : Str) (ht : '%' ∉ type) (hs : '%' ∉ symbol) (ps : List Item) (hw : WellFormed ps)
    (n : Nat) (hn : ps.length < n) :
    replaceSeq n (symbolPasses type symbol) (source ps) = .ok (replaceAll (symbolValues type symbol) false ps) := by
  have := keys_all (symbolValues type symbol) [⟨str% "sym_type", type, false⟩, ⟨str% "symbol", symbol, false⟩] (by
    intro k hk
    simp only [List.mem_cons, List.not_mem_nil, or_false] at hk
    rcases hk with rfl | rfl
    · exact ⟨by simp, by dsimp only; decide, ht, by simp [symbolValues]⟩
    · exact ⟨by simp, by dsimp only; decide, hs, by simp [symbolValues]⟩) ps hw (by
    intro k _ hv
    unfold symbolValues at hv
    split at hv
    · rename_i h; exact ⟨⟨str% "sym_type", type, false⟩, by simp, h.symm⟩
    · split at hv
      · rename_i h; exact ⟨⟨str% "symbol", symbol, false⟩, by simp, h.symm⟩
      · simp at hv) n hn
  simpa [keyPasses, symbolPasses] using this

theorem functionSymType_eq (p : Proto) : functionSymType p = functionPointer p := by
  unfold functionSymType functionPointer
  rw [endsStar_eq]
  cases isPointer p.type <;> simp

theorem objectSymType_eq (p : Proto) : objectSymType p = objectPointer p := by
  unfold objectSymType objectPointer
  rw [endsStar_eq]
  cases isPointer p.type <;> simp

end Gdo.Sub
