import Verif.Spec.Options

/-! The loop over `argv` as a recursion over the remaining arguments. -/

namespace Gdo.Opt
open Gdo Cmd

/-- A C string has no NUL bytes inside. -/
def CStr (s : Str) : Prop := '\x00' ∉ s

theorem cAt_append (s : Str) (t : Str) : cAt (s ++ t) s.length = cAt t 0 := by
  simp [cAt, List.getElem?_append_right]

/-- Length of the prefix of an argument. -/
def pfxLen (win : Bool) (w : Str) : Nat :=
  match nameOf win w with
  | none => 0
  | some (_, true) => 2
  | some (_, false) => 1

theorem iterate_eq (win : Bool) (a : Args) (w : Str) (hw : CStr w) (h : a.argv[a.iter + 1]? = some w) :
    iterate win a = some (true, { argv := a.argv, iter := a.iter + 1, current := w, pfxlen := pfxLen win w }) := by
  have hlt : a.iter + 1 < a.argv.length := by
    have := List.getElem?_eq_some_iff.mp h
    exact this.1
  have hn : ¬ (a.iter + 1 ≥ a.argv.length) := by omega
  simp only [iterate, hn, if_false, h]
  match w, hw with
  | [], _ => cases win <;> rfl
  | [x], hw =>
    by_cases h1 : x = '-'
    · subst h1; cases win <;> rfl
    · by_cases h2 : x = '/'
      · subst h2; cases win <;> rfl
      · cases win <;> simp [isShort, isLong, isSlash, cAt, pfxLen, nameOf, h1, h2]
  | [x, y], hw =>
    have hy : y ≠ '\x00' := fun e => hw (by simp [e])
    by_cases h1 : x = '-'
    · subst h1
      by_cases h3 : y = '-'
      · subst h3; cases win <;> rfl
      · cases win <;> simp [isShort, cAt, pfxLen, nameOf, h3, hy]
    · by_cases h2 : x = '/'
      · subst h2; cases win <;> simp [isShort, isLong, isSlash, cAt, pfxLen, nameOf, hy]
      · cases win <;> simp [isShort, isLong, isSlash, cAt, pfxLen, nameOf, h1, h2]
  | x :: y :: z :: t, hw =>
    have hy : y ≠ '\x00' := fun e => hw (by simp [e])
    have hz : z ≠ '\x00' := fun e => hw (by simp [e])
    by_cases h1 : x = '-'
    · subst h1
      by_cases h3 : y = '-'
      · subst h3; cases win <;> simp [isShort, isLong, cAt, pfxLen, nameOf, hz]
      · cases win <;> simp [isShort, cAt, pfxLen, nameOf, h3, hy]
    · by_cases h2 : x = '/'
      · subst h2; cases win <;> simp [isShort, isLong, isSlash, cAt, pfxLen, nameOf, hy]
      · cases win <;> simp [isShort, isLong, isSlash, cAt, pfxLen, nameOf, h1, h2]

theorem iterate_end (win : Bool) (a : Args) (h : a.argv.length ≤ a.iter + 1) :
    iterate win a = some (false, { a with iter := a.iter + 1 }) := by
  simp [iterate, h]

/-- The shape of an argument that is an option. -/
theorem nameOf_shape {win : Bool} {w n : Str} {l : Bool} (h : nameOf win w = some (n, l)) :
    n ≠ [] ∧ ((l = true ∧ w = '-' :: '-' :: n) ∨ (l = false ∧ ∃ c, w = c :: n)) := by
  unfold nameOf at h
  split at h
  · simp only [Option.some.injEq, Prod.mk.injEq] at h
    obtain ⟨rfl, rfl⟩ := h
    simp
  · simp at h
  · simp only [Option.some.injEq, Prod.mk.injEq] at h
    obtain ⟨rfl, rfl⟩ := h
    simp
  · split at h
    · simp only [Option.some.injEq, Prod.mk.injEq] at h
      obtain ⟨rfl, rfl⟩ := h
      simp
    · simp at h
  · simp at h

/-- The prefix that is shown in an error message. -/
def shownPfx (w : Str) (l : Bool) : Str :=
  if l then w.take 1 ++ (w.drop 2).take 1 else w.take 1

/-- A value must not be empty. -/
def checkL (w : Str) (l : Bool) (opt : Str) (used : Bool) (v : Str) : Except OptErr (Option (Bool × Str)) :=
  if v.isEmpty then .error (handleError (shownPfx w l) opt (str% "has an empty argument")) else .ok (some (used, v))

/-- `opt_get_arg` on the name part `n` of an option: whether the next argument was
    used, and the value. -/
def argL (win : Bool) (w n : Str) (l : Bool) (next : Option Str) (opt : Str) : Except OptErr (Option (Bool × Str)) :=
  if opt.length = 1 ∧ l = true then .ok none
  else if opt.isPrefixOf n then
    match n.drop opt.length with
    | [] =>
      match next with
      | none => .error (handleError (shownPfx w l) opt (str% "requires an argument"))
      | some v => checkL w l opt true v
    | c :: t =>
      if opt.length = 1 then checkL w l opt false (c :: t)
      else if c = '=' ∨ (win = true ∧ c = ':') then checkL w l opt false t
      else .ok none
  else .ok none

/-- The state of `opt_args` while argument `w` is looked at. -/
def At (win : Bool) (a : Args) (w n : Str) (l : Bool) (next : Option Str) : Prop :=
  nameOf win w = some (n, l) ∧ a.current = w ∧ a.pfxlen = pfxLen win w ∧ a.iter < a.argv.length ∧
    a.argv[a.iter + 1]? = next

theorem pfxLen_of {win : Bool} {w n : Str} {l : Bool} (h : nameOf win w = some (n, l)) :
    pfxLen win w = if l then 2 else 1 := by
  unfold pfxLen; rw [h]; cases l <;> rfl

theorem drop_pfx {win : Bool} {w n : Str} {l : Bool} (h : nameOf win w = some (n, l)) :
    w.drop (pfxLen win w) = n := by
  rw [pfxLen_of h]
  obtain ⟨_, h⟩ := nameOf_shape h
  rcases h with ⟨rfl, rfl⟩ | ⟨rfl, c, rfl⟩ <;> rfl

theorem argEq_eq {win : Bool} {a : Args} {w n : Str} {l : Bool} {next : Option Str} (h : At win a w n l next)
    (opt : Str) (ho : opt ≠ []) : argEq a opt = (n == opt) := by
  obtain ⟨h1, h2, h3, _, _⟩ := h
  have hp : pfxLen win w ≠ 0 := by rw [pfxLen_of h1]; cases l <;> simp
  unfold argEq
  rw [h3, h2, drop_pfx h1]
  simp [ho, hp]

/-- The state after `opt_get_arg`. -/
def after (a : Args) : Option (Bool × Str) → Option Str × Args
  | none => (none, a)
  | some (used, v) => (some v, { a with iter := a.iter + used.toNat })

theorem cAt_one (opt : Str) (ho : opt ≠ []) (hc : CStr opt) : ∃ c, cAt opt 1 = some c ∧ (c = '\x00' ↔ opt.length = 1) := by
  match opt, ho with
  | [x], _ => exact ⟨'\x00', rfl, by simp⟩
  | x :: y :: r, _ => exact ⟨y, rfl, by
      have : y ≠ '\x00' := fun e => hc (by simp [e])
      simp [this]⟩

theorem getArg_eq {win : Bool} {a : Args} {w n : Str} {l : Bool} {next : Option Str} (h : At win a w n l next)
    (hw : CStr w) (opt : Str) (ho : opt ≠ []) (hc : CStr opt) :
    getArg win a opt = some ((argL win w n l next opt).map (after a)) := by
  obtain ⟨h1, h2, h3, h4, h5⟩ := h
  have hp : pfxLen win w ≠ 0 := by rw [pfxLen_of h1]; cases l <;> simp
  obtain ⟨d, hd, hd'⟩ := cAt_one opt ho hc
  have hsplit : skipPrefix a = some (shownPfx w l, n) := by
    unfold skipPrefix
    rw [h3, h2, pfxLen_of h1]
    obtain ⟨hn, hs⟩ := nameOf_shape h1
    rcases hs with ⟨rfl, rfl⟩ | ⟨rfl, c, rfl⟩
    · match n, hn with
      | x :: r, _ => rfl
    · rfl
  have hs := (nameOf_shape h1).2
  have hguard : (opt.isEmpty || decide (a.pfxlen = 0)) = false := by
    rw [h3]; simp [ho, hp]
  have hstep : getArg win a opt =
      if opt.length = 1 ∧ l = true then some (.ok (none, a)) else matchArg win a opt (shownPfx w l) n := by
    unfold getArg
    rw [if_neg (by simp [hguard]), hd, hsplit]
    simp only [bind, Option.bind, pure]
    have : (d = '\x00' ∧ a.pfxlen ≠ 1) ↔ (opt.length = 1 ∧ l = true) := by
      rw [hd', h3, pfxLen_of h1]; cases l <;> simp
    by_cases hsl : opt.length = 1 ∧ l = true
    · rw [if_pos hsl, if_pos (this.mpr hsl)]
    · rw [if_neg hsl, if_neg (fun h => hsl (this.mp h))]
  rw [hstep]
  unfold argL matchArg
  by_cases hsl : opt.length = 1 ∧ l = true
  · simp [hsl, Except.map, after]
  · rw [if_neg hsl, if_neg hsl]
    by_cases hpre : opt.isPrefixOf n = true
    · simp only [hpre, if_true]
      obtain ⟨t, rfl⟩ := List.isPrefixOf_iff_prefix.mp hpre
      have hcn : CStr (opt ++ t) := by
        rcases hs with ⟨-, rfl⟩ | ⟨-, c, rfl⟩
        · intro hx; exact hw (List.mem_cons_of_mem _ (List.mem_cons_of_mem _ hx))
        · intro hx; exact hw (List.mem_cons_of_mem _ hx)
      rw [cAt_append]
      simp only [List.drop_left]
      match t, hcn with
      | [], _ =>
        simp only [cAt, List.nil_append, List.getElem?_cons_zero, if_true, bind, Option.bind, pure]
        cases next with
        | none =>
          have : a.iter + 1 ≥ a.argv.length := List.getElem?_eq_none_iff.mp h5
          rw [if_pos this]; rfl
        | some v =>
          have : ¬ (a.iter + 1 ≥ a.argv.length) := by
            have := (List.getElem?_eq_some_iff.mp h5).1
            omega
          rw [if_neg this, h5]
          simp only [checkL, checkValue]
          by_cases hv : v.isEmpty <;> simp [hv, Except.map, after]
      | c :: t, hcn =>
        have hc0 : c ≠ '\x00' := fun e => hcn (by simp [e])
        have hdrop : (opt ++ c :: t).drop (opt.length + 1) = t := by
          rw [← List.drop_drop]; simp
        simp only [cAt, List.cons_append, List.getElem?_cons_zero, hc0, if_false, hdrop, checkL, checkValue, bind,
          Option.bind, pure]
        by_cases hl : opt.length = 1
        · simp [hl, Except.map, after]
        · simp only [hl, if_false]
          by_cases e1 : c = '='
          · subst e1
            cases t <;> simp [Except.map, after]
          · by_cases e2 : win = true ∧ c = ':'
            · rw [if_neg e1, if_pos e2, if_pos (Or.inr e2)]
              cases t <;> simp [Except.map, after]
            · rw [if_neg e1, if_neg e2, if_neg (by simp only [e1, e2, or_self, not_false_iff])]
              rfl
    · simp only [hpre]
      simp [Except.map, after]

/-- The name of a branch. -/
def Handler.name : Handler → Str
  | .flag n _ => n
  | .arg n _ => n

/-- `dispatch` on the name part of an option. -/
def dispatchL (win : Bool) (w n : Str) (l : Bool) (next : Option Str) (s : Settings) :
    List Handler → Except Stop (Bool × Settings)
  | [] => .error (.error (.unknown w))
  | .flag name f :: r => if n == name then (f s).map fun s => (false, s) else dispatchL win w n l next s r
  | .arg name f :: r =>
    match argL win w n l next name with
    | .error e => .error (.error e)
    | .ok (some (used, v)) => (f v s).map fun s => (used, s)
    | .ok none => dispatchL win w n l next s r

theorem dispatch_eq {win : Bool} {a : Args} {w n : Str} {l : Bool} {next : Option Str} (h : At win a w n l next)
    (hw : CStr w) (s : Settings) (hs : List Handler) (hn : ∀ x ∈ hs, x.name ≠ [] ∧ CStr x.name) :
    dispatch win a s hs =
      some ((dispatchL win w n l next s hs).map fun r => ({ a with iter := a.iter + r.1.toNat }, r.2)) := by
  induction hs with
  | nil => simp [dispatch, dispatchL, Except.map, h.2.1]
  | cons x r ih =>
    have ih := ih fun x hx => hn x (List.mem_cons_of_mem _ hx)
    have hx := hn x List.mem_cons_self
    cases x with
    | flag name f =>
      simp only [dispatch, dispatchL, argEq_eq h name hx.1]
      split
      · cases f s <;> simp [Except.map]
      · exact ih
    | arg name f =>
      simp only [dispatch, dispatchL, getArg_eq h hw name hx.1 hx.2, bind, Option.bind]
      cases argL win w n l next name with
      | error e => simp [Except.map]
      | ok o =>
        cases o with
        | none => simpa [Except.map, after] using ih
        | some p =>
          simp only [Except.map, after]
          cases f p.2 s <;> simp [Except.map]

theorem handlers_names : ∀ x ∈ handlers, x.name ≠ [] ∧ CStr x.name := by
  intro x hx
  simp only [handlers, List.mem_cons, List.not_mem_nil, or_false] at hx
  unfold CStr
  rcases hx with rfl|rfl|rfl|rfl|rfl|rfl|rfl|rfl|rfl|rfl|rfl|rfl|rfl|rfl|rfl|rfl|rfl|rfl|rfl|rfl|rfl|rfl|rfl|rfl <;>
    (dsimp only [Handler.name]; decide)

/-- The loop over the remaining arguments. -/
def loopL (win : Bool) : List Str → Settings → Option Str → List Str → Outcome
  | [], s, i, ws => finish s i ws
  | w :: rest, s, i, ws =>
    match nameOf win w with
    | none =>
      match i with
      | none => loopL win rest s (some w) ws
      | some x => loopL win rest s (some x) (ws ++ [w])
    | some (n, l) =>
      match dispatchL win w n l rest.head? s handlers with
      | .error e => .stop e
      | .ok (false, s) => loopL win rest s i ws
      | .ok (true, s) =>
        match rest with
        | [] => finish s i ws
        | _ :: r => loopL win r s i ws

theorem loopL_none {win : Bool} {w : Str} {rest : List Str} (h : nameOf win w = none) (s : Settings) (i : Option Str)
    (ws : List Str) :
    loopL win (w :: rest) s i ws =
      match i with
      | none => loopL win rest s (some w) ws
      | some x => loopL win rest s (some x) (ws ++ [w]) := by
  rw [loopL.eq_def]; simp only [h]

theorem loopL_error {win : Bool} {w n : Str} {l : Bool} {rest : List Str} {s : Settings} {e : Stop}
    (h : nameOf win w = some (n, l)) (hd : dispatchL win w n l rest.head? s handlers = .error e)
    (i : Option Str) (ws : List Str) : loopL win (w :: rest) s i ws = .stop e := by
  rw [loopL.eq_def]; simp only [h, hd]

theorem loopL_one {win : Bool} {w n : Str} {l : Bool} {rest : List Str} {s s' : Settings}
    (h : nameOf win w = some (n, l)) (hd : dispatchL win w n l rest.head? s handlers = .ok (false, s'))
    (i : Option Str) (ws : List Str) : loopL win (w :: rest) s i ws = loopL win rest s' i ws := by
  rw [loopL.eq_def]; simp only [h, hd]

theorem loopL_two {win : Bool} {w n : Str} {l : Bool} {rest : List Str} {s s' : Settings}
    (h : nameOf win w = some (n, l)) (hd : dispatchL win w n l rest.head? s handlers = .ok (true, s'))
    (i : Option Str) (ws : List Str) : loopL win (w :: rest) s i ws = loopL win rest.tail s' i ws := by
  rw [loopL.eq_def]; simp only [h, hd]
  cases rest with
  | nil => simp [loopL]
  | cons v r => rfl

theorem loop_eq (win : Bool) (rest : List Str) : ∀ (n : Nat) (a : Args) (s : Settings) (i : Option Str) (ws : List Str),
    (∀ w ∈ rest, CStr w) → a.argv.drop (a.iter + 1) = rest → rest.length < n →
    loop win n a s i ws = some (some (loopL win rest s i ws)) := by
  induction hk : rest.length using Nat.strongRecOn generalizing rest with
  | ind k ih =>
    intro n a s i ws hc hd hn
    obtain ⟨n, rfl⟩ : ∃ m, n = m + 1 := ⟨n - 1, by omega⟩
    cases rest with
    | nil =>
      have : a.argv.length ≤ a.iter + 1 := by
        have := congrArg List.length hd
        simp at this; omega
      simp [loop, iterate_end win a this, loopL]
    | cons w rest =>
      have hw : a.argv[a.iter + 1]? = some w := by
        have := congrArg List.head? hd
        simpa [List.head?_drop] using this
      have hrest : a.argv.drop (a.iter + 1 + 1) = rest := by
        rw [← List.drop_drop, hd]; rfl
      have hcw : CStr w := hc w List.mem_cons_self
      have hcr : ∀ x ∈ rest, CStr x := fun x hx => hc x (List.mem_cons_of_mem _ hx)
      simp only [List.length_cons] at hk hn
      simp only [loop, iterate_eq win a w hcw hw, bind, Option.bind]
      simp only [Bool.not_true, Bool.false_eq_true, if_false]
      cases hnm : nameOf win w with
      | none =>
        have : pfxLen win w = 0 := by simp [pfxLen, hnm]
        simp only [this, if_true, loopL_none hnm]
        cases i with
        | none => exact ih rest.length (by omega) rest rfl n ⟨a.argv, a.iter + 1, w, 0⟩ _ _ _ hcr hrest (by omega)
        | some x => exact ih rest.length (by omega) rest rfl n ⟨a.argv, a.iter + 1, w, 0⟩ _ _ _ hcr hrest (by omega)
      | some p =>
        obtain ⟨nm, l⟩ := p
        have hp : pfxLen win w ≠ 0 := by rw [pfxLen_of hnm]; cases l <;> simp
        simp only [hp, if_false]
        have hat : At win ⟨a.argv, a.iter + 1, w, pfxLen win w⟩ w nm l rest.head? := by
          refine ⟨hnm, rfl, rfl, (List.getElem?_eq_some_iff.mp hw).1, ?_⟩
          rw [← hrest, List.head?_drop]
        rw [dispatch_eq hat hcw s handlers handlers_names]
        cases hdl : dispatchL win w nm l rest.head? s handlers with
        | error e => rw [loopL_error hnm hdl]; rfl
        | ok r =>
          obtain ⟨used, s'⟩ := r
          simp only [Except.map]
          cases used with
          | false =>
            rw [loopL_one hnm hdl]
            exact ih rest.length (by omega) rest rfl n ⟨a.argv, a.iter + 1, w, pfxLen win w⟩ _ _ _ hcr hrest (by omega)
          | true =>
            rw [loopL_two hnm hdl]
            have ht : a.argv.drop (a.iter + 1 + 1 + 1) = rest.tail := by
              rw [← List.drop_drop, hrest, List.drop_one]
            have hl : rest.tail.length ≤ rest.length := by simp
            exact ih rest.tail.length (by omega) rest.tail rfl n ⟨a.argv, a.iter + 1 + 1, w, pfxLen win w⟩ _ _ _
              (fun x hx => hcr x (List.mem_of_mem_tail hx)) ht (by omega)

theorem parseCmdline_eq (win : Bool) (prog : Str) (args : List Str) (hc : ∀ w ∈ args, CStr w) :
    parseCmdline win (prog :: args) = some (some (loopL win args {} none [])) :=
  loop_eq win args _ _ _ _ _ hc rfl (by simp; omega)

end Gdo.Opt
