import Verif.Lemmas.CWinHeap

/-!
Lemmas: executing the functions of the generated C code for Windows that load a library.
-/

set_option maxRecDepth 10000

namespace Gdo.Cc.W
open Gdo Tmpl Win Rename
open Gdo.Rt (Ptr Ev)

/-! ### Statements -/

theorem exec_decl {K : Ctx σ} {ty : List STok} {x : Str} {e : Expr} {m m1 m' : M σ} {v : V} (he : e.eval K m = .ok v m1)
    (hd : declare [(x, some v)] m1 = .ok () m') : (Stmt.decl ty x [] (some e) []).exec K m = .ok .next m' := by
  simp [Stmt.exec, he, R.bind, hd]

theorem exec_set {K : Ctx σ} {a b : Expr} {m m1 m' : M σ} {lv : Lv} {v v' : V} (ha : a.lval K m = .ok lv m) (he : b.eval K m = .ok v m1)
    (hd : store K.S lv v m1 = .ok v' m') : (Stmt.expr (.assign a b)).exec K m = .ok .next m' := by
  simp [Stmt.exec, Expr.eval, ha, he, R.bind, hd]

theorem set_handle (p : Option Ptr) (s : St) (hp : List Block) (fr : List Frame) :
    store (sem u l L c) (.member (str% "handle")) (.ofPtr p) ⟨⟨s, hp⟩, fr⟩ = .ok (.ofPtr p) ⟨⟨{ s with handle := p }, hp⟩, fr⟩ := by
  cases p <;> rfl

section
variable (u l : Str) (L : Loader) (c : Cfg) (B : Nat) (isFn : Str → Bool) (other : Str → List V → M World → R World V) (lim : Nat) (I : Insts)

theorem sysLoad_text {a : V} {m : M World} {name : Str} (f : Int) (h : text m.g a = some name) :
    sysLoad L [a, .null, .int f] m = .ok (.ofPtr (callLoad L name f m.g.s).1) { m with g := { m.g with s := (callLoad L name f m.g.s).2 } } := by
  have e : sysLoad L [a, .null, .int f] m = match text m.g a with
    | some name => .ok (.ofPtr (callLoad L name f m.g.s).1) { m with g := { m.g with s := (callLoad L name f m.g.s).2 } }
    | none => .ub := rfl
  rw [e, h]

/-! ### `_gdo_load_library_ex` -/

/-- The frame of `_gdo_load_library_ex`. -/
def exFrame (v : V) (f : Int) (more : List (Str × Option V)) : Frame :=
  ⟨str% "_gdo_load_library_ex", more ++ [(str% "filename", some v), (str% "flags", some (.int f))]⟩

theorem eval_wcs (v : V) (f : Int) (t : Str) (s : St) (hp : List Block) (fr : List Frame) (hb : (!c.wide && c.convert) = true) (h : nameOf hp v = some t) :
    (Expr.call (.fixed (str% "_gdo_mbstowcs")) [.id (.fixed (str% "filename"))]).eval (kctx u l L c B isFn other lim 1) ⟨⟨s, hp⟩, exFrame v f [] :: fr⟩ =
      widened L t ⟨⟨s, hp⟩, exFrame v f [] :: fr⟩ := by
  have key : ∀ v, nameOf hp v = some t → (kctx u l L c B isFn other lim 1).call (str% "_gdo_mbstowcs") [v] ⟨⟨s, hp⟩, exFrame v f [] :: fr⟩ =
      widened L t ⟨⟨s, hp⟩, exFrame v f [] :: fr⟩ := by
    intro v hv
    have e : (kctx u l L c B isFn other lim 1).call (str% "_gdo_mbstowcs") [v] ⟨⟨s, hp⟩, exFrame v f [] :: fr⟩ =
        (if !c.wide && c.convert then (nameOf hp v).map fun t => widened L t ⟨⟨s, hp⟩, exFrame v f [] :: fr⟩ else none).getD
          (other (str% "_gdo_mbstowcs") [v] ⟨⟨s, hp⟩, exFrame v f [] :: fr⟩) := rfl
    rw [e, if_pos hb, hv]
    rfl
  cases v with
  | str x => exact Eq.trans rfl (key _ h)
  | mem p i n => exact Eq.trans rfl (key _ h)
  | _ => cases h

theorem release_wcs (t : Option Str) (n : Nat) (s : St) (hp : List Block) (fr : List Frame) :
    sysFree [.ptr (fresh hp)] ⟨⟨s, ⟨fresh hp, t, n, false⟩ :: hp⟩, fr⟩ = .ok .void ⟨⟨s, hp⟩, fr⟩ := by
  have e : sysFree [.ptr (fresh hp)] ⟨⟨s, ⟨fresh hp, t, n, false⟩ :: hp⟩, fr⟩ =
      match release (fresh hp) false (⟨fresh hp, t, n, false⟩ :: hp) with
      | some h => .ok .void ⟨⟨s, h⟩, fr⟩
      | none => .ub := rfl
  rw [e, release_fresh]

theorem run_load_library_ex (hW : ∀ t x, x ≠ [] → L.widen t x ≠ some []) (v : V) (f : Int) (t : Str) (s : St) (hp : List Block) (fr : List Frame)
    (h : nameOf hp v = some t) (ht : t ≠ []) :
    ((fnOf (C.fn_gdo_load_library_ex c.convert c.wide)).inst I).call (kctx u l L c B isFn other lim 1) [v, .int f] ⟨⟨s, hp⟩, fr⟩ =
      okP (loadLibraryEx L c t f s) hp fr := by
  have direct : ∀ v, text ⟨s, hp⟩ v = some t → sysLoad L [v, .null, .int f] ⟨⟨s, hp⟩, exFrame v f [] :: fr⟩ =
      okP (callLoad L t f s) hp (exFrame v f [] :: fr) := by
    intro v hv
    rw [sysLoad_text L f hv]
    rfl
  unfold loadLibraryEx
  have hc : ∀ b, (!c.wide && c.convert) = b → ((fnOf (C.fn_gdo_load_library_ex c.convert c.wide)).inst I).body =
      ((fnOf (C.fn_gdo_load_library_ex b false)).inst I).body := by
    intro b hb
    subst hb
    cases c.wide <;> cases c.convert <;> rfl
  cases hb : (!c.wide && c.convert) with
  | false =>
    rw [if_neg (by simp)]
    refine call_of _ (F := exFrame v f []) (hc _ hb) rfl rfl rfl ?_
    have ev : (Expr.call (.fixed (str% "LoadLibraryEx")) [.id (.fixed (str% "filename")), .id (.fixed (str% "NULL")), .id (.fixed (str% "flags"))]).eval
        (kctx u l L c B isFn other lim 1) ⟨⟨s, hp⟩, exFrame v f [] :: fr⟩ = okP (callLoad L t f s) hp (exFrame v f [] :: fr) := by
      cases v with
      | str x => exact Eq.trans rfl (direct _ (nameOf_text h s))
      | mem p i n => exact Eq.trans rfl (direct _ (nameOf_text h s))
      | _ => cases h
    exact exec_ret _ (ret_of ev)
  | true =>
    rw [if_pos rfl]
    have ew := eval_wcs u l L c B isFn other lim v f t s hp fr hb h
    unfold widened at ew
    dsimp only at ew ⊢
    cases hw : L.widen s.clock t with
    | none =>
      rw [hw] at ew
      refine call_of _ (F := exFrame v f [(str% "wcs", some .null)]) (hc _ hb) rfl rfl rfl ?_
      exact (exec_next _ (exec_decl ew rfl)).trans rfl
    | some w =>
      cases w with
      | nil => exact absurd hw (hW _ _ ht)
      | cons d w =>
        rw [hw] at ew
        dsimp only at ew ⊢
        generalize hs : ({ s with clock := s.clock + 1 } : St) = s1 at ew ⊢
        generalize hx : d :: w = x at ew ⊢
        have el : (Expr.call (.fixed (str% "LoadLibraryExW")) [.id (.fixed (str% "wcs")), .id (.fixed (str% "NULL")), .id (.fixed (str% "flags"))]).eval
            (kctx u l L c B isFn other lim 1) ⟨⟨s1, ⟨fresh hp, some x, (x.length + 1) * 2, false⟩ :: hp⟩, exFrame v f [(str% "wcs", some (.ptr (fresh hp)))] :: fr⟩ =
            .ok (.ofPtr (callLoad L x f s1).1) ⟨⟨(callLoad L x f s1).2, ⟨fresh hp, some x, (x.length + 1) * 2, false⟩ :: hp⟩,
              exFrame v f [(str% "wcs", some (.ptr (fresh hp)))] :: fr⟩ := by
          refine Eq.trans (b := sysLoad L [.ptr (fresh hp), .null, .int f] ⟨⟨s1, ⟨fresh hp, some x, (x.length + 1) * 2, false⟩ :: hp⟩,
            exFrame v f [(str% "wcs", some (.ptr (fresh hp)))] :: fr⟩) rfl ?_
          refine sysLoad_text L f (name := x) ?_
          show (block (fresh hp) (⟨fresh hp, some x, (x.length + 1) * 2, false⟩ :: hp)).bind (·.text) = _
          rw [block_head]
          rfl
        generalize callLoad L x f s1 = r at el ⊢
        obtain ⟨p, s2⟩ := r
        dsimp only at el
        have ef : (Expr.call (.fixed (str% "free")) [.id (.fixed (str% "wcs"))]).eval (kctx u l L c B isFn other lim 1)
            ⟨⟨s2, ⟨fresh hp, some x, (x.length + 1) * 2, false⟩ :: hp⟩, exFrame v f [(str% "handle", some (.ofPtr p)), (str% "wcs", some (.ptr (fresh hp)))] :: fr⟩ =
            .ok .void ⟨⟨s2, hp⟩, exFrame v f [(str% "handle", some (.ofPtr p)), (str% "wcs", some (.ptr (fresh hp)))] :: fr⟩ :=
          Eq.trans rfl (release_wcs _ _ _ _ _)
        refine call_of _ (F := exFrame v f [(str% "wcs", some (.ptr (fresh hp)))]) (hc _ hb) rfl rfl rfl ?_
        refine (exec_next _ (exec_decl ew rfl)).trans ?_
        refine exec_ret _ (if1_to (m1 := ⟨⟨s1, ⟨fresh hp, some x, (x.length + 1) * 2, false⟩ :: hp⟩, exFrame v f [(str% "wcs", some (.ptr (fresh hp)))] :: fr⟩)
          (m2 := ⟨⟨s2, hp⟩, exFrame v f [(str% "handle", some (.ofPtr p)), (str% "wcs", some (.ptr (fresh hp)))] :: fr⟩) (test_of _ (v := .ptr (fresh hp)) rfl rfl) ?_ rfl)
        refine (exec_next _ (exec_decl el rfl)).trans ?_
        refine (exec_next _ (exec_expr _ ef)).trans ?_
        cases p <;> rfl

/-! ### `_gdo_load_library` -/

/-- The frame of `_gdo_load_library`. -/
def llFrame (name : Str) (f ns : Int) (more : List (Str × Option V)) : Frame :=
  ⟨str% "_gdo_load_library", more ++ [(str% "filename", some (.str name)), (str% "flags", some (.int f)), (str% "new_namespace", some (.int ns))]⟩

/-- The frame of `_gdo_load_library` in its loop. -/
def loopFrame (name : Str) (f ns : Int) (q i n : Nat) : Frame := llFrame name f ns [(str% "p", some (.mem q i n)), (str% "copy", some (.mem q 0 n))]

/-- The body of the loop. -/
def loopBody : List Stmt :=
  [.if1 (.bin (str% "==") (.un (str% "*") (.id (.fixed (str% "p")))) (.call (.fixed (str% "_T")) [.chr (.fixed (str% "/"))]))
    [.expr (.assign (.un (str% "*") (.id (.fixed (str% "p")))) (.call (.fixed (str% "_T")) [.chr (.fixed (str% "\\\\"))]))]]

theorem getIn_fresh (t : Str) (i sz : Nat) (s : St) (hp : List Block) :
    getIn (fresh hp) [.index i] ⟨s, ⟨fresh hp, some t, sz, false⟩ :: hp⟩ = charAt t i := by
  show ((block (fresh hp) (⟨fresh hp, some t, sz, false⟩ :: hp)).bind (·.text)).bind _ = _
  rw [block_head]
  rfl

theorem setIn_fresh (t : Str) (i sz : Nat) (d : Char) (s : St) (hp : List Block) (hi : i < t.length) :
    setIn (fresh hp) [.index i] (.chr d) ⟨s, ⟨fresh hp, some t, sz, false⟩ :: hp⟩ = some ⟨s, ⟨fresh hp, some (t.set i d), sz, false⟩ :: hp⟩ := by
  have e : setIn (fresh hp) [.index i] (.chr d) ⟨s, ⟨fresh hp, some t, sz, false⟩ :: hp⟩ =
      ((block (fresh hp) (⟨fresh hp, some t, sz, false⟩ :: hp)).bind (·.text)).bind fun t =>
        if i < t.length then some ⟨s, write (fresh hp) (t.set i d) (⟨fresh hp, some t, sz, false⟩ :: hp)⟩ else none := by
    show ((block (fresh hp) (⟨fresh hp, some t, sz, false⟩ :: hp)).bind (·.text)).bind _ = _
    rw [block_head]
    show (if i < t.length then _ else _) = if i < t.length then _ else _
    rw [if_pos hi]
  rw [e, block_head]
  show (if i < t.length then _ else _) = _
  rw [if_pos hi, write_fresh]

theorem eval_star (name : Str) (f ns : Int) (i n sz : Nat) (t : Str) (s : St) (hp : List Block) (fr : List Frame) (v : V) (hi : i < n) (hv : charAt t i = some v) :
    (Expr.un (str% "*") (.id (.fixed (str% "p")))).eval (kctx u l L c B isFn other lim 2)
      ⟨⟨s, ⟨fresh hp, some t, sz, false⟩ :: hp⟩, loopFrame name f ns (fresh hp) i n :: fr⟩ =
      .ok v ⟨⟨s, ⟨fresh hp, some t, sz, false⟩ :: hp⟩, loopFrame name f ns (fresh hp) i n :: fr⟩ := by
  have e : (Expr.un (str% "*") (.id (.fixed (str% "p")))).eval (kctx u l L c B isFn other lim 2)
      ⟨⟨s, ⟨fresh hp, some t, sz, false⟩ :: hp⟩, loopFrame name f ns (fresh hp) i n :: fr⟩ =
      (R.of ⟨⟨s, ⟨fresh hp, some t, sz, false⟩ :: hp⟩, loopFrame name f ns (fresh hp) i n :: fr⟩
        (if i + 0 < n then some (.inside (fresh hp) [.index (i + 0)]) else none)).bind (load (sem u l L c)) := rfl
  rw [e, if_pos (by omega)]
  show R.of _ (getIn (fresh hp) [.index i] ⟨s, ⟨fresh hp, some t, sz, false⟩ :: hp⟩) = _
  rw [getIn_fresh, hv]
  rfl

theorem run_loop (name : Str) (f ns : Int) (sz : Nat) (s : St) (hp : List Block) (fr : List Frame) :
    ∀ (rest pre : Str) (k : Nat), rest.length < k →
      loop ((Expr.bin (str% "!=") (.un (str% "*") (.id (.fixed (str% "p")))) (.id (.fixed (str% "0")))).test (kctx u l L c B isFn other lim 2))
        (Cc.block (Stmt.execAll (kctx u l L c B isFn other lim 2) loopBody))
        (fun m => ((Expr.inc (.id (.fixed (str% "p")))).eval (kctx u l L c B isFn other lim 2) m).bind fun _ m => .ok .next m) k
        ⟨⟨s, ⟨fresh hp, some (pre ++ rest), sz, false⟩ :: hp⟩, loopFrame name f ns (fresh hp) pre.length (pre.length + rest.length + 1) :: fr⟩ =
      .ok .next ⟨⟨s, ⟨fresh hp, some (pre ++ backslashes rest), sz, false⟩ :: hp⟩,
        loopFrame name f ns (fresh hp) (pre.length + rest.length) (pre.length + rest.length + 1) :: fr⟩ := by
  intro rest
  induction rest with
  | nil =>
    intro pre k hk
    obtain ⟨k, rfl⟩ : ∃ j, k = j + 1 := ⟨k - 1, by simp at hk; omega⟩
    have e1 := eval_star u l L c B isFn other lim name f ns pre.length (pre.length + 0 + 1) sz (pre ++ []) s hp fr (.int 0) (by omega) (by simp [charAt])
    have e2 := eval_bin (op := str% "!=") _ (b := .id (.fixed (str% "0"))) (by decide) (by decide) e1
    have e3 := test_of _ (b := false) (e2.trans (show _ = R.ok (V.int 0) _ from rfl)) rfl
    unfold loop
    rw [show ([] : Str).length = 0 from rfl, e3]
    rfl
  | cons d rest ih =>
    intro pre k hk
    obtain ⟨k, rfl⟩ : ∃ j, k = j + 1 := ⟨k - 1, by simp at hk; omega⟩
    have hk' : rest.length < k := by simp at hk; omega
    have hlen : pre.length + (d :: rest).length + 1 = pre.length + rest.length + 2 := by simp; omega
    rw [hlen]
    have hc : charAt (pre ++ d :: rest) pre.length = some (.chr d) := by simp [charAt]
    have e1 := eval_star u l L c B isFn other lim name f ns pre.length (pre.length + rest.length + 2) sz (pre ++ d :: rest) s hp fr (.chr d) (by omega) hc
    have e2 := eval_bin (op := str% "!=") _ (b := .id (.fixed (str% "0"))) (by decide) (by decide) e1
    have e3 := test_of _ (b := true) (e2.trans (show _ = R.ok (V.int 1) _ from rfl)) rfl
    -- the body
    have e4 := eval_bin (op := str% "==") _ (b := .call (.fixed (str% "_T")) [.chr (.fixed (str% "/"))]) (by decide) (by decide) e1
    have e5 := test_of _ (b := decide (d = '/')) (e4.trans (show _ = R.ok (V.ofBool (decide (d = '/'))) _ from rfl)) (truth_ofBool _)
    have hset : (pre ++ d :: rest).set pre.length '\\' = pre ++ '\\' :: rest := by simp
    have hbody : Cc.block (Stmt.execAll (kctx u l L c B isFn other lim 2) loopBody)
        ⟨⟨s, ⟨fresh hp, some (pre ++ d :: rest), sz, false⟩ :: hp⟩, loopFrame name f ns (fresh hp) pre.length (pre.length + rest.length + 2) :: fr⟩ =
        .ok .next ⟨⟨s, ⟨fresh hp, some (pre ++ (if d = '/' then '\\' else d) :: rest), sz, false⟩ :: hp⟩,
          loopFrame name f ns (fresh hp) pre.length (pre.length + rest.length + 2) :: fr⟩ := by
      unfold Cc.block
      by_cases hd : d = '/'
      · rw [decide_eq_true hd] at e5
        have e6 : (Expr.un (str% "*") (.id (.fixed (str% "p")))).lval (kctx u l L c B isFn other lim 2)
            ⟨⟨s, ⟨fresh hp, some (pre ++ d :: rest), sz, false⟩ :: hp⟩, loopFrame name f ns (fresh hp) pre.length (pre.length + rest.length + 2) :: fr⟩ =
            .ok (.inside (fresh hp) [.index pre.length])
            ⟨⟨s, ⟨fresh hp, some (pre ++ d :: rest), sz, false⟩ :: hp⟩, loopFrame name f ns (fresh hp) pre.length (pre.length + rest.length + 2) :: fr⟩ := by
          have e : (Expr.un (str% "*") (.id (.fixed (str% "p")))).lval (kctx u l L c B isFn other lim 2)
            ⟨⟨s, ⟨fresh hp, some (pre ++ d :: rest), sz, false⟩ :: hp⟩, loopFrame name f ns (fresh hp) pre.length (pre.length + rest.length + 2) :: fr⟩ =
            R.of ⟨⟨s, ⟨fresh hp, some (pre ++ d :: rest), sz, false⟩ :: hp⟩, loopFrame name f ns (fresh hp) pre.length (pre.length + rest.length + 2) :: fr⟩
              (if pre.length + 0 < pre.length + rest.length + 2 then some (.inside (fresh hp) [.index (pre.length + 0)]) else none) := rfl
          rw [e, if_pos (by omega)]
          rfl
        have e7 : store (sem u l L c) (.inside (fresh hp) [.index pre.length]) (.chr '\\')
            ⟨⟨s, ⟨fresh hp, some (pre ++ d :: rest), sz, false⟩ :: hp⟩, loopFrame name f ns (fresh hp) pre.length (pre.length + rest.length + 2) :: fr⟩ =
            .ok (.chr '\\') ⟨⟨s, ⟨fresh hp, some (pre ++ '\\' :: rest), sz, false⟩ :: hp⟩, loopFrame name f ns (fresh hp) pre.length (pre.length + rest.length + 2) :: fr⟩ := by
          show (R.of _ ((setIn (fresh hp) [.index pre.length] (.chr '\\') _).map _)).bind _ = _
          rw [setIn_fresh _ _ _ _ _ _ (by simp), hset]
          rfl
        have e8 := exec_one _ (exec_set (b := .call (.fixed (str% "_T")) [.chr (.fixed (str% "\\\\"))]) e6 rfl e7)
        have e9 := exec_one _ (if1_to e5 e8 (m' := ⟨⟨s, ⟨fresh hp, some (pre ++ '\\' :: rest), sz, false⟩ :: hp⟩,
          loopFrame name f ns (fresh hp) pre.length (pre.length + rest.length + 2) :: fr⟩) rfl)
        unfold loopBody
        rw [e9, if_pos hd]
        rfl
      · rw [decide_eq_false hd] at e5
        have e9 := exec_one _ (if1_false _ e5 (a := [.expr (.assign (.un (str% "*") (.id (.fixed (str% "p")))) (.call (.fixed (str% "_T")) [.chr (.fixed (str% "\\\\"))]))]))
        unfold loopBody
        rw [e9, if_neg hd]
        rfl
    have hinc : (Expr.inc (.id (.fixed (str% "p")))).eval (kctx u l L c B isFn other lim 2)
        ⟨⟨s, ⟨fresh hp, some (pre ++ (if d = '/' then '\\' else d) :: rest), sz, false⟩ :: hp⟩,
          loopFrame name f ns (fresh hp) pre.length (pre.length + rest.length + 2) :: fr⟩ =
        .ok (.mem (fresh hp) pre.length (pre.length + rest.length + 2)) ⟨⟨s, ⟨fresh hp, some (pre ++ (if d = '/' then '\\' else d) :: rest), sz, false⟩ :: hp⟩,
          loopFrame name f ns (fresh hp) (pre.length + 1) (pre.length + rest.length + 2) :: fr⟩ := by
      have e : (Expr.inc (.id (.fixed (str% "p")))).eval (kctx u l L c B isFn other lim 2)
        ⟨⟨s, ⟨fresh hp, some (pre ++ (if d = '/' then '\\' else d) :: rest), sz, false⟩ :: hp⟩,
          loopFrame name f ns (fresh hp) pre.length (pre.length + rest.length + 2) :: fr⟩ =
        (R.of ⟨⟨s, ⟨fresh hp, some (pre ++ (if d = '/' then '\\' else d) :: rest), sz, false⟩ :: hp⟩,
          loopFrame name f ns (fresh hp) pre.length (pre.length + rest.length + 2) :: fr⟩
          (if pre.length + 1 ≤ pre.length + rest.length + 2 then some (.mem (fresh hp) (pre.length + 1) (pre.length + rest.length + 2)) else none)).bind
            fun w m => (store (sem u l L c) (.here (str% "p")) w m).bind fun _ m => .ok (.mem (fresh hp) pre.length (pre.length + rest.length + 2)) m := rfl
      rw [e, if_pos (c := pre.length + 1 ≤ pre.length + rest.length + 2) (by omega)]
      rfl
    have hrec := ih (pre ++ [if d = '/' then '\\' else d]) k hk'
    rw [List.append_assoc, List.append_assoc, List.length_append] at hrec
    simp only [List.cons_append, List.nil_append, List.length_cons, List.length_nil] at hrec
    have h1 : pre.length + (0 + 1) + rest.length + 1 = pre.length + rest.length + 2 := by omega
    have h2 : pre.length + (0 + 1) + rest.length = pre.length + (d :: rest).length := by simp; omega
    rw [h1, h2] at hrec
    have hback : backslashes (d :: rest) = (if d = '/' then '\\' else d) :: backslashes rest := rfl
    rw [hback]
    unfold loop
    rw [e3]
    show (R.bind (Cc.block _ _) _) = _
    rw [hbody]
    show (R.bind (R.bind (Expr.eval _ _ _) _) _) = _
    rw [hinc]
    exact hrec

theorem call_ex (v : V) (f : Int) (t : Str) (s : St) (hp : List Block) (fr : List Frame) (h : nameOf hp v = some t) (ht : t ≠ []) :
    (kctx u l L c B isFn other lim 2).call (str% "_gdo_load_library_ex") [v, .int f] ⟨⟨s, hp⟩, fr⟩ = okP (loadLibraryEx L c t f s) hp fr := by
  have e : (kctx u l L c B isFn other lim 2).call (str% "_gdo_load_library_ex") [v, .int f] ⟨⟨s, hp⟩, fr⟩ =
      ((nameOf hp v).bind fun t => if t = [] then none else some (okP (loadLibraryEx L c t f s) hp fr)).getD
        (other (str% "_gdo_load_library_ex") [v, .int f] ⟨⟨s, hp⟩, fr⟩) := rfl
  rw [e, h]
  show (if t = [] then none else _ : Option (R World V)).getD _ = _
  rw [if_neg ht]
  rfl

theorem run_load_library (d : Char) (n : Str) (f ns : Int) (s : St) (hp : List Block) (fr : List Frame) (hn : (d :: n).length < lim) :
    ((fnOf (C.fn_gdo_load_library true)).inst I).call (kctx u l L c B isFn other lim 2) [.str (d :: n), .int f, .int ns] ⟨⟨s, hp⟩, fr⟩ =
      ok0 (loadLibrary L c (d :: n) f s) hp fr := by
  have hne : d :: n ≠ [] := by simp
  generalize d :: n = name at hn hne ⊢
  have e1 : (Expr.call (.fixed (str% "_tcschr")) [.id (.fixed (str% "filename")), .call (.fixed (str% "_T")) [.chr (.fixed (str% "/"))]]).eval
      (kctx u l L c B isFn other lim 2) ⟨⟨s, hp⟩, llFrame name f ns [] :: fr⟩ =
      .ok (if '/' ∈ name then .str (name.dropWhile (· ≠ '/')) else .null) ⟨⟨s, hp⟩, llFrame name f ns [] :: fr⟩ := rfl
  have e2 : (Expr.un (str% "!") (Expr.call (.fixed (str% "_tcschr")) [.id (.fixed (str% "filename")), .call (.fixed (str% "_T")) [.chr (.fixed (str% "/"))]])).eval
      (kctx u l L c B isFn other lim 2) ⟨⟨s, hp⟩, llFrame name f ns [] :: fr⟩ =
      .of ⟨⟨s, hp⟩, llFrame name f ns [] :: fr⟩ ((if '/' ∈ name then V.str (name.dropWhile (· ≠ '/')) else .null).truth.map fun b => .ofBool !b) := rfl
  unfold loadLibrary
  by_cases hs : '/' ∈ name
  · have hc : name.contains '/' = true := by simpa using hs
    rw [hc, if_pos rfl]
    rw [if_pos hs] at e2
    have e3 := if1_false _ (test_of _ (b := false) (e2.trans rfl) rfl) (a := [.expr (.assign (.field (.id (.fixed (str% "gdo_hndl"))) (str% "handle"))
      (.call (.fixed (str% "_gdo_load_library_ex")) [.id (.fixed (str% "filename")), .id (.fixed (str% "flags"))])), .ret none])
    have e4 : (Expr.call (.fixed (str% "_tcsdup")) [.id (.fixed (str% "filename"))]).eval (kctx u l L c B isFn other lim 2) ⟨⟨s, hp⟩, llFrame name f ns [] :: fr⟩ =
        .ok (.mem (fresh hp) 0 (name.length + 1)) ⟨⟨s, ⟨fresh hp, some name, (name.length + 1) * charSize c, false⟩ :: hp⟩, llFrame name f ns [] :: fr⟩ := rfl
    have el := run_loop u l L c B isFn other lim name f ns ((name.length + 1) * charSize c) s hp fr name [] lim hn
    have e5 : (Stmt.for [.word (.fixed (str% "gdo_char_t")), .punct (str% "*")] (str% "p") (.id (.fixed (str% "copy")))
        (.bin (str% "!=") (.un (str% "*") (.id (.fixed (str% "p")))) (.id (.fixed (str% "0")))) (.inc (.id (.fixed (str% "p")))) loopBody).exec (kctx u l L c B isFn other lim 2)
        ⟨⟨s, ⟨fresh hp, some name, (name.length + 1) * charSize c, false⟩ :: hp⟩, llFrame name f ns [(str% "copy", some (.mem (fresh hp) 0 (name.length + 1)))] :: fr⟩ =
        .ok .next ⟨⟨s, ⟨fresh hp, some (backslashes name), (name.length + 1) * charSize c, false⟩ :: hp⟩,
          llFrame name f ns [(str% "copy", some (.mem (fresh hp) 0 (name.length + 1)))] :: fr⟩ := by
      have ef : (Stmt.for [.word (.fixed (str% "gdo_char_t")), .punct (str% "*")] (str% "p") (.id (.fixed (str% "copy")))
        (.bin (str% "!=") (.un (str% "*") (.id (.fixed (str% "p")))) (.id (.fixed (str% "0")))) (.inc (.id (.fixed (str% "p")))) loopBody).exec (kctx u l L c B isFn other lim 2)
        ⟨⟨s, ⟨fresh hp, some name, (name.length + 1) * charSize c, false⟩ :: hp⟩, llFrame name f ns [(str% "copy", some (.mem (fresh hp) 0 (name.length + 1)))] :: fr⟩ =
        (loop ((Expr.bin (str% "!=") (.un (str% "*") (.id (.fixed (str% "p")))) (.id (.fixed (str% "0")))).test (kctx u l L c B isFn other lim 2))
        (Cc.block (Stmt.execAll (kctx u l L c B isFn other lim 2) loopBody))
        (fun m => ((Expr.inc (.id (.fixed (str% "p")))).eval (kctx u l L c B isFn other lim 2) m).bind fun _ m => .ok .next m) lim
        ⟨⟨s, ⟨fresh hp, some name, (name.length + 1) * charSize c, false⟩ :: hp⟩, loopFrame name f ns (fresh hp) 0 (name.length + 1) :: fr⟩).bind
          fun fl m' => .ok fl (leave 4 m') := rfl
      rw [List.nil_append, List.nil_append, List.length_nil, Nat.zero_add] at el
      rw [ef, el]
      rfl
    have hbn : backslashes name ≠ [] := by
      unfold backslashes
      simpa using hne
    have e6 := call_ex u l L c B isFn other lim (.mem (fresh hp) 0 (name.length + 1)) f (backslashes name) s
      (⟨fresh hp, some (backslashes name), (name.length + 1) * charSize c, false⟩ :: hp)
      (llFrame name f ns [(str% "copy", some (.mem (fresh hp) 0 (name.length + 1)))] :: fr) (by
        show (block (fresh hp) _).bind (·.text) = _
        rw [block_head]
        rfl) hbn
    generalize loadLibraryEx L c (backslashes name) f s = r at e6 ⊢
    obtain ⟨p, s1⟩ := r
    have e7 := set_handle (u := u) (l := l) (L := L) (c := c) p s1 (⟨fresh hp, some (backslashes name), (name.length + 1) * charSize c, false⟩ :: hp)
      (llFrame name f ns [(str% "copy", some (.mem (fresh hp) 0 (name.length + 1)))] :: fr)
    have e8 : sysFree [.mem (fresh hp) 0 (name.length + 1)] ⟨⟨{ s1 with handle := p }, ⟨fresh hp, some (backslashes name), (name.length + 1) * charSize c, false⟩ :: hp⟩,
        llFrame name f ns [(str% "copy", some (.mem (fresh hp) 0 (name.length + 1)))] :: fr⟩ =
        .ok .void ⟨⟨{ s1 with handle := p }, hp⟩, llFrame name f ns [(str% "copy", some (.mem (fresh hp) 0 (name.length + 1)))] :: fr⟩ :=
      release_wcs _ _ { s1 with handle := p } hp _
    refine call_end _ (F := llFrame name f ns [(str% "copy", some (.mem (fresh hp) 0 (name.length + 1)))]) rfl rfl rfl rfl ?_
    refine (exec_next _ e3).trans ?_
    refine (exec_next _ (exec_decl e4 rfl)).trans ?_
    refine (exec_next _ e5).trans ?_
    refine (exec_next _ (m' := ⟨⟨s, ⟨fresh hp, some (backslashes name), (name.length + 1) * charSize c, false⟩ :: hp⟩,
          llFrame name f ns [(str% "copy", some (.mem (fresh hp) 0 (name.length + 1)))] :: fr⟩) rfl).trans ?_
    have e9 : (Expr.call (.fixed (str% "_gdo_load_library_ex")) [.id (.fixed (str% "copy")), .id (.fixed (str% "flags"))]).eval (kctx u l L c B isFn other lim 2)
        ⟨⟨s, ⟨fresh hp, some (backslashes name), (name.length + 1) * charSize c, false⟩ :: hp⟩,
          llFrame name f ns [(str% "copy", some (.mem (fresh hp) 0 (name.length + 1)))] :: fr⟩ = _ := Eq.trans rfl e6
    refine (exec_next _ (exec_set (lv := .member (str% "handle")) rfl e9 e7)).trans ?_
    exact exec_one _ (exec_expr _ e8)
  · have hc : name.contains '/' = false := by simpa using hs
    rw [hc, if_neg (by simp)]
    rw [if_neg hs] at e2
    have e6 := call_ex u l L c B isFn other lim (.str name) f name s hp (llFrame name f ns [] :: fr) rfl hne
    generalize loadLibraryEx L c name f s = r at e6 ⊢
    obtain ⟨p, s1⟩ := r
    have e7 := set_handle (u := u) (l := l) (L := L) (c := c) p s1 hp (llFrame name f ns [] :: fr)
    refine call_of _ (F := llFrame name f ns []) rfl rfl rfl rfl ?_
    refine exec_ret _ (if1_to (test_of _ (b := true) (e2.trans rfl) rfl) (m2 := ⟨⟨{ s1 with handle := p }, hp⟩, llFrame name f ns [] :: fr⟩) ?_ rfl)
    have e9 : (Expr.call (.fixed (str% "_gdo_load_library_ex")) [.id (.fixed (str% "filename")), .id (.fixed (str% "flags"))]).eval (kctx u l L c B isFn other lim 2)
        ⟨⟨s, hp⟩, llFrame name f ns [] :: fr⟩ = _ := Eq.trans rfl e6
    exact (exec_next _ (exec_set (lv := .member (str% "handle")) rfl e9 e7)).trans rfl

/-! ### `gdo_load_lib_args`, `gdo_load_lib_name`, `gdo_load_lib` -/

/-- The frame of `gdo_load_lib_args`. -/
def argsFrame (name : Str) (f ns : Int) : Frame :=
  ⟨str% "gdo_load_lib_args", [(str% "filename", some (.str name)), (str% "flags", some (.int f)), (str% "new_namespace", some (.int ns))]⟩

theorem run_load_lib_args (name : Option Str) (f ns : Int) (s : St) (hp : List Block) (fr : List Frame) (hn : ∀ n, name = some n → n.length < B) :
    ((fnOf C.gdo_load_lib_args).inst I).call (kctx u l L c B isFn other lim 3) [.ofStr name, .int f, .int ns] ⟨⟨s, hp⟩, fr⟩ =
      okB (loadLibArgs L c name f s) hp fr := by
  cases hh : s.handle with
  | some h =>
    obtain ⟨handle, s⟩ := s
    cases hh
    cases name <;> rfl
  | none =>
    cases name with
    | none =>
      obtain ⟨handle, s⟩ := s
      cases hh
      rfl
    | some n =>
      cases n with
      | nil =>
        obtain ⟨handle, s⟩ := s
        cases hh
        rfl
      | cons d r =>
        have hl := hn _ rfl
        have e1 : Stmt.execAll (kctx u l L c B isFn other lim 3) (((fnOf C.gdo_load_lib_args).inst I).body) ⟨⟨s, hp⟩, argsFrame (d :: r) f ns :: fr⟩ =
            Stmt.execAll (kctx u l L c B isFn other lim 3) (((fnOf C.gdo_load_lib_args).inst I).body.drop 3) ⟨⟨clearError s, hp⟩, argsFrame (d :: r) f ns :: fr⟩ := by
          obtain ⟨handle, s⟩ := s
          cases hh
          rfl
        have e2 : (Expr.call (.fixed (str% "_gdo_load_library")) [.id (.fixed (str% "filename")), .id (.fixed (str% "flags")), .id (.fixed (str% "new_namespace"))]).eval
            (kctx u l L c B isFn other lim 3) ⟨⟨clearError s, hp⟩, argsFrame (d :: r) f ns :: fr⟩ =
            ok0 (loadLibrary L c (d :: r) f (clearError s)) hp (argsFrame (d :: r) f ns :: fr) := by
          have e : (Expr.call (.fixed (str% "_gdo_load_library")) [.id (.fixed (str% "filename")), .id (.fixed (str% "flags")), .id (.fixed (str% "new_namespace"))]).eval
            (kctx u l L c B isFn other lim 3) ⟨⟨clearError s, hp⟩, argsFrame (d :: r) f ns :: fr⟩ =
            (if (d :: r).length < B then some (ok0 (loadLibrary L c (d :: r) f (clearError s)) hp (argsFrame (d :: r) f ns :: fr)) else none).getD
              (other (str% "_gdo_load_library") [.str (d :: r), .int f, .int ns] ⟨⟨clearError s, hp⟩, argsFrame (d :: r) f ns :: fr⟩) := rfl
          rw [e, if_pos hl]
          rfl
        have hm : loadLibArgs L c (some (d :: r)) f s =
            if libIsLoaded (loadLibrary L c (d :: r) f (clearError s)) then (true, loadLibrary L c (d :: r) f (clearError s))
            else (false, saveError (d :: r) (loadLibrary L c (d :: r) f (clearError s))) := by
          obtain ⟨handle, s⟩ := s
          cases hh
          rfl
        rw [hm]
        generalize loadLibrary L c (d :: r) f (clearError s) = s1 at e2 ⊢
        have e3 := (exec_next _ (exec_expr _ e2)).trans (show Stmt.execAll _ (((fnOf C.gdo_load_lib_args).inst I).body.drop 4) _ =
          .ok (.ret (.ofBool (libIsLoaded s1))) ⟨⟨if libIsLoaded s1 then s1 else saveError (d :: r) s1, hp⟩, argsFrame (d :: r) f ns :: fr⟩ from by
            obtain ⟨handle, s1⟩ := s1
            cases handle <;> rfl)
        refine (call_of _ (F := argsFrame (d :: r) f ns) rfl rfl rfl rfl (e1.trans e3)).trans ?_
        unfold okB
        cases libIsLoaded s1 <;> rfl

theorem run_load_lib_name (name : Option Str) (s : St) (hp : List Block) (fr : List Frame) (hn : ∀ n, name = some n → n.length < B) :
    ((fnOf C.gdo_load_lib_name).inst I).call (kctx u l L c B isFn other lim 4) [.ofStr name] ⟨⟨s, hp⟩, fr⟩ = okB (loadLibName L c name s) hp fr := by
  cases name with
  | none => rfl
  | some n =>
    have hl := hn _ rfl
    have e : (Expr.call (.fixed (str% "gdo_load_lib_args")) [.id (.fixed (str% "filename")), .id (.fixed (str% "GDO_DEFAULT_FLAGS")), .id (.fixed (str% "false"))]).eval
        (kctx u l L c B isFn other lim 4) ⟨⟨s, hp⟩, ⟨str% "gdo_load_lib_name", [(str% "filename", some (.str n))]⟩ :: fr⟩ =
        (if n.length < B then some (okB (loadLibArgs L c (some n) c.flags s) hp (⟨str% "gdo_load_lib_name", [(str% "filename", some (.str n))]⟩ :: fr)) else none).getD
          (other (str% "gdo_load_lib_args") [.str n, .int c.flags, .int 0] ⟨⟨s, hp⟩, ⟨str% "gdo_load_lib_name", [(str% "filename", some (.str n))]⟩ :: fr⟩) := rfl
    rw [if_pos hl] at e
    exact call_of _ (F := ⟨str% "gdo_load_lib_name", [(str% "filename", some (.str n))]⟩) rfl rfl rfl rfl (exec_ret _ (ret_of (e.trans rfl)))

theorem run_load_lib (s : St) (hp : List Block) (fr : List Frame) (hn : c.lib.length < B) :
    ((fnOf C.gdo_load_lib).inst I).call (kctx u l L c B isFn other lim 5) [] ⟨⟨s, hp⟩, fr⟩ = okB (loadLib L c s) hp fr := by
  have e : (Expr.call (.fixed (str% "gdo_load_lib_name")) [.id (.fixed (str% "GDO_DEFAULT_LIB"))]).eval (kctx u l L c B isFn other lim 5)
      ⟨⟨s, hp⟩, ⟨str% "gdo_load_lib", []⟩ :: fr⟩ =
      (if c.lib.length < B then some (okB (loadLibName L c (some c.lib) s) hp (⟨str% "gdo_load_lib", []⟩ :: fr)) else none).getD
        (other (str% "gdo_load_lib_name") [.str c.lib] ⟨⟨s, hp⟩, ⟨str% "gdo_load_lib", []⟩ :: fr⟩) := rfl
  rw [if_pos hn] at e
  exact call_of _ (F := ⟨str% "gdo_load_lib", []⟩) rfl rfl rfl rfl (exec_ret _ (ret_of (e.trans rfl)))

/-! ### `gdo_last_error` -/

/-- The frame of `gdo_last_error`. -/
def leFrame (v : V) : Frame := ⟨str% "gdo_last_error", [(str% "buf", some v)]⟩

theorem release_msg (t : Option Str) (n : Nat) (s : St) (hp : List Block) (fr : List Frame) :
    sysLocalFree [.ptr (fresh hp)] ⟨⟨s, ⟨fresh hp, t, n, true⟩ :: hp⟩, fr⟩ = .ok .null ⟨⟨s, hp⟩, fr⟩ := by
  have e : sysLocalFree [.ptr (fresh hp)] ⟨⟨s, ⟨fresh hp, t, n, true⟩ :: hp⟩, fr⟩ =
      match release (fresh hp) true (⟨fresh hp, t, n, true⟩ :: hp) with
      | some h => .ok .null ⟨⟨s, h⟩, fr⟩
      | none => .ub := rfl
  rw [e, release_fresh]

theorem text_msg (t : Str) (n : Nat) (y : Bool) (s : St) (hp : List Block) : text ⟨s, ⟨fresh hp, some t, n, y⟩ :: hp⟩ (.ptr (fresh hp)) = some t := by
  show (block (fresh hp) _).bind (·.text) = _
  rw [block_head]
  rfl

theorem run_last_error (s : St) (hp : List Block) (fr : List Frame) :
    ((fnOf (C.gdo_last_error true)).inst I).call (kctx u l L c B isFn other lim 1) [] ⟨⟨s, hp⟩, fr⟩ =
      .ok (.buf (str% "formatted")) ⟨⟨(lastError L c s).2, hp⟩, fr⟩ := by
  unfold lastError
  cases hf : s.formatted with
  | cons d r =>
    rw [if_pos (by simp)]
    obtain ⟨handle, ptr, libpath, errbuf, formatted, s⟩ := s
    cases hf
    rfl
  | nil =>
    rw [if_neg (by simp)]
    have e1 : Stmt.execAll (kctx u l L c B isFn other lim 1) (((fnOf (C.gdo_last_error true)).inst I).body) ⟨⟨s, hp⟩, ⟨str% "gdo_last_error", []⟩ :: fr⟩ =
        Stmt.execAll (kctx u l L c B isFn other lim 1) (((fnOf (C.gdo_last_error true)).inst I).body.drop 2) ⟨⟨s, hp⟩, leFrame .null :: fr⟩ := by
      obtain ⟨handle, ptr, libpath, errbuf, formatted, s⟩ := s
      cases hf
      rfl
    have e2 : (Expr.call (.fixed (str% "FormatMessage")) [.id (.fixed (str% "GDO_FORMAT_MESSAGE_FLAGS")), .id (.fixed (str% "NULL")),
        .field (.id (.fixed (str% "gdo_hndl"))) (str% "last_errno"), .call (.fixed (str% "MAKELANGID")) [.id (.fixed (str% "LANG_NEUTRAL")), .id (.fixed (str% "SUBLANG_DEFAULT"))],
        .cast [.word (.fixed (str% "gdo_char_t")), .punct (str% "*")] (.un (str% "&") (.id (.fixed (str% "buf")))), .id (.fixed (str% "0")), .id (.fixed (str% "NULL"))]).eval
        (kctx u l L c B isFn other lim 1) ⟨⟨s, hp⟩, leFrame .null :: fr⟩ =
        match L.format s.clock s.lastErrno with
        | some t => (storeVar fr.length (str% "buf") (.ptr (fresh hp)) ⟨⟨{ s with clock := s.clock + 1 }, ⟨fresh hp, some t, (t.length + 1) * charSize c, true⟩ :: hp⟩,
            leFrame .null :: fr⟩).bind fun _ m => .ok (.int t.length) m
        | none => .ok (.int 0) ⟨⟨{ s with clock := s.clock + 1 }, hp⟩, leFrame .null :: fr⟩ := rfl
    refine call_of _ (F := ?_) rfl rfl rfl rfl (e1.trans ?_)
    · exact leFrame (match L.format s.clock s.lastErrno with
        | some t => .ptr (fresh hp)
        | none => .null)
    · unfold message
      cases hm : L.format s.clock s.lastErrno with
      | none =>
        rw [hm] at e2
        refine (exec_next _ (exec_expr _ e2)).trans ?_
        have hx : fitFormatted c (if s.errbuf ≠ [] then s.errbuf ++ str% ": error code: " ++ Nat.toDigits 10 s.lastErrno
            else str% "error code: " ++ Nat.toDigits 10 s.lastErrno) =
            (if s.errbuf ≠ [] then s.errbuf ++ (str% ": error code: " ++ (Nat.toDigits 10 s.lastErrno ++ []))
            else str% "error code: " ++ (Nat.toDigits 10 s.lastErrno ++ [])).take (bufSize c (str% "formatted") - 1) := by
          rw [List.append_nil, List.append_assoc]
          rfl
        dsimp only
        rw [hx]
        cases heb : s.errbuf with
        | nil =>
          obtain ⟨handle, ptr, libpath, errbuf, formatted, s⟩ := s
          cases heb
          rfl
        | cons d r =>
          obtain ⟨handle, ptr, libpath, errbuf, formatted, s⟩ := s
          cases heb
          rfl
      | some t =>
        rw [hm] at e2
        dsimp only at e2 ⊢
        rw [storeVar_top] at e2
        refine (exec_next _ (exec_expr _ e2)).trans ?_
        generalize hs : ({ s with clock := s.clock + 1 } : St) = s1
        have hx : fitFormatted c (if s.errbuf ≠ [] then s.errbuf ++ str% ": " ++ t else t) =
            (if s.errbuf ≠ [] then s.errbuf ++ (str% ": " ++ (t ++ [])) else t ++ []).take (bufSize c (str% "formatted") - 1) := by
          rw [List.append_nil, List.append_assoc]
          rfl
        have heb : s1.errbuf = s.errbuf := by rw [← hs]
        have hend : ({ s with formatted := fitFormatted c (if s.errbuf ≠ [] then s.errbuf ++ str% ": " ++ t else t), clock := s.clock + 1 } : St) =
            { s1 with formatted := (if s1.errbuf ≠ [] then s1.errbuf ++ (str% ": " ++ (t ++ [])) else t ++ []).take (bufSize c (str% "formatted") - 1) } := by
          rw [hx, heb, ← hs]
        rw [hend]
        have key : ∀ (q : Nat) (hq : List Block), (text ⟨s1, hq⟩ (.ptr q) = some t) →
            Stmt.execAll (kctx u l L c B isFn other lim 1)
              [.if2 (.bin (str% "!=") (.index (.field (.id (.fixed (str% "gdo_hndl"))) (str% "errbuf")) (.id (.fixed (str% "0")))) (.id (.fixed (str% "0"))))
                [.expr (.call (.fixed (str% "GDO_SNPRINTF")) [.field (.id (.fixed (str% "gdo_hndl"))) (str% "formatted"), .call (.fixed (str% "_T")) [.str (.fixed (str% "%s: %s"))],
                  .field (.id (.fixed (str% "gdo_hndl"))) (str% "errbuf"), .id (.fixed (str% "buf"))])]
                [.expr (.call (.fixed (str% "GDO_SNPRINTF")) [.field (.id (.fixed (str% "gdo_hndl"))) (str% "formatted"), .call (.fixed (str% "_T")) [.str (.fixed (str% "%s"))],
                  .id (.fixed (str% "buf"))])]] ⟨⟨s1, hq⟩, leFrame (.ptr q) :: fr⟩ =
              .ok .next ⟨⟨{ s1 with formatted := (if s1.errbuf ≠ [] then s1.errbuf ++ (str% ": " ++ (t ++ [])) else t ++ []).take (bufSize c (str% "formatted") - 1) }, hq⟩,
                leFrame (.ptr q) :: fr⟩ := by
          intro q hq ht
          have f1 : format (text ⟨s1, hq⟩) (str% "%s: %s") [.buf (str% "errbuf"), .ptr q] = some (s1.errbuf ++ (str% ": " ++ (t ++ []))) := by
            have : format (text ⟨s1, hq⟩) (str% "%s: %s") [.buf (str% "errbuf"), .ptr q] =
              ((((text ⟨s1, hq⟩ (.ptr q)).bind fun t => some (t ++ [])).map (fun r => ' ' :: r)).map (fun r => ':' :: r)).map (fun r => s1.errbuf ++ r) := rfl
            rw [this, ht]
            rfl
          have f2 : format (text ⟨s1, hq⟩) (str% "%s") [.ptr q] = some (t ++ []) := by
            have : format (text ⟨s1, hq⟩) (str% "%s") [.ptr q] = (text ⟨s1, hq⟩ (.ptr q)).bind fun t => some (t ++ []) := rfl
            rw [this, ht]
            rfl
          have e1 : (Expr.call (.fixed (str% "GDO_SNPRINTF")) [.field (.id (.fixed (str% "gdo_hndl"))) (str% "formatted"), .call (.fixed (str% "_T")) [.str (.fixed (str% "%s: %s"))],
                  .field (.id (.fixed (str% "gdo_hndl"))) (str% "errbuf"), .id (.fixed (str% "buf"))]).eval (kctx u l L c B isFn other lim 1) ⟨⟨s1, hq⟩, leFrame (.ptr q) :: fr⟩ =
              match format (text ⟨s1, hq⟩) (str% "%s: %s") [.buf (str% "errbuf"), .ptr q] with
              | some t => .ok (.int t.length) ⟨⟨{ s1 with formatted := t.take (bufSize c (str% "formatted") - 1) }, hq⟩, leFrame (.ptr q) :: fr⟩
              | none => .ub := rfl
          have e2 : (Expr.call (.fixed (str% "GDO_SNPRINTF")) [.field (.id (.fixed (str% "gdo_hndl"))) (str% "formatted"), .call (.fixed (str% "_T")) [.str (.fixed (str% "%s"))],
                  .id (.fixed (str% "buf"))]).eval (kctx u l L c B isFn other lim 1) ⟨⟨s1, hq⟩, leFrame (.ptr q) :: fr⟩ =
              match format (text ⟨s1, hq⟩) (str% "%s") [.ptr q] with
              | some t => .ok (.int t.length) ⟨⟨{ s1 with formatted := t.take (bufSize c (str% "formatted") - 1) }, hq⟩, leFrame (.ptr q) :: fr⟩
              | none => .ub := rfl
          rw [f1] at e1
          rw [f2] at e2
          have et : (Expr.bin (str% "!=") (.index (.field (.id (.fixed (str% "gdo_hndl"))) (str% "errbuf")) (.id (.fixed (str% "0")))) (.id (.fixed (str% "0")))).test
              (kctx u l L c B isFn other lim 1) ⟨⟨s1, hq⟩, leFrame (.ptr q) :: fr⟩ = .ok (decide (s1.errbuf ≠ [])) ⟨⟨s1, hq⟩, leFrame (.ptr q) :: fr⟩ := by
            obtain ⟨handle, ptr, libpath, errbuf, s1⟩ := s1
            cases errbuf <;> rfl
          by_cases hne : s1.errbuf ≠ []
          · rw [decide_eq_true hne] at et
            rw [if_pos hne]
            exact exec_one _ ((if2_true _ et (exec_one _ (exec_expr _ e1))).trans rfl)
          · rw [decide_eq_false hne] at et
            rw [if_neg hne]
            exact exec_one _ ((if2_false _ et (exec_one _ (exec_expr _ e2))).trans rfl)
        have k1 := key (fresh hp) (⟨fresh hp, some t, (t.length + 1) * charSize c, true⟩ :: hp) (text_msg _ _ _ _ _)
        generalize ({ s1 with formatted := (if s1.errbuf ≠ [] then s1.errbuf ++ (str% ": " ++ (t ++ [])) else t ++ []).take (bufSize c (str% "formatted") - 1) } : St) = s2 at k1 ⊢
        have k2 : (Expr.call (.fixed (str% "LocalFree")) [.id (.fixed (str% "buf"))]).eval (kctx u l L c B isFn other lim 1)
            ⟨⟨s2, ⟨fresh hp, some t, (t.length + 1) * charSize c, true⟩ :: hp⟩, leFrame (.ptr (fresh hp)) :: fr⟩ =
            .ok .null ⟨⟨s2, hp⟩, leFrame (.ptr (fresh hp)) :: fr⟩ := Eq.trans rfl (release_msg _ _ _ _ _)
        have k3 := (execAll_next _ [.expr (.call (.fixed (str% "LocalFree")) [.id (.fixed (str% "buf"))])] k1).trans (exec_one _ (exec_expr _ k2))
        refine (exec_next _ (m' := ⟨⟨s2, hp⟩, leFrame (.ptr (fresh hp)) :: fr⟩) ((if2_true _ (test_of _ (v := .ptr (fresh hp)) rfl rfl) k3).trans rfl)).trans rfl

end

end Gdo.Cc.W
