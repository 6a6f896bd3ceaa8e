import Verif.Lemmas.CWin

/-!
Lemmas: the functions of the generated C code for Windows that use memory given by the
system.
-/

set_option maxRecDepth 10000

namespace Gdo.Cc.W
open Gdo Tmpl Win Rename
open Gdo.Rt (Ptr Ev)

/-! ### Memory -/

theorem foldl_max_le (hp : List Block) : ∀ n, n ≤ hp.foldl (fun n b => max n b.addr) n := by
  induction hp with
  | nil => intro n; exact Nat.le_refl _
  | cons b t ih => intro n; exact Nat.le_trans (Nat.le_max_left n b.addr) (ih _)

theorem addr_le {b : Block} {hp : List Block} (h : b ∈ hp) : ∀ n, b.addr ≤ hp.foldl (fun n b => max n b.addr) n := by
  induction hp with
  | nil => cases h
  | cons a t ih =>
    intro n
    rcases List.mem_cons.mp h with rfl | h
    · exact Nat.le_trans (Nat.le_max_right n b.addr) (foldl_max_le t _)
    · exact ih h _

theorem addr_fresh {b : Block} {hp : List Block} (h : b ∈ hp) : b.addr ≠ fresh hp := by
  have := addr_le h 0
  unfold fresh
  omega

theorem block_head (p : Nat) (t : Option Str) (n : Nat) (y : Bool) (hp : List Block) : block p (⟨p, t, n, y⟩ :: hp) = some ⟨p, t, n, y⟩ := by
  simp [block]

theorem block_fresh (b : Block) (hp : List Block) (p : Nat) (x : Block) (h : block p hp = some x) (hb : b.addr = fresh hp) : block p (b :: hp) = some x := by
  unfold block at h ⊢
  have hm := List.mem_of_find?_eq_some h
  have hp' : x.addr = p := by simpa using List.find?_some h
  have : b.addr ≠ p := by
    rw [hb, ← hp']
    exact (addr_fresh hm).symm
  simp [this, h]

theorem release_fresh (t : Option Str) (n : Nat) (y : Bool) (hp : List Block) : release (fresh hp) y (⟨fresh hp, t, n, y⟩ :: hp) = some hp := by
  have : hp.filter (fun b => decide (b.addr ≠ fresh hp)) = hp := by
    rw [List.filter_eq_self]
    intro b hb
    simpa using addr_fresh hb
  unfold release
  rw [block_head]
  simp only [if_true, List.filter_cons]
  simp only [ne_eq, not_true_eq_false, decide_false, Bool.false_eq_true, if_false]
  rw [this]

theorem write_fresh (t : Option Str) (w : Str) (n : Nat) (y : Bool) (hp : List Block) :
    write (fresh hp) w (⟨fresh hp, t, n, y⟩ :: hp) = ⟨fresh hp, some w, n, y⟩ :: hp := by
  have : hp.map (fun b => if b.addr = fresh hp then { b with text := some w } else b) = hp := by
    have e : hp.map (fun b => if b.addr = fresh hp then { b with text := some w } else b) = hp.map id := by
      refine List.map_congr_left ?_
      intro b hb
      rw [if_neg (addr_fresh hb)]
      rfl
    rw [e, List.map_id]
  unfold write
  rw [List.map_cons, this]
  simp

theorem nameOf_text {hp : List Block} {v : V} {t : Str} (h : nameOf hp v = some t) (s : St) : text ⟨s, hp⟩ v = some t := by
  unfold nameOf at h
  split at h
  · exact h
  · unfold text
    dsimp only
    rw [h]
    rfl
  · cases h

theorem nameOf_cons {hp : List Block} {v : V} {t : Str} (h : nameOf hp v = some t) (b : Block) (hb : b.addr = fresh hp) : nameOf (b :: hp) v = some t := by
  unfold nameOf at h ⊢
  split at h
  · exact h
  · rename_i p n
    cases hx : block p hp with
    | none =>
      rw [hx] at h
      cases h
    | some x =>
      rw [hx] at h
      rw [block_fresh b hp p x hx hb]
      exact h
  · cases h

/-! ### Statements -/

theorem if1_to {K : Ctx σ} {c : Expr} {a : List Stmt} {m m1 m2 m' : M σ} {fl : Flow} (hc : c.test K m = .ok true m1) (ha : Stmt.execAll K a m1 = .ok fl m2)
    (hm : leave (locals m1).length m2 = m') : (Stmt.if1 c a).exec K m = .ok fl m' := by
  rw [← hm]
  exact if1_true K hc ha

section
variable (u l : Str) (L : Loader) (c : Cfg) (B : Nat) (isFn : Str → Bool) (other : Str → List V → M World → R World V) (lim : Nat) (I : Insts)

/-! ### `_gdo_mbstowcs` -/

/-- The frame of `_gdo_mbstowcs`. -/
def wcsFrame (v : V) (n len : Nat) (wcs : Option V) : Frame :=
  ⟨str% "_gdo_mbstowcs", [(str% "n", some (.int n)), (str% "len", some (.int len)), (str% "wcs", wcs), (str% "filename", some v)]⟩

theorem eval_len (v : V) (t : Str) (s : St) (hp : List Block) (fr : List Frame) (h : nameOf hp v = some t) :
    (Expr.call (.fixed (str% "mbstowcs_s")) [.un (str% "&") (.id (.fixed (str% "len"))), .id (.fixed (str% "NULL")), .id (.fixed (str% "0")),
      .id (.fixed (str% "filename")), .id (.fixed (str% "_TRUNCATE"))]).eval (kctx u l L c B isFn other lim 0) ⟨⟨s, hp⟩, wcsFrame v 0 0 none :: fr⟩ =
      .ok (.int (if (L.widen s.clock t).isSome then 0 else 42)) ⟨⟨{ s with clock := s.clock + 1 }, hp⟩,
        wcsFrame v 0 (match L.widen s.clock t with
          | some w => w.length + 1
          | none => 0) none :: fr⟩ := by
  have key : ∀ v, text ⟨s, hp⟩ v = some t → sysWiden L [.loc fr.length (str% "len"), .null, .int 0, v, .obj (str% "_TRUNCATE")] ⟨⟨s, hp⟩, wcsFrame v 0 0 none :: fr⟩ =
      .ok (.int (if (L.widen s.clock t).isSome then 0 else 42)) ⟨⟨{ s with clock := s.clock + 1 }, hp⟩,
        wcsFrame v 0 (match L.widen s.clock t with
          | some w => w.length + 1
          | none => 0) none :: fr⟩ := by
    intro v hv
    simp only [sysWiden, if_true, hv]
    cases L.widen s.clock t with
    | none => simp only [storeVar_top]; rfl
    | some w => simp only [storeVar_top]; rfl
  cases v with
  | str x => exact Eq.trans rfl (key _ (nameOf_text h s))
  | mem p i n => exact Eq.trans rfl (key _ (nameOf_text h s))
  | _ => cases h

theorem sysWiden_at (d : Nat) (x : Str) (p n : Nat) (v : V) (m : M World) (t : Str) (b : Block) (hv : text m.g v = some t) (hb : block p m.g.heap = some b)
    (hi : n * 2 ≤ b.size ∧ 0 < n) :
    sysWiden L [.loc d x, .ptr p, .int n, v, .obj (str% "_TRUNCATE")] m =
      match L.widen (m.g.s.clock - 1) t with
      | some w =>
        if w.length < n then
          (storeVar d x (.int (w.length + 1 : Nat)) { m with g := { m.g with heap := write p w m.g.heap } }).bind fun _ m => .ok (.int 0) m
        else (storeVar d x (.int n) { m with g := { m.g with heap := write p (w.take (n - 1)) m.g.heap } }).bind fun _ m => .ok (.int 80) m
      | none => (storeVar d x (.int 0) { m with g := { m.g with heap := write p [] m.g.heap } }).bind fun _ m => .ok (.int 42) m := by
  have e : sysWiden L [.loc d x, .ptr p, .int n, v, .obj (str% "_TRUNCATE")] m =
      match text m.g v, block p m.g.heap with
      | some t, some b =>
        if n * 2 ≤ b.size ∧ 0 < n then
          match L.widen (m.g.s.clock - 1) t with
          | some w =>
            if w.length < n then
              (storeVar d x (.int (w.length + 1 : Nat)) { m with g := { m.g with heap := write p w m.g.heap } }).bind fun _ m => .ok (.int 0) m
            else (storeVar d x (.int n) { m with g := { m.g with heap := write p (w.take (n - 1)) m.g.heap } }).bind fun _ m => .ok (.int 80) m
          | none => (storeVar d x (.int 0) { m with g := { m.g with heap := write p [] m.g.heap } }).bind fun _ m => .ok (.int 42) m
        else .ub
      | _, _ => .ub := rfl
  rw [e, hv, hb]
  dsimp only
  rw [if_pos hi]

theorem eval_conv (v : V) (t : Str) (s : St) (hp : List Block) (fr : List Frame) (w : Str) (h : nameOf hp v = some t) (hw : L.widen (s.clock - 1) t = some w) :
    (Expr.call (.fixed (str% "mbstowcs_s")) [.un (str% "&") (.id (.fixed (str% "n"))), .id (.fixed (str% "wcs")), .id (.fixed (str% "len")),
      .id (.fixed (str% "filename")), .id (.fixed (str% "_TRUNCATE"))]).eval (kctx u l L c B isFn other lim 0)
      ⟨⟨s, ⟨fresh hp, none, (w.length + 1) * 2, false⟩ :: hp⟩, wcsFrame v 0 (w.length + 1) (some (.ptr (fresh hp))) :: fr⟩ =
      .ok (.int 0) ⟨⟨s, ⟨fresh hp, some w, (w.length + 1) * 2, false⟩ :: hp⟩, wcsFrame v (w.length + 1) (w.length + 1) (some (.ptr (fresh hp))) :: fr⟩ := by
  have key : ∀ v, text ⟨s, ⟨fresh hp, none, (w.length + 1) * 2, false⟩ :: hp⟩ v = some t →
      sysWiden L [.loc fr.length (str% "n"), .ptr (fresh hp), .int (w.length + 1 : Nat), v, .obj (str% "_TRUNCATE")]
        ⟨⟨s, ⟨fresh hp, none, (w.length + 1) * 2, false⟩ :: hp⟩, wcsFrame v 0 (w.length + 1) (some (.ptr (fresh hp))) :: fr⟩ =
      .ok (.int 0) ⟨⟨s, ⟨fresh hp, some w, (w.length + 1) * 2, false⟩ :: hp⟩, wcsFrame v (w.length + 1) (w.length + 1) (some (.ptr (fresh hp))) :: fr⟩ := by
    intro v hv
    have hb := block_head (fresh hp) none ((w.length + 1) * 2) false hp
    have hi : (w.length + 1) * 2 ≤ (w.length + 1) * 2 ∧ 0 < w.length + 1 := ⟨Nat.le_refl _, by omega⟩
    rw [sysWiden_at L fr.length (str% "n") (fresh hp) (w.length + 1) v _ t _ hv hb hi]
    dsimp only
    rw [hw]
    dsimp only
    rw [if_pos (by omega), write_fresh, storeVar_top]
    rfl
  have h' := nameOf_cons h ⟨fresh hp, none, (w.length + 1) * 2, false⟩ rfl
  cases v with
  | str x => exact Eq.trans rfl (key _ (nameOf_text h' s))
  | mem p i n => exact Eq.trans rfl (key _ (nameOf_text h' s))
  | _ => cases h

theorem run_mbstowcs (v : V) (t : Str) (s : St) (hp : List Block) (fr : List Frame) (h : nameOf hp v = some t) :
    ((fnOf C.fn_gdo_mbstowcs).inst I).call (kctx u l L c B isFn other lim 0) [v] ⟨⟨s, hp⟩, fr⟩ = widened L t ⟨⟨s, hp⟩, fr⟩ := by
  have e1 : Stmt.execAll (kctx u l L c B isFn other lim 0) (((fnOf C.fn_gdo_mbstowcs).inst I).body) ⟨⟨s, hp⟩, ⟨str% "_gdo_mbstowcs", [(str% "filename", some v)]⟩ :: fr⟩ =
      Stmt.execAll (kctx u l L c B isFn other lim 0) (((fnOf C.fn_gdo_mbstowcs).inst I).body.drop 3) ⟨⟨s, hp⟩, wcsFrame v 0 0 none :: fr⟩ := rfl
  have e2 := eval_len u l L c B isFn other lim v t s hp fr h
  have e3 := eval_bin (op := str% "==") _ (b := .id (.fixed (str% "0"))) (by decide) (by decide) e2
  unfold widened
  dsimp only
  cases hw : L.widen s.clock t with
  | none =>
    rw [hw] at e3
    have e4 := eval_and _ (x := false) (b := .bin (str% ">") (.id (.fixed (str% "len"))) (.id (.fixed (str% "1")))) (e3.trans rfl)
    exact call_of _ rfl rfl rfl rfl (e1.trans ((exec_next _ (if1_false _ (test_of _ e4 rfl))).trans rfl))
  | some w =>
    rw [hw] at e3
    have e4 := eval_and _ (x := true) (b := .bin (str% ">") (.id (.fixed (str% "len"))) (.id (.fixed (str% "1")))) (e3.trans rfl)
    cases w with
    | nil => exact call_of _ rfl rfl rfl rfl (e1.trans ((exec_next _ (if1_false _ (test_of _ (e4.trans rfl) rfl))).trans rfl))
    | cons d w =>
      generalize hx : d :: w = x at e4
      have hx1 : 1 < x.length + 1 := by subst hx; simp
      have e5 : (Expr.bin (str% ">") (.id (.fixed (str% "len"))) (.id (.fixed (str% "1")))).eval (kctx u l L c B isFn other lim 0)
          ⟨⟨{ s with clock := s.clock + 1 }, hp⟩, wcsFrame v 0 (x.length + 1) none :: fr⟩ =
          .ok (.ofBool (decide ((1 : Int) < (x.length + 1 : Nat)))) ⟨⟨{ s with clock := s.clock + 1 }, hp⟩, wcsFrame v 0 (x.length + 1) none :: fr⟩ := rfl
      rw [decide_eq_true (by omega)] at e5
      dsimp only at e4
      rw [if_pos rfl, e5] at e4
      have e6 : (Expr.assign (.id (.fixed (str% "wcs"))) (.cast [.word (.fixed (str% "wchar_t")), .punct (str% "*")] (.call (.fixed (str% "malloc"))
          [.bin (str% "*") (.id (.fixed (str% "len"))) (.sizeofType [.word (.fixed (str% "wchar_t"))])]))).eval (kctx u l L c B isFn other lim 0)
          ⟨⟨{ s with clock := s.clock + 1 }, hp⟩, wcsFrame v 0 (x.length + 1) none :: fr⟩ =
          .ok (.ptr (fresh hp)) ⟨⟨{ s with clock := s.clock + 1 }, ⟨fresh hp, none, (x.length + 1) * 2, false⟩ :: hp⟩,
            wcsFrame v 0 (x.length + 1) (some (.ptr (fresh hp))) :: fr⟩ := rfl
      have e7 := eval_conv u l L c B isFn other lim v t { s with clock := s.clock + 1 } hp fr x h (by rw [← hx]; exact hw)
      have e8 := eval_and _ (b := .bin (str% "==") (.id (.fixed (str% "n"))) (.id (.fixed (str% "len"))))
        ((eval_bin (op := str% "==") _ (b := .id (.fixed (str% "0"))) (by decide) (by decide) e7).trans
          (show _ = R.ok (V.ofBool true) _ from rfl))
      have e9 : (Expr.bin (str% "==") (.id (.fixed (str% "n"))) (.id (.fixed (str% "len")))).eval (kctx u l L c B isFn other lim 0)
          ⟨⟨{ s with clock := s.clock + 1 }, ⟨fresh hp, some x, (x.length + 1) * 2, false⟩ :: hp⟩, wcsFrame v (x.length + 1) (x.length + 1) (some (.ptr (fresh hp))) :: fr⟩ =
          .ok (.ofBool (decide (((x.length + 1 : Nat) : Int) = (x.length + 1 : Nat))))
          ⟨⟨{ s with clock := s.clock + 1 }, ⟨fresh hp, some x, (x.length + 1) * 2, false⟩ :: hp⟩, wcsFrame v (x.length + 1) (x.length + 1) (some (.ptr (fresh hp))) :: fr⟩ := rfl
      rw [decide_eq_true rfl] at e9
      rw [if_pos rfl, e9] at e8
      subst hx
      refine call_of _ (F := wcsFrame v ((d :: w).length + 1) ((d :: w).length + 1) (some (.ptr (fresh hp)))) rfl rfl rfl rfl (e1.trans ?_)
      refine exec_ret _ (if1_to (test_of _ (e4.trans rfl) rfl) ?_ (m2 := ⟨⟨{ s with clock := s.clock + 1 }, ⟨fresh hp, some (d :: w), ((d :: w).length + 1) * 2, false⟩ :: hp⟩,
        wcsFrame v ((d :: w).length + 1) ((d :: w).length + 1) (some (.ptr (fresh hp))) :: fr⟩) rfl)
      refine (exec_next _ (exec_expr _ e6)).trans ?_
      refine exec_ret _ (if1_to (test_of _ (e8.trans rfl) rfl) ?_ (m2 := ⟨⟨{ s with clock := s.clock + 1 }, ⟨fresh hp, some (d :: w), ((d :: w).length + 1) * 2, false⟩ :: hp⟩,
        wcsFrame v ((d :: w).length + 1) ((d :: w).length + 1) (some (.ptr (fresh hp))) :: fr⟩) rfl)
      rfl

end

end Gdo.Cc.W
