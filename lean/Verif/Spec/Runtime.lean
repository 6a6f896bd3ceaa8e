import Verif.Model.Runtime

/-!
What the history of loader calls says about the handles, stated on the history alone.
-/

namespace Gdo.RtSpec
open Gdo Rt

/-- How often `h` was returned by `dlopen`. -/
def opens (h : Ptr) (log : List Ev) : Nat := log.countP fun e => e = .opened h

/-- How often `h` was closed successfully. -/
def closes (h : Ptr) (log : List Ev) : Nat := log.countP fun e => e = .closed h true true ∨ e = .closed h true false

/-- How often `h` was given up: a forced release failed. -/
def givenUp (h : Ptr) (log : List Ev) : Nat := log.countP fun e => e = .closed h false true

/-- `h` was opened more often than it was closed or given up. -/
def Alive (h : Ptr) (log : List Ev) : Prop := closes h log + givenUp h log < opens h log

/-- The call passes `h` to the loader. -/
def Uses (h : Ptr) : Ev → Prop
  | .opened _ => False
  | .sym h' _ _ => h' = h
  | .closed h' _ _ => h' = h
  | .info h' => h' = h
  | .path _ => False

/-- No call passes a handle that is not open at that time. -/
def OnlyAlive (log : List Ev) : Prop := ∀ a e b h, log = a ++ e :: b → Uses h e → Alive h a

/-- The library was neither opened nor closed by the calls. -/
def Quiet (log : List Ev) : Prop := ∀ e ∈ log, (∀ h, e ≠ .opened h) ∧ ∀ h f, e ≠ .closed h true f

/-- The loader returned `p` for the symbol since the library was loaded. -/
def Resolved (h : Ptr) (name : Str) (p : Ptr) (log : List Ev) : Prop :=
  ∃ a b, log = a ++ .sym h name (some p) :: b ∧ Quiet b

/-- The file was named by the system since the library was loaded. -/
def Named (p : Str) (log : List Ev) : Prop := ∃ a b, log = a ++ .path p :: b ∧ Quiet b

/-- The state after a call, wherever it ended. -/
def outState {α : Type} : Out α → Option St
  | .ret _ s => some s
  | .exit _ s => some s
  | .abort s => some s
  | .ub => none

end Gdo.RtSpec
