import Verif.Model.Win
import Verif.Spec.Runtime

/-!
Words about the generated C code on Windows.
-/

namespace Gdo.WinSpec
open Gdo Win

/-- The state after a call, wherever it ended. -/
def stateAfter {α : Type} : Out α → Option St
  | .ret _ s => some s
  | .exit _ s => some s
  | .abort s => some s
  | .ub => none

/-- The call failed, going by its result. -/
def Failed : Rt.Call → Rt.Val → Prop
  | .libIsLoaded, _ | .allSymbolsLoaded, _ | .noSymbolsLoaded, _ | .anySymbolLoaded, _ => False
  | .libraryPath, v => v = .text none
  | _, v => v = .bool false

/-- The text for a code: that of the system, or the number. -/
def codeText (text : Nat → Option Str) (code : Nat) : Str :=
  match text code with
  | some t => t
  | none => str% "error code: " ++ Nat.toDigits 10 code

/-- What a message consists of: where it happened, and the text for the code. -/
def report (text : Nat → Option Str) (place : Str) (code : Nat) : Str :=
  (if place = [] then [] else place ++ str% ": ") ++ codeText text code

end Gdo.WinSpec
