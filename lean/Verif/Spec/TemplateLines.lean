import Verif.Model.Substitute

/-!
Specification of the sections of a template and of the line numbers of its output.
-/

namespace Gdo.Tmpl
open Gdo Tpl Sub

/-- The lines that begin and end a section. -/
inductive Marker
  | remove | use | stop
  deriving DecidableEq, Repr

/-- The marker that a line is; a line ends at a NUL byte. -/
def markerOf (e : Entry) : Option Marker :=
  let l := e.data.takeWhile (· ≠ '\x00')
  if l = str% "%PARAM_SKIP_REMOVE_BEGIN%" then some .remove
  else if l = str% "%PARAM_SKIP_USE_BEGIN%" then some .use
  else if l = str% "%PARAM_SKIP_END%" then some .stop
  else none

/-- The last marker behind a line, `m` being the last one before it. -/
def nextMarker (m : Option Marker) (e : Entry) : Option Marker :=
  match markerOf e with
  | some x => some x
  | none => m

/-- The last marker of some lines, `m` if there is none. -/
def lastMarker (m : Option Marker) : List Entry → Option Marker
  | [] => m
  | e :: es => lastMarker (nextMarker m e) es

/-- Whether lines are written behind the marker. -/
def Shown (names : ParamNames) : Option Marker → Bool
  | none => true
  | some .stop => true
  | some .remove => names ≠ .skip
  | some .use => names = .skip

/-- The texts among the things written. -/
def texts (cs : List Chunk) : List Str :=
  cs.filterMap fun c => match c with | .text s => some s | .directive _ => none

/-- Line numbers as a compiler sees them.  `cur` is the number of the next line; each
    thing written has the number of the template line that it stems from.  0 is the
    initial line `#line 1 "file"`. -/
def Attributed : Nat → List (Nat × Chunk) → Prop
  | _, [] => True
  | _, (_, .directive n) :: r => Attributed n r
  | cur, (l, .text s) :: r =>
    if l = 0 then Attributed (nlCount s + 1) r
    else cur = l ∧ Attributed (cur + nlCount s + 1) r

/-- What is written, each with the number of its template line. -/
def withLines : Nat → List Entry → List (List Chunk) → List (Nat × Chunk)
  | _, [], _ => []
  | _, _ :: _, [] => []
  | l, e :: es, cs :: css => cs.map (fun c => (l, c)) ++ withLines (l + e.lineCount) es css

end Gdo.Tmpl
