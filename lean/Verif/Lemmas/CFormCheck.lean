import Verif.Lemmas.CFormCheckBody
import Verif.Lemmas.CFormCheckRest

/-!
Every template file is well-formed C, whatever the prefix and the symbols are: the test of
`Lemmas/CForm.lean`, evaluated by the kernel.
-/

namespace Gdo.CForm
open Gdo Tpl Gen Builtin

theorem linesRun_create (m : Option Tmpl.Marker) (s : St) (ds : List Str) : linesRun .create m s ds = linesRun .read m s ds := by
  induction ds generalizing m s with
  | nil => rfl
  | cons d ds ih =>
    rw [linesRun, linesRun]
    cases Tmpl.markerLine d with
    | some x => dsimp only; rw [ih]
    | none =>
      dsimp only
      rw [ih, show (fun s' => linesRun .create m s' ds) = fun s' => linesRun .read m s' ds from funext fun s' => ih m s']
      rfl

theorem wf_all (names : ParamNames) (t : TName) : wellFormedLines names (lines t) = true := by
  have key : ∀ b : Bool, wellFormedLines (if b then .skip else .read) (lines t) = true := by
    cases t
    · exact wf_license
    · exact wf_filenameMacros
    · exact wf_commonHeader
    · exact wf_commonBody
    · exact wf_cHeader
    · exact wf_cBody
    · exact wf_cxxHeader
    · exact wf_cxxBody
    · exact wf_minCHeader
    · exact wf_minCxxHeader
    · exact wf_pluginHeader
    · exact wf_pluginBody
  cases names with
  | read => exact key false
  | skip => exact key true
  | create =>
    have := key false
    unfold wellFormedLines at this ⊢
    rw [linesRun_create]
    exact this

end Gdo.CForm
