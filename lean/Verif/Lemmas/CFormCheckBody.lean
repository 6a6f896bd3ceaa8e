import Verif.Lemmas.CForm

/-!
The test of `Lemmas/CForm.lean` on the two largest template files.
-/

namespace Gdo.CForm
open Gdo Tpl Gen Builtin

theorem wf_cBody (b : Bool) : wellFormedLines (if b then .skip else .read) (lines .cBody) = true := by cases b <;> decide +kernel
theorem wf_cxxBody (b : Bool) : wellFormedLines (if b then .skip else .read) (lines .cxxBody) = true := by cases b <;> decide +kernel

end Gdo.CForm
