import Verif.Lemmas.CForm

/-!
The test of `Lemmas/CForm.lean` on the other template files.
-/

namespace Gdo.CForm
open Gdo Tpl Gen Builtin

theorem wf_license (b : Bool) : wellFormedLines (if b then .skip else .read) (lines .license) = true := by cases b <;> decide +kernel
theorem wf_filenameMacros (b : Bool) : wellFormedLines (if b then .skip else .read) (lines .filenameMacros) = true := by cases b <;> decide +kernel
theorem wf_commonHeader (b : Bool) : wellFormedLines (if b then .skip else .read) (lines .commonHeader) = true := by cases b <;> decide +kernel
theorem wf_commonBody (b : Bool) : wellFormedLines (if b then .skip else .read) (lines .commonBody) = true := by cases b <;> decide +kernel
theorem wf_cHeader (b : Bool) : wellFormedLines (if b then .skip else .read) (lines .cHeader) = true := by cases b <;> decide +kernel
theorem wf_cxxHeader (b : Bool) : wellFormedLines (if b then .skip else .read) (lines .cxxHeader) = true := by cases b <;> decide +kernel
theorem wf_minCHeader (b : Bool) : wellFormedLines (if b then .skip else .read) (lines .minCHeader) = true := by cases b <;> decide +kernel
theorem wf_minCxxHeader (b : Bool) : wellFormedLines (if b then .skip else .read) (lines .minCxxHeader) = true := by cases b <;> decide +kernel
theorem wf_pluginHeader (b : Bool) : wellFormedLines (if b then .skip else .read) (lines .pluginHeader) = true := by cases b <;> decide +kernel
theorem wf_pluginBody (b : Bool) : wellFormedLines (if b then .skip else .read) (lines .pluginBody) = true := by cases b <;> decide +kernel

end Gdo.CForm
