import Verif.Lemmas.Builtin

/-!
Every template file passes the test of `Lemmas/Builtin.lean`, evaluated by the kernel.
-/

namespace Gdo.Builtin
open Gdo Tpl Gen Tmpl Sub

theorem ok_license : fileOk (lines .license) = true := by decide +kernel
theorem ok_filenameMacros : fileOk (lines .filenameMacros) = true := by decide +kernel
theorem ok_commonHeader : fileOk (lines .commonHeader) = true := by decide +kernel
theorem ok_commonBody : fileOk (lines .commonBody) = true := by decide +kernel
theorem ok_cHeader : fileOk (lines .cHeader) = true := by decide +kernel
theorem ok_cBody : fileOk (lines .cBody) = true := by decide +kernel
theorem ok_cxxHeader : fileOk (lines .cxxHeader) = true := by decide +kernel
theorem ok_cxxBody : fileOk (lines .cxxBody) = true := by decide +kernel
theorem ok_minCHeader : fileOk (lines .minCHeader) = true := by decide +kernel
theorem ok_minCxxHeader : fileOk (lines .minCxxHeader) = true := by decide +kernel
theorem ok_pluginHeader : fileOk (lines .pluginHeader) = true := by decide +kernel
theorem ok_pluginBody : fileOk (lines .pluginBody) = true := by decide +kernel

theorem ok_all (t : TName) : fileOk (lines t) = true := by
  cases t
  · exact ok_license
  · exact ok_filenameMacros
  · exact ok_commonHeader
  · exact ok_commonBody
  · exact ok_cHeader
  · exact ok_cBody
  · exact ok_cxxHeader
  · exact ok_cxxBody
  · exact ok_minCHeader
  · exact ok_minCxxHeader
  · exact ok_pluginHeader
  · exact ok_pluginBody

/-- No line of the texts that are written without template processing is a marker or
    has a keyword. -/
def noKeywords (ls : List Str) : Bool :=
  ((blocks ls).map joinLines).all fun d => (markerLine d).isNone && (firstKind (parts d)).isNone

theorem plain_license : noKeywords (lines .license) = true := by decide +kernel
theorem plain_filenameMacros : noKeywords (lines .filenameMacros) = true := by decide +kernel

end Gdo.Builtin
