import Verif.Lemmas.CSeg
import Verif.Model.CProgOther
import Verif.Lemmas.Builtin

/-!
Lemmas: the trees of `Verif/Model/CProgOther.lean` are the text of the templates.
-/

set_option maxRecDepth 100000

namespace Gdo.Cc
open Gdo Tpl Gen Tmpl Rename Builtin

theorem minimalPart1_seg : Seg (((texts .minCHeader).drop 0).take 7)
    fun D => minimalPart1 (D (str% "GDO_USE_DLOPEN")) (D (str% "_WIN32")) :=
  seg_of (ws := [str% "GDO_USE_DLOPEN", str% "_WIN32"])
    (f := fun bs => match bs with | [b0, b1] => minimalPart1 b0 b1 | _ => []) (by decide +kernel)

theorem minimalPart2_seg : Seg (((texts .minCHeader).drop 7).take 55)
    fun D => minimalPart2 (D (str% "GDO_STATIC")) (D (str% "GDO_WINAPI")) :=
  seg_of (ws := [str% "GDO_STATIC", str% "GDO_WINAPI"])
    (f := fun bs => match bs with | [b0, b1] => minimalPart2 b0 b1 | _ => []) (by decide +kernel)

theorem minimalPart3_seg : Seg (((texts .minCHeader).drop 62).take 35)
    fun D => minimalPart3 (D (str% "GDO_WINAPI")) (D (str% "_AIX")) :=
  seg_of (ws := [str% "GDO_WINAPI", str% "_AIX"])
    (f := fun bs => match bs with | [b0, b1] => minimalPart3 b0 b1 | _ => []) (by decide +kernel)

theorem minimalPart4_seg : Seg (((texts .minCHeader).drop 97).take 10)
    fun D => minimalPart4 (D (str% "GDO_DISABLE_ALIASING")) :=
  seg_of (ws := [str% "GDO_DISABLE_ALIASING"])
    (f := fun bs => match bs with | [b0] => minimalPart4 b0 | _ => []) (by decide +kernel)

theorem pluginPart1_seg : Seg (((texts .pluginBody).drop 0).take 77)
    fun D => pluginPart1 (D (str% "GDO_STATIC")) (D (str% "GDO_WINAPI")) :=
  seg_of (ws := [str% "GDO_STATIC", str% "GDO_WINAPI"])
    (f := fun bs => match bs with | [b0, b1] => pluginPart1 b0 b1 | _ => []) (by decide +kernel)

theorem minimal_shown (names : ParamNames) : shown names none (texts .minCHeader) =
    ((texts .minCHeader).drop 0).take 7 ++ ((texts .minCHeader).drop 7).take 55 ++ ((texts .minCHeader).drop 62).take 35 ++ ((texts .minCHeader).drop 97).take 10 := by
  cases names <;> decide +kernel

theorem minimalProg_seg (names : ParamNames) : Seg (shown names none (texts .minCHeader)) minimalProg := by
  rw [minimal_shown]
  exact (((minimalPart1_seg.append minimalPart2_seg).append minimalPart3_seg).append minimalPart4_seg)

theorem plugin_shown (names : ParamNames) : shown names none (texts .pluginBody) =
    ((texts .pluginBody).drop 0).take 77 := by
  cases names <;> decide +kernel

theorem pluginProg_seg (names : ParamNames) : Seg (shown names none (texts .pluginBody)) pluginProg := by
  rw [plugin_shown]
  exact pluginPart1_seg

end Gdo.Cc
