import Verif.Lemmas.CSeg
import Verif.Model.CProgCxx
import Verif.Lemmas.Builtin

/-!
Lemmas: the trees of `Verif/Model/CProgCxx.lean` are the text of the template.
-/

set_option maxRecDepth 100000

namespace Gdo.Cc
open Gdo Tpl Gen Tmpl Rename Builtin

theorem cxxehPart1_seg : Seg (((texts .minCxxHeader).drop 0).take 10)
    fun D => Cxxeh.part1 (D (str% "GDO_USE_DLOPEN")) (D (str% "_WIN32")) :=
  seg_of (ws := [str% "GDO_USE_DLOPEN", str% "_WIN32"])
    (f := fun bs => match bs with | [b0, b1] => Cxxeh.part1 b0 b1 | _ => []) (by decide +kernel)

theorem cxxehPart2_seg : Seg (((texts .minCxxHeader).drop 10).take 60)
    fun D => Cxxeh.part2 (D (str% "GDO_WINAPI")) :=
  seg_of (ws := [str% "GDO_WINAPI"])
    (f := fun bs => match bs with | [b0] => Cxxeh.part2 b0 | _ => []) (by decide +kernel)

theorem cxxehPart3_seg : Seg (((texts .minCxxHeader).drop 70).take 65)
    fun D => Cxxeh.part3 (D (str% "GDO_WINAPI")) (D (str% "_AIX")) :=
  seg_of (ws := [str% "GDO_WINAPI", str% "_AIX"])
    (f := fun bs => match bs with | [b0, b1] => Cxxeh.part3 b0 b1 | _ => []) (by decide +kernel)

theorem cxxehPart4_seg : Seg (((texts .minCxxHeader).drop 135).take 12)
    fun D => Cxxeh.part4 (D (str% "GDO_DISABLE_ALIASING")) :=
  seg_of (ws := [str% "GDO_DISABLE_ALIASING"])
    (f := fun bs => match bs with | [b0] => Cxxeh.part4 b0 | _ => []) (by decide +kernel)

theorem cxxeh_shown (names : ParamNames) : shown names none (texts .minCxxHeader) =
    ((texts .minCxxHeader).drop 0).take 10 ++ ((texts .minCxxHeader).drop 10).take 60 ++ ((texts .minCxxHeader).drop 70).take 65 ++ ((texts .minCxxHeader).drop 135).take 12 := by
  cases names <;> decide +kernel

theorem cxxehProg_seg (names : ParamNames) : Seg (shown names none (texts .minCxxHeader)) cxxehProg := by
  rw [cxxeh_shown]
  exact (((cxxehPart1_seg.append cxxehPart2_seg).append cxxehPart3_seg).append cxxehPart4_seg)

end Gdo.Cc
