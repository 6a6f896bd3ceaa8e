import Verif.Lemmas.CSeg
import Verif.Model.CProg
import Verif.Lemmas.Builtin

/-!
Lemmas: the trees of `Verif/Model/CProg.lean` are the text of the templates.
-/

set_option maxRecDepth 100000

namespace Gdo.Cc
open Gdo Tpl Gen Tmpl Rename Builtin

theorem commonPart1_seg : Seg (((texts .commonBody).drop 0).take 22)
    fun D => commonPart1 (D (str% "GDO_WINAPI")) :=
  seg_of (ws := [str% "GDO_WINAPI"])
    (f := fun bs => match bs with | [b0] => commonPart1 b0 | _ => []) (by decide +kernel)

theorem commonPart2_seg : Seg (((texts .commonBody).drop 22).take 28)
    fun D => commonPart2 (D (str% "GDO_HAVE_DLADDR")) (D (str% "GDO_HAVE_DLMOPEN")) (D (str% "GDO_WINAPI")) :=
  seg_of (ws := [str% "GDO_HAVE_DLADDR", str% "GDO_HAVE_DLMOPEN", str% "GDO_WINAPI"])
    (f := fun bs => match bs with | [b0, b1, b2] => commonPart2 b0 b1 b2 | _ => []) (by decide +kernel)

theorem commonPart3_seg : Seg (((texts .commonBody).drop 50).take 46)
    fun D => commonPart3 (D (str% "_AIX")) :=
  seg_of (ws := [str% "_AIX"])
    (f := fun bs => match bs with | [b0] => commonPart3 b0 | _ => []) (by decide +kernel)

theorem commonPart4_seg : Seg (((texts .commonBody).drop 96).take 90)
    fun D => commonPart4 (D (str% "GDO_HAVE_DLINFO")) (D (str% "PROCMAP_QUERY")) (D (str% "__linux__")) :=
  seg_of (ws := [str% "GDO_HAVE_DLINFO", str% "PROCMAP_QUERY", str% "__linux__"])
    (f := fun bs => match bs with | [b0, b1, b2] => commonPart4 b0 b1 b2 | _ => []) (by decide +kernel)

theorem cPart1_seg : Seg (((texts .cBody).drop 0).take 13)
    fun D => cPart1 (D (str% "GDO_USE_MESSAGE_BOX")) (D (str% "_MSC_VER")) :=
  seg_of (ws := [str% "GDO_USE_MESSAGE_BOX", str% "_MSC_VER"])
    (f := fun bs => match bs with | [b0, b1] => cPart1 b0 b1 | _ => []) (by decide +kernel)

theorem cPart2_seg : Seg (((texts .cBody).drop 13).take 21)
    fun D => cPart2 (D (str% "GDO_STATIC")) (D (str% "_GDO_TARGET_WIDECHAR")) :=
  seg_of (ws := [str% "GDO_STATIC", str% "_GDO_TARGET_WIDECHAR"])
    (f := fun bs => match bs with | [b0, b1] => cPart2 b0 b1 | _ => []) (by decide +kernel)

theorem cPart3_seg : Seg (((texts .cBody).drop 34).take 15)
    fun D => cPart3 (D (str% "GDO_WINAPI")) (D (str% "_countof")) :=
  seg_of (ws := [str% "GDO_WINAPI", str% "_countof"])
    (f := fun bs => match bs with | [b0, b1] => cPart3 b0 b1 | _ => []) (by decide +kernel)

theorem cPart4_seg : Seg (((texts .cBody).drop 49).take 3)
    fun D => cPart4 (D (str% "_AIX")) (D (str% "_WIN32")) :=
  seg_of (ws := [str% "_AIX", str% "_WIN32"])
    (f := fun bs => match bs with | [b0, b1] => cPart4 b0 b1 | _ => []) (by decide +kernel)

theorem cPart5_seg : Seg (((texts .cBody).drop 52).take 9)
    fun D => cPart5 (D (str% "GDO_HAVE_DLADDR")) (D (str% "GDO_HAVE_DLINFO")) :=
  seg_of (ws := [str% "GDO_HAVE_DLADDR", str% "GDO_HAVE_DLINFO"])
    (f := fun bs => match bs with | [b0, b1] => cPart5 b0 b1 | _ => []) (by decide +kernel)

theorem cPart6_seg : Seg (((texts .cBody).drop 61).take 100)
    fun D => cPart6 (D (str% "GDO_WINAPI")) (D (str% "_WIN32")) :=
  seg_of (ws := [str% "GDO_WINAPI", str% "_WIN32"])
    (f := fun bs => match bs with | [b0, b1] => cPart6 b0 b1 | _ => []) (by decide +kernel)

theorem cPart7_seg : Seg (((texts .cBody).drop 161).take 110)
    fun D => cPart7 (D (str% "GDO_DEFAULT_LIB")) (D (str% "GDO_WINAPI")) :=
  seg_of (ws := [str% "GDO_DEFAULT_LIB", str% "GDO_WINAPI"])
    (f := fun bs => match bs with | [b0, b1] => cPart7 b0 b1 | _ => []) (by decide +kernel)

theorem cPart8_seg : Seg (((texts .cBody).drop 271).take 51)
    fun D => cPart8 (D (str% "GDO_CONVERT_FILENAME")) (D (str% "GDO_WINAPI")) (D (str% "_GDO_TARGET_WIDECHAR")) :=
  seg_of (ws := [str% "GDO_CONVERT_FILENAME", str% "GDO_WINAPI", str% "_GDO_TARGET_WIDECHAR"])
    (f := fun bs => match bs with | [b0, b1, b2] => cPart8 b0 b1 b2 | _ => []) (by decide +kernel)

theorem cPart9_seg : Seg (((texts .cBody).drop 322).take 295)
    fun D => cPart9 (D (str% "GDO_WINAPI")) :=
  seg_of (ws := [str% "GDO_WINAPI"])
    (f := fun bs => match bs with | [b0] => cPart9 b0 | _ => []) (by decide +kernel)

theorem cPart10_seg : Seg (((texts .cBody).drop 617).take 45)
    fun D => cPart10 (D (str% "GDO_HAVE_DLADDR")) (D (str% "GDO_HAVE_DLINFO")) (D (str% "_AIX")) (D (str% "_WIN32")) :=
  seg_of (ws := [str% "GDO_HAVE_DLADDR", str% "GDO_HAVE_DLINFO", str% "_AIX", str% "_WIN32"])
    (f := fun bs => match bs with | [b0, b1, b2, b3] => cPart10 b0 b1 b2 b3 | _ => []) (by decide +kernel)

theorem cPart11_seg : Seg (((texts .cBody).drop 662).take 41)
    fun D => cPart11 (D (str% "GDO_DLFCN_WIN32")) (D (str% "GDO_WINAPI")) (D (str% "_WIN32")) :=
  seg_of (ws := [str% "GDO_DLFCN_WIN32", str% "GDO_WINAPI", str% "_WIN32"])
    (f := fun bs => match bs with | [b0, b1, b2] => cPart11 b0 b1 b2 | _ => []) (by decide +kernel)

theorem cPart12_seg : Seg (((texts .cBody).drop 703).take 66)
    fun D => cPart12 (D (str% "_AIX")) :=
  seg_of (ws := [str% "_AIX"])
    (f := fun bs => match bs with | [b0] => cPart12 b0 | _ => []) (by decide +kernel)

theorem cPart13_seg : Seg (((texts .cBody).drop 769).take 38)
    fun D => cPart13 (D (str% "GDO_HAVE_DLINFO")) (D (str% "__linux__")) :=
  seg_of (ws := [str% "GDO_HAVE_DLINFO", str% "__linux__"])
    (f := fun bs => match bs with | [b0, b1] => cPart13 b0 b1 | _ => []) (by decide +kernel)

theorem cPart14_seg : Seg (((texts .cBody).drop 807).take 39)
    fun D => cPart14 (D (str% "GDO_HAVE_DLADDR")) :=
  seg_of (ws := [str% "GDO_HAVE_DLADDR"])
    (f := fun bs => match bs with | [b0] => cPart14 b0 | _ => []) (by decide +kernel)

theorem cPart15_seg : Seg (((texts .cBody).drop 847).take 6)
    fun D => cPart15 :=
  seg_of (ws := [])
    (f := fun bs => match bs with | [] => cPart15 | _ => []) (by decide +kernel)

theorem cPart16_seg : Seg (((texts .cBody).drop 853).take 93)
    fun D => cPart16 (D (str% "GDO_ENABLE_AUTOLOAD")) (D (str% "GDO_ENABLE_AUTOLOAD_LAZY")) (D (str% "GDO_USE_MESSAGE_BOX")) (D (str% "GDO_WRAP_FUNCTIONS")) (D (str% "_MSC_VER")) (D (str% "_WIN32")) (D (str% "__GNUC__")) :=
  seg_of (ws := [str% "GDO_ENABLE_AUTOLOAD", str% "GDO_ENABLE_AUTOLOAD_LAZY", str% "GDO_USE_MESSAGE_BOX", str% "GDO_WRAP_FUNCTIONS", str% "_MSC_VER", str% "_WIN32", str% "__GNUC__"])
    (f := fun bs => match bs with | [b0, b1, b2, b3, b4, b5, b6] => cPart16 b0 b1 b2 b3 b4 b5 b6 | _ => []) (by decide +kernel)

theorem cPart17_seg : Seg (((texts .cBody).drop 947).take 2)
    fun D => cPart17 :=
  seg_of (ws := [])
    (f := fun bs => match bs with | [] => cPart17 | _ => []) (by decide +kernel)

theorem cPart18_seg : Seg (((texts .cBody).drop 949).take 16)
    fun D => cPart18 (D (str% "GDO_DISABLE_ALIASING")) (D (str% "GDO_SEPARATE")) (D (str% "GDO_WRAP_IS_VISIBLE")) :=
  seg_of (ws := [str% "GDO_DISABLE_ALIASING", str% "GDO_SEPARATE", str% "GDO_WRAP_IS_VISIBLE"])
    (f := fun bs => match bs with | [b0, b1, b2] => cPart18 b0 b1 b2 | _ => []) (by decide +kernel)

theorem common_shown (names : ParamNames) : shown names none (texts .commonBody) =
    ((texts .commonBody).drop 0).take 22 ++ ((texts .commonBody).drop 22).take 28 ++ ((texts .commonBody).drop 50).take 46 ++ ((texts .commonBody).drop 96).take 90 := by
  cases names <;> decide +kernel

theorem commonProg_seg (names : ParamNames) : Seg (shown names none (texts .commonBody)) commonProg := by
  rw [common_shown]
  exact (((commonPart1_seg.append commonPart2_seg).append commonPart3_seg).append commonPart4_seg)

theorem c_shown (names : ParamNames) : shown names none (texts .cBody) =
    (((texts .cBody).drop 0).take 13 ++ ((texts .cBody).drop 13).take 21 ++ ((texts .cBody).drop 34).take 15 ++ ((texts .cBody).drop 49).take 3 ++ ((texts .cBody).drop 52).take 9 ++ ((texts .cBody).drop 61).take 100 ++ ((texts .cBody).drop 161).take 110 ++ ((texts .cBody).drop 271).take 51 ++ ((texts .cBody).drop 322).take 295 ++ ((texts .cBody).drop 617).take 45 ++ ((texts .cBody).drop 662).take 41 ++ ((texts .cBody).drop 703).take 66 ++ ((texts .cBody).drop 769).take 38 ++ ((texts .cBody).drop 807).take 39) ++
    ((if names = .skip then [] else ((texts .cBody).drop 847).take 6 ++ ((texts .cBody).drop 853).take 93) ++
    (((texts .cBody).drop 947).take 2 ++ ((texts .cBody).drop 949).take 16)) := by
  cases names <;> decide +kernel

theorem cProg_seg (names : ParamNames) : Seg (shown names none (texts .cBody)) (cProg (names = .skip)) := by
  rw [c_shown]
  refine ((((((((((((((cPart1_seg.append cPart2_seg).append cPart3_seg).append cPart4_seg).append cPart5_seg).append cPart6_seg).append cPart7_seg).append cPart8_seg).append cPart9_seg).append cPart10_seg).append cPart11_seg).append cPart12_seg).append cPart13_seg).append cPart14_seg)).append (Seg.append ?_ (cPart17_seg.append cPart18_seg))
  by_cases h : names = .skip
  · simp only [h, if_true, decide_true]
    exact Seg.nil
  · simp only [if_neg h, decide_eq_true_eq]
    exact (cPart15_seg.append cPart16_seg)

end Gdo.Cc
