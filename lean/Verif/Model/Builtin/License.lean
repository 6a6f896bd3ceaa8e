import Verif.Basic

/-!
The text of `src/templates/license.h`, line by line.
-/

namespace Gdo.Builtin
open Gdo

/-- `templates/license.h` 1-23. -/
def license0 : List Str := [
  str% "/**@",
  str% " Licensed under the MIT License <http://opensource.org/licenses/MIT>.@",
  str% " SPDX-License-Identifier: MIT@",
  str% " Copyright (c) 2023-2026 Carsten Janssen@",
  str% "@",
  str% " Permission is hereby  granted, free of charge, to any  person obtaining a copy@",
  str% " of this software and associated  documentation files (the \"Software\"), to deal@",
  str% " in the Software  without restriction, including without  limitation the rights@",
  str% " to  use, copy,  modify, merge,  publish, distribute,  sublicense, and/or  sell@",
  str% " copies  of  the Software,  and  to  permit persons  to  whom  the Software  is@",
  str% " furnished to do so, subject to the following conditions:@",
  str% "@",
  str% " The above copyright notice and this permission notice shall be included in all@",
  str% " copies or substantial portions of the Software.@",
  str% "@",
  str% " THE SOFTWARE  IS PROVIDED \"AS  IS\", WITHOUT WARRANTY  OF ANY KIND,  EXPRESS OR@",
  str% " IMPLIED,  INCLUDING BUT  NOT  LIMITED TO  THE  WARRANTIES OF  MERCHANTABILITY,@",
  str% " FITNESS FOR  A PARTICULAR PURPOSE AND  NONINFRINGEMENT. IN NO EVENT  SHALL THE@",
  str% " AUTHORS  OR COPYRIGHT  HOLDERS  BE  LIABLE FOR  ANY  CLAIM,  DAMAGES OR  OTHER@",
  str% " LIABILITY, WHETHER IN AN ACTION OF  CONTRACT, TORT OR OTHERWISE, ARISING FROM,@",
  str% " OUT OF OR IN CONNECTION WITH THE SOFTWARE  OR THE USE OR OTHER DEALINGS IN THE@",
  str% " SOFTWARE.@",
  str% "**/"]

/-- The lines of `templates/license.h` (1-23). -/
def license : List (List Str) := [license0]

end Gdo.Builtin
