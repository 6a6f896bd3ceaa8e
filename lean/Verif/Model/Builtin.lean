import Verif.Model.Generate
import Verif.Spec.Template
import Verif.Model.Builtin.License
import Verif.Model.Builtin.FilenameMacros
import Verif.Model.Builtin.CommonHeader
import Verif.Model.Builtin.CommonBody
import Verif.Model.Builtin.CHeader
import Verif.Model.Builtin.CBody
import Verif.Model.Builtin.CxxHeader
import Verif.Model.Builtin.CxxBody
import Verif.Model.Builtin.MinCHeader
import Verif.Model.Builtin.MinCxxHeader
import Verif.Model.Builtin.PluginHeader
import Verif.Model.Builtin.PluginBody

/-!
The templates that are part of the program: the text of each file of `src/templates`
and the list that `gen_templates_data.c` and the compiler make of it.
-/

namespace Gdo.Builtin
open Gdo Tpl Gen

/-- The lines of each template file (src/templates), in groups. -/
def chunks : TName → List (List Str)
  | .license => license
  | .filenameMacros => filenameMacros
  | .commonHeader => commonHeader
  | .commonBody => commonBody
  | .cHeader => cHeader
  | .cBody => cBody
  | .cxxHeader => cxxHeader
  | .cxxBody => cxxBody
  | .minCHeader => minCHeader
  | .minCxxHeader => minCxxHeader
  | .pluginHeader => pluginHeader
  | .pluginBody => pluginBody

/-- The lines of each template file (src/templates). -/
def lines (t : TName) : List Str := (chunks t).flatten

/-- The contents of each template file (src/templates). -/
def fileText (t : TName) : Str := (lines t).flatMap fun l => l ++ str% "\n"

/-- The built-in list of a template: `dump` (gen_templates_data.c 39-166) on the file,
    compiled.  `none` if it does not compile. -/
def compiledList (t : TName) : Option (List Entry) :=
  (compiledAll (embed (fileText t))).map fun es =>
    (if t.file = str% "license.h" then [] else [builtinLineEntry t.file]) ++ es ++ [terminator]

end Gdo.Builtin
