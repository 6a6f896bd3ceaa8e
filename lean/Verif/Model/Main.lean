import Verif.Model.Generate
import Verif.Model.Tokenize

/-!
Model of the listing of symbols (`src/gendlopen.cpp`).
-/

namespace Gdo

/-- `print_type` in `gendlopen::print_symbols_to_stdout` (gendlopen.cpp 232-239). -/
def printType (s : Str) : Str := if (str% "*").isSuffixOf s then s else s ++ [' ']

/-- The text that `gendlopen::print_symbols_to_stdout` writes (gendlopen.cpp 217-252).
    Both streams that are used there are the standard output. -/
def printSymbols (sy : Symbols) : Str :=
  (if sy.typedefs.isEmpty then []
   else str% "/* typedefs */\n" ++ (sy.typedefs.map fun t => str% "typedef " ++ t ++ str% ";\n").flatten ++ ['\n']) ++
  str% "/* prototypes */\n" ++
  (sy.objs.map fun e => printType e.type ++ e.symbol ++ str% ";\n").flatten ++
  (sy.protos.map fun e => printType e.type ++ e.symbol ++ ['('] ++ e.args ++ str% ");\n").flatten ++
  str% "\n/***  " ++ natDigits (sy.objs.length + sy.protos.length) ++ str% " matches  ***/\n"

end Gdo
