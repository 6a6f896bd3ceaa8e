import Verif.Model.CProg

/-!
The code of the template `src/templates/minimal_cxxeh.hpp`, as trees, with the conditionals
of the preprocessor as conditionals on which macros are defined.  That these trees are the
text of the template is proved in `Verif/Lemmas/CProgCxxText.lean`; nothing here needs to be
trusted.
-/

set_option maxRecDepth 10000
set_option linter.unusedVariables false

namespace Gdo.Cc
open Gdo Tmpl

namespace Cxxeh

/-- The pointers of the symbols.  C++: minimal_cxxeh.hpp 39-40. -/
def pointers : Top := .decls
  [.rep .function [.text (.hole [] (str% "type")), p! "(", p! "*", .word (.hole (str% "GDO_PTR_") (str% "func_symbol")), p! ")", p! "(",
     .text (.hole [] (str% "args")), p! ")", p! "=", w! "nullptr", p! ";"],
   .rep .object [.text (.hole [] (str% "obj_type")), p! "*", .word (.hole (str% "GDO_PTR_") (str% "obj_symbol")), p! "=", w! "nullptr", p! ";"]]

/-- The handle.  C++: minimal_cxxeh.hpp 46-50. -/
def handle (GDO_WINAPI : Bool) : Top := .decl
  ((if GDO_WINAPI then [w! "HMODULE"] else [w! "void", p! "*"]) ++ [w! "handle", p! "=", w! "nullptr", p! ";"])

/-- `free_library`.  C++: minimal_cxxeh.hpp 57-69. -/
def free_library (GDO_WINAPI : Bool) : Top := .fn {
  head := [w! "void"]
  name := str% "free_library"
  params := []
  body :=
    [.if1 (id! "handle") (if GDO_WINAPI then [.expr (.global (str% "FreeLibrary") [id! "handle"])] else [.expr (.global (str% "dlclose") [id! "handle"])]),
     .expr (.assign (id! "handle") (id! "nullptr")),
     .rep .symbol [.expr (.assign (.id (.hole (str% "GDO_PTR_") (str% "symbol"))) (id! "nullptr"))]] }

/-- `load_symbol`.  C++: minimal_cxxeh.hpp 124-131. -/
def load_symbol (GDO_WINAPI : Bool) : Stmt :=
  .lambda (str% "load_symbol") [w! "const", w! "char", p! "*"] (str% "symbol") [w! "void", p! "*"]
    (if GDO_WINAPI then [.ret (some (.rcast [w! "void", p! "*"] (.global (str% "GetProcAddress") [id! "handle", id! "symbol"])))]
     else [.ret (some (.global (str% "dlsym") [id! "handle", id! "symbol"]))])

/-- `load_library_and_symbols`.  C++: minimal_cxxeh.hpp 102-141. -/
def load_library_and_symbols (GDO_WINAPI : Bool) (_AIX : Bool) : Top := .throwing {
  head := [w! "void"]
  name := str% "load_library_and_symbols"
  params := [([w! "const", w! "char", p! "*"], str% "filename")]
  body :=
    [.elif (.bin (str% "==") (id! "filename") (id! "NULL")) [.throw (str% "LibraryError") (lit! "<NULL>")]
       [.if1 (.bin (str% "==") (.un (str% "*") (id! "filename")) (id! "0")) [.throw (str% "LibraryError") (lit! "<EMPTY>")]]] ++
    (if GDO_WINAPI then [.expr (.assign (id! "handle") (.global (str% "LoadLibraryA") [id! "filename"]))]
     else if _AIX then [.expr (.assign (id! "handle") (.global (str% "dlopen") [id! "filename", .bin (str% "|") (id! "RTLD_LAZY") (id! "RTLD_MEMBER")]))]
     else [.expr (.assign (id! "handle") (.global (str% "dlopen") [id! "filename", id! "RTLD_LAZY"]))]) ++
    [.if1 (.un (str% "!") (id! "handle")) [.throw (str% "LibraryError") (id! "filename")],
     load_symbol GDO_WINAPI,
     .rep .symbol
       [.expr (.assign (.id (.hole (str% "GDO_PTR_") (str% "symbol"))) (.rcast [.text (.hole [] (str% "sym_type"))]
          (.call (n! "load_symbol") [.str (.hole [] (str% "symbol"))]))),
        .if1 (.un (str% "!") (.id (.hole (str% "GDO_PTR_") (str% "symbol"))))
          [.expr (.call (n! "free_library") []), .throw (str% "SymbolError") (.str (.hole [] (str% "symbol")))]]] }

/-- C++: minimal_cxxeh.hpp 1-11. -/
def part1 (GDO_USE_DLOPEN : Bool) (_WIN32 : Bool) : List Top := []

/-- C++: minimal_cxxeh.hpp 12-71. -/
def part2 (GDO_WINAPI : Bool) : List Top := [.space (str% "gdo"), pointers, handle GDO_WINAPI, free_library GDO_WINAPI]

/-- C++: minimal_cxxeh.hpp 72-144. -/
def part3 (GDO_WINAPI : Bool) (_AIX : Bool) : List Top :=
  [.exception (str% "LibraryError"), .exception (str% "SymbolError"), load_library_and_symbols GDO_WINAPI _AIX, .spaceEnd]

/-- C++: minimal_cxxeh.hpp 145-155. -/
def part4 (GDO_DISABLE_ALIASING : Bool) : List Top := []

end Cxxeh

/-- The code of `minimal_cxxeh.hpp`; `D`: which macros are defined. -/
def cxxehProg (D : Str → Bool) : List Top :=
  Cxxeh.part1 (D (str% "GDO_USE_DLOPEN")) (D (str% "_WIN32")) ++ Cxxeh.part2 (D (str% "GDO_WINAPI")) ++
    Cxxeh.part3 (D (str% "GDO_WINAPI")) (D (str% "_AIX")) ++ Cxxeh.part4 (D (str% "GDO_DISABLE_ALIASING"))

end Gdo.Cc
