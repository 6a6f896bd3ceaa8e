import Verif.Model.CProg

/-!
The code of the other templates for the C language, as trees: `src/templates/minimal.h`
and `src/templates/plugin.c`, with the conditionals of the preprocessor as conditionals on
which macros are defined.  That these trees are the text of the templates is proved in
`Verif/Lemmas/CProgOtherText.lean`; nothing here needs to be trusted.
-/

set_option maxRecDepth 10000
set_option linter.unusedVariables false

namespace Gdo.Cc
open Gdo Tmpl

namespace C

/-- `gdo_free_library`.  C: minimal.h 39-51. -/
def gdo_free_library (GDO_WINAPI : Bool) : Top := .fn {
  head := [w! "GDO_LINKAGE", w! "void"]
  name := str% "gdo_free_library"
  params := []
  body := 
    [.if1 (.field (id! "gdo_hndl") (str% "handle")) (if GDO_WINAPI then [.expr (.call (n! "FreeLibrary") [(.field (id! "gdo_hndl") (str% "handle"))])] else [.expr (.call (n! "dlclose") [(.field (id! "gdo_hndl") (str% "handle"))])]),
     .expr (.assign (.field (id! "gdo_hndl") (str% "handle")) (id! "NULL")),
     .rep .symbol [.expr (.assign (.member (id! "gdo_hndl") (.hole (str% "GDO_PTR_") (str% "symbol"))) (id! "NULL"))]] }

/-- `gdo_load_library_and_symbols`.  C: minimal.h 63-103. -/
def gdo_load_library_and_symbols (GDO_WINAPI : Bool) (_AIX : Bool) : Top := .fn {
  head := [w! "GDO_LINKAGE", w! "const", w! "char", p! "*"]
  name := str% "gdo_load_library_and_symbols"
  params := [([w! "const", w! "char", p! "*"], str% "filename")]
  body := 
    [.elif (.un (str% "!") (id! "filename")) [.ret (some (lit! "filename is <NULL>"))] [.if1 (.un (str% "!") (.un (str% "*") (id! "filename"))) [.ret (some (lit! "filename is empty"))]]] ++
    (if GDO_WINAPI then [.expr (.assign (.field (id! "gdo_hndl") (str% "handle")) (.call (n! "LoadLibraryA") [(id! "filename")]))] else (if _AIX then [.expr (.assign (.field (id! "gdo_hndl") (str% "handle")) (.call (n! "dlopen") [(id! "filename"), (.bin (str% "|") (id! "RTLD_LAZY") (id! "RTLD_MEMBER"))]))] else [.expr (.assign (.field (id! "gdo_hndl") (str% "handle")) (.call (n! "dlopen") [(id! "filename"), (id! "RTLD_LAZY")]))])) ++
    [.if1 (.un (str% "!") (.field (id! "gdo_hndl") (str% "handle"))) [.ret (some (lit! "failed to load library"))]] ++
    (if GDO_WINAPI then [] else []) ++
    [.rep .symbol [.expr (.assign (.member (id! "gdo_hndl") (.hole (str% "GDO_PTR_") (str% "symbol"))) (.cast [.text (.hole [] (str% "sym_type"))] (.call (n! "_GDO_LOAD_SYM") [(.str (.hole (str% "") (str% "symbol")))]))), .if1 (.un (str% "!") (.member (id! "gdo_hndl") (.hole (str% "GDO_PTR_") (str% "symbol")))) [.expr (.call (n! "gdo_free_library") []), .ret (some (.str (.hole (str% "failed to load symbol: ") (str% "symbol"))))]],
     .ret (some (id! "NULL"))] }

/-- `gdo_load_plugins`.  C: plugin.c 28-60. -/
def gdo_load_plugins : Top := .fn {
  head := [w! "GDO_LINKAGE", w! "gdo_plugin_t", p! "*"]
  name := str% "gdo_load_plugins"
  params := [([w! "const", w! "gdo_char_t", p! "*", p! "*"], str% "files"), ([w! "size_t"], str% "num")]
  body := 
    [.if1 (.bin (str% "||") (.un (str% "!") (id! "files")) (.bin (str% "==") (id! "num") (id! "0"))) [.ret (some (id! "NULL"))],
     .decl [w! "gdo_plugin_t", p! "*"] (str% "plug") [] (some (.cast [w! "gdo_plugin_t", p! "*"] (.call (n! "malloc") [(.sizeofType [w! "gdo_plugin_t"])]))) [],
     .expr (.assign (.arrow (id! "plug") (str% "num")) (id! "num")),
     .expr (.assign (.arrow (id! "plug") (str% "list")) (.cast [w! "gdo_handle_t", p! "*"] (.call (n! "calloc") [(id! "num"), (.sizeofType [w! "gdo_handle_t"])]))),
     .for [w! "size_t"] (str% "i") (id! "0") (.bin (str% "<") (id! "i") (id! "num")) (.inc (id! "i")) [.if1 (.bin (str% "||") (.un (str% "!") (.index (id! "files") (id! "i"))) (.bin (str% "==") (.un (str% "*") (.index (id! "files") (id! "i"))) (id! "0"))) [.cont], .expr (.assign (.member (.index (.arrow (id! "plug") (str% "list")) (id! "i")) (n! "filename")) (.call (n! "GDO_STRDUP") [(.index (id! "files") (id! "i"))])), .if1 (.bin (str% "==") (.paren (.assign (.member (.index (.arrow (id! "plug") (str% "list")) (id! "i")) (n! "handle")) (.call (n! "GDO_LOAD_LIB") [(.index (id! "files") (id! "i"))]))) (id! "NULL")) [.cont], .rep .symbol [.expr (.assign (.member (.member (.index (.arrow (id! "plug") (str% "list")) (id! "i")) (n! "ptr")) (.hole (str% "") (str% "symbol"))) (.cast [.text (.hole [] (str% "sym_type"))] (.call (n! "_gdo_call_dlsym") [(.member (.index (.arrow (id! "plug") (str% "list")) (id! "i")) (n! "handle")), (.str (.hole (str% "") (str% "symbol")))])))]],
     .ret (some (id! "plug"))] }

/-- `gdo_release_plugins`.  C: plugin.c 64-80. -/
def gdo_release_plugins : Top := .fn {
  head := [w! "GDO_LINKAGE", w! "void"]
  name := str% "gdo_release_plugins"
  params := [([w! "gdo_plugin_t", p! "*"], str% "plug")]
  body := 
    [.if1 (.un (str% "!") (id! "plug")) [.ret none],
     .for [w! "size_t"] (str% "i") (id! "0") (.bin (str% "<") (id! "i") (.arrow (id! "plug") (str% "num"))) (.inc (id! "i")) [.expr (.call (n! "free") [(.member (.index (.arrow (id! "plug") (str% "list")) (id! "i")) (n! "filename"))]), .if1 (.member (.index (.arrow (id! "plug") (str% "list")) (id! "i")) (n! "handle")) [.expr (.call (n! "_gdo_call_dlclose") [(.member (.index (.arrow (id! "plug") (str% "list")) (id! "i")) (n! "handle"))])]],
     .expr (.call (n! "free") [(.arrow (id! "plug") (str% "list"))]),
     .expr (.call (n! "free") [(id! "plug")])] }

end C

/-- C: minimal.h, part 1. -/
def minimalPart1 (GDO_USE_DLOPEN : Bool) (_WIN32 : Bool) : List Top := (if _WIN32 && !GDO_USE_DLOPEN then [] else [])

/-- C: minimal.h, part 2. -/
def minimalPart2 (GDO_STATIC : Bool) (GDO_WINAPI : Bool) : List Top := ((if GDO_STATIC then [] else []) ++ [.struct [w! "typedef", w! "struct", w! "gdo_handle"] ((if GDO_WINAPI then [.tok (w! "HMODULE"), .tok (w! "handle"), .tok (p! ";")] else [.tok (w! "void"), .tok (p! "*"), .tok (w! "handle"), .tok (p! ";")]) ++ [.rep .function [.text (.hole [] (str% "type")), p! "(", p! "*", .word (.hole (str% "GDO_PTR_") (str% "func_symbol")), p! ")", p! "(", .text (.hole [] (str% "args")), p! ")", p! ";"], .rep .object [.text (.hole [] (str% "obj_type")), p! "*", .word (.hole (str% "GDO_PTR_") (str% "obj_symbol")), p! ";"]]) [w! "gdo_handle_t"], .decl [w! "GDO_LINKAGE", w! "gdo_handle_t", w! "gdo_hndl", p! ";"], C.gdo_free_library GDO_WINAPI])

/-- C: minimal.h, part 3. -/
def minimalPart3 (GDO_WINAPI : Bool) (_AIX : Bool) : List Top := [C.gdo_load_library_and_symbols GDO_WINAPI _AIX]

/-- C: minimal.h, part 4. -/
def minimalPart4 (GDO_DISABLE_ALIASING : Bool) : List Top := (if !GDO_DISABLE_ALIASING then [] else [])

/-- C: plugin.c, part 1. -/
def pluginPart1 (GDO_STATIC : Bool) (GDO_WINAPI : Bool) : List Top := ((if GDO_WINAPI then [] else []) ++ (if GDO_STATIC then [] else []) ++ (if GDO_WINAPI then [] else []) ++ [C.gdo_load_plugins, C.gdo_release_plugins])

/-- The code of `minimal.h`; `D`: which macros are defined. -/
def minimalProg (D : Str → Bool) : List Top :=
  minimalPart1 (D (str% "GDO_USE_DLOPEN")) (D (str% "_WIN32")) ++
    minimalPart2 (D (str% "GDO_STATIC")) (D (str% "GDO_WINAPI")) ++
    minimalPart3 (D (str% "GDO_WINAPI")) (D (str% "_AIX")) ++
    minimalPart4 (D (str% "GDO_DISABLE_ALIASING"))

/-- The code of `plugin.c`; `D`: which macros are defined. -/
def pluginProg (D : Str → Bool) : List Top :=
  pluginPart1 (D (str% "GDO_STATIC")) (D (str% "GDO_WINAPI"))

end Gdo.Cc
