import Verif.Basic

/-!
The text of `src/templates/minimal.h`, line by line.
-/

namespace Gdo.Builtin
open Gdo

/-- `templates/minimal.h` 1-100. -/
def minCHeader0 : List Str := [
  str% "#if defined(_WIN32) && !defined(GDO_USE_DLOPEN)",
  str% "# define GDO_WINAPI",
  str% "# include <windows.h>",
  str% "#else",
  str% "# include <dlfcn.h>",
  str% "#endif",
  [],
  str% "#ifdef GDO_STATIC",
  str% "# define GDO_LINKAGE  static inline",
  str% "#else",
  str% "# define GDO_LINKAGE  /**/",
  str% "#endif",
  [],
  [],
  str% "/**",
  str% " * Library and symbols handle",
  str% " */",
  str% "typedef struct gdo_handle",
  str% "{",
  str% "#ifdef GDO_WINAPI",
  str% "    HMODULE handle;",
  str% "#else",
  str% "    void *handle;",
  str% "#endif",
  [],
  str% "    /* symbol pointers; symbol names must be prefixed to avoid macro expansion */",
  str% "    %%type%% (*GDO_PTR_%%func_symbol%%)(%%args%%);",
  str% "    %%obj_type%% *GDO_PTR_%%obj_symbol%%;",
  [],
  str% "} gdo_handle_t;",
  [],
  str% "GDO_LINKAGE gdo_handle_t gdo_hndl;",
  [],
  [],
  str% "/**",
  str% " * Free library handle without error checks.",
  str% " * Internal handle and pointers are always set back to NULL.",
  str% " */",
  str% "GDO_LINKAGE void gdo_free_library(void)",
  str% "{",
  str% "    if (gdo_hndl.handle) {",
  str% "#ifdef GDO_WINAPI",
  str% "        FreeLibrary(gdo_hndl.handle);",
  str% "#else",
  str% "        dlclose(gdo_hndl.handle);",
  str% "#endif",
  str% "    }",
  [],
  str% "    gdo_hndl.handle = NULL;",
  str% "    gdo_hndl.GDO_PTR_%%symbol%% = NULL;",
  str% "}",
  [],
  [],
  str% "/**",
  str% " * Load library and all symbols.",
  str% " *",
  str% " * filename:",
  str% " *   Library filename or path to load. Must not be empty or NULL.",
  str% " *",
  str% " * Returns NULL on success and an error message if loading has failed.",
  str% " * Do NOT free the returned pointer. Library handle is always freed on an error.",
  str% " */",
  str% "GDO_LINKAGE const char *gdo_load_library_and_symbols(const char *filename)",
  str% "{",
  str% "    if (!filename) {",
  str% "        return \"filename is <NULL>\";",
  str% "    } else if (!*filename) {",
  str% "        return \"filename is empty\";",
  str% "    }",
  [],
  str% "    /* load library */",
  str% "#ifdef GDO_WINAPI",
  str% "    gdo_hndl.handle = LoadLibraryA(filename);",
  str% "#elif defined(_AIX)",
  str% "    gdo_hndl.handle = dlopen(filename, RTLD_LAZY | RTLD_MEMBER);",
  str% "#else",
  str% "    gdo_hndl.handle = dlopen(filename, RTLD_LAZY);",
  str% "#endif",
  [],
  str% "    if (!gdo_hndl.handle) {",
  str% "        return \"failed to load library\";",
  str% "    }",
  [],
  str% "    /* load symbols */",
  str% "#ifdef GDO_WINAPI",
  str% "# define _GDO_LOAD_SYM(SYMBOL)  (void *)GetProcAddress(gdo_hndl.handle, SYMBOL)",
  str% "#else",
  str% "# define _GDO_LOAD_SYM(SYMBOL)  dlsym(gdo_hndl.handle, SYMBOL)",
  str% "#endif",
  str% "@",
  str% "    /* %%symbol%% */@",
  str% "    gdo_hndl.GDO_PTR_%%symbol%% =@",
  str% "        (%%sym_type%%)@",
  str% "            _GDO_LOAD_SYM(\"%%symbol%%\");@",
  str% "    if (!gdo_hndl.GDO_PTR_%%symbol%%) {@",
  str% "        gdo_free_library();@",
  str% "        return \"failed to load symbol: %%symbol%%\";@",
  str% "    }",
  [],
  str% "#undef _GDO_LOAD_SYM"]

/-- `templates/minimal.h` 101-115. -/
def minCHeader1 : List Str := [
  [],
  str% "    return NULL;",
  str% "}",
  [],
  [],
  str% "#if !defined(GDO_DISABLE_ALIASING)",
  [],
  str% "/**",
  str% " * Aliases to raw symbol pointers",
  str% " */",
  str% "#define %%func_symbol_pad%%  gdo_hndl.GDO_PTR_%%func_symbol%%",
  str% "#define %%obj_symbol_pad%%  *gdo_hndl.GDO_PTR_%%obj_symbol%%",
  [],
  str% "#endif // !GDO_DISABLE_ALIASING",
  []]

/-- The lines of `templates/minimal.h` (1-115). -/
def minCHeader : List (List Str) := [minCHeader0, minCHeader1]

end Gdo.Builtin
