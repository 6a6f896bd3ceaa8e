import Verif.Basic

/-!
The text of `src/templates/plugin.h`, line by line.
-/

namespace Gdo.Builtin
open Gdo

/-- `templates/plugin.h` 1-75. -/
def pluginHeader0 : List Str := [
  str% "/* declaration */",
  str% "#ifdef GDO_STATIC",
  str% "# define GDO_DECL  static inline",
  str% "#else",
  str% "# define GDO_DECL  extern",
  str% "#endif",
  [],
  [],
  str% "/**",
  str% " * If compiling for win32 and `_UNICODE` is defined and `GDO_USE_DLOPEN` is NOT",
  str% " * defined `gdo_char_t` will become `wchar_t`.",
  str% " */",
  str% "#ifdef _GDO_TARGET_WIDECHAR",
  str% "typedef wchar_t gdo_char_t;",
  str% "#else",
  str% "typedef char    gdo_char_t;",
  str% "#endif",
  [],
  [],
  str% "/**",
  str% " * Library and symbols handle",
  str% " */",
  str% "typedef struct _gdo_handle",
  str% "{",
  str% "    gdo_char_t *filename;  /* copy of module filename */",
  str% "    gdo_hmod_t  handle;    /* library handle */",
  [],
  str% "    /* symbol pointers */",
  str% "    struct _gdo_ptr {",
  str% "        %%type%% (*%%func_symbol%%)(%%args%%);",
  str% "        %%obj_type%% *%%obj_symbol%%;",
  str% "    } ptr;",
  [],
  str% "} gdo_handle_t;",
  [],
  [],
  str% "/**",
  str% " * Plugin handle",
  str% " */",
  str% "typedef struct _gdo_plugin",
  str% "{",
  str% "    size_t        num;   /* number of elements in `list' */",
  str% "    gdo_handle_t *list;  /* list of library handles */",
  [],
  str% "} gdo_plugin_t;",
  [],
  [],
  str% "/**",
  str% " * Load from a list of plugin names.",
  str% " *",
  str% " * files:",
  str% " *   array of `gdo_char_t *' filenames to load",
  str% " *",
  str% " * num:",
  str% " *   number of entries in `files'",
  str% " *",
  str% " * Returns a pointer to a `gdo_plugin_t' array of `num' entries.",
  str% " * Always release the result with `gdo_release_plugins()'.",
  str% " *",
  str% " * To ensure loading was successful you must check the library handle and function",
  str% " * pointers of each entry of the returned `gdo_plugin.list' array.",
  str% " * If `files' is NULL or `num' is 0 a NULL pointer is returned.",
  str% " */",
  str% "GDO_DECL gdo_plugin_t *gdo_load_plugins(const gdo_char_t **files, size_t num)",
  str% "    GDO_GCC_ATTRIBUTE (warn_unused_result);",
  [],
  [],
  str% "/**",
  str% " * Release plugins and free resources.",
  str% " *",
  str% " * plug:",
  str% " *   Pointer returned by `gdo_load_plugins()'.",
  str% " */",
  str% "GDO_DECL void gdo_release_plugins(gdo_plugin_t *plug);",
  []]

/-- The lines of `templates/plugin.h` (1-75). -/
def pluginHeader : List (List Str) := [pluginHeader0]

end Gdo.Builtin
