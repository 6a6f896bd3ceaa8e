import Verif.Basic

/-!
The text of `src/templates/plugin.c`, line by line.
-/

namespace Gdo.Builtin
open Gdo

/-- `templates/plugin.c` 1-81. -/
def pluginBody0 : List Str := [
  str% "/*****************************************************************************/",
  str% "/*                            C plugin loader API                            */",
  str% "/*****************************************************************************/",
  [],
  str% "#include <string.h>",
  [],
  str% "#ifdef GDO_WINAPI",
  str% "# include <tchar.h>",
  str% "#endif",
  [],
  str% "/* linkage */",
  str% "#ifdef GDO_STATIC",
  str% "# define GDO_LINKAGE  static inline",
  str% "#else",
  str% "# define GDO_LINKAGE  /**/",
  str% "#endif",
  [],
  str% "#ifdef GDO_WINAPI",
  str% "# define GDO_LOAD_LIB(x)  LoadLibraryEx(x, NULL, GDO_DEFAULT_FLAGS)",
  str% "# define GDO_STRDUP       _tcsdup",
  str% "#else",
  str% "# define GDO_LOAD_LIB(x)  dlopen(x, GDO_DEFAULT_FLAGS)",
  str% "# define GDO_STRDUP       strdup",
  str% "#endif",
  [],
  [],
  str% "/* load list of plugins */",
  str% "GDO_LINKAGE gdo_plugin_t *gdo_load_plugins(const gdo_char_t **files, size_t num)",
  str% "{",
  str% "    if (!files || num == 0) {",
  str% "        return NULL;",
  str% "    }",
  [],
  str% "    /* allocate struct */",
  str% "    gdo_plugin_t *plug = (gdo_plugin_t *)malloc(sizeof(gdo_plugin_t));",
  str% "    plug->num = num;",
  str% "    plug->list = (gdo_handle_t *)calloc(num, sizeof(gdo_handle_t));",
  [],
  str% "    for (size_t i = 0; i < num; i++) {",
  str% "        if (!files[i] || *files[i] == 0) {",
  str% "            /* empty filename */",
  str% "            continue;",
  str% "        }",
  [],
  str% "        /* copy filename first */",
  str% "        plug->list[i].filename = GDO_STRDUP(files[i]);",
  [],
  str% "        /* load plugin */",
  str% "        if ((plug->list[i].handle = GDO_LOAD_LIB(files[i])) == NULL) {",
  str% "            continue;",
  str% "        }",
  str% "@",
  str% "        /* load %%symbol%% */@",
  str% "        plug->list[i].ptr.%%symbol%% =@",
  str% "            (%%sym_type%%)@",
  str% "                _gdo_call_dlsym(plug->list[i].handle, \"%%symbol%%\");",
  str% "    }",
  [],
  str% "    return plug;",
  str% "}",
  [],
  [],
  str% "/* release plugins */",
  str% "GDO_LINKAGE void gdo_release_plugins(gdo_plugin_t *plug)",
  str% "{",
  str% "    if (!plug) {",
  str% "        return;",
  str% "    }",
  [],
  str% "    for (size_t i = 0; i < plug->num; i++) {",
  str% "        free(plug->list[i].filename);",
  [],
  str% "        if (plug->list[i].handle) {",
  str% "            _gdo_call_dlclose(plug->list[i].handle);",
  str% "        }",
  str% "    }",
  [],
  str% "    free(plug->list);",
  str% "    free(plug);",
  str% "}",
  []]

/-- The lines of `templates/plugin.c` (1-81). -/
def pluginBody : List (List Str) := [pluginBody0]

end Gdo.Builtin
