import Verif.Basic

/-!
The text of `src/templates/c.h`, line by line.
-/

namespace Gdo.Builtin
open Gdo

/-- `templates/c.h` 1-100. -/
def cHeader0 : List Str := [
  str% "/*****************************************************************************/",
  str% "/*                                   C API                                   */",
  str% "/*****************************************************************************/",
  [],
  str% "#ifdef _WIN32",
  str% "# include <tchar.h>",
  str% "#else",
  str% "# undef _T",
  str% "# define _T(x) x",
  str% "#endif",
  [],
  str% "/* static/extern declarations */",
  str% "#ifdef GDO_STATIC",
  str% "# define GDO_DECL      static inline /* use `inline' to silence compiler warnings */",
  str% "# define GDO_OBJ_DECL  static",
  str% "#else",
  str% "# define GDO_DECL      extern",
  str% "# define GDO_OBJ_DECL  extern",
  str% "#endif",
  [],
  str% "#ifdef _GDO_TARGET_WIDECHAR",
  str% "typedef wchar_t gdo_char_t;",
  str% "#else",
  str% "typedef char    gdo_char_t;",
  str% "#endif",
  [],
  [],
  str% "/**",
  str% " * Enumeration values for use with gdo_load_symbol()",
  str% " */",
  str% "enum {",
  str% "    GDO_LOAD_%%symbol%%,",
  str% "    GDO_ENUM_LAST",
  str% "};",
  [],
  [],
  str% "/**",
  str% " * Library and symbols handle",
  str% " */",
  str% "typedef struct _gdo_handle",
  str% "{",
  str% "    gdo_hmod_t handle;        /* handle returned by dlopen()/LoadLibraryEx() */",
  str% "#ifdef GDO_WINAPI",
  str% "    DWORD      last_errno;    /* value returned by GetLastError() */",
  str% "#endif",
  str% "    bool       free_lib_reg;  /* whether registering the function to automatically */",
  str% "                              /* free the library upon exit was successful */",
  [],
  str% "    /* symbol pointers; symbol names MUST be prefixed to avoid macro expansion */",
  str% "    %%type%% (*GDO_PTR_%%func_symbol%%)(%%args%%);",
  str% "    %%obj_type%% *GDO_PTR_%%obj_symbol%%;",
  [],
  str% "    gdo_char_t libpath[GDO_BUFLEN]; /* buffer to save path of loaded library */",
  str% "    gdo_char_t errbuf[GDO_BUFLEN];  /* buffer for error messages */",
  [],
  str% "#ifdef GDO_WINAPI",
  str% "    /**",
  str% "     * FormatMessage() saves the formatted message string in this buffer;",
  str% "     * MSDN says this buffer cannot be larger than 64K bytes (not characters!)",
  str% "     */",
  str% "    gdo_char_t formatted[(64*1024) / sizeof(gdo_char_t)];",
  str% "#endif",
  str% "} gdo_handle_t;",
  [],
  str% "GDO_OBJ_DECL gdo_handle_t gdo_hndl;",
  [],
  [],
  str% "/**",
  str% " * Load a library.",
  str% " *",
  str% " * filename:",
  str% " *   Library filename or path to load. Must not be empty or NULL.",
  str% " *",
  str% " * flags:",
  str% " *   These are passed to the underlying library loading functions.",
  str% " *",
  str% " * new_namespace:",
  str% " *   If true the library will be loaded into a new namespace using dlmopen().",
  str% " *   This argument is only used on Linux (Glibc) and Solaris/IllumOS.",
  str% " *",
  str% " * On success `true' is returned.",
  str% " * On an error or if the library is already loaded the return value is `false'.",
  str% " */",
  str% "#ifdef GDO_DEFAULT_LIB",
  str% "GDO_DECL bool gdo_load_lib(void);",
  str% "GDO_DECL bool gdo_load_lib_and_symbols(void);",
  str% "#endif",
  str% "GDO_DECL bool gdo_load_lib_name(const gdo_char_t *filename);",
  str% "GDO_DECL bool gdo_load_lib_name_and_symbols(const gdo_char_t *filename);",
  str% "GDO_DECL bool gdo_load_lib_args(const gdo_char_t *filename, int flags, bool new_namespace);",
  [],
  [],
  str% "/**",
  str% " * Returns `true' if the library was successfully loaded.",
  str% " */",
  str% "GDO_DECL bool gdo_lib_is_loaded(void);",
  [],
  [],
  str% "/**",
  str% " * Free/release the library."]

/-- `templates/c.h` 101-200. -/
def cHeader1 : List Str := [
  str% " *",
  str% " * Internal handle and pointers are only set back to NULL if the underlying calls",
  str% " * were successful, in which case `true' is returned.",
  str% " * Return value is also `true' if no library was loaded.",
  str% " */",
  str% "GDO_DECL bool gdo_free_lib(void);",
  [],
  [],
  str% "/**",
  str% " * Free/release the library.",
  str% " * Don't check if the underlying calls were successful.",
  str% " *",
  str% " * Internal handle and pointers are always set back to NULL.",
  str% " * Can safely be called even if no library was loaded.",
  str% " */",
  str% "GDO_DECL void gdo_force_free_lib(void);",
  [],
  [],
  str% "/**",
  str% " * Registers the function `gdo_force_free_lib()' to be called upon the program's exit.",
  str% " * It's recommended to do this before you attempt to load anything.",
  str% " *",
  str% " * It returns `false' if registering the function wasn't successful.",
  str% " * On success or if a function was already registered the return value is `true'.",
  str% " */",
  str% "GDO_DECL bool gdo_enable_autorelease(void);",
  [],
  [],
  str% "/**",
  str% " * Load symbols.",
  str% " *",
  str% " * symbol_num:",
  str% " *   Auto-generated enumeration value `GDO_LOAD_<symbol_name>'.",
  str% " *   For example use `GDO_LOAD_foo' to load the symbol `foo'.",
  str% " *   The main intention is to check if a certain symbol is present in a",
  str% " *   library so that you can conditionally enable or disable features.",
  str% " *",
  str% " * symbol:",
  str% " *   Name of the symbol to load.",
  str% " *",
  str% " * Returns `true' on success or if the symbol was already loaded.",
  str% " */",
  str% "GDO_DECL bool gdo_load_all_symbols(void);",
  str% "GDO_DECL bool gdo_load_symbol(int symbol_num);",
  str% "GDO_DECL bool gdo_load_symbol_name(const char *symbol);",
  [],
  [],
  str% "/**",
  str% " * Check if symbols were loaded.",
  str% " */",
  str% "GDO_DECL bool gdo_all_symbols_loaded(void);",
  str% "GDO_DECL bool gdo_no_symbols_loaded(void);",
  str% "GDO_DECL bool gdo_any_symbol_loaded(void);",
  [],
  [],
  str% "/**",
  str% " * Returns a pointer to the last saved error string.",
  str% " * This function doesn't return a null pointer or empty string,",
  str% " * the message will indicate if no error had occured.",
  str% " * Do not free the returned pointer!",
  str% " */",
  str% "GDO_DECL const gdo_char_t *gdo_last_error(void)",
  str% "    GDO_GCC_ATTRIBUTE (returns_nonnull);",
  [],
  [],
  str% "/**",
  str% " * Return the library path. On error or if no library was loaded NULL is returned.",
  str% " * Do not free the returned pointer!",
  str% " *",
  str% " * On some systems and configurations the path is taken from the loaded symbols",
  str% " * in which case at least one symbol must have been successfully loaded before",
  str% " * using this function.",
  str% " */",
  str% "GDO_DECL const gdo_char_t *gdo_library_path(void);",
  [],
  [],
  str% "/**",
  str% " * Prefixed aliases, useful if GDO_DISABLE_ALIASING was defined.",
  str% " */",
  str% "#define GDO_RAWPTR_%%func_symbol_pad%% gdo_hndl.GDO_PTR_%%func_symbol%%",
  str% "#define GDO_RAWPTR_%%obj_symbol_pad%% gdo_hndl.GDO_PTR_%%obj_symbol%%",
  str% "%PARAM_SKIP_REMOVE_BEGIN%",
  [],
  [],
  str% "/*****************************************************************************/",
  str% "/*                                wrap code                                  */",
  str% "/*****************************************************************************/",
  str% "#if defined(GDO_WRAP_FUNCTIONS) || defined(GDO_ENABLE_AUTOLOAD)",
  [],
  str% "/* we need an actual function for the VA_ARGS macro */",
  str% "#ifdef __GNUC__",
  str% "inline __attribute__ ((always_inline)) void _gdo_noop(void) {}",
  str% "#elif defined(_MSC_VER)",
  str% "__forceinline void _gdo_noop(void) {}",
  str% "#else",
  str% "extern void _gdo_noop(void);",
  str% "#endif",
  [],
  [],
  str% "/* by default #define hooks that do nothing */"]

/-- `templates/c.h` 201-300. -/
def cHeader2 : List Str := [
  str% "#ifndef GDO_HOOK_%%func_symbol%%@",
  str% "#define GDO_HOOK_%%func_symbol%%(...)  _gdo_noop()@",
  str% "#endif",
  [],
  [],
  str% "/* right now only GCC supports __builtin_va_arg_pack() */",
  str% "#if defined(__GNUC__) && \\",
  str% "    !defined(__NO_INLINE__) && \\",
  str% "    defined(__has_builtin)",
  str% "# if __has_builtin(__builtin_va_arg_pack)",
  str% "#  define GDO_BUILTIN_VA_ARG_PACK",
  str% "# endif",
  str% "#endif",
  [],
  [],
  str% "/* diagnostic warnings on variable arguments functions */",
  str% "#if !defined(GDO_DISABLE_WARNINGS)",
  [],
  str% "/* %%func_symbol%%() */@",
  str% "#ifdef GDO_HAS_VA_ARGS_%%func_symbol%%@",
  str% "# ifdef GDO_WRAP_VISIBILITY@",
  str% "GDO_WARNING(\"GDO_WRAP_VISIBILITY defined but wrapper function %%func_symbol%%() can only be used inlined; define GDO_DISABLE_WARNINGS to silence this message\")@",
  str% "# endif@",
  str% "#endif@",
  [],
  str% "#endif //!GDO_DISABLE_WARNINGS",
  [],
  [],
  str% "GDO_DECL void _gdo_wrap_check_loaded(void *symptr, int load, const gdo_char_t *sym);",
  [],
  str% "#define _GDO_WRAP_CHECK_LOADED(SYMBOL) \\",
  str% "    _gdo_wrap_check_loaded( (void *)GDO_RAWPTR_##SYMBOL, GDO_LOAD_##SYMBOL, _T( #SYMBOL ) )",
  [],
  [],
  str% "/**",
  str% " * GNU inline wrapper function for use with variable arguments",
  str% " * https://gcc.gnu.org/onlinedocs/gcc/Constructing-Calls.html",
  str% " * https://gcc.gnu.org/onlinedocs/gcc/Inline.html",
  str% " *",
  str% " * __builtin_va_arg_pack() is a GNU extension and will be resolved to the",
  str% " * additional parameters provided by the `...' argument.",
  str% " * This requires function inlining optimizations to be enabled.",
  str% " * The function HAS to be declared `extern inline __attribute__ ((__gnu_inline__))'.",
  str% " */",
  str% "@",
  str% "/* %%func_symbol%%() */@",
  str% "#ifdef GDO_HAS_VA_ARGS_%%func_symbol%%@",
  str% "# ifdef GDO_BUILTIN_VA_ARG_PACK@",
  str% "    /* inline function (always inlined) */@",
  str% "    extern inline __attribute__ ((__gnu_inline__))@",
  str% "    %%type%% GDO_WRAP(%%func_symbol%%) (%%args%%) {@",
  str% "        _GDO_WRAP_CHECK_LOADED( %%func_symbol%% );@",
  str% "        GDO_HOOK_%%func_symbol%%( %%param_names%%, __builtin_va_arg_pack() );@",
  str% "        %%return%% GDO_RAWPTR_%%func_symbol%%( %%param_names%%, __builtin_va_arg_pack() );@",
  str% "    }@",
  str% "# else /* fall back to using a macro */@",
  str% "#  define GDO_WRAP_%%func_symbol%%(...) \\@",
  str% "    (_GDO_WRAP_CHECK_LOADED( %%func_symbol%% ),\\@",
  str% "     (GDO_HOOK_%%func_symbol%%( __VA_ARGS__ )),\\@",
  str% "      GDO_RAWPTR_%%func_symbol%%( __VA_ARGS__ ))@",
  str% "# endif@",
  str% "#else //!GDO_HAS_VA_ARGS_%%func_symbol%%@",
  str% "    GDO_WRAP_DECL /* wrapper function */@",
  str% "    %%type%% GDO_WRAP(%%func_symbol%%) (%%args%%) {@",
  str% "        _GDO_WRAP_CHECK_LOADED( %%func_symbol%% );@",
  str% "        GDO_HOOK_%%func_symbol%%( %%param_names%% );@",
  str% "        %%return%% GDO_RAWPTR_%%func_symbol%%( %%param_names%% );@",
  str% "    }@",
  str% "#endif //!GDO_HAS_VA_ARGS_%%func_symbol%%",
  [],
  str% "#endif //GDO_WRAP_FUNCTIONS ...",
  str% "/***************************** end of wrap code ******************************/",
  str% "%PARAM_SKIP_END%",
  [],
  [],
  str% "/**",
  str% " * Set function name alias prefix.",
  str% " */",
  str% "#if defined(GDO_WRAP_FUNCTIONS) || defined(GDO_ENABLE_AUTOLOAD)",
  str% "# define GDO_FUNC_ALIAS(x) GDO_WRAP_##x",
  str% "#else",
  str% "# define GDO_FUNC_ALIAS(x) GDO_RAWPTR_##x",
  str% "#endif",
  [],
  [],
  str% "/**",
  str% " * Disable aliasing if we saved into separate files and the",
  str% " * header file was included from the body file.",
  str% " */",
  str% "#if  defined(GDO_SEPARATE) && \\",
  str% "    !defined(GDO_INCLUDED_IN_BODY) && \\",
  str% "    !defined(GDO_DISABLE_ALIASING)",
  [],
  str% "/* function name aliases */",
  str% "#if !defined(GDO_WRAP_VISIBILITY)",
  str% "# define %%func_symbol_pad%% GDO_FUNC_ALIAS(%%func_symbol%%)",
  str% "#endif",
  [],
  str% "/* object name aliases */",
  str% "#define %%obj_symbol_pad%% *GDO_RAWPTR_%%obj_symbol%%"]

/-- `templates/c.h` 301-303. -/
def cHeader3 : List Str := [
  [],
  str% "#endif //GDO_SEPARATE ...",
  []]

/-- The lines of `templates/c.h` (1-303). -/
def cHeader : List (List Str) := [cHeader0, cHeader1, cHeader2, cHeader3]

end Gdo.Builtin
