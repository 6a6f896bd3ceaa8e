import Verif.Basic

/-!
The text of `src/templates/c.c`, line by line.
-/

namespace Gdo.Builtin
open Gdo

/-- `templates/c.c` 1-100. -/
def cBody0 : List Str := [
  str% "/*****************************************************************************/",
  str% "/*                           C API implementation                            */",
  str% "/*****************************************************************************/",
  [],
  str% "#if defined(_MSC_VER) && defined(GDO_USE_MESSAGE_BOX)",
  str% "# pragma comment(lib, \"user32.lib\")  /* dependency for MessageBox() */",
  str% "#endif",
  [],
  str% "#include <stdio.h>",
  str% "#include <stdlib.h>",
  str% "#include <string.h>",
  [],
  [],
  str% "#ifdef _GDO_TARGET_WIDECHAR",
  str% "# define GDO_XHS  L\"%hs\"  /* narrow character string */",
  str% "#else",
  str% "# define GDO_XHS  \"%s\"",
  str% "#endif",
  [],
  [],
  str% "/* linkage */",
  str% "#ifdef GDO_STATIC",
  str% "# define GDO_LINKAGE      GDO_DECL",
  str% "# define GDO_OBJ_LINKAGE  GDO_OBJ_DECL",
  str% "#else",
  str% "# define GDO_LINKAGE      /**/",
  str% "# define GDO_OBJ_LINKAGE  /**/",
  str% "#endif",
  [],
  [],
  str% "/* Silence `unused reference' compiler warnings. */",
  str% "#define GDO_UNUSED_REF(x) (void)(x)",
  [],
  [],
  str% "#ifndef _countof",
  str% "# define _countof(array)  (sizeof(array) / sizeof(array[0]))",
  str% "#endif",
  [],
  [],
  str% "/* library handle */",
  str% "GDO_OBJ_LINKAGE gdo_handle_t gdo_hndl;",
  [],
  [],
  str% "/* forward declarations */",
  str% "GDO_INLINE void _gdo_load_library(const gdo_char_t *filename, int flags, bool new_namespace);",
  str% "GDO_INLINE void *_gdo_sym(const char *symbol, const gdo_char_t *msg);",
  str% "#ifdef GDO_WINAPI",
  str% "GDO_INLINE HMODULE _gdo_load_library_ex(const gdo_char_t *filename, int flags);",
  str% "#endif",
  str% "#if defined(_WIN32) || defined(_AIX)",
  str% "GDO_INLINE bool _gdo_library_path(void);",
  str% "#endif",
  str% "#ifdef GDO_HAVE_DLINFO",
  str% "GDO_INLINE bool _gdo_libpath_dlinfo(void);",
  str% "#endif",
  str% "#ifdef GDO_HAVE_DLADDR",
  str% "GDO_INLINE bool _gdo_libpath_dladdr(void);",
  str% "#endif",
  [],
  [],
  str% "/* strstr() / wcsstr() */",
  str% "GDO_INLINE const gdo_char_t *_gdo_tcsstr(const gdo_char_t *haystack, const gdo_char_t *needle)",
  str% "{",
  str% "#ifdef _WIN32",
  str% "    return _tcsstr(haystack, needle);",
  str% "#else",
  str% "    return strstr(haystack, needle);",
  str% "#endif",
  str% "}",
  [],
  [],
  str% "/* snprintf() / snwprintf() */",
  str% "#ifdef _WIN32",
  str% "# define GDO_SNPRINTF(DEST, FORMAT, ...) \\",
  str% "    _sntprintf_s(DEST, _countof(DEST), _TRUNCATE, FORMAT, __VA_ARGS__)",
  str% "#else",
  str% "# define GDO_SNPRINTF(DEST, FORMAT, ...) \\",
  str% "    snprintf(DEST, _countof(DEST), FORMAT, __VA_ARGS__)",
  str% "#endif",
  [],
  [],
  [],
  str% "/*****************************************************************************/",
  str% "/*                                save error                                 */",
  str% "/*****************************************************************************/",
  str% "#ifdef GDO_WINAPI",
  str% "# define GDO_SET_LAST_ERRNO(x)  do { gdo_hndl.last_errno = x; } while(0)",
  str% "#else",
  str% "# define GDO_SET_LAST_ERRNO(x)  /**/",
  str% "#endif",
  [],
  str% "/* save message to error buffer */",
  str% "GDO_INLINE void _gdo_save_to_errbuf(const gdo_char_t *msg)",
  str% "{",
  str% "    if (msg) {",
  str% "        GDO_SNPRINTF(gdo_hndl.errbuf, _T(\"%s\"), msg);",
  str% "    } else {",
  str% "        gdo_hndl.errbuf[0] = 0;",
  str% "    }",
  []]

/-- `templates/c.c` 101-200. -/
def cBody1 : List Str := [
  str% "#ifdef GDO_WINAPI",
  str% "    gdo_hndl.formatted[0] = 0;",
  str% "#endif",
  str% "}",
  [],
  str% "#ifdef GDO_WINAPI",
  [],
  str% "/* clear error buffers */",
  str% "GDO_INLINE void _gdo_clear_error(void)",
  str% "{",
  str% "    gdo_hndl.errbuf[0] = 0;",
  str% "    gdo_hndl.formatted[0] = 0;",
  str% "    gdo_hndl.last_errno = 0;",
  str% "}",
  [],
  str% "/* save the last system error code; a message for additional information",
  str% " * can be provided too. */",
  str% "GDO_INLINE void _gdo_save_error(const gdo_char_t *msg)",
  str% "{",
  str% "    gdo_hndl.last_errno = GetLastError();",
  str% "    _gdo_save_to_errbuf(msg);",
  str% "}",
  [],
  str% "/* sets the \"no library was loaded\" error message */",
  str% "GDO_INLINE void _gdo_set_error_no_library_loaded(void)",
  str% "{",
  str% "    gdo_hndl.last_errno = ERROR_INVALID_HANDLE;",
  str% "    _gdo_save_to_errbuf(_T(\"no library was loaded\"));",
  str% "}",
  [],
  str% "#else",
  str% "/*********************************** dlfcn ***********************************/",
  [],
  str% "/* clear error buffers */",
  str% "GDO_INLINE void _gdo_clear_error(void)",
  str% "{",
  str% "    dlerror();",
  str% "    gdo_hndl.errbuf[0] = 0;",
  str% "}",
  [],
  str% "/* save the last message provided by dlerror() */",
  str% "GDO_INLINE void _gdo_save_error(const gdo_char_t *msg)",
  str% "{",
  str% "    GDO_UNUSED_REF(msg);",
  str% "    _gdo_save_to_errbuf(dlerror());",
  str% "}",
  [],
  str% "/* sets the \"no library was loaded\" error message */",
  str% "GDO_INLINE void _gdo_set_error_no_library_loaded(void)",
  str% "{",
  str% "    _gdo_save_to_errbuf(\"no library was loaded\");",
  str% "}",
  [],
  str% "#endif //!GDO_WINAPI",
  str% "/*****************************************************************************/",
  [],
  [],
  [],
  str% "/*****************************************************************************/",
  str% "/*                load default library with default flags                    */",
  str% "/*****************************************************************************/",
  str% "#ifdef GDO_DEFAULT_LIB",
  str% "GDO_LINKAGE bool gdo_load_lib(void)",
  str% "{",
  str% "    return gdo_load_lib_name(GDO_DEFAULT_LIB);",
  str% "}",
  str% "#endif",
  str% "/*****************************************************************************/",
  [],
  [],
  [],
  str% "/*****************************************************************************/",
  str% "/*       load default library with default flags and load the symbols        */",
  str% "/*****************************************************************************/",
  str% "#ifdef GDO_DEFAULT_LIB",
  str% "GDO_LINKAGE bool gdo_load_lib_and_symbols(void)",
  str% "{",
  str% "    return (gdo_load_lib() && gdo_load_all_symbols());",
  str% "}",
  str% "#endif",
  str% "/*****************************************************************************/",
  [],
  [],
  [],
  str% "/*****************************************************************************/",
  str% "/*            load library by filename with default flags                    */",
  str% "/*****************************************************************************/",
  str% "GDO_LINKAGE bool gdo_load_lib_name(const gdo_char_t *filename)",
  str% "{",
  str% "    return gdo_load_lib_args(filename, GDO_DEFAULT_FLAGS, false);",
  str% "}",
  str% "/*****************************************************************************/",
  [],
  [],
  [],
  str% "/*****************************************************************************/",
  str% "/*     load library by filename with default flags and load the symbols      */",
  str% "/*****************************************************************************/",
  str% "GDO_LINKAGE bool gdo_load_lib_name_and_symbols(const gdo_char_t *filename)",
  str% "{"]

/-- `templates/c.c` 201-300. -/
def cBody2 : List Str := [
  str% "    return (gdo_load_lib_name(filename) && gdo_load_all_symbols());",
  str% "}",
  str% "/*****************************************************************************/",
  [],
  [],
  [],
  str% "/*****************************************************************************/",
  str% "/*                          load the library                                 */",
  str% "/*****************************************************************************/",
  str% "GDO_LINKAGE bool gdo_load_lib_args(const gdo_char_t *filename, int flags, bool new_namespace)",
  str% "{",
  str% "    _gdo_clear_error();",
  [],
  str% "    /* consider it an error if the library was already loaded */",
  str% "    if (gdo_lib_is_loaded()) {",
  str% "        _gdo_save_to_errbuf(_T(\"library already loaded\"));",
  str% "        return false;",
  str% "    }",
  [],
  str% "    /* dlfcn: an empty filename will actually return a handle to",
  str% "     * the main program, but we don't want that */",
  str% "    if (!filename || *filename == 0) {",
  str% "        GDO_SET_LAST_ERRNO(ERROR_INVALID_NAME);",
  str% "        _gdo_save_to_errbuf(_T(\"empty filename\"));",
  str% "        return false;",
  str% "    }",
  [],
  str% "    _gdo_load_library(filename, flags, new_namespace);",
  [],
  str% "    if (!gdo_lib_is_loaded()) {",
  str% "        _gdo_save_error(filename);",
  str% "        return false;",
  str% "    }",
  [],
  str% "    return true;",
  str% "}",
  [],
  str% "/* call LoadLibraryEx/dlopen/dlmopen */",
  str% "GDO_INLINE void _gdo_load_library(const gdo_char_t *filename, int flags, bool new_namespace)",
  str% "{",
  str% "#ifdef GDO_WINAPI",
  [],
  str% "    /* documentation says only backward slash path separators shall",
  str% "     * be used on LoadLibraryEx() */",
  [],
  str% "    if (!_tcschr(filename, _T('/'))) {",
  str% "        /* no forward slash found */",
  str% "        gdo_hndl.handle = _gdo_load_library_ex(filename, flags);",
  str% "        return;",
  str% "    }",
  [],
  str% "    /* copy filename and replace path separators */",
  str% "    gdo_char_t *copy = _tcsdup(filename);",
  [],
  str% "    for (gdo_char_t *p = copy; *p != 0; p++) {",
  str% "        if (*p == _T('/')) {",
  str% "            *p = _T('\\\\');",
  str% "        }",
  str% "    }",
  [],
  str% "    GDO_UNUSED_REF(new_namespace);",
  str% "    gdo_hndl.handle = _gdo_load_library_ex(copy, flags);",
  str% "    free(copy);",
  [],
  str% "#else",
  [],
  str% "    gdo_hndl.handle = _gdo_call_dlopen(filename, flags, new_namespace);",
  [],
  str% "#endif //!GDO_WINAPI",
  str% "}",
  [],
  str% "#ifdef GDO_WINAPI",
  str% "# if !defined(_GDO_TARGET_WIDECHAR) && defined(GDO_CONVERT_FILENAME)",
  str% "GDO_INLINE wchar_t *_gdo_mbstowcs(const char *filename)",
  str% "{",
  str% "    wchar_t *wcs;",
  str% "    size_t len = 0;",
  str% "    size_t n = 0;",
  [],
  str% "    /* get length of converted string (including null terminator) */",
  str% "    if (mbstowcs_s(&len, NULL, 0, filename, _TRUNCATE) == 0 && len > 1) {",
  str% "        wcs = (wchar_t *)malloc(len * sizeof(wchar_t));",
  [],
  str% "        /* convert string */",
  str% "        if (mbstowcs_s(&n, wcs, len, filename, _TRUNCATE) == 0 && n == len) {",
  str% "            return wcs;",
  str% "        }",
  [],
  str% "        free(wcs);",
  str% "    }",
  [],
  str% "    return NULL;",
  str% "}",
  str% "# endif //!_GDO_TARGET_WIDECHAR && GDO_CONVERT_FILENAME",
  [],
  str% "GDO_INLINE HMODULE _gdo_load_library_ex(const gdo_char_t *filename, int flags)",
  str% "{",
  str% "# if !defined(_GDO_TARGET_WIDECHAR) && defined(GDO_CONVERT_FILENAME)",
  str% "    /* convert filename to wchar_t and use it on LoadLibraryExW() */",
  str% "    wchar_t *wcs = _gdo_mbstowcs(filename);"]

/-- `templates/c.c` 301-400. -/
def cBody3 : List Str := [
  [],
  str% "    if (wcs) {",
  str% "        HMODULE handle = LoadLibraryExW(wcs, NULL, flags);",
  str% "        free(wcs);",
  str% "        return handle;",
  str% "    }",
  [],
  str% "    GDO_SET_LAST_ERRNO(ERROR_INVALID_NAME);",
  str% "    _gdo_save_to_errbuf(\"mbstowcs_s: failed to convert filename\");",
  str% "    return NULL;",
  str% "# else",
  str% "    return LoadLibraryEx(filename, NULL, flags);",
  str% "# endif //!_GDO_TARGET_WIDECHAR && GDO_CONVERT_FILENAME",
  str% "}",
  str% "#endif //GDO_WINAPI",
  str% "/*****************************************************************************/",
  [],
  [],
  [],
  str% "/*****************************************************************************/",
  str% "/*                whether the library is currently loaded                    */",
  str% "/*****************************************************************************/",
  str% "GDO_LINKAGE bool gdo_lib_is_loaded(void)",
  str% "{",
  str% "    return (gdo_hndl.handle != NULL);",
  str% "}",
  str% "/*****************************************************************************/",
  [],
  [],
  [],
  str% "/*****************************************************************************/",
  str% "/*             free the library handle and set pointers to NULL              */",
  str% "/*****************************************************************************/",
  str% "GDO_LINKAGE bool gdo_free_lib(void)",
  str% "{",
  str% "    _gdo_clear_error();",
  [],
  str% "    if (gdo_lib_is_loaded()) {",
  str% "        if (!_gdo_call_dlclose(gdo_hndl.handle))",
  str% "        {",
  str% "#ifdef GDO_WINAPI",
  str% "            _gdo_save_error(_T(\"FreeLibrary()\"));",
  str% "#else",
  str% "            _gdo_save_error(NULL);",
  str% "#endif",
  str% "            return false;",
  str% "        }",
  str% "    }",
  [],
  str% "    gdo_hndl.libpath[0] = 0;",
  [],
  str% "    /* set pointers back to NULL */",
  str% "    gdo_hndl.handle = NULL;",
  str% "    GDO_RAWPTR_%%symbol%% = NULL;",
  [],
  str% "    return true;",
  str% "}",
  str% "/*****************************************************************************/",
  [],
  [],
  [],
  str% "/*****************************************************************************/",
  str% "/*    free the library handle and set pointers to NULL (no error checks)     */",
  str% "/*****************************************************************************/",
  str% "GDO_LINKAGE void gdo_force_free_lib(void)",
  str% "{",
  str% "    _gdo_clear_error();",
  [],
  str% "    if (gdo_lib_is_loaded()) {",
  str% "        _gdo_call_dlclose(gdo_hndl.handle);",
  str% "    }",
  [],
  str% "    gdo_hndl.libpath[0] = 0;",
  [],
  str% "    /* set pointers back to NULL */",
  str% "    gdo_hndl.handle = NULL;",
  str% "    GDO_RAWPTR_%%symbol%% = NULL;",
  str% "}",
  str% "/*****************************************************************************/",
  [],
  [],
  [],
  str% "/*****************************************************************************/",
  str% "/*                   automatically free library upon exit                    */",
  str% "/*****************************************************************************/",
  str% "GDO_LINKAGE bool gdo_enable_autorelease(void)",
  str% "{",
  str% "    _gdo_clear_error();",
  [],
  str% "    if (!gdo_hndl.free_lib_reg) {",
  str% "        if (atexit(gdo_force_free_lib) == 0) {",
  str% "            gdo_hndl.free_lib_reg = true;",
  str% "        } else {",
  str% "            _gdo_save_to_errbuf(_T(\"atexit(): failed to register `gdo_force_free_lib()'\"));",
  str% "        }",
  str% "    }",
  [],
  str% "    return gdo_hndl.free_lib_reg;",
  str% "}",
  str% "/*****************************************************************************/"]

/-- `templates/c.c` 401-500. -/
def cBody4 : List Str := [
  [],
  [],
  [],
  str% "/*****************************************************************************/",
  str% "/*                    check if ALL symbols were loaded                       */",
  str% "/*****************************************************************************/",
  str% "GDO_LINKAGE bool gdo_all_symbols_loaded(void)",
  str% "{",
  str% "    if (true",
  str% "        && GDO_RAWPTR_%%symbol%% != NULL",
  str% "    ) {",
  str% "        return true;",
  str% "    }",
  [],
  str% "    return false;",
  str% "}",
  str% "/*****************************************************************************/",
  [],
  [],
  [],
  str% "/*****************************************************************************/",
  str% "/*                    check if NO symbols were loaded                        */",
  str% "/*****************************************************************************/",
  str% "GDO_LINKAGE bool gdo_no_symbols_loaded(void)",
  str% "{",
  str% "    if (true",
  str% "        && GDO_RAWPTR_%%symbol%% == NULL",
  str% "    ) {",
  str% "        return true;",
  str% "    }",
  [],
  str% "    return false;",
  str% "}",
  str% "/*****************************************************************************/",
  [],
  [],
  [],
  str% "/*****************************************************************************/",
  str% "/*                     check if ANY symbol was loaded                        */",
  str% "/*****************************************************************************/",
  str% "GDO_LINKAGE bool gdo_any_symbol_loaded(void)",
  str% "{",
  str% "    if (false",
  str% "        || GDO_RAWPTR_%%symbol%% != NULL",
  str% "    ) {",
  str% "        return true;",
  str% "    }",
  [],
  str% "    return false;",
  str% "}",
  str% "/*****************************************************************************/",
  [],
  [],
  [],
  str% "/*****************************************************************************/",
  str% "/*                             load all symbols                              */",
  str% "/*****************************************************************************/",
  str% "GDO_LINKAGE bool gdo_load_all_symbols(void)",
  str% "{",
  str% "    _gdo_clear_error();",
  [],
  str% "    if (gdo_all_symbols_loaded()) {",
  str% "        return true;",
  str% "    }",
  [],
  str% "    if (!gdo_lib_is_loaded()) {",
  str% "        _gdo_set_error_no_library_loaded();",
  str% "        return false;",
  str% "    }",
  [],
  str% "    /* get symbol addresses */",
  [],
  str% "    /* %%symbol%% */@",
  str% "    if ((GDO_RAWPTR_%%symbol%% =@",
  str% "            (%%sym_type%%)@",
  str% "                _gdo_sym(\"%%symbol%%\", _T(\"%%symbol%%\"))) == NULL) {@",
  str% "        return false;@",
  str% "    }@",
  [],
  str% "    return true;",
  str% "}",
  [],
  str% "GDO_INLINE void *_gdo_sym(const char *symbol, const gdo_char_t *msg)",
  str% "{",
  str% "    void *ptr = _gdo_call_dlsym(gdo_hndl.handle, symbol);",
  [],
  str% "    if (!ptr) {",
  str% "        _gdo_save_error(msg);",
  str% "    }",
  [],
  str% "    return ptr;",
  str% "}",
  str% "/*****************************************************************************/",
  [],
  [],
  [],
  str% "/*****************************************************************************/",
  str% "/*                        load a specific symbol                             */",
  str% "/*****************************************************************************/",
  str% "GDO_LINKAGE bool gdo_load_symbol(int symbol_num)"]

/-- `templates/c.c` 501-600. -/
def cBody5 : List Str := [
  str% "{",
  str% "    _gdo_clear_error();",
  [],
  str% "    if (!gdo_lib_is_loaded()) {",
  str% "        _gdo_set_error_no_library_loaded();",
  str% "        return false;",
  str% "    }",
  [],
  str% "    switch (symbol_num)",
  str% "    {",
  str% "    /* %%symbol%% */@",
  str% "    case GDO_LOAD_%%symbol%%:@",
  str% "        if (!GDO_RAWPTR_%%symbol%%) {@",
  str% "            GDO_RAWPTR_%%symbol%% =@",
  str% "                (%%sym_type%%)@",
  str% "                    _gdo_sym(\"%%symbol%%\", _T(\"%%symbol%%\"));@",
  str% "        }@",
  str% "        return (GDO_RAWPTR_%%symbol%% != NULL);@",
  [],
  str% "    default:",
  str% "        break;",
  str% "    }",
  [],
  str% "    GDO_SET_LAST_ERRNO(ERROR_NOT_FOUND);",
  str% "    GDO_SNPRINTF(gdo_hndl.errbuf, _T(\"unknown symbol number: %d\"), symbol_num);",
  [],
  str% "    return false;",
  str% "}",
  str% "/*****************************************************************************/",
  [],
  [],
  [],
  str% "/*****************************************************************************/",
  str% "/*                    load a specific symbol by name                         */",
  str% "/*****************************************************************************/",
  str% "GDO_LINKAGE bool gdo_load_symbol_name(const char *symbol)",
  str% "{",
  str% "    _gdo_clear_error();",
  [],
  str% "    if (!gdo_lib_is_loaded()) {",
  str% "        _gdo_set_error_no_library_loaded();",
  str% "        return false;",
  str% "    }",
  [],
  str% "    if (!symbol || *symbol == 0) {",
  str% "        GDO_SET_LAST_ERRNO(ERROR_INVALID_PARAMETER);",
  str% "        _gdo_save_to_errbuf(_T(\"empty symbol name\"));",
  str% "        return false;",
  str% "    }",
  [],
  str% "    /* check symbol prefix first */",
  str% "    const char pfx[] = GDO_COMMON_PREFIX;",
  str% "    const size_t pfxlen = sizeof(pfx) - 1;",
  [],
  str% "    if (pfxlen == 0 || strncmp(symbol, pfx, pfxlen) == 0) {",
  str% "        const size_t len = strlen(symbol);",
  str% "        const char *curr;",
  str% "        size_t curr_len;",
  str% "@",
  str% "        curr = \"%%symbol%%\";@",
  str% "        curr_len = sizeof(\"%%symbol%%\") - 1;@",
  str% "        if (len == curr_len && strcmp(symbol + pfxlen, curr + pfxlen) == 0) {@",
  str% "            if (!GDO_RAWPTR_%%symbol%%) {@",
  str% "                GDO_RAWPTR_%%symbol%% =@",
  str% "                    (%%sym_type%%)@",
  str% "                        _gdo_sym(\"%%symbol%%\", _T(\"%%symbol%%\"));@",
  str% "            }@",
  str% "            return (GDO_RAWPTR_%%symbol%% != NULL);@",
  str% "        }",
  str% "    }",
  [],
  str% "    GDO_SET_LAST_ERRNO(ERROR_NOT_FOUND);",
  str% "    GDO_SNPRINTF(gdo_hndl.errbuf, _T(\"unknown symbol: \") GDO_XHS, symbol);",
  [],
  str% "    return false;",
  str% "}",
  str% "/*****************************************************************************/",
  [],
  [],
  [],
  str% "/*****************************************************************************/",
  str% "/*                   retrieve the last saved error message                   */",
  str% "/*****************************************************************************/",
  str% "GDO_LINKAGE const gdo_char_t *gdo_last_error(void)",
  str% "{",
  str% "#ifdef GDO_WINAPI",
  [],
  str% "    /* formatted message was already saved */",
  str% "    if (gdo_hndl.formatted[0] != 0) {",
  str% "        return gdo_hndl.formatted;",
  str% "    }",
  [],
  str% "    gdo_char_t *buf = NULL;",
  [],
  str% "    FormatMessage(GDO_FORMAT_MESSAGE_FLAGS,",
  str% "                  NULL,",
  str% "                  gdo_hndl.last_errno,",
  str% "                  MAKELANGID(LANG_NEUTRAL, SUBLANG_DEFAULT),",
  str% "                  (gdo_char_t *)&buf,",
  str% "                  0,"]

/-- `templates/c.c` 601-700. -/
def cBody6 : List Str := [
  str% "                  NULL);",
  [],
  str% "    if (buf) {",
  str% "        if (gdo_hndl.errbuf[0] != 0) {",
  str% "            /* put custom message in front */",
  str% "            GDO_SNPRINTF(gdo_hndl.formatted, _T(\"%s: %s\"), gdo_hndl.errbuf, buf);",
  str% "        } else {",
  str% "            GDO_SNPRINTF(gdo_hndl.formatted, _T(\"%s\"), buf);",
  str% "        }",
  [],
  str% "        LocalFree(buf);",
  str% "    } else {",
  str% "        /* FormatMessage() failed, save the error code */",
  str% "        if (gdo_hndl.errbuf[0] != 0) {",
  str% "            /* put custom message in front */",
  str% "            GDO_SNPRINTF(gdo_hndl.formatted, _T(\"%s: error code: %zu\"), gdo_hndl.errbuf,",
  str% "                (size_t)gdo_hndl.last_errno);",
  str% "        } else {",
  str% "            GDO_SNPRINTF(gdo_hndl.formatted, _T(\"error code: %zu\"), (size_t)gdo_hndl.last_errno);",
  str% "        }",
  str% "    }",
  [],
  str% "    return gdo_hndl.formatted;",
  [],
  str% "#else",
  [],
  str% "    if (gdo_hndl.errbuf[0] == 0) {",
  str% "        _gdo_save_to_errbuf(\"no error\");",
  str% "    }",
  [],
  str% "    return gdo_hndl.errbuf;",
  [],
  str% "#endif //GDO_WINAPI",
  str% "}",
  str% "/*****************************************************************************/",
  [],
  [],
  [],
  str% "/*****************************************************************************/",
  str% "/*                        get the loaded library path                        */",
  str% "/*****************************************************************************/",
  str% "GDO_LINKAGE const gdo_char_t *gdo_library_path(void)",
  str% "{",
  str% "    _gdo_clear_error();",
  [],
  str% "#if !defined(_WIN32) && !defined(_AIX) && !defined(GDO_HAVE_DLINFO) && !defined(GDO_HAVE_DLADDR)",
  str% "    _gdo_save_to_errbuf(\"function not implemented\");",
  str% "    return NULL;",
  str% "#endif",
  [],
  str% "    if (!gdo_lib_is_loaded()) {",
  str% "        _gdo_set_error_no_library_loaded();",
  str% "        return NULL;",
  str% "    }",
  [],
  str% "    /* was the library path already saved? */",
  str% "    if (gdo_hndl.libpath[0] != 0) {",
  str% "        return gdo_hndl.libpath;",
  str% "    }",
  [],
  str% "#if defined(_WIN32) || defined(_AIX)",
  str% "    if (_gdo_library_path()) {",
  str% "        return gdo_hndl.libpath;",
  str% "    }",
  str% "#endif",
  [],
  str% "#ifdef GDO_HAVE_DLINFO",
  str% "    /* prefer dlinfo() over dladdr() */",
  str% "    if (_gdo_libpath_dlinfo()) {",
  str% "        return gdo_hndl.libpath;",
  str% "    }",
  str% "#endif",
  [],
  str% "#ifdef GDO_HAVE_DLADDR",
  str% "    if (_gdo_libpath_dladdr()) {",
  str% "        return gdo_hndl.libpath;",
  str% "    }",
  str% "#endif",
  [],
  str% "    /* error */",
  str% "    gdo_hndl.libpath[0] = 0;",
  [],
  str% "    return NULL;",
  str% "}",
  [],
  [],
  str% "#ifdef _WIN32 /* Windows (WINAPI and dlfcn) */",
  str% "GDO_INLINE bool _gdo_library_path(void)",
  str% "{",
  str% "    /* use GetModuleFileName() to get the path */",
  [],
  str% "# ifdef GDO_WINAPI",
  [],
  str% "    const gdo_char_t *msg = (sizeof(gdo_char_t) == 1)",
  str% "        ? _T(\"GetModuleFileNameA()\")",
  str% "        : _T(\"GetModuleFileNameW()\");",
  [],
  str% "    DWORD nSize = GetModuleFileName(gdo_hndl.handle, gdo_hndl.libpath, GDO_BUFLEN);",
  [],
  str% "    if (nSize == 0 || nSize == GDO_BUFLEN) {"]

/-- `templates/c.c` 701-800. -/
def cBody7 : List Str := [
  str% "        _gdo_save_error(msg);",
  str% "        return false;",
  str% "    }",
  [],
  str% "# elif defined(GDO_DLFCN_WIN32)",
  [],
  str% "    /* dlfcn-win32:",
  str% "     * The handle returned by dlopen() is a `HMODULE' casted to `void *',",
  str% "     * so we can directly use GetModuleFileNameA() to receive the DLL path. */",
  [],
  str% "    DWORD nSize = GetModuleFileNameA((HMODULE)gdo_hndl.handle, gdo_hndl.libpath, GDO_BUFLEN);",
  [],
  str% "    if (nSize == 0) {",
  str% "        _gdo_save_to_errbuf(\"failed to get the library path\");",
  str% "        return false;",
  str% "    } else if (nSize == GDO_BUFLEN) {",
  str% "        _gdo_save_to_errbuf(\"buffer is too small to hold the library path\");",
  str% "        return false;",
  str% "    }",
  [],
  str% "# endif",
  [],
  str% "    return true;",
  str% "}",
  str% "#endif //_WIN32",
  [],
  [],
  str% "#ifdef _AIX /* AIX */",
  str% "GDO_INLINE bool _gdo_libpath_from_symptr(struct ld_info *info, uint8_t *sym)",
  str% "{",
  str% "    const char *path, *member;",
  str% "    size_t len;",
  [],
  str% "    if (!sym) {",
  str% "        return false;",
  str% "    }",
  [],
  str% "    member = NULL;",
  str% "    path = _gdo_aix_parse_ldinfo(info, sym, (const char **)&member);",
  [],
  str% "    if (!path) {",
  str% "        return false;",
  str% "    }",
  [],
  str% "    /* check for an archive member name */",
  str% "    if (member && member[0] != 0) {",
  str% "        len = strlen(path) + strlen(member) + 3; /* + parentheses and NUL byte */",
  [],
  str% "        if (len > GDO_BUFLEN) {",
  str% "            return false;",
  str% "        }",
  [],
  str% "        snprintf(gdo_hndl.libpath, len, \"%s(%s)\", path, member);",
  str% "    } else {",
  str% "        /* path is not an archive */",
  str% "        len = strlen(path) + 1; /* + NUL byte */",
  [],
  str% "        if (len > GDO_BUFLEN) {",
  str% "            return false;",
  str% "        }",
  [],
  str% "        memcpy(gdo_hndl.libpath, path, len);",
  str% "    }",
  [],
  str% "    return true;",
  str% "}",
  [],
  str% "GDO_INLINE bool _gdo_library_path(void)",
  str% "{",
  str% "    uint8_t q[GDO_AIX_LOADQUERY_BUFLEN];",
  [],
  str% "    if (gdo_no_symbols_loaded()) {",
  str% "        _gdo_save_to_errbuf(\"no symbols were loaded\");",
  str% "        return false;",
  str% "    }",
  [],
  str% "    if (loadquery(L_GETINFO, q, sizeof(q)) != -1) {",
  str% "        struct ld_info *info = (struct ld_info *)q;",
  [],
  str% "        if (false",
  str% "            || _gdo_libpath_from_symptr(info, (uint8_t *)GDO_RAWPTR_%%symbol%%)",
  str% "        ) {",
  str% "            return true;",
  str% "        }",
  str% "    }",
  [],
  str% "    _gdo_save_to_errbuf(\"loadquery() failed to get the library path\");",
  [],
  str% "    return false;",
  str% "}",
  str% "#endif //_AIX",
  [],
  [],
  str% "#ifdef GDO_HAVE_DLINFO /* dlinfo() (Linux, FreeBSD, ...) */",
  str% "GDO_INLINE bool _gdo_libpath_dlinfo(void)",
  str% "{",
  str% "    /* use dlinfo() to get a link map */",
  str% "    struct link_map *lm = NULL;",
  [],
  str% "    _gdo_clear_error();"]

/-- `templates/c.c` 801-900. -/
def cBody8 : List Str := [
  [],
  str% "    if (dlinfo(gdo_hndl.handle, RTLD_DI_LINKMAP, &lm) == -1) {",
  str% "        _gdo_save_error(NULL);",
  str% "        return false;",
  str% "    }",
  [],
  str% "    if (!lm->l_name || lm->l_name[0] == 0) {",
  str% "        _gdo_save_to_errbuf(\"dlinfo() failed to get library path\");",
  str% "        return false;",
  str% "    }",
  [],
  str% "# ifdef __linux__",
  str% "    /* if the path is relative try to get the full library path from /proc/self/maps */",
  str% "    if (lm->l_name[0] != '/' && _gdo_fullpath_procmap(lm, gdo_hndl.libpath, GDO_BUFLEN)) {",
  str% "        return true;",
  str% "    }",
  str% "# endif",
  [],
  str% "    size_t len = strlen(lm->l_name) + 1;",
  [],
  str% "    if (len > GDO_BUFLEN) {",
  str% "        return false;",
  str% "    }",
  [],
  str% "    memcpy(gdo_hndl.libpath, lm->l_name, len);",
  [],
  str% "    return true;",
  str% "}",
  str% "#endif //GDO_HAVE_DLINFO",
  [],
  [],
  str% "#ifdef GDO_HAVE_DLADDR /* dladdr() (POSIX.1-2024) */",
  str% "GDO_INLINE bool _gdo_libpath_dladdr(void)",
  str% "{",
  str% "    /* use dladdr() to get the library path from a symbol pointer */",
  [],
  str% "    const char *path = NULL;",
  str% "    Dl_info info;",
  [],
  str% "    _gdo_clear_error();",
  [],
  str% "    if (gdo_no_symbols_loaded()) {",
  str% "        _gdo_save_to_errbuf(\"no symbols were loaded\");",
  str% "        return false;",
  str% "    }",
  [],
  str% "    if (false",
  str% "        || _gdo_call_dladdr((void *)GDO_RAWPTR_%%symbol%%, &info)",
  str% "    ) {",
  str% "        path = info.dli_fname;",
  str% "    }",
  [],
  str% "    if (!path) {",
  str% "        _gdo_save_to_errbuf(\"dladdr() failed to get library path\");",
  str% "        return false;",
  str% "    }",
  [],
  str% "    size_t len = strlen(path) + 1;",
  [],
  str% "    if (len > GDO_BUFLEN) {",
  str% "        return false;",
  str% "    }",
  [],
  str% "    memcpy(gdo_hndl.libpath, path, len);",
  [],
  str% "    return true;",
  str% "}",
  str% "#endif //GDO_HAVE_DLADDR",
  [],
  str% "/*****************************************************************************/",
  str% "%PARAM_SKIP_REMOVE_BEGIN%",
  [],
  [],
  [],
  str% "/*****************************************************************************/",
  str% "/*                     helper used by wrapper functions                      */",
  str% "/*****************************************************************************/",
  str% "#if defined(GDO_WRAP_FUNCTIONS) || defined(GDO_ENABLE_AUTOLOAD)",
  [],
  str% "#if !defined(__GNUC__) && !defined(_MSC_VER)",
  str% "void _gdo_noop(void) {}",
  str% "#endif",
  [],
  str% "GDO_INLINE void _gdo_print_error(const gdo_char_t *fmt, const gdo_char_t *sym, const gdo_char_t *msg)",
  str% "{",
  str% "#ifdef _WIN32",
  [],
  str% "# ifdef GDO_USE_MESSAGE_BOX",
  str% "    /* we can safely use gdo_hndl.errbuf, the last error message",
  str% "     * was saved in gdo_hndl.formatted */",
  str% "    _sntprintf_s(gdo_hndl.errbuf, GDO_BUFLEN, _TRUNCATE, fmt, sym, msg);",
  str% "    MessageBox(NULL, gdo_hndl.errbuf, _T(\"Error\"), MB_OK | MB_ICONERROR);",
  str% "# else",
  str% "    _ftprintf_s(stderr, fmt, sym, msg);",
  str% "    _fputtc(_T('\\n'), stderr);",
  str% "# endif //GDO_USE_MESSAGE_BOX",
  [],
  str% "#else //!_WIN32",
  [],
  str% "    fprintf(stderr, fmt, sym, msg);"]

/-- `templates/c.c` 901-989. -/
def cBody9 : List Str := [
  str% "    fputc('\\n', stderr);",
  [],
  str% "#endif //!_WIN32",
  str% "}",
  [],
  str% "/* used by wrapper functions */",
  str% "GDO_LINKAGE void _gdo_wrap_check_loaded(void *symptr, int load, const gdo_char_t *sym)",
  str% "{",
  str% "    const gdo_char_t *msg;",
  [],
  str% "    /* symbol was already loaded */",
  str% "    if (symptr != NULL) {",
  str% "        return;",
  str% "    }",
  [],
  str% "#ifdef GDO_ENABLE_AUTOLOAD",
  str% "    /* set auto-release, ignore errors */",
  str% "    gdo_enable_autorelease();",
  [],
  str% "    /* load library */",
  str% "    if (!gdo_lib_is_loaded()) {",
  str% "        gdo_load_lib();",
  str% "    }",
  [],
  str% "# ifdef GDO_ENABLE_AUTOLOAD_LAZY",
  str% "    /* load a specific symbol */",
  str% "    if (gdo_load_symbol(load)) {",
  str% "        return;",
  str% "    }",
  str% "# else",
  str% "    GDO_UNUSED_REF(load);",
  [],
  str% "    /* load all symbols */",
  str% "    if (gdo_load_all_symbols()) {",
  str% "        return;",
  str% "    }",
  str% "# endif",
  [],
  str% "    msg = gdo_last_error();",
  [],
  str% "    if (_gdo_tcsstr(msg, GDO_DEFAULT_LIB)) {",
  str% "        /* library name is already part of error message */",
  str% "        _gdo_print_error(_T(\"error: %s: %s\"), sym, msg);",
  str% "    } else {",
  str% "        _gdo_print_error(_T(\"error: \") GDO_DEFAULT_LIB _T(\": %s: %s\"), sym, msg);",
  str% "    }",
  [],
  str% "    gdo_force_free_lib();",
  str% "    exit(1);",
  [],
  str% "#else //!GDO_ENABLE_AUTOLOAD",
  [],
  str% "    /* don't load anything, print an error message and abort */",
  [],
  str% "    if (!gdo_lib_is_loaded()) {",
  str% "        msg = _T(\"library not loaded\");",
  str% "    } else {",
  str% "        msg = _T(\"symbol not loaded\");",
  str% "    }",
  [],
  str% "    GDO_UNUSED_REF(load);",
  str% "    _gdo_print_error(_T(\"fatal error: %s: %s\"), sym, msg);",
  [],
  str% "    abort();",
  [],
  str% "#endif //!GDO_ENABLE_AUTOLOAD",
  str% "}",
  [],
  str% "#endif // GDO_WRAP_FUNCTIONS || GDO_ENABLE_AUTOLOAD",
  str% "/*****************************************************************************/",
  str% "%PARAM_SKIP_END%",
  [],
  [],
  str% "#if !defined(GDO_SEPARATE) && \\",
  str% "    !defined(GDO_DISABLE_ALIASING)",
  [],
  str% "/* aliases to raw function pointers */",
  str% "#if !defined(GDO_WRAP_IS_VISIBLE)",
  str% "# define %%func_symbol_pad%% GDO_FUNC_ALIAS(%%func_symbol%%)",
  str% "#endif",
  [],
  str% "/* aliases to raw object pointers */",
  str% "#define %%obj_symbol_pad%% *GDO_RAWPTR_%%obj_symbol%%",
  [],
  str% "#endif //!GDO_SEPARATE",
  [],
  str% "#undef GDO_SET_LAST_ERRNO",
  str% "#undef GDO_SNPRINTF",
  []]

/-- The lines of `templates/c.c` (1-989). -/
def cBody : List (List Str) := [cBody0, cBody1, cBody2, cBody3, cBody4, cBody5, cBody6, cBody7, cBody8, cBody9]

end Gdo.Builtin
