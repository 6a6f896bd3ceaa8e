import Verif.Basic

/-!
The text of `src/templates/common.h`, line by line.
-/

namespace Gdo.Builtin
open Gdo

/-- `templates/common.h` 1-100. -/
def commonHeader0 : List Str := [
  str% "/*****************************************************************************/",
  str% "/*                        common macros and headers                          */",
  str% "/*****************************************************************************/",
  [],
  [],
  str% "/***",
  [],
  str% "*** flags ***",
  [],
  str% "GDO_USE_DLOPEN",
  str% "    If defined use `dlopen()' API on win32 targets.",
  str% "    On other targets `dlopen()' is always used.",
  [],
  str% "GDO_STATIC",
  str% "    If defined `static inline' linkage is used for all functions (C only).",
  [],
  str% "GDO_WRAP_FUNCTIONS",
  str% "    Use actual function wrappers instead of a name alias.",
  [],
  str% "GDO_ENABLE_AUTOLOAD",
  str% "    Define this macro if you want to use auto-loading wrapper functions.",
  str% "    It requires GDO_DEFAULT_LIB to be defined.",
  [],
  str% "GDO_ENABLE_AUTOLOAD_LAZY",
  str% "    Same as GDO_ENABLE_AUTOLOAD but only the requested symbol is loaded when its",
  str% "    wrapper function is called instead of all symbols.",
  [],
  str% "GDO_USE_MESSAGE_BOX",
  str% "    Windows only: if GDO_ENABLE_AUTOLOAD was activated this will enable",
  str% "    error messages from auto-loading to be displayed in MessageBox windows.",
  [],
  str% "GDO_CONVERT_FILENAME",
  str% "    Windows only: don't use LoadLibraryExA(), instead convert the filename",
  str% "    to wchar_t and use LoadLibraryExW() (C only).",
  [],
  str% "GDO_DISABLE_ALIASING",
  str% "    Don't use preprocessor macros to alias symbol names.",
  [],
  str% "GDO_DISABLE_WARNINGS",
  str% "    Mute diagnostic warnings.",
  [],
  [],
  str% "*** settings ***",
  [],
  str% "GDO_DEFAULT_FLAGS",
  str% "    Override the default flags to use when loading a library.",
  [],
  str% "GDO_DEFAULT_LIB",
  str% "    Set a default library name through this macro.",
  [],
  str% "GDO_WRAP_VISIBILITY",
  str% "    Set the symbol visibility of wrapped functions. By default wrapped functions",
  str% "    are not visible and inlined.",
  [],
  [],
  str% "*** hooks ***",
  [],
  str% "GDO_HOOK_<function>(...)",
  str% "    Define a hook macro that will be inserted into a wrap function.",
  str% "    The hook is placed before the actual function call.",
  str% "    If you want to call the function inside the macro you must do so using the GDO_RAWPTR_* prefix.",
  str% "    Parameter names are taken from the function prototype declarations (or it's \"a1, a2, a3\" and so on",
  str% "    if the header was created with `-param=create').",
  [],
  str% "    For example if a function declaration is `int sum_of_a_and_b(int val_a, int val_b)':",
  [],
  str% "    #define GDO_HOOK_sum_of_a_and_b(...) \\",
  str% "      printf(\"debug: the sum of %d and %d is %d\\n\", \\",
  str% "        val_a, val_b, GDO_RAWPTR_sum_of_a_and_b(__VA_ARGS__))",
  [],
  str% "    Note: when using GCC variable length argument functions are implemented using",
  str% "    inline functions, so inlining must be enabled or else linking will later fail.",
  str% "    On other compilers these functions are implemented using preprocessor macros",
  str% "    which means there will be some limitations when using hook macros.",
  str% "***/",
  [],
  [],
  str% "#ifndef __cplusplus",
  str% "# include <stdbool.h>",
  str% "#endif",
  [],
  str% "#ifdef _WIN32",
  str% "# ifdef GDO_USE_DLOPEN",
  str% "#  define GDO_DLFCN_WIN32",
  str% "# else",
  str% "#  define GDO_WINAPI",
  str% "# endif",
  str% "# include <windows.h>",
  str% "# include <wchar.h>",
  str% "#else",
  str% "# ifdef HAVE_FEATURES_H",
  str% "#  include <features.h> /* defines macros to identify C library */",
  str% "# else",
  str% "#  include <limits.h> /* includes <features.h> indirectly if present */",
  str% "# endif",
  str% "#endif",
  [],
  str% "#ifndef GDO_WINAPI",
  str% "# include <dlfcn.h>",
  str% "#endif"]

/-- `templates/common.h` 101-200. -/
def commonHeader1 : List Str := [
  [],
  [],
  str% "#ifdef GDO_WINAPI",
  str% "typedef HMODULE gdo_hmod_t;",
  str% "#else",
  str% "typedef void *gdo_hmod_t;",
  str% "#endif",
  [],
  [],
  str% "#define GDO_INLINE  static inline",
  [],
  [],
  str% "#ifdef _WIN32",
  str% "# define GDO_BUFLEN (32*1024) /* https://learn.microsoft.com/en-us/windows/win32/fileio/maximum-file-path-limitation */",
  str% "#else",
  str% "# define GDO_BUFLEN (8*1024)  /* 2x Linux PATH_MAX */",
  str% "#endif",
  [],
  [],
  str% "#ifdef _AIX",
  str% "# define GDO_AIX_LOADQUERY_BUFLEN (16*1024)  /* loadquery() buffer length */",
  str% "#endif",
  [],
  [],
  str% "/* flags to use on FormatMessage() */",
  str% "#ifdef GDO_WINAPI",
  str% "# define GDO_FORMAT_MESSAGE_FLAGS \\",
  str% "    (FORMAT_MESSAGE_ALLOCATE_BUFFER | \\",
  str% "     FORMAT_MESSAGE_FROM_SYSTEM | \\",
  str% "     FORMAT_MESSAGE_IGNORE_INSERTS | \\",
  str% "     FORMAT_MESSAGE_MAX_WIDTH_MASK)",
  str% "#endif",
  [],
  [],
  str% "/* dladdr(3); n/a on Windows (WINAPI) and AIX */",
  str% "#if !defined(GDO_WINAPI) && \\",
  str% "    !defined(_AIX)",
  str% "# define GDO_HAVE_DLADDR",
  str% "#endif",
  [],
  str% "#ifdef GDO_HAVE_DLADDR",
  str% "# if !defined(_GNU_SOURCE) && \\",
  str% "     (defined(__GLIBC__) || \\",
  str% "      defined(__UCLIBC__) || \\",
  str% "      defined(__dietlibc__))",
  str% "#  define GDO_NEED_DLADDR_PROTO",
  str% "# elif !defined(_NETBSD_SOURCE) && (defined(__NetBSD__) || defined(__minix))",
  str% "#  define GDO_NEED_DLADDR_PROTO",
  str% "# endif",
  str% "#endif",
  [],
  str% "#if !defined(DLADDR_PROTOTYPE) && defined(GDO_NEED_DLADDR_PROTO)",
  str% "# define DLADDR_PROTOTYPE",
  str% "typedef struct {",
  str% "  const char *dli_fname;",
  str% "  void       *dli_fbase;",
  str% "  const char *dli_sname;",
  str% "  void       *dli_saddr;",
  str% "} Dl_info;",
  str% "extern int dladdr(const void *addr, Dl_info *info);",
  str% "#endif",
  [],
  [],
  str% "/* dlinfo(3); systems that support dlinfo() with RTLD_DI_LINKMAP request */",
  str% "#if !defined(GDO_HAVE_DLINFO) && \\",
  str% "    (defined(__GLIBC__) || \\",
  str% "     defined(__FreeBSD__) || \\",
  str% "     defined(__NetBSD__) || \\",
  str% "     defined(__DragonFly__) || \\",
  str% "     defined(__minix) || \\",
  str% "     defined(__sun))",
  str% "# define GDO_HAVE_DLINFO",
  str% "#endif",
  [],
  str% "#ifdef GDO_HAVE_DLINFO",
  str% "# include <link.h> /* link map */",
  str% "#endif",
  [],
  str% "#ifdef GDO_HAVE_DLINFO",
  str% "# if !defined(_GNU_SOURCE) && defined(__GLIBC__)",
  str% "#  define GDO_NEED_DLINFO_PROTO",
  str% "# elif !defined(_NETBSD_SOURCE) && (defined(__NetBSD__) || defined(__minix))",
  str% "#  define GDO_NEED_DLINFO_PROTO",
  str% "# endif",
  str% "#endif",
  [],
  str% "#if !defined(DLINFO_PROTOTYPE) && defined(GDO_NEED_DLINFO_PROTO)",
  str% "# define DLINFO_PROTOTYPE",
  str% "# ifdef __GLIBC__",
  str% "#  define RTLD_DI_LINKMAP 2  /* Glibc */",
  str% "# else",
  str% "#  define RTLD_DI_LINKMAP 3  /* NetBSD libc */",
  str% "# endif",
  str% "extern int dlinfo(void *handle, int request, void *info);",
  str% "#endif",
  [],
  [],
  str% "/* dlmopen(3); only on Glibc and Solaris/IllumOS */",
  str% "#if !defined(GDO_HAVE_DLMOPEN) && \\",
  str% "    (defined(__GLIBC__) || \\"]

/-- `templates/common.h` 201-300. -/
def commonHeader2 : List Str := [
  str% "     defined(__sun))",
  str% "# define GDO_HAVE_DLMOPEN",
  str% "#endif",
  [],
  str% "#ifdef GDO_HAVE_DLMOPEN",
  str% "# if !defined(_GNU_SOURCE) && defined(__GLIBC__)",
  str% "#  define GDO_NEED_DLMOPEN_PROTO",
  str% "# endif",
  str% "#endif",
  [],
  str% "#if !defined(DLMOPEN_PROTOTYPE) && defined(GDO_NEED_DLMOPEN_PROTO)",
  str% "# define DLMOPEN_PROTOTYPE",
  str% "# define LM_ID_NEWLM -1  /* new namespace */",
  str% "typedef long int Lmid_t;",
  str% "extern void *dlmopen(Lmid_t lmid, const char *path, int flags);",
  str% "#endif",
  [],
  [],
  str% "/* GCC specific attributes */",
  str% "#ifdef __GNUC__",
  str% "# define GDO_GCC_ATTRIBUTE(x)  __attribute__ ((x))",
  str% "#else",
  str% "# define GDO_GCC_ATTRIBUTE(x)  /**/",
  str% "#endif",
  [],
  [],
  str% "/* set visibility of wrapped functions */",
  str% "#ifdef GDO_WRAP_VISIBILITY",
  str% "/* visible as regular functions */",
  str% "# define GDO_WRAP_DECL  GDO_WRAP_VISIBILITY",
  str% "# define GDO_WRAP(x)    x",
  str% "# else",
  str% "/* declare as prefixed inline functions by default */",
  str% "# define GDO_WRAP_DECL  static inline",
  str% "# define GDO_WRAP(x)    GDO_WRAP_##x",
  str% "#endif",
  [],
  [],
  str% "/* diagnostic #pragma warnings */",
  str% "#ifdef __GNUC__",
  str% "# define _GDO_PRAGMA(x)    _Pragma(#x)",
  str% "# define GDO_WARNING(MSG)  _GDO_PRAGMA(GCC warning MSG)",
  str% "#elif defined(_MSC_VER)",
  str% "# define GDO_WARNING(MSG)  __pragma( message(__FILE__ \": \" MSG) )",
  str% "#else",
  str% "# define GDO_WARNING(...)  /**/",
  str% "#endif",
  [],
  [],
  str% "/* default library name */",
  [],
  str% "#if defined(GDO_WINAPI) && defined(_UNICODE)",
  str% "# define _GDO_TARGET_WIDECHAR",
  str% "#endif",
  [],
  str% "/* GDO_DEFAULT_LIBA ?= GDO_HARDCODED_DEFAULT_LIBA */",
  str% "#if !defined(GDO_DEFAULT_LIBA) && defined(GDO_HARDCODED_DEFAULT_LIBA)",
  str% "# define GDO_DEFAULT_LIBA  GDO_HARDCODED_DEFAULT_LIBA",
  str% "#endif",
  [],
  str% "/* GDO_DEFAULT_LIBW ?= GDO_HARDCODED_DEFAULT_LIBW */",
  str% "#if !defined(GDO_DEFAULT_LIBW) && defined(GDO_HARDCODED_DEFAULT_LIBW)",
  str% "# define GDO_DEFAULT_LIBW  GDO_HARDCODED_DEFAULT_LIBW",
  str% "#endif",
  [],
  str% "/* GDO_DEFAULT_LIB ?= GDO_DEFAULT_LIBA or GDO_DEFAULT_LIBW */",
  str% "#ifndef GDO_DEFAULT_LIB",
  str% "# if defined(GDO_DEFAULT_LIBA) && !defined(_GDO_TARGET_WIDECHAR)",
  str% "#  define GDO_DEFAULT_LIB  GDO_DEFAULT_LIBA",
  str% "# elif defined(GDO_DEFAULT_LIBW) && defined(_GDO_TARGET_WIDECHAR)",
  str% "#  define GDO_DEFAULT_LIB  GDO_DEFAULT_LIBW",
  str% "# endif",
  str% "#endif",
  [],
  str% "/* GDO_DEFAULT_LIBA or GDO_DEFAULT_LIBW ?= GDO_DEFAULT_LIB */",
  str% "#ifdef GDO_DEFAULT_LIB",
  str% "# if !defined(GDO_DEFAULT_LIBA) && !defined(_GDO_TARGET_WIDECHAR)",
  str% "#  define GDO_DEFAULT_LIBA  GDO_DEFAULT_LIB",
  str% "# endif",
  str% "# if !defined(GDO_DEFAULT_LIBW) && defined(_GDO_TARGET_WIDECHAR)",
  str% "#  define GDO_DEFAULT_LIBW  GDO_DEFAULT_LIB",
  str% "# endif",
  str% "#endif",
  [],
  [],
  str% "/* dlopen(3) flags for compatibility with LoadLibrary()",
  str% " * taken from different implementations of dlfcn.h */",
  str% "#ifndef RTLD_LAZY",
  str% "#define RTLD_LAZY 0",
  str% "#endif",
  str% "#ifndef RTLD_NOW",
  str% "#define RTLD_NOW 0",
  str% "#endif",
  str% "#ifndef RTLD_GLOBAL",
  str% "#define RTLD_GLOBAL 0",
  str% "#endif",
  str% "#ifndef RTLD_LOCAL",
  str% "#define RTLD_LOCAL 0",
  str% "#endif",
  []]

/-- `templates/common.h` 301-400. -/
def commonHeader3 : List Str := [
  str% "#ifndef RTLD_BINDING_MASK",
  str% "#define RTLD_BINDING_MASK 0",
  str% "#endif",
  str% "#ifndef RTLD_CONFGEN",
  str% "#define RTLD_CONFGEN 0",
  str% "#endif",
  str% "#ifndef RTLD_DEEPBIND",
  str% "#define RTLD_DEEPBIND 0",
  str% "#endif",
  str% "#ifndef RTLD_FIRST",
  str% "#define RTLD_FIRST 0",
  str% "#endif",
  str% "#ifndef RTLD_GROUP",
  str% "#define RTLD_GROUP 0",
  str% "#endif",
  str% "#ifndef RTLD_MEMBER",
  str% "#define RTLD_MEMBER 0",
  str% "#endif",
  str% "#ifndef RTLD_MODEMASK",
  str% "#define RTLD_MODEMASK 0",
  str% "#endif",
  str% "#ifndef RTLD_NOAUTODEFER",
  str% "#define RTLD_NOAUTODEFER 0",
  str% "#endif",
  str% "#ifndef RTLD_NODELETE",
  str% "#define RTLD_NODELETE 0",
  str% "#endif",
  str% "#ifndef RTLD_NOLOAD",
  str% "#define RTLD_NOLOAD 0",
  str% "#endif",
  str% "#ifndef RTLD_PARENT",
  str% "#define RTLD_PARENT 0",
  str% "#endif",
  str% "#ifndef RTLD_TRACE",
  str% "#define RTLD_TRACE 0",
  str% "#endif",
  str% "#ifndef RTLD_WORLD",
  str% "#define RTLD_WORLD 0",
  str% "#endif",
  [],
  str% "#ifndef DL_LAZY",
  str% "#define DL_LAZY RTLD_LAZY  /* compat */",
  str% "#endif",
  [],
  [],
  str% "/* LoadLibrary() flags for compatibility with dlopen()",
  str% " * https://learn.microsoft.com/en-us/windows/win32/api/libloaderapi/nf-libloaderapi-loadlibraryexw */",
  str% "#ifndef DONT_RESOLVE_DLL_REFERENCES",
  str% "#define DONT_RESOLVE_DLL_REFERENCES 0",
  str% "#endif",
  str% "#ifndef LOAD_IGNORE_CODE_AUTHZ_LEVEL",
  str% "#define LOAD_IGNORE_CODE_AUTHZ_LEVEL 0",
  str% "#endif",
  str% "#ifndef LOAD_LIBRARY_AS_DATAFILE",
  str% "#define LOAD_LIBRARY_AS_DATAFILE 0",
  str% "#endif",
  str% "#ifndef LOAD_LIBRARY_AS_DATAFILE_EXCLUSIVE",
  str% "#define LOAD_LIBRARY_AS_DATAFILE_EXCLUSIVE 0",
  str% "#endif",
  str% "#ifndef LOAD_LIBRARY_AS_IMAGE_RESOURCE",
  str% "#define LOAD_LIBRARY_AS_IMAGE_RESOURCE 0",
  str% "#endif",
  str% "#ifndef LOAD_LIBRARY_SEARCH_APPLICATION_DIR",
  str% "#define LOAD_LIBRARY_SEARCH_APPLICATION_DIR 0",
  str% "#endif",
  str% "#ifndef LOAD_LIBRARY_SEARCH_DEFAULT_DIRS",
  str% "#define LOAD_LIBRARY_SEARCH_DEFAULT_DIRS 0",
  str% "#endif",
  str% "#ifndef LOAD_LIBRARY_SEARCH_DLL_LOAD_DIR",
  str% "#define LOAD_LIBRARY_SEARCH_DLL_LOAD_DIR 0",
  str% "#endif",
  str% "#ifndef LOAD_LIBRARY_SEARCH_SYSTEM32",
  str% "#define LOAD_LIBRARY_SEARCH_SYSTEM32 0",
  str% "#endif",
  str% "#ifndef LOAD_LIBRARY_SEARCH_USER_DIRS",
  str% "#define LOAD_LIBRARY_SEARCH_USER_DIRS 0",
  str% "#endif",
  str% "#ifndef LOAD_WITH_ALTERED_SEARCH_PATH",
  str% "#define LOAD_WITH_ALTERED_SEARCH_PATH 0",
  str% "#endif",
  str% "#ifndef LOAD_LIBRARY_REQUIRE_SIGNED_TARGET",
  str% "#define LOAD_LIBRARY_REQUIRE_SIGNED_TARGET 0",
  str% "#endif",
  str% "#ifndef LOAD_LIBRARY_SAFE_CURRENT_DIRS",
  str% "#define LOAD_LIBRARY_SAFE_CURRENT_DIRS 0",
  str% "#endif",
  [],
  [],
  str% "/* default flags */",
  str% "#if !defined(GDO_DEFAULT_FLAGS)",
  str% "# ifdef GDO_WINAPI",
  str% "#  define GDO_DEFAULT_FLAGS 0",
  str% "# else",
  str% "#  define GDO_DEFAULT_FLAGS (RTLD_LAZY | RTLD_MEMBER)",
  str% "# endif",
  str% "#endif",
  [],
  [],
  str% "/* always enable autoload if \"lazy autoload\" was enabled */",
  str% "#if defined(GDO_ENABLE_AUTOLOAD_LAZY) && !defined(GDO_ENABLE_AUTOLOAD)"]

/-- `templates/common.h` 401-415. -/
def commonHeader4 : List Str := [
  str% "# define GDO_ENABLE_AUTOLOAD",
  str% "#endif",
  [],
  [],
  str% "/* whether wrapped functions can be used */",
  str% "%PARAM_SKIP_REMOVE_BEGIN%",
  str% "#if defined(GDO_ENABLE_AUTOLOAD) && !defined(GDO_DEFAULT_LIB)",
  str% "# error Auto-loading functions require \"GDO_DEFAULT_LIB\" to be set",
  str% "#endif",
  str% "%PARAM_SKIP_USE_BEGIN%",
  str% "#if defined(GDO_WRAP_FUNCTIONS) || defined(GDO_ENABLE_AUTOLOAD)",
  str% "# error Auto-loading and wrapped functions cannot be used because \"-param=skip\" was set",
  str% "#endif",
  str% "%PARAM_SKIP_END%",
  []]

/-- The lines of `templates/common.h` (1-415). -/
def commonHeader : List (List Str) := [commonHeader0, commonHeader1, commonHeader2, commonHeader3, commonHeader4]

end Gdo.Builtin
