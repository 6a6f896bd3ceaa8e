import Verif.Basic

/-!
The text of `src/templates/filename_macros.h`, line by line.
-/

namespace Gdo.Builtin
open Gdo

/-- `templates/filename_macros.h` 1-91. -/
def filenameMacros0 : List Str := [
  str% "/*****************************************************************************/",
  str% "/*                              filename macros                              */",
  str% "/*****************************************************************************/",
  [],
  str% "/***",
  [],
  str% "GDO_LIBNAME(NAME, API)",
  str% "GDO_LIBNAMEA(NAME, API)",
  str% "GDO_LIBNAMEW(NAME, API)",
  str% "    Convenience macro to create versioned library names including double quote marks.",
  str% "    GDO_LIBNAME(example,1) for example will become \"libexample.1.dylib\" on macOS.",
  [],
  str% "    NAME: library name without prefix",
  str% "    API:  API number to add to filename",
  [],
  str% "GDO_LIBEXT",
  str% "GDO_LIBEXTA",
  str% "GDO_LIBEXTW",
  str% "    Shared library file extension without dot. Useful i.e. on plugins.",
  [],
  str% "***/",
  [],
  str% "/* default library filename extension */",
  str% "#undef GDO_LIBEXTA",
  str% "#ifdef _WIN32",
  str% "# define GDO_LIBEXTA  \".dll\"",
  str% "#elif defined(__APPLE__)",
  str% "# define GDO_LIBEXTA  \".dylib\"",
  str% "#elif defined(_AIX)",
  str% "# define GDO_LIBEXTA  \".a\"",
  str% "#else /* ELF */",
  str% "# define GDO_LIBEXTA  \".so\"",
  str% "#endif",
  [],
  str% "/**",
  str% " * library name with API number",
  str% " *",
  str% " * Examples using GDO_LIBNAME(foo, 1.2) macro:",
  str% " *",
  str% " * Windows: libfoo-1.2.dll when using MinGW, otherwise foo-1.2.dll",
  str% " *",
  str% " * macOS: libfoo.1.2.dylib",
  str% " *",
  str% " * AIX: libfoo.a(shr.o) or libfoo.a(shr_64.o)",
  str% " * AIX uses archive files without API number.",
  str% " * These archives typically contain a 32 bit shared object `shr.o'",
  str% " * and a 64 bit shared object `shr_64.o'.",
  str% " *",
  str% " * Android: libfoo.so",
  str% " * ELF format but without API number.",
  str% " *",
  str% " * ELF: libfoo.so.1.2",
  str% " */",
  str% "#undef GDO_LIBNAMEA",
  str% "#ifdef _WIN32",
  str% "# ifdef __MINGW32__",
  str% "#  define GDO_LIBNAMEA(NAME, API)  \"lib\" #NAME \"-\" #API \".dll\"",
  str% "# else",
  str% "#  define GDO_LIBNAMEA(NAME, API)        #NAME \"-\" #API \".dll\"",
  str% "# endif",
  str% "#elif defined(__APPLE__)",
  str% "# define GDO_LIBNAMEA(NAME, API)   \"lib\" #NAME \".\" #API \".dylib\"",
  str% "#elif defined(_AIX)",
  str% "# if defined(__64BIT__) /* IBM XL C */ || defined(__LP64__) /* GCC */",
  str% "#  define GDO_LIBNAMEA(NAME, API)  \"lib\" #NAME \".a(shr_64.o)\"",
  str% "# else",
  str% "#  define GDO_LIBNAMEA(NAME, API)  \"lib\" #NAME \".a(shr.o)\"",
  str% "# endif",
  str% "#elif defined(__ANDROID__)",
  str% "# define GDO_LIBNAMEA(NAME, API)   \"lib\" #NAME \".so\"",
  str% "#else /* other ELF systems */",
  str% "# define GDO_LIBNAMEA(NAME, API)   \"lib\" #NAME \".so.\" #API",
  str% "#endif",
  [],
  str% "/* wide character macros */",
  str% "#undef GDO_LIBEXTW",
  str% "#undef GDO_LIBNAMEW",
  str% "#define GDO_LIBEXTW              L\"\" GDO_LIBEXTA",
  str% "#define GDO_LIBNAMEW(NAME, API)  L\"\" GDO_LIBNAMEA(NAME,API)",
  [],
  str% "/* wide/narrow character default macros */",
  str% "#undef GDO_LIBEXT",
  str% "#undef GDO_LIBNAME",
  str% "#if defined(_WIN32) && defined(_UNICODE)",
  str% "# define GDO_LIBEXT              GDO_LIBEXTW",
  str% "# define GDO_LIBNAME(NAME, API)  GDO_LIBNAMEW(NAME, API)",
  str% "#else",
  str% "# define GDO_LIBEXT              GDO_LIBEXTA",
  str% "# define GDO_LIBNAME(NAME, API)  GDO_LIBNAMEA(NAME, API)",
  str% "#endif",
  []]

/-- The lines of `templates/filename_macros.h` (1-91). -/
def filenameMacros : List (List Str) := [filenameMacros0]

end Gdo.Builtin
