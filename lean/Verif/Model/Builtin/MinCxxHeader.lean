import Verif.Basic

/-!
The text of `src/templates/minimal_cxxeh.hpp`, line by line.
-/

namespace Gdo.Builtin
open Gdo

/-- `templates/minimal_cxxeh.hpp` 1-100. -/
def minCxxHeader0 : List Str := [
  str% "#include <stdexcept>",
  str% "#include <string>",
  [],
  str% "#if defined(_WIN32) && !defined(GDO_USE_DLOPEN)",
  str% "# define GDO_WINAPI",
  str% "# include <windows.h>",
  str% "#else",
  str% "# include <dlfcn.h>",
  str% "#endif",
  [],
  [],
  str% "/***",
  [],
  str% "A small C++ library loader that throws exceptions on error.",
  [],
  str% "Usage:",
  [],
  str% "    try {",
  str% "        gdo::load_library_and_symbols( LIBNAME(helloworld,0) );",
  str% "    }",
  str% "    catch (const gdo::LibraryError &e) {",
  str% "        std::cerr << \"error: failed to load library: \" << e.what() << std::endl;",
  str% "        return 1;",
  str% "    }",
  str% "    catch (const gdo::SymbolError &e) {",
  str% "        std::cerr << \"error: failed to load symbol: \" << e.what() << std::endl;",
  str% "        return 1;",
  str% "    }",
  str% "    catch (...) {",
  str% "        std::cerr << \"an unknown error has occurred\" << std::endl;",
  str% "        return 1;",
  str% "    }",
  [],
  str% "***/",
  [],
  str% "namespace gdo",
  str% "{",
  str% "    /* symbol pointers; symbol names must be prefixed to avoid macro expansion */",
  str% "    %%type%% (*GDO_PTR_%%func_symbol%%)(%%args%%) = nullptr;",
  str% "    %%obj_type%% *GDO_PTR_%%obj_symbol%% = nullptr;",
  [],
  [],
  str% "    /**",
  str% "     * Library handle",
  str% "     */",
  str% "#ifdef GDO_WINAPI",
  str% "    HMODULE handle = nullptr;",
  str% "#else",
  str% "    void *handle = nullptr;",
  str% "#endif",
  [],
  [],
  str% "    /**",
  str% "     * Free library handle without error checks.",
  str% "     * Internal handle and pointers are always set back to NULL.",
  str% "     */",
  str% "    void free_library(void)",
  str% "    {",
  str% "        if (handle) {",
  str% "#ifdef GDO_WINAPI",
  str% "            ::FreeLibrary(handle);",
  str% "#else",
  str% "            ::dlclose(handle);",
  str% "#endif",
  str% "        }",
  [],
  str% "        handle = nullptr;",
  str% "        GDO_PTR_%%symbol%% = nullptr;",
  str% "    }",
  [],
  [],
  str% "    /**",
  str% "     * An error has occurred trying to load a library.",
  str% "     */",
  str% "    class LibraryError : public std::runtime_error",
  str% "    {",
  str% "        public:",
  str% "            LibraryError(const std::string &message) : std::runtime_error(message) {}",
  str% "            virtual ~LibraryError() {}",
  str% "    };",
  [],
  [],
  str% "    /**",
  str% "     * An error has occurred trying to load a symbol.",
  str% "     */",
  str% "    class SymbolError : public std::runtime_error",
  str% "    {",
  str% "        public:",
  str% "            SymbolError(const std::string &message) : std::runtime_error(message) {}",
  str% "            virtual ~SymbolError() {}",
  str% "    };",
  [],
  [],
  str% "    /**",
  str% "     * Load library and all symbols.",
  str% "     *",
  str% "     * filename:",
  str% "     *   Library filename or path to load. Must not be empty or NULL.",
  str% "     *",
  str% "     * If an error occurs the library handle is freed and an exception is thrown."]

/-- `templates/minimal_cxxeh.hpp` 101-155. -/
def minCxxHeader1 : List Str := [
  str% "     */",
  str% "    void load_library_and_symbols(const char *filename) noexcept(false)",
  str% "    {",
  str% "        if (filename == NULL) {",
  str% "            throw LibraryError(\"<NULL>\");",
  str% "        } else if (*filename == 0) {",
  str% "            throw LibraryError(\"<EMPTY>\");",
  str% "        }",
  [],
  str% "        /* load library */",
  str% "#ifdef GDO_WINAPI",
  str% "        handle = ::LoadLibraryA(filename);",
  str% "#elif defined(_AIX)",
  str% "        handle = ::dlopen(filename, RTLD_LAZY | RTLD_MEMBER);",
  str% "#else",
  str% "        handle = ::dlopen(filename, RTLD_LAZY);",
  str% "#endif",
  [],
  str% "        if (!handle) {",
  str% "            throw LibraryError(filename);",
  str% "        }",
  [],
  str% "        /* load symbols */",
  str% "        auto load_symbol = [] (const char *symbol) -> void*",
  str% "        {",
  str% "#ifdef GDO_WINAPI",
  str% "            return reinterpret_cast<void *>(::GetProcAddress(handle, symbol));",
  str% "#else",
  str% "            return ::dlsym(handle, symbol);",
  str% "#endif",
  str% "        };",
  str% "@",
  str% "        /* %%symbol%% */@",
  str% "        GDO_PTR_%%symbol%% =@",
  str% "            reinterpret_cast<%%sym_type%%>(@",
  str% "                load_symbol(\"%%symbol%%\"));@",
  str% "        if (!GDO_PTR_%%symbol%%) {@",
  str% "            free_library();@",
  str% "            throw SymbolError(\"%%symbol%%\");@",
  str% "        }",
  str% "    }",
  [],
  str% "}; /* end namespace */",
  [],
  [],
  str% "#if !defined(GDO_DISABLE_ALIASING)",
  [],
  str% "/**",
  str% " * Aliases to raw symbol pointers",
  str% " */",
  str% "#define %%func_symbol_pad%%  gdo::GDO_PTR_%%func_symbol%%",
  str% "#define %%obj_symbol_pad%%  *gdo::GDO_PTR_%%obj_symbol%%",
  [],
  str% "#endif // !GDO_DISABLE_ALIASING",
  []]

/-- The lines of `templates/minimal_cxxeh.hpp` (1-155). -/
def minCxxHeader : List (List Str) := [minCxxHeader0, minCxxHeader1]

end Gdo.Builtin
