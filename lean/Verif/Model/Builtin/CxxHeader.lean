import Verif.Basic

/-!
The text of `src/templates/cxx.hpp`, line by line.
-/

namespace Gdo.Builtin
open Gdo

/-- `templates/cxx.hpp` 1-100. -/
def cxxHeader0 : List Str := [
  str% "#include <iostream>",
  str% "#include <string>",
  str% "#ifdef _AIX",
  str% "# include <inttypes.h>",
  str% "# include <sys/ldr.h>",
  str% "#endif",
  [],
  [],
  str% "/**",
  str% " * Enumeration values for `load_symbol()' method",
  str% " */",
  str% "enum {",
  str% "    GDO_LOAD_%%symbol%%,",
  str% "    GDO_ENUM_LAST",
  str% "};",
  [],
  [],
  str% "namespace gdo",
  str% "{",
  [],
  str% "/**",
  str% " * Symbol pointers.",
  str% " * Symbol names must be prefixed to avoid macro expansion.",
  str% " */",
  str% "extern %%type%% (*GDO_PTR_%%func_symbol%%)(%%args%%);",
  str% "extern %%obj_type%% *GDO_PTR_%%obj_symbol%%;",
  [],
  [],
  str% "/**",
  str% " * Create versioned library names.",
  str% " * make_libname(example,1) for example will become \"libexample.1.dylib\" on macOS.",
  str% " *",
  str% " * name:",
  str% " *   library name without prefix",
  str% " *",
  str% " * api:",
  str% " *   API number to add to filename",
  str% " */",
  str% "std::string make_libname(const std::string &name, const size_t api);",
  str% "#ifdef GDO_WINAPI",
  str% "std::wstring make_libname(const std::wstring &name, const size_t api);",
  str% "#endif",
  [],
  [],
  str% "/**",
  str% " * Default flags to use when loading a library.",
  str% " */",
  str% "constexpr const int default_flags = GDO_DEFAULT_FLAGS;",
  [],
  [],
  str% "/**",
  str% " * Shared library file extension without dot. Useful i.e. on plugins.",
  str% " */",
  str% "constexpr const char    * const libext   = GDO_LIBEXTA;",
  str% "#ifdef GDO_WINAPI",
  str% "constexpr const wchar_t * const libext_w = GDO_LIBEXTW;",
  str% "#endif",
  [],
  [],
  str% "/**",
  str% " * Silence `unused reference' compiler warnings.",
  str% " */",
  str% "template<typename T>",
  str% "void UNUSED_REF(T x)",
  str% "{",
  str% "    static_cast<void>(x);",
  str% "}",
  [],
  [],
  str% "/*****************************************************************************/",
  str% "/*                          library loader class                             */",
  str% "/*****************************************************************************/",
  str% "class dl",
  str% "{",
  str% "#if defined(GDO_WRAP_FUNCTIONS) || defined(GDO_ENABLE_AUTOLOAD)",
  [],
  str% "public:",
  str% "    using msgcb_t = void (*)(const char *);",
  [],
  str% "private:",
  str% "    static void default_message_callback(const char *msg);",
  str% "    static msgcb_t m_message_callback;",
  [],
  str% "#endif // GDO_WRAP_FUNCTIONS || GDO_ENABLE_AUTOLOAD",
  [],
  str% "private:",
  [],
  str% "    static gdo_hmod_t m_handle;",
  [],
  str% "#ifdef GDO_WINAPI",
  str% "    bool m_convert_filename_to_wcs = false;",
  str% "    std::string m_filename, m_libpath;",
  str% "    std::wstring m_wfilename, m_wlibpath;",
  str% "#else",
  str% "    std::string m_filename, m_libpath;",
  str% "#endif",
  [],
  str% "    int m_flags = default_flags;",
  str% "    bool m_new_namespace = false;",
  str% "    bool m_free_lib_in_dtor = true;"]

/-- `templates/cxx.hpp` 101-200. -/
def cxxHeader1 : List Str := [
  [],
  str% "    /* std::enable_if and std::is_same combined */",
  str% "    template<typename T, typename U>",
  str% "    using enable_if_same_bool = typename std::enable_if<std::is_same<T, U>::value, bool>::type;",
  [],
  str% "    /* template wrapper around std::to_(w)string */",
  str% "    template<typename T, typename U, enable_if_same_bool<T, std::string::value_type> = true>",
  str% "    std::string to_string(U val) {",
  str% "        return std::to_string(val);",
  str% "    }",
  [],
  str% "    template<typename T, typename U, enable_if_same_bool<T, std::wstring::value_type> = true>",
  str% "    std::wstring to_string(U val) {",
  str% "        return std::to_wstring(val);",
  str% "    }",
  [],
  str% "    /* return char or wchar_t string */",
  str% "    template<typename T, enable_if_same_bool<T, char> = true>",
  str% "    const char *get_string(const char *str, const wchar_t *) {",
  str% "        return str;",
  str% "    }",
  [],
  str% "    template<typename T, enable_if_same_bool<T, wchar_t> = true>",
  str% "    const wchar_t *get_string(const char *, const wchar_t *wstr) {",
  str% "        return wstr;",
  str% "    }",
  [],
  str% "    /* return char or wchar_t */",
  str% "    template<typename T, enable_if_same_bool<T, std::string::value_type> = true>",
  str% "    char get_char(char ch, wchar_t) {",
  str% "        return ch;",
  str% "    }",
  [],
  str% "    template<typename T, enable_if_same_bool<T, std::wstring::value_type> = true>",
  str% "    wchar_t get_char(char, wchar_t wch) {",
  str% "        return wch;",
  str% "    }",
  [],
  str% "#ifdef GDO_WINAPI",
  [],
  str% "    DWORD m_last_errno = 0;",
  str% "    std::string m_errmsg, m_formatted;",
  str% "    std::wstring m_werrmsg, m_wformatted;",
  [],
  str% "    bool mbs_wcs_conv(size_t *retval, wchar_t *out, size_t size, const char *in);",
  str% "    bool mbs_wcs_conv(size_t *retval, char *out, size_t size, const wchar_t *in);",
  [],
  str% "    template<typename T_in, typename T_out>",
  str% "    bool convert_string(const std::basic_string<T_in> &str_in, std::basic_string<T_out> &str_out);",
  [],
  str% "    void clear_error();",
  [],
  str% "    void save_error();",
  str% "    void save_error(const std::string &msg);",
  str% "    void save_error(const std::wstring &msg);",
  [],
  str% "    void set_error_invalid_handle();",
  [],
  str% "    HMODULE load_library_ex(const std::wstring &filename);",
  str% "    HMODULE load_library_ex(const std::string &filename);",
  [],
  str% "    template<typename T, typename U>",
  str% "    void load_lib(const T &filename);",
  [],
  str% "    DWORD get_module_filename(wchar_t *buf, DWORD len);",
  str% "    DWORD get_module_filename(char *buf, DWORD len);",
  [],
  str% "    template<typename T>",
  str% "    void get_library_path(std::basic_string<T> &path);",
  [],
  str% "    void format_message(DWORD msgId, DWORD langId, wchar_t *buf);",
  str% "    void format_message(DWORD msgId, DWORD langId, char *buf);",
  [],
  str% "    /* format_error_message */",
  str% "    template<typename T_in, typename T_out>",
  str% "    std::basic_string<T_out> format_error_message(const std::basic_string<T_in> &buf_Tin,",
  str% "                                                  const std::basic_string<T_out> &buf_Tout);",
  [],
  str% "#else // !GDO_WINAPI",
  [],
  str% "    std::string m_errmsg;",
  [],
  str% "    void clear_error();",
  str% "    void save_error(const std::string &msg = {}); /* `msg' is always ignored */",
  str% "    void set_error_invalid_handle();",
  [],
  str% "    void load_lib(const std::string &filename);",
  [],
  str% "#if defined(GDO_DLFCN_WIN32) || defined(_AIX)",
  str% "    bool get_library_path(void);",
  str% "#endif",
  str% "#ifdef _AIX",
  str% "    bool aix_libpath(struct ld_info *info, uint8_t *sym);",
  str% "#endif",
  str% "#ifdef GDO_HAVE_DLINFO",
  str% "    bool get_library_path_dlinfo(void);",
  str% "#endif",
  str% "#ifdef GDO_HAVE_DLADDR",
  str% "    bool get_library_path_dladdr(void);",
  str% "#endif"]

/-- `templates/cxx.hpp` 201-300. -/
def cxxHeader2 : List Str := [
  [],
  str% "#endif // !GDO_WINAPI",
  [],
  str% "    template<typename T>",
  str% "    T sym_load(const char *symbol);",
  [],
  str% "    template<typename T>",
  str% "    bool load_filename(const T &filename);",
  [],
  [],
  str% "public:",
  [],
  str% "    /**",
  str% "     * Empty constructor",
  str% "     */",
  str% "    dl();",
  [],
  [],
  str% "    /**",
  str% "     * Constructor. The specified filename will not be loaded yet.",
  str% "     *",
  str% "     * filename:",
  str% "     *   Library filename or path to load. Must not be empty.",
  str% "     *",
  str% "     * flags:",
  str% "     *   These are passed to the underlying library loading functions.",
  str% "     *",
  str% "     * new_namespace:",
  str% "     *   If true the library will be loaded into a new namespace using dlmopen().",
  str% "     *   This argument is only used on Linux (Glibc) and Solaris/IllumOS.",
  str% "     *",
  str% "     * convert:",
  str% "     *   If true the given library name will be converted to std::wstring and",
  str% "     *   passed to LoadLibraryExW(), otherwise it will be passed to LoadLibraryExA().",
  str% "     */",
  str% "    dl(const std::string &filename, int flags=default_flags, bool new_namespace=false);",
  str% "#ifdef GDO_WINAPI",
  str% "    dl(bool convert, const std::string &filename, int flags=default_flags);",
  str% "    dl(const std::wstring &filename, int flags=default_flags);",
  str% "#endif",
  [],
  [],
  str% "    /**",
  str% "     * Destructor. Will free library handle by default (see also `free_lib_in_dtor()').",
  str% "     */",
  str% "    ~dl();",
  [],
  [],
  str% "    /**",
  str% "     * Load a library.",
  str% "     *",
  str% "     * filename:",
  str% "     *   Library filename or path to load. Must not be empty.",
  str% "     *",
  str% "     * flags:",
  str% "     *   These are passed to the underlying library loading functions.",
  str% "     *",
  str% "     * new_namespace:",
  str% "     *   If true the library will be loaded into a new namespace using dlmopen().",
  str% "     *   This argument is only used on Linux (Glibc) and Solaris/IllumOS.",
  str% "     *",
  str% "     * convert:",
  str% "     *   If true the given library name will be converted to std::wstring and",
  str% "     *   passed to LoadLibraryExW(), otherwise it will be passed to LoadLibraryExA().",
  str% "     *",
  str% "     * On success `true' is returned.",
  str% "     * On an error or if the library is already loaded the return value is `false'.",
  str% "     */",
  str% "    bool load(const std::string &filename, int flags=default_flags, bool new_namespace=false);",
  str% "#ifdef GDO_WINAPI",
  str% "    bool load(bool convert, const std::string &filename, int flags=default_flags);",
  str% "    bool load(const std::wstring &filename, int flags=default_flags);",
  str% "#endif",
  [],
  [],
  str% "    /**",
  str% "     * Load the library filename or path specified in the class constructor.",
  str% "     *",
  str% "     * On success `true' is returned.",
  str% "     * On an error or if the library is already loaded the return value is `false'.",
  str% "     */",
  str% "    bool load();",
  [],
  [],
  str% "    /**",
  str% "     * Load the library filename or path specified in the class constructor",
  str% "     * and all the symbols.",
  str% "     *",
  str% "     * On success `true' is returned.",
  str% "     * On an error or if the library is already loaded the return value is `false'.",
  str% "     */",
  str% "    bool load_lib_and_symbols();",
  [],
  [],
  str% "    /**",
  str% "     * Returns `true' if the library was successfully loaded.",
  str% "     */",
  str% "    static bool lib_loaded();",
  [],
  []]

/-- `templates/cxx.hpp` 301-400. -/
def cxxHeader3 : List Str := [
  str% "    /**",
  str% "     * Returns the flags used on the last attempt to load the library or zero.",
  str% "     */",
  str% "    int flags() const;",
  [],
  [],
  str% "    /**",
  str% "     * Load symbols.",
  str% "     *",
  str% "     * symbol_num:",
  str% "     *   Auto-generated enumeration value `GDO_LOAD_<symbol_name>'.",
  str% "     *   For example use `GDO_LOAD_foo' to load the symbol `foo'.",
  str% "     *",
  str% "     * symbol:",
  str% "     *   Name of the symbol to load.",
  str% "     *",
  str% "     * Returns `true' on success or if the symbol was already loaded.",
  str% "     */",
  str% "    bool load_all_symbols();",
  str% "    bool load_symbol(int symbol_num);",
  str% "    bool load_symbol(const char *symbol);",
  [],
  [],
  str% "    /**",
  str% "     * Check if symbols were loaded.",
  str% "     */",
  str% "    bool all_symbols_loaded() const;",
  str% "    bool no_symbols_loaded() const;",
  str% "    bool any_symbol_loaded() const;",
  [],
  [],
  str% "    /**",
  str% "     * Free/release the library. Internal handle and pointers are set back to NULL",
  str% "     * if the underlying calls were successful, in which case `true' is returned.",
  str% "     * Can safely be called even if no library was loaded.",
  str% "     *",
  str% "     * force:",
  str% "     *   Don't check if the underlying calls were successful.",
  str% "     *   Internal handle and pointers are always set back to NULL.",
  str% "     *",
  str% "     * Return value is `true' if no library was loaded or if `force' was set `true'.",
  str% "     */",
  str% "    bool free(bool force=false);",
  [],
  [],
  str% "    /**",
  str% "     * Explicitly enable or disable automatic library freeing through class destructor.",
  str% "     * This is enabled by default.",
  str% "     *",
  str% "     * b:",
  str% "     *   true == enable",
  str% "     *   false == disable",
  str% "     */",
  str% "    void free_lib_in_dtor(bool b);",
  str% "    bool free_lib_in_dtor() const;",
  [],
  [],
  str% "#if defined(GDO_WRAP_FUNCTIONS) || defined(GDO_ENABLE_AUTOLOAD)",
  [],
  str% "    /**",
  str% "     * Set a custom message callback function to be used if an error",
  str% "     * occurred in the wrapped functions.",
  str% "     *",
  str% "     * cb:",
  str% "     *   Callback function pointer of type `void (*)(const char *)'.",
  str% "     *   The function takes an error message as argument.",
  str% "     *   Setting cb to NULL will enable the default callback function.",
  str% "     */",
  str% "    static void message_callback(void (*cb)(const char *msg));",
  [],
  [],
  str% "    /**",
  str% "     * Return pointer to currently used message callback function.",
  str% "     */",
  str% "    static msgcb_t message_callback();",
  [],
  str% "#endif // GDO_WRAP_FUNCTIONS || GDO_ENABLE_AUTOLOAD",
  [],
  [],
  str% "    /**",
  str% "     * Return the library path.",
  str% "     * On error or if no library was loaded an empty string is returned.",
  str% "     *",
  str% "     * On some systems and configurations the path is taken from the loaded symbols",
  str% "     * in which case at least one symbol must have been successfully loaded before",
  str% "     * using this function.",
  str% "     */",
  str% "    std::string library_path();",
  str% "#ifdef GDO_WINAPI",
  str% "    std::wstring library_path_w();",
  str% "#endif",
  [],
  [],
  str% "    /**",
  str% "     * Return the original filename passed to load.",
  str% "     * This is not the same as `library_path()'.",
  str% "     */",
  str% "#ifdef GDO_WINAPI",
  str% "    std::string filename();",
  str% "    std::wstring filename_w();"]

/-- `templates/cxx.hpp` 401-500. -/
def cxxHeader4 : List Str := [
  str% "#else",
  str% "    std::string filename() const;",
  str% "#endif",
  [],
  [],
  str% "    /**",
  str% "     * Return a string with the last saved error message.",
  str% "     * The message will indicate if no error had occured.",
  str% "     * This function doesn't return an empty string.",
  str% "     */",
  str% "#ifdef GDO_WINAPI",
  str% "    std::string error();",
  str% "    std::wstring error_w();",
  str% "#else",
  str% "    std::string error() const;",
  str% "#endif",
  [],
  str% "};",
  str% "/******************************* end of class ********************************/",
  [],
  str% "} /* end namespace */",
  [],
  [],
  str% "/**",
  str% " * Prefixed aliases, useful if GDO_DISABLE_ALIASING was defined.",
  str% " */",
  str% "#define GDO_RAWPTR_%%func_symbol_pad%% gdo::GDO_PTR_%%func_symbol%%",
  str% "#define GDO_RAWPTR_%%obj_symbol_pad%% gdo::GDO_PTR_%%obj_symbol%%",
  str% "%PARAM_SKIP_REMOVE_BEGIN%",
  [],
  [],
  str% "/*****************************************************************************/",
  str% "/*                                wrap code                                  */",
  str% "/*****************************************************************************/",
  str% "#if defined(GDO_WRAP_FUNCTIONS) || defined(GDO_ENABLE_AUTOLOAD)",
  [],
  str% "/* #define empty hooks by default */",
  str% "#ifndef GDO_HOOK_%%func_symbol%%@",
  str% "#define GDO_HOOK_%%func_symbol%%(...) /**/@",
  str% "#endif",
  [],
  [],
  str% "/* diagnostic warnings on variable arguments functions */",
  str% "#if !defined(GDO_DISABLE_WARNINGS) && defined(GDO_WRAP_VISIBILITY)",
  [],
  str% "# ifdef GDO_HAS_VA_ARGS_%%func_symbol%%@",
  str% "GDO_WARNING(\"GDO_WRAP_VISIBILITY defined but wrapper function %%func_symbol%%() can only be used inlined; define GDO_DISABLE_WARNINGS to silence this message\")@",
  str% "# endif@",
  [],
  str% "#endif //!GDO_DISABLE_WARNINGS && GDO_WRAP_VISIBILITY",
  [],
  [],
  str% "namespace gdo {",
  str% "    namespace wrap {",
  str% "        void not_loaded(int load, const char *sym);",
  str% "    }",
  str% "}",
  [],
  str% "@",
  str% "/* %%func_symbol%%() */@",
  str% "#ifdef GDO_HAS_VA_ARGS_%%func_symbol%%@",
  str% "    template<typename... Types>@",
  str% "    %%type%% GDO_WRAP(%%func_symbol%%) (Types... args) {@",
  str% "        if (!GDO_RAWPTR_%%func_symbol%%) {@",
  str% "            gdo::wrap::not_loaded(GDO_LOAD_%%func_symbol%%, \"%%func_symbol%%\");@",
  str% "        }@",
  str% "        GDO_HOOK_%%func_symbol%%(args...);@",
  str% "        %%return%% GDO_RAWPTR_%%func_symbol%%(args...);@",
  str% "    }@",
  str% "#else@",
  str% "    GDO_WRAP_DECL@",
  str% "    %%type%% GDO_WRAP(%%func_symbol%%) (%%args%%) {@",
  str% "        if (!GDO_RAWPTR_%%func_symbol%%) {@",
  str% "            gdo::wrap::not_loaded(GDO_LOAD_%%func_symbol%%, \"%%func_symbol%%\");@",
  str% "        }@",
  str% "        GDO_HOOK_%%func_symbol%%(%%param_names%%);@",
  str% "        %%return%% GDO_RAWPTR_%%func_symbol%%(%%param_names%%);@",
  str% "    }@",
  str% "#endif //!GDO_HAS_VA_ARGS_%%func_symbol%%",
  [],
  [],
  str% "#endif //GDO_WRAP_FUNCTIONS ...",
  str% "/***************************** end of wrap code ******************************/",
  str% "%PARAM_SKIP_END%",
  [],
  [],
  str% "/**",
  str% " * Set function name alias prefix.",
  str% " */",
  str% "#if defined(GDO_WRAP_FUNCTIONS) || defined(GDO_ENABLE_AUTOLOAD)",
  str% "# define GDO_FUNC_ALIAS(x) GDO_WRAP_##x",
  str% "#else",
  str% "# define GDO_FUNC_ALIAS(x) GDO_RAWPTR_##x",
  str% "#endif",
  [],
  [],
  str% "/**",
  str% " * Disable aliasing if we saved into separate files and the",
  str% " * header file was included from the body file.",
  str% " */"]

/-- `templates/cxx.hpp` 501-514. -/
def cxxHeader5 : List Str := [
  str% "#if  defined(GDO_SEPARATE) && \\",
  str% "    !defined(GDO_INCLUDED_IN_BODY) && \\",
  str% "    !defined(GDO_DISABLE_ALIASING)",
  [],
  str% "/* function name aliases */",
  str% "#if !defined(GDO_WRAP_VISIBILITY)",
  str% "# define %%func_symbol_pad%% GDO_FUNC_ALIAS(%%func_symbol%%)",
  str% "#endif",
  [],
  str% "/* object name aliases */",
  str% "#define %%obj_symbol_pad%% *GDO_RAWPTR_%%obj_symbol%%",
  [],
  str% "#endif //GDO_SEPARATE ...",
  []]

/-- The lines of `templates/cxx.hpp` (1-514). -/
def cxxHeader : List (List Str) := [cxxHeader0, cxxHeader1, cxxHeader2, cxxHeader3, cxxHeader4, cxxHeader5]

end Gdo.Builtin
