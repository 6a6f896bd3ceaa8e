import Verif.Basic

/-!
The text of `src/templates/cxx.cpp`, line by line.
-/

namespace Gdo.Builtin
open Gdo

/-- `templates/cxx.cpp` 1-100. -/
def cxxBody0 : List Str := [
  str% "#if defined(_MSC_VER) && defined(GDO_USE_MESSAGE_BOX)",
  str% "# pragma comment(lib, \"user32.lib\")  /* dependency for MessageBox() */",
  str% "#endif",
  [],
  str% "#include <cstdlib>",
  str% "#include <cstring>",
  str% "#include <algorithm>",
  str% "#include <iostream>",
  str% "#include <sstream>",
  str% "#include <stdexcept>",
  [],
  [],
  str% "#ifdef GDO_WINAPI",
  str% "# define GDO_SET_LAST_ERRNO(x)  do { m_last_errno = x; } while(0)",
  str% "#else",
  str% "# define GDO_SET_LAST_ERRNO(x)  /**/",
  str% "#endif",
  [],
  [],
  str% "#if defined(GDO_WRAP_FUNCTIONS) || defined(GDO_ENABLE_AUTOLOAD)",
  [],
  str% "/* the default message callback function to use */",
  str% "void gdo::dl::default_message_callback(const char *msg)",
  str% "{",
  str% "#if defined(_WIN32) && defined(GDO_USE_MESSAGE_BOX)",
  str% "    MessageBoxA(NULL, msg, \"Error\", MB_OK | MB_ICONERROR);",
  str% "#else",
  str% "    std::cerr << msg << std::endl;",
  str% "#endif",
  str% "}",
  [],
  str% "/* save callback function pointer */",
  str% "gdo::dl::msgcb_t gdo::dl::m_message_callback = gdo::dl::default_message_callback;",
  [],
  str% "#endif // GDO_WRAP_FUNCTIONS || GDO_ENABLE_AUTOLOAD",
  [],
  [],
  str% "/* library handle */",
  str% "gdo_hmod_t gdo::dl::m_handle = nullptr;",
  [],
  [],
  str% "/* symbol pointers; symbol names must be prefixed to avoid macro expansion */",
  str% "%%type%% (*GDO_RAWPTR_%%func_symbol%%)(%%args%%) = nullptr;",
  str% "%%obj_type%% *GDO_RAWPTR_%%obj_symbol%% = nullptr;",
  [],
  [],
  str% "/* Create versioned shared library names.",
  str% " * make_libname(\"z\",1) for example will return \"libz.1.dylib\" on macOS */",
  str% "std::string gdo::make_libname(const std::string &name, const size_t api)",
  str% "{",
  str% "#ifdef _WIN32",
  [],
  str% "# ifdef __MINGW32__",
  str% "    return \"lib\" + name + '-' + std::to_string(api) + \".dll\";",
  str% "# else",
  str% "    return         name + '-' + std::to_string(api) + \".dll\";",
  str% "# endif",
  [],
  str% "#elif defined(__APPLE__)",
  [],
  str% "    return \"lib\" + name + '.' + std::to_string(api) + \".dylib\";",
  [],
  str% "#elif defined(_AIX)",
  [],
  str% "    UNUSED_REF(api);",
  [],
  str% "    if (sizeof(void *) == 8) {",
  str% "        return \"lib\" + name + \".a(shr_64.o)\";",
  str% "    } else {",
  str% "        return \"lib\" + name + \".a(shr.o)\";",
  str% "    }",
  [],
  str% "#elif defined(__ANDROID__)",
  [],
  str% "    UNUSED_REF(api);",
  str% "    return \"lib\" + name + \".so\";",
  [],
  str% "#else",
  [],
  str% "    return \"lib\" + name + \".so.\" + std::to_string(api);",
  [],
  str% "#endif",
  str% "}",
  [],
  str% "#ifdef GDO_WINAPI",
  str% "std::wstring gdo::make_libname(const std::wstring &name, const size_t api)",
  str% "{",
  str% "#ifdef __MINGW32__",
  str% "    return L\"lib\" + name + L'-' + std::to_wstring(api) + L\".dll\";",
  str% "#else",
  str% "    return          name + L'-' + std::to_wstring(api) + L\".dll\";",
  str% "#endif",
  str% "}",
  str% "#endif //GDO_WINAPI",
  [],
  [],
  str% "#ifdef GDO_WINAPI",
  [],
  [],
  str% "bool gdo::dl::mbs_wcs_conv(size_t *retval, wchar_t *out, size_t size, const char *in) {"]

/-- `templates/cxx.cpp` 101-200. -/
def cxxBody1 : List Str := [
  str% "    return (::mbstowcs_s(retval, out, size, in, _TRUNCATE) == 0);",
  str% "}",
  [],
  str% "bool gdo::dl::mbs_wcs_conv(size_t *retval, char *out, size_t size, const wchar_t *in) {",
  str% "    return (::wcstombs_s(retval, out, size, in, _TRUNCATE) == 0);",
  str% "}",
  [],
  [],
  str% "/* convert between char and wchar_t */",
  str% "template<typename T_in, typename T_out>",
  str% "bool gdo::dl::convert_string(const std::basic_string<T_in> &str_in, std::basic_string<T_out> &str_out)",
  str% "{",
  str% "    size_t len = 0;",
  str% "    size_t n = 0;",
  [],
  str% "    if (str_in.empty()) {",
  str% "        /* empty string in, empty string out */",
  str% "        str_out.clear();",
  str% "        return true;",
  str% "    }",
  [],
  str% "    /* get length of converted string (including null terminator) */",
  str% "    if (mbs_wcs_conv(&len, nullptr, 0, str_in.c_str()) && len > 1) {",
  str% "        /* allocate buffer with zeros */",
  str% "        str_out.assign(len, 0);",
  [],
  str% "        /* get pointer to buffer */",
  str% "        auto buf = const_cast<T_out *>(str_out.data());",
  [],
  str% "        /* convert string */",
  str% "        if (mbs_wcs_conv(&n, buf, len, str_in.c_str()) && n == len) {",
  str% "            return true;",
  str% "        }",
  str% "    }",
  [],
  str% "    /* clear output buffer on error */",
  str% "    str_out.clear();",
  [],
  str% "    return false;",
  str% "}",
  [],
  [],
  str% "/* clear error */",
  str% "void gdo::dl::clear_error()",
  str% "{",
  str% "    m_last_errno = 0;",
  str% "    m_errmsg.clear();",
  str% "    m_werrmsg.clear();",
  str% "    m_formatted.clear();",
  str% "    m_wformatted.clear();",
  str% "}",
  [],
  [],
  str% "/* save last error (no extra message) */",
  str% "void gdo::dl::save_error()",
  str% "{",
  str% "    clear_error();",
  str% "    m_last_errno = ::GetLastError();",
  str% "}",
  [],
  [],
  str% "/* save last error (narrow char message) */",
  str% "void gdo::dl::save_error(const std::string &msg)",
  str% "{",
  str% "    clear_error();",
  str% "    m_last_errno = ::GetLastError();",
  str% "    m_errmsg = msg;",
  str% "}",
  [],
  [],
  str% "/* save last error (wide char message) */",
  str% "void gdo::dl::save_error(const std::wstring &msg)",
  str% "{",
  str% "    clear_error();",
  str% "    m_last_errno = ::GetLastError();",
  str% "    m_werrmsg = msg;",
  str% "}",
  [],
  [],
  str% "/* if m_handle is NULL */",
  str% "void gdo::dl::set_error_invalid_handle()",
  str% "{",
  str% "    clear_error();",
  str% "    m_last_errno = ERROR_INVALID_HANDLE;",
  str% "}",
  [],
  [],
  str% "HMODULE gdo::dl::load_library_ex(const std::wstring &filename) {",
  str% "    return ::LoadLibraryExW(filename.c_str(), NULL, m_flags);",
  str% "}",
  [],
  [],
  str% "HMODULE gdo::dl::load_library_ex(const std::string &filename)",
  str% "{",
  str% "    std::wstring wfilename;",
  [],
  str% "    if (m_convert_filename_to_wcs) {",
  str% "        if (convert_string<char, wchar_t>(filename, wfilename)) {",
  str% "            return ::LoadLibraryExW(wfilename.c_str(), NULL, m_flags);",
  str% "        }"]

/-- `templates/cxx.cpp` 201-300. -/
def cxxBody2 : List Str := [
  [],
  str% "        m_last_errno = ERROR_INVALID_NAME;",
  str% "        m_errmsg = \"mbstowcs_s: failed to convert filename\";",
  str% "        return NULL;",
  str% "    }",
  [],
  str% "    return ::LoadLibraryExA(filename.c_str(), NULL, m_flags);",
  str% "}",
  [],
  [],
  str% "/**",
  str% " * load library",
  str% " *",
  str% " * According to MSDN only backward slash path separators shall be used,",
  str% " * so the path is transformed if needed.",
  str% " */",
  str% "template<typename T, typename U = typename T::value_type>",
  str% "void gdo::dl::load_lib(const T &filename)",
  str% "{",
  str% "    const auto fwd_slash = get_char<U>('/', L'/');",
  str% "    const auto bwd_slash = get_char<U>('\\\\', L'\\\\');",
  [],
  str% "    clear_error();",
  [],
  str% "    if (filename.find(fwd_slash) == T::npos) {",
  str% "        /* no forward slash found */",
  str% "        m_handle = load_library_ex(filename);",
  str% "        return;",
  str% "    }",
  [],
  str% "    auto replace = [&] (U &c) {",
  str% "        if (c == fwd_slash) {",
  str% "            c = bwd_slash;",
  str% "        }",
  str% "    };",
  [],
  str% "    auto copy = filename;",
  str% "    std::for_each(copy.begin(), copy.end(), replace);",
  [],
  str% "    m_handle = load_library_ex(copy);",
  str% "}",
  [],
  [],
  str% "DWORD gdo::dl::get_module_filename(wchar_t *buf, DWORD len) {",
  str% "    return ::GetModuleFileNameW(m_handle, buf, len);",
  str% "}",
  [],
  str% "DWORD gdo::dl::get_module_filename(char *buf, DWORD len) {",
  str% "    return ::GetModuleFileNameA(m_handle, buf, len);",
  str% "}",
  [],
  [],
  str% "/* get the module's full path using GetModuleFileName() */",
  str% "template<typename T>",
  str% "void gdo::dl::get_library_path(std::basic_string<T> &path)",
  str% "{",
  str% "    clear_error();",
  [],
  str% "    /* was the library path already saved? */",
  str% "    if (!path.empty()) {",
  str% "        return;",
  str% "    }",
  [],
  str% "    if (!lib_loaded()) {",
  str% "        set_error_invalid_handle();",
  str% "        return;",
  str% "    }",
  [],
  str% "    T buf[GDO_BUFLEN];",
  str% "    DWORD nSize = get_module_filename(buf, _countof(buf));",
  [],
  str% "    if (nSize > 0 && nSize < _countof(buf)) {",
  str% "        /* success */",
  str% "        path = buf;",
  str% "        return;",
  str% "    }",
  [],
  str% "    /* error */",
  str% "    save_error(get_string<T>(\"GetModuleFileNameA()\", L\"GetModuleFileNameW()\"));",
  str% "}",
  [],
  [],
  str% "void gdo::dl::format_message(DWORD msgId, DWORD langId, wchar_t *buf) {",
  str% "    ::FormatMessageW(GDO_FORMAT_MESSAGE_FLAGS, NULL, msgId, langId, buf, 0, NULL);",
  str% "}",
  [],
  str% "void gdo::dl::format_message(DWORD msgId, DWORD langId, char *buf) {",
  str% "    ::FormatMessageA(GDO_FORMAT_MESSAGE_FLAGS, NULL, msgId, langId, buf, 0, NULL);",
  str% "}",
  [],
  [],
  str% "/* return a formatted error message */",
  str% "template<typename T_in, typename T_out>",
  str% "std::basic_string<T_out> gdo::dl::format_error_message(const std::basic_string<T_in> &msg_Tin,",
  str% "                                                       const std::basic_string<T_out> &msg_Tout)",
  str% "{",
  str% "    std::basic_string<T_out> str, tmp;",
  str% "    T_out *buf = nullptr;",
  [],
  str% "    format_message(m_last_errno,"]

/-- `templates/cxx.cpp` 301-400. -/
def cxxBody3 : List Str := [
  str% "        MAKELANGID(LANG_NEUTRAL, SUBLANG_DEFAULT),",
  str% "        reinterpret_cast<T_out *>(&buf));",
  [],
  str% "    if (buf) {",
  str% "        str = buf;",
  str% "        ::LocalFree(buf);",
  str% "    } else {",
  str% "        /* FormatMessage() failed, save the error code */",
  str% "        str = get_string<T_out>(\"error code: \", L\"error code: \");",
  str% "        str += to_string<T_out>(m_last_errno);",
  str% "    }",
  [],
  str% "    /* put custom message in front */",
  str% "    if (!msg_Tout.empty()) {",
  str% "        str.insert(0, get_string<T_out>(\": \", L\": \"));",
  str% "        str.insert(0, msg_Tout);",
  str% "    } else if (!msg_Tin.empty() && convert_string<T_in, T_out>(msg_Tin, tmp)) {",
  str% "        str.insert(0, get_string<T_out>(\": \", L\": \"));",
  str% "        str.insert(0, tmp);",
  str% "    }",
  [],
  str% "    return str;",
  str% "}",
  [],
  [],
  str% "#else",
  str% "/*********************************** dlfcn ***********************************/",
  [],
  [],
  str% "/* clear error */",
  str% "void gdo::dl::clear_error()",
  str% "{",
  str% "    m_errmsg.clear();",
  str% "    ::dlerror();",
  str% "}",
  [],
  [],
  str% "/* save last error */",
  str% "void gdo::dl::save_error(const std::string&)",
  str% "{",
  str% "    const char *ptr = ::dlerror();",
  str% "    m_errmsg = ptr ? ptr : \"\";",
  str% "}",
  [],
  [],
  str% "/* if m_handle is NULL */",
  str% "void gdo::dl::set_error_invalid_handle()",
  str% "{",
  str% "    clear_error();",
  str% "    m_errmsg = \"no library was loaded\";",
  str% "}",
  [],
  [],
  str% "/* load library */",
  str% "void gdo::dl::load_lib(const std::string &filename)",
  str% "{",
  str% "    clear_error();",
  str% "    m_handle = _gdo_call_dlopen(filename.c_str(), m_flags, m_new_namespace);",
  str% "}",
  [],
  [],
  str% "/* get library path */",
  [],
  str% "#ifdef GDO_DLFCN_WIN32",
  str% "bool gdo::dl::get_library_path(void)",
  str% "{",
  str% "    /* dlfcn-win32:",
  str% "     * The handle returned by dlopen() is a `HMODULE' casted to `void *',",
  str% "     * so we can directly use GetModuleFileNameA() to receive the DLL path. */",
  [],
  str% "    char buf[GDO_BUFLEN];",
  str% "    auto hmod = reinterpret_cast<HMODULE>(m_handle);",
  str% "    DWORD nSize = ::GetModuleFileNameA(hmod, buf, sizeof(buf));",
  [],
  str% "    if (nSize == 0) {",
  str% "        m_errmsg = \"failed to get the library path\";",
  str% "        return false;",
  str% "    } else if (nSize == sizeof(buf)) {",
  str% "        m_errmsg = \"buffer is too small to hold the library path\";",
  str% "        return false;",
  str% "    }",
  [],
  str% "    m_libpath = buf;",
  [],
  str% "    return true;",
  str% "}",
  str% "#endif //GDO_DLFCN_WIN32",
  [],
  [],
  str% "#ifdef _AIX",
  str% "bool gdo::dl::aix_libpath(struct ld_info *info, uint8_t *sym)",
  str% "{",
  str% "    const char *path, *member;",
  [],
  str% "    if (!sym) {",
  str% "        return false;",
  str% "    }",
  [],
  str% "    member = nullptr;",
  str% "    path = _gdo_aix_parse_ldinfo(info, sym, reinterpret_cast<const char **>(&member));"]

/-- `templates/cxx.cpp` 401-500. -/
def cxxBody4 : List Str := [
  [],
  str% "    if (!path) {",
  str% "        return false;",
  str% "    }",
  [],
  str% "    m_libpath = path;",
  [],
  str% "    /* archive member name */",
  str% "    if (member && member[0] != 0) {",
  str% "        m_libpath += '(';",
  str% "        m_libpath += member;",
  str% "        m_libpath += ')';",
  str% "    }",
  [],
  str% "    return true;",
  str% "}",
  [],
  str% "bool gdo::dl::get_library_path(void)",
  str% "{",
  str% "    uint8_t buf[GDO_AIX_LOADQUERY_BUFLEN];",
  [],
  str% "    if (no_symbols_loaded()) {",
  str% "        m_errmsg = \"no symbols were loaded\";",
  str% "        return false;",
  str% "    }",
  [],
  str% "    if (loadquery(L_GETINFO, buf, sizeof(buf)) != -1) {",
  str% "        auto info = reinterpret_cast<struct ld_info *>(buf);",
  [],
  str% "        if (false",
  str% "            || aix_libpath(info, reinterpret_cast<uint8_t *>(GDO_RAWPTR_%%symbol%%))",
  str% "        ) {",
  str% "            return true;",
  str% "        }",
  str% "    }",
  [],
  str% "    m_errmsg = \"failed to get the library path\";",
  [],
  str% "    return false;",
  str% "}",
  str% "#endif //_AIX",
  [],
  str% "#ifdef GDO_HAVE_DLINFO",
  str% "bool gdo::dl::get_library_path_dlinfo(void)",
  str% "{",
  str% "    /* use dlinfo() to get a link map */",
  str% "    struct link_map *lm = nullptr;",
  [],
  str% "    if (::dlinfo(m_handle, RTLD_DI_LINKMAP, &lm) == -1) {",
  str% "        save_error();",
  str% "        return false;",
  str% "    }",
  [],
  str% "    if (!lm->l_name || lm->l_name[0] == 0) {",
  str% "        m_errmsg = \"dlinfo() failed to get library path\";",
  str% "        return false;",
  str% "    }",
  [],
  str% "# ifdef __linux__",
  str% "    char buf[GDO_BUFLEN];",
  [],
  str% "    /* if the path is relative try to get the full library path from /proc/self/maps */",
  str% "    if (lm->l_name[0] != '/' && _gdo_fullpath_procmap(lm, buf, GDO_BUFLEN)) {",
  str% "        m_libpath = buf;",
  str% "        return true;",
  str% "    }",
  str% "# endif",
  [],
  str% "    m_libpath = lm->l_name;",
  [],
  str% "    return true;",
  str% "}",
  str% "#endif //GDO_HAVE_DLINFO",
  [],
  str% "#ifdef GDO_HAVE_DLADDR",
  str% "bool gdo::dl::get_library_path_dladdr(void)",
  str% "{",
  str% "    /* use dladdr() to get the library path from a symbol pointer */",
  str% "    Dl_info info;",
  [],
  str% "    if (no_symbols_loaded()) {",
  str% "        m_errmsg = \"no symbols were loaded\";",
  str% "        return false;",
  str% "    }",
  [],
  str% "    if (false",
  str% "        || _gdo_call_dladdr(reinterpret_cast<void *>(GDO_RAWPTR_%%symbol%%), &info)",
  str% "    ) {",
  str% "        m_libpath = info.dli_fname;",
  str% "        return true;",
  str% "    }",
  [],
  str% "    m_errmsg = \"dladdr() failed to get library path\";",
  [],
  str% "    return false;",
  str% "}",
  str% "#endif //GDO_HAVE_DLADDR",
  [],
  str% "#endif // !GDO_WINAPI",
  []]

/-- `templates/cxx.cpp` 501-600. -/
def cxxBody5 : List Str := [
  [],
  str% "/* load symbol address */",
  str% "template<typename T>",
  str% "T gdo::dl::sym_load(const char *symbol)",
  str% "{",
  str% "    T ptr = reinterpret_cast<T>(_gdo_call_dlsym(m_handle, symbol));",
  [],
  str% "    if (!ptr) {",
  str% "        save_error();",
  str% "    }",
  [],
  str% "    return ptr;",
  str% "}",
  [],
  [],
  str% "/* load library by filename */",
  str% "template<typename T>",
  str% "bool gdo::dl::load_filename(const T &filename)",
  str% "{",
  str% "    clear_error();",
  [],
  str% "    /* consider it an error if the library was already loaded */",
  str% "    if (lib_loaded()) {",
  str% "        m_errmsg = \"library already loaded\";",
  str% "        return false;",
  str% "    }",
  [],
  str% "    if (filename.empty()) {",
  str% "        GDO_SET_LAST_ERRNO(ERROR_INVALID_NAME);",
  str% "        m_errmsg = \"empty filename\";",
  str% "        return false;",
  str% "    }",
  [],
  str% "    load_lib(filename);",
  [],
  str% "    if (!lib_loaded()) {",
  str% "        save_error(filename);",
  str% "        return false;",
  str% "    }",
  [],
  str% "    return true;",
  str% "}",
  [],
  [],
  str% "/* c'tor (empty) */",
  str% "gdo::dl::dl()",
  str% "{",
  str% "}",
  [],
  [],
  str% "/* c'tor (set filename) */",
  str% "gdo::dl::dl(const std::string &filename, int flags, bool new_namespace)",
  str% " : m_filename(filename),",
  str% "   m_flags(flags),",
  str% "   m_new_namespace(new_namespace)",
  str% "{",
  str% "}",
  [],
  [],
  str% "#ifdef GDO_WINAPI",
  [],
  str% "/* c'tor (set narrow character filename and whether to convert name) */",
  str% "gdo::dl::dl(bool convert, const std::string &filename, int flags)",
  str% " : m_convert_filename_to_wcs(convert),",
  str% "   m_filename(filename),",
  str% "   m_flags(flags)",
  str% "{",
  str% "}",
  [],
  [],
  str% "/* c'tor (set wide character filename) */",
  str% "gdo::dl::dl(const std::wstring &filename, int flags)",
  str% " : m_wfilename(filename),",
  str% "   m_flags(flags)",
  str% "{",
  str% "}",
  [],
  str% "#endif //GDO_WINAPI",
  [],
  [],
  str% "/* d'tor */",
  str% "gdo::dl::~dl()",
  str% "{",
  str% "    if (m_free_lib_in_dtor) {",
  str% "        free(true);",
  str% "    }",
  str% "}",
  [],
  [],
  str% "/* load library */",
  str% "bool gdo::dl::load(const std::string &filename, int flags, bool new_namespace)",
  str% "{",
  str% "#ifdef GDO_WINAPI",
  str% "    m_wfilename.clear();",
  str% "#endif",
  str% "    m_filename      = filename;",
  str% "    m_flags         = flags;",
  str% "    m_new_namespace = new_namespace;",
  [],
  str% "    return load_filename(m_filename);"]

/-- `templates/cxx.cpp` 601-700. -/
def cxxBody6 : List Str := [
  str% "}",
  [],
  [],
  str% "#ifdef GDO_WINAPI",
  [],
  str% "/* load library */",
  str% "bool gdo::dl::load(bool convert, const std::string &filename, int flags)",
  str% "{",
  str% "    m_convert_filename_to_wcs = convert;",
  str% "    m_wfilename.clear();",
  [],
  str% "    m_filename = filename;",
  str% "    m_flags    = flags;",
  [],
  str% "    return load_filename(m_filename);",
  str% "}",
  [],
  [],
  str% "/* load library (wide characters version) */",
  str% "bool gdo::dl::load(const std::wstring &filename, int flags)",
  str% "{",
  str% "    m_filename.clear();",
  str% "    m_wfilename = filename;",
  str% "    m_flags     = flags;",
  [],
  str% "    return load_filename(m_wfilename);",
  str% "}",
  [],
  str% "#endif //GDO_WINAPI",
  [],
  [],
  str% "/* load library */",
  str% "bool gdo::dl::load()",
  str% "{",
  str% "#ifdef GDO_WINAPI",
  str% "    if (!m_wfilename.empty()) {",
  str% "        return load_filename(m_wfilename);",
  str% "    }",
  str% "#endif",
  [],
  str% "    return load_filename(m_filename);",
  str% "}",
  [],
  [],
  str% "/* load library and symbols */",
  str% "bool gdo::dl::load_lib_and_symbols()",
  str% "{",
  str% "    return (load() && load_all_symbols());",
  str% "}",
  [],
  [],
  str% "/* check if library is loaded */",
  str% "bool gdo::dl::lib_loaded()",
  str% "{",
  str% "    return (m_handle != nullptr);",
  str% "}",
  [],
  [],
  str% "/* return the flags used to load the library */",
  str% "int gdo::dl::flags() const",
  str% "{",
  str% "    return m_flags;",
  str% "}",
  [],
  [],
  str% "/* load all symbols */",
  str% "bool gdo::dl::load_all_symbols()",
  str% "{",
  str% "    clear_error();",
  [],
  str% "    if (all_symbols_loaded()) {",
  str% "        return true;",
  str% "    } else if (!lib_loaded()) {",
  str% "        set_error_invalid_handle();",
  str% "        return false;",
  str% "    }",
  [],
  str% "    /* get symbol addresses */",
  [],
  str% "    /* %%symbol%% */@",
  str% "    if ((GDO_RAWPTR_%%symbol%% =@",
  str% "        sym_load<%%sym_type%%>@",
  str% "            (\"%%symbol%%\")) == nullptr) {@",
  str% "        return false;@",
  str% "    }@",
  [],
  str% "    return true;",
  str% "}",
  [],
  [],
  str% "/* load a specific symbol */",
  str% "bool gdo::dl::load_symbol(int symbol_num)",
  str% "{",
  str% "    clear_error();",
  [],
  str% "    if (!lib_loaded()) {",
  str% "        set_error_invalid_handle();",
  str% "        return false;",
  str% "    }",
  []]

/-- `templates/cxx.cpp` 701-800. -/
def cxxBody7 : List Str := [
  str% "    switch (symbol_num)",
  str% "    {",
  str% "    /* %%symbol%% */@",
  str% "    case GDO_LOAD_%%symbol%%:@",
  str% "        if (!GDO_RAWPTR_%%symbol%%) {@",
  str% "            GDO_RAWPTR_%%symbol%% =@",
  str% "                sym_load<%%sym_type%%>@",
  str% "                    (\"%%symbol%%\");@",
  str% "        }@",
  str% "        return (GDO_RAWPTR_%%symbol%% != nullptr);@",
  [],
  str% "    default:",
  str% "        break;",
  str% "    }",
  [],
  str% "    GDO_SET_LAST_ERRNO(ERROR_NOT_FOUND);",
  str% "    m_errmsg = \"unknown symbol number: \" + std::to_string(symbol_num);",
  [],
  str% "    return false;",
  str% "}",
  [],
  [],
  str% "/* load a specific symbol by name */",
  str% "bool gdo::dl::load_symbol(const char *symbol)",
  str% "{",
  str% "    clear_error();",
  [],
  str% "    if (!lib_loaded()) {",
  str% "        set_error_invalid_handle();",
  str% "        return false;",
  str% "    }",
  [],
  str% "    if (!symbol || *symbol == 0) {",
  str% "        GDO_SET_LAST_ERRNO(ERROR_INVALID_PARAMETER);",
  str% "        m_errmsg = \"empty symbol name\";",
  str% "        return false;",
  str% "    }",
  [],
  str% "    /* check symbol prefix */",
  str% "    const char pfx[] = GDO_COMMON_PREFIX;",
  str% "    const size_t pfxlen = sizeof(pfx) - 1;",
  [],
  str% "    if (pfxlen == 0 || ::strncmp(symbol, pfx, pfxlen) == 0) {",
  str% "        const size_t len = ::strlen(symbol);",
  str% "        const char *curr;",
  str% "        size_t curr_len;",
  str% "@",
  str% "        curr = \"%%symbol%%\";@",
  str% "        curr_len = sizeof(\"%%symbol%%\") - 1;@",
  str% "        if (len == curr_len && ::strcmp(symbol + pfxlen, curr + pfxlen) == 0) {@",
  str% "            if (!GDO_RAWPTR_%%symbol%%) {@",
  str% "                GDO_RAWPTR_%%symbol%% =@",
  str% "                    sym_load<%%sym_type%%>@",
  str% "                        (\"%%symbol%%\");@",
  str% "            }@",
  str% "            return (GDO_RAWPTR_%%symbol%% != nullptr);@",
  str% "        }",
  str% "    }",
  [],
  str% "    GDO_SET_LAST_ERRNO(ERROR_NOT_FOUND);",
  str% "    m_errmsg = \"unknown symbol: \" + std::string(symbol);",
  [],
  str% "    return false;",
  str% "}",
  [],
  [],
  str% "/* check if ALL symbols were loaded */",
  str% "bool gdo::dl::all_symbols_loaded() const",
  str% "{",
  str% "    if (true",
  str% "        && GDO_RAWPTR_%%symbol%% != nullptr",
  str% "    ) {",
  str% "        return true;",
  str% "    }",
  [],
  str% "    return false;",
  str% "}",
  [],
  [],
  str% "/* check if NO symbols were loaded */",
  str% "bool gdo::dl::no_symbols_loaded() const",
  str% "{",
  str% "    if (true",
  str% "        && GDO_RAWPTR_%%symbol%% == nullptr",
  str% "    ) {",
  str% "        return true;",
  str% "    }",
  [],
  str% "    return false;",
  str% "}",
  [],
  [],
  str% "/* check if ANY symbol was loaded */",
  str% "bool gdo::dl::any_symbol_loaded() const",
  str% "{",
  str% "    if (false",
  str% "        || GDO_RAWPTR_%%symbol%% != nullptr",
  str% "    ) {",
  str% "        return true;",
  str% "    }"]

/-- `templates/cxx.cpp` 801-900. -/
def cxxBody8 : List Str := [
  [],
  str% "    return false;",
  str% "}",
  [],
  [],
  str% "/* free library */",
  str% "bool gdo::dl::free(bool force)",
  str% "{",
  str% "    bool rv = true;",
  [],
  str% "    clear_error();",
  [],
  str% "    if (lib_loaded()) {",
  str% "        rv = _gdo_call_dlclose(m_handle);",
  [],
  str% "        /* always succeed if `force == true` */",
  str% "        if (force) {",
  str% "            rv = true;",
  str% "        }",
  str% "    }",
  [],
  str% "    if (!rv) {",
  str% "#ifdef GDO_WINAPI",
  str% "        save_error(\"FreeLibrary()\");",
  str% "#else",
  str% "        save_error();",
  str% "#endif",
  str% "        return false;",
  str% "    }",
  [],
  str% "    m_libpath.clear();",
  str% "#ifdef GDO_WINAPI",
  str% "    m_wlibpath.clear();",
  str% "#endif",
  [],
  str% "    /* set pointers back to NULL */",
  str% "    m_handle = nullptr;",
  str% "    GDO_RAWPTR_%%symbol%% = nullptr;",
  [],
  str% "    return true;",
  str% "}",
  [],
  [],
  str% "/* whether to free the library in the class destructor */",
  str% "void gdo::dl::free_lib_in_dtor(bool b)",
  str% "{",
  str% "    m_free_lib_in_dtor = b;",
  str% "}",
  [],
  str% "bool gdo::dl::free_lib_in_dtor() const",
  str% "{",
  str% "    return m_free_lib_in_dtor;",
  str% "}",
  [],
  [],
  str% "#if defined(GDO_WRAP_FUNCTIONS) || defined(GDO_ENABLE_AUTOLOAD)",
  [],
  str% "/* Set a message callback function. */",
  str% "void gdo::dl::message_callback(gdo::dl::msgcb_t cb)",
  str% "{",
  str% "    m_message_callback = cb;",
  str% "}",
  [],
  [],
  str% "/* Get a pointer to the message callback function. */",
  str% "gdo::dl::msgcb_t gdo::dl::message_callback()",
  str% "{",
  str% "    if (m_message_callback) {",
  str% "        return m_message_callback;",
  str% "    }",
  [],
  str% "    return default_message_callback;",
  str% "}",
  [],
  str% "#endif // GDO_WRAP_FUNCTIONS || GDO_ENABLE_AUTOLOAD",
  [],
  [],
  str% "#ifdef GDO_WINAPI",
  [],
  str% "/* get path of loaded library */",
  str% "std::string gdo::dl::library_path()",
  str% "{",
  str% "    get_library_path<char>(m_libpath);",
  str% "    return m_libpath;",
  str% "}",
  [],
  str% "std::wstring gdo::dl::library_path_w()",
  str% "{",
  str% "    get_library_path<wchar_t>(m_wlibpath);",
  str% "    return m_wlibpath;",
  str% "}",
  [],
  [],
  str% "/* retrieve the last error */",
  str% "std::string gdo::dl::error()",
  str% "{",
  str% "    if (m_formatted.empty()) {",
  str% "        m_formatted = format_error_message<wchar_t, char>(m_werrmsg, m_errmsg);",
  str% "    }",
  []]

/-- `templates/cxx.cpp` 901-1000. -/
def cxxBody9 : List Str := [
  str% "    return m_formatted;",
  str% "}",
  [],
  str% "std::wstring gdo::dl::error_w()",
  str% "{",
  str% "    if (m_wformatted.empty()) {",
  str% "        m_wformatted = format_error_message<char, wchar_t>(m_errmsg, m_werrmsg);",
  str% "    }",
  [],
  str% "    return m_wformatted;",
  str% "}",
  [],
  [],
  str% "/* get the unmodified filename passed to load the library */",
  str% "std::string gdo::dl::filename()",
  str% "{",
  str% "    if (m_filename.empty() && !m_wfilename.empty()) {",
  str% "        convert_string<wchar_t, char>(m_wfilename, m_filename);",
  str% "    }",
  [],
  str% "    return m_filename;",
  str% "}",
  [],
  str% "std::wstring gdo::dl::filename_w()",
  str% "{",
  str% "    if (m_wfilename.empty() && !m_filename.empty()) {",
  str% "        convert_string<char, wchar_t>(m_filename, m_wfilename);",
  str% "    }",
  [],
  str% "    return m_wfilename;",
  str% "}",
  [],
  [],
  str% "#else",
  str% "/*********************************** dlfcn ***********************************/",
  [],
  [],
  str% "/* get path of loaded library */",
  str% "std::string gdo::dl::library_path()",
  str% "{",
  str% "    clear_error();",
  [],
  str% "#if !defined(_AIX) && \\",
  str% "    !defined(GDO_DLFCN_WIN32) && \\",
  str% "    !defined(GDO_HAVE_DLINFO) && \\",
  str% "    !defined(GDO_HAVE_DLADDR)",
  str% "    m_errmsg = \"function not implemented\";",
  str% "    return {};",
  str% "#endif",
  [],
  str% "    if (!lib_loaded()) {",
  str% "        set_error_invalid_handle();",
  str% "        return {};",
  str% "    }",
  [],
  str% "    /* was the library path already saved? */",
  str% "    if (!m_libpath.empty()) {",
  str% "        return m_libpath;",
  str% "    }",
  [],
  str% "#if defined(GDO_DLFCN_WIN32) || defined(_AIX)",
  str% "    if (get_library_path()) {",
  str% "        return m_libpath;",
  str% "    }",
  str% "#endif",
  [],
  str% "#ifdef GDO_HAVE_DLINFO",
  str% "    /* prefer dlinfo() over dladdr() */",
  str% "    if (get_library_path_dlinfo()) {",
  str% "        return m_libpath;",
  str% "    }",
  str% "#endif",
  [],
  str% "#ifdef GDO_HAVE_DLADDR",
  str% "    if (get_library_path_dladdr()) {",
  str% "        return m_libpath;",
  str% "    }",
  str% "#endif",
  [],
  str% "    /* error */",
  str% "    return {};",
  str% "}",
  [],
  [],
  str% "/* retrieve the last error */",
  str% "std::string gdo::dl::error() const",
  str% "{",
  str% "    return m_errmsg.empty() ? \"no error\" : m_errmsg;",
  str% "}",
  [],
  [],
  str% "/* get filename passed to load */",
  str% "std::string gdo::dl::filename() const",
  str% "{",
  str% "    return m_filename;",
  str% "}",
  [],
  str% "#endif // !GDO_WINAPI",
  str% "%PARAM_SKIP_REMOVE_BEGIN%",
  []]

/-- `templates/cxx.cpp` 1001-1087. -/
def cxxBody10 : List Str := [
  [],
  str% "#if defined(GDO_WRAP_FUNCTIONS) || defined(GDO_ENABLE_AUTOLOAD)",
  str% "namespace gdo",
  str% "{",
  str% "    namespace wrap",
  str% "    {",
  str% "#ifdef GDO_ENABLE_AUTOLOAD",
  str% "        auto _loader = dl(GDO_DEFAULT_LIB);",
  str% "#endif",
  [],
  str% "        /* used by wrapper functions (assuming symbol was not loaded) */",
  str% "        void not_loaded(int load, const char *sym)",
  str% "        {",
  str% "            std::stringstream sstr;",
  [],
  str% "            auto msg_callback = dl::message_callback();",
  [],
  str% "#ifdef GDO_ENABLE_AUTOLOAD",
  [],
  str% "            /* load library */",
  str% "            if (!_loader.lib_loaded()) {",
  str% "                _loader.load();",
  str% "            }",
  [],
  str% "# ifdef GDO_ENABLE_AUTOLOAD_LAZY",
  str% "            /* load a specific symbol */",
  str% "            if (_loader.load_symbol(load)) {",
  str% "                return;",
  str% "            }",
  str% "# else",
  str% "            /* load all symbols */",
  str% "            if (_loader.load_all_symbols()) {",
  str% "                return;",
  str% "            }",
  [],
  str% "            UNUSED_REF(load);",
  str% "# endif",
  [],
  str% "            std::string msg = _loader.error();",
  [],
  str% "            if (msg.find(GDO_DEFAULT_LIBA) != std::string::npos) {",
  str% "                /* library name is already part of error message */",
  str% "                sstr << \"error: \" << sym << \": \" << msg;",
  str% "            } else {",
  str% "                sstr << \"error: \" GDO_DEFAULT_LIB \": \" << sym << \": \" << msg;",
  str% "            }",
  [],
  str% "            msg_callback(sstr.str().c_str());",
  str% "            std::exit(1);",
  [],
  str% "#else //!GDO_ENABLE_AUTOLOAD",
  [],
  str% "            /* don't load anything, print an error message and abort */",
  [],
  str% "            if (!dl::lib_loaded()) {",
  str% "                sstr << \"fatal error: \" << sym << \": library not loaded\";",
  str% "            } else {",
  str% "                sstr << \"fatal error: \" << sym << \": symbol not loaded\";",
  str% "            }",
  [],
  str% "            UNUSED_REF(load);",
  str% "            msg_callback(sstr.str().c_str());",
  str% "            std::abort();",
  [],
  str% "#endif //!GDO_ENABLE_AUTOLOAD",
  str% "        }",
  str% "    } /* namespace wrap */",
  str% "} /* namespace gdo */",
  [],
  str% "#endif // GDO_WRAP_FUNCTIONS || GDO_ENABLE_AUTOLOAD",
  str% "%PARAM_SKIP_END%",
  [],
  [],
  str% "#if !defined(GDO_SEPARATE) && \\",
  str% "    !defined(GDO_DISABLE_ALIASING)",
  [],
  str% "/* aliases to raw function pointers */",
  str% "#if !defined(GDO_WRAP_VISIBILITY)",
  str% "# define %%func_symbol_pad%% GDO_FUNC_ALIAS(%%func_symbol%%)",
  str% "#endif",
  [],
  str% "/* aliases to raw object pointers */",
  str% "#define %%obj_symbol_pad%% *GDO_RAWPTR_%%obj_symbol%%",
  [],
  str% "#endif //!GDO_SEPARATE",
  [],
  str% "#undef GDO_SET_LAST_ERRNO"]

/-- The lines of `templates/cxx.cpp` (1-1087). -/
def cxxBody : List (List Str) := [cxxBody0, cxxBody1, cxxBody2, cxxBody3, cxxBody4, cxxBody5, cxxBody6, cxxBody7, cxxBody8, cxxBody9, cxxBody10]

end Gdo.Builtin
